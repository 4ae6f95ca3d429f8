import Verif.Spec.Lines
import Verif.Lemmas.Fit
import Verif.Lemmas.Num

/-! # Helper lemmas: point–line distance, straight-line fits -/

namespace Discorpy

open Spec

theorem isDistTo_horLine (a b : ℝ) (p : Pt) :
    IsDistTo (onHorLine a b) p (|a * p.x - p.y + b| / √(a ^ 2 + 1)) := by
  have hpos : 0 < a ^ 2 + 1 := by positivity
  have hs : 0 < √(a ^ 2 + 1) := Real.sqrt_pos.2 hpos
  have hsq := Real.sq_sqrt hpos.le
  constructor
  · let t := (a * p.x - p.y + b) / (a ^ 2 + 1)
    refine ⟨⟨p.y + t, p.x - a * t⟩, ?_, ?_⟩
    · unfold onHorLine; simp only [t]; field_simp; ring
    · unfold ptDist
      have e : (p.x - (p.x - a * t)) ^ 2 + (p.y - (p.y + t)) ^ 2 = (|a * p.x - p.y + b| / √(a ^ 2 + 1)) ^ 2 := by
        rw [div_pow, sq_abs, hsq]; simp only [t]; field_simp; ring
      simp only
      rw [e, Real.sqrt_sq (by positivity)]
  · intro q hq
    unfold onHorLine at hq
    unfold ptDist
    rw [hq]
    apply Real.le_sqrt_of_sq_le
    rw [div_pow, sq_abs, hsq, div_le_iff₀ hpos]
    nlinarith [sq_nonneg ((p.x - q.x) + a * (p.y - (a * q.x + b)))]

theorem isDistTo_verLine (a b : ℝ) (p : Pt) :
    IsDistTo (onVerLine a b) p (|a * p.y - p.x + b| / √(a ^ 2 + 1)) := by
  have h := isDistTo_horLine a b (swapPt p)
  have hd : ∀ q, ptDist (swapPt p) q = ptDist p (swapPt q) := by
    intro q; unfold ptDist swapPt; simp only; rw [add_comm]
  obtain ⟨⟨q, hq, hqd⟩, hmin⟩ := h
  refine ⟨⟨swapPt q, hq, ?_⟩, ?_⟩
  · rw [← hd, hqd]; rfl
  · intro q' hq'
    have := hmin (swapPt q') hq'
    rw [hd] at this
    exact this

theorem IsDistTo.unique {L : Pt → Prop} {p : Pt} {d d' : ℝ} (h : IsDistTo L p d) (h' : IsDistTo L p d') : d = d' := by
  obtain ⟨⟨q, hq, e⟩, m⟩ := h
  obtain ⟨⟨q', hq', e'⟩, m'⟩ := h'
  exact le_antisymm (e' ▸ m q' hq') (e ▸ m' q hq)

/-- A length-2 list. -/
theorem length_two {l : List ℝ} (h : l.length = 2) : ∃ a b, l = [a, b] := by
  match l, h with
  | [a, b], _ => exact ⟨a, b, rfl⟩

theorem polyval_two (a b x : ℝ) : polyval [a, b] x = a * x + b := by
  simp [polyval_cons]

theorem polyval_three (a b c x : ℝ) : polyval [a, b, c] x = a * x ^ 2 + b * x + c := by
  simp [polyval_cons, add_assoc]

/-- `polyfit(x, y, 1)` on shifted dots gives a least-squares line of the dots. -/
theorem PolyfitSpec.lsqHor {pf : List ℝ → List ℝ → ℕ → List ℝ} (h : PolyfitSpec pf) (line : List Pt)
    (hne : line ≠ []) (xc yc : ℝ) :
    ∃ a b, pf (line.map fun p => p.x - xc) (line.map fun p => p.y - yc) 1 = [a, b] ∧
      IsLsqHorLine line a (b + yc - a * xc) := by
  have hl : (line.map fun p => p.x - xc).length = (line.map fun p => p.y - yc).length := by simp
  have hne' : (line.map fun p => p.x - xc) ≠ [] := by simpa using hne
  obtain ⟨a, b, e⟩ := length_two (h.length _ _ 1 hl hne')
  refine ⟨a, b, e, ?_⟩
  intro a' b'
  have hm := h.minimal _ _ 1 hl hne' [a', b' - yc + a' * xc] rfl
  rw [e] at hm
  unfold fitError at hm
  rw [List.zip_map', List.map_map, List.map_map] at hm
  simp only [Function.comp_def, polyval_two] at hm
  convert hm using 3 <;> ext p <;> ring

theorem PolyfitSpec.lsqVer {pf : List ℝ → List ℝ → ℕ → List ℝ} (h : PolyfitSpec pf) (line : List Pt)
    (hne : line ≠ []) (xc yc : ℝ) :
    ∃ a b, pf (line.map fun p => p.y - yc) (line.map fun p => p.x - xc) 1 = [a, b] ∧
      IsLsqVerLine line a (b + xc - a * yc) := by
  obtain ⟨a, b, e, hl⟩ := h.lsqHor (line.map swapPt) (by simpa using hne) yc xc
  refine ⟨a, b, ?_, ?_⟩
  · simpa [Function.comp_def, swapPt] using e
  · intro a' b'
    have := hl a' b'
    simpa [Function.comp_def, swapPt] using this

/-- A least-squares line of dots that are on a line passes through all of them. -/
theorem lsqHor_exact {dots : List Pt} {a b a0 b0 : ℝ} (h : IsLsqHorLine dots a b)
    (hex : ∀ p ∈ dots, onHorLine a0 b0 p) : ∀ p ∈ dots, onHorLine a b p := by
  have h0 : (dots.map fun p => (a0 * p.x + b0 - p.y) ^ 2).sum = 0 := by
    apply List.sum_eq_zero
    simp only [List.mem_map]
    rintro _ ⟨p, hp, rfl⟩
    rw [hex p hp]; ring
  have h1 := h a0 b0
  rw [h0] at h1
  intro p hp
  have := sum_sq_eq_zero (f := fun p : Pt => a * p.x + b - p.y) h1 p hp
  unfold onHorLine; linarith

theorem lsqVer_exact {dots : List Pt} {a b a0 b0 : ℝ} (h : IsLsqVerLine dots a b)
    (hex : ∀ p ∈ dots, onVerLine a0 b0 p) : ∀ p ∈ dots, onVerLine a b p := by
  have h0 : (dots.map fun p => (a0 * p.y + b0 - p.x) ^ 2).sum = 0 := by
    apply List.sum_eq_zero
    simp only [List.mem_map]
    rintro _ ⟨p, hp, rfl⟩
    rw [hex p hp]; ring
  have h1 := h a0 b0
  rw [h0] at h1
  intro p hp
  have := sum_sq_eq_zero (f := fun p : Pt => a * p.y + b - p.x) h1 p hp
  unfold onVerLine; linarith

theorem mapM_ok {α β : Type*} (f : α → Except PyErr β) (g : α → β) (l : List α) (h : ∀ a ∈ l, f a = .ok (g a)) :
    l.mapM f = .ok (l.map g) := by
  induction l with
  | nil => rfl
  | cons a l ih =>
    rw [List.mapM_cons, h a (by simp), ih (fun b hb => h b (by simp [hb]))]
    rfl

end Discorpy
