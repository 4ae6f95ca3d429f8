import Verif.Lemmas.Undistorted
import Verif.Model.Prep
import Verif.Spec.Prep
import Mathlib.Data.Finset.Prod

/-! # C32: residual filter -/

namespace Discorpy

open Spec

theorem closeDots_ok {pf : PolyfitFn} (hpf : PolyfitSpec pf) (slope residual : ℝ) {line : List Pt} (hne : line ≠ []) :
    ∃ a b c, IsLsqPara Pt.x Pt.y 0 0 line a b c ∧ pf (line.map Pt.x) (line.map Pt.y) 2 = [a, b, c] ∧
      closeDots pf slope residual line =
        .ok (open Classical in line.filter fun p => decide (CloseTo slope residual a b c p)) := by
  classical
  obtain ⟨a, b, c, e⟩ := length_three (hpf.length (line.map Pt.x) (line.map Pt.y) 2 (by simp) (by simpa using hne))
  obtain ⟨q, hq, hl⟩ := fitPara hpf hne Pt.x Pt.y 0 0
  simp only [sub_zero] at hq
  have e' : pf (line.map fun p => p.x) (line.map fun p => p.y) 2 = [a, b, c] := e
  rw [e', Para.ofList] at hq
  cases hq
  refine ⟨a, b, c, hl, e, ?_⟩
  unfold closeDots
  rw [if_neg hne, e]
  simp only
  congr 1
  apply List.filter_congr
  intro p _
  rw [decide_eq_decide, Real.cos_arctan, abs_mul, CloseTo]
  rw [abs_of_pos (a := 1 / √(1 + slope ^ 2)) (by positivity), mul_one_div]

/-- **C32.** Every line is reduced to the dots close to its least-squares parabola, in order; lines without close dots
are dropped; `ValueError` if nothing is left. -/
theorem C32_filter (pf : PolyfitFn) (hpf : PolyfitSpec pf) (lines : List (List Pt)) (hne : ∀ l ∈ lines, l ≠ [])
    (slope residual : ℝ) :
    ∃ kept : List (List Pt), List.Forall₂ (fun line k => ∃ a b c, IsLsqPara Pt.x Pt.y 0 0 line a b c ∧
        k = (open Classical in line.filter fun p => decide (CloseTo slope residual a b c p))) lines kept ∧
      ((∀ k ∈ kept, k = []) → removeResidualHor pf lines slope residual = .error .valueError) ∧
      ((∃ k ∈ kept, k ≠ []) → removeResidualHor pf lines slope residual = .ok (kept.filter fun k => !k.isEmpty)) := by
  classical
  obtain ⟨kept, hk⟩ := exists_mapM_ok (f := closeDots pf slope residual) (l := lines) (fun l hl => by
    obtain ⟨a, b, c, _, _, e⟩ := closeDots_ok hpf slope residual (hne l hl)
    exact ⟨_, e⟩)
  have hf := mapM_ok_iff.1 hk
  have hfil : (kept.filter fun l => decide (l.length > 0)) = kept.filter fun k => !k.isEmpty := by
    apply List.filter_congr
    intro l _
    cases l <;> simp
  refine ⟨kept, ?_, ?_, ?_⟩
  · rw [List.forall₂_iff_zip] at hf ⊢
    refine ⟨hf.1, fun {l k} hm => ?_⟩
    obtain ⟨a, b, c, h, _, e⟩ := closeDots_ok hpf slope residual (hne l (List.of_mem_zip hm).1)
    have := (hf.2 hm).symm.trans e
    exact ⟨a, b, c, h, Except.ok.inj this⟩
  · intro hall
    unfold removeResidualHor
    rw [hk, ok_bind, if_pos]
    rw [List.length_eq_zero_iff, List.filter_eq_nil_iff]
    intro k hkm
    simp [hall k hkm]
  · rintro ⟨k, hkm, hkn⟩
    unfold removeResidualHor
    rw [hk, ok_bind, if_neg]
    · simp only [hfil]
    · rw [List.length_eq_zero_iff, List.filter_eq_nil_iff]
      push Not
      exact ⟨k, hkm, by simpa using List.length_pos_iff.2 hkn⟩

example := C32_filter refPolyfit refPolyfit_spec [[⟨0, 0⟩, ⟨1, 1⟩, ⟨4, 2⟩, ⟨7, 3⟩], [⟨9, 0⟩]] (by simp) 0.1 2.5

/-- **C32** (exact lines): dots that lie on a parabola (a straight line included) are all kept. -/
theorem C32_exact (pf : PolyfitFn) (hpf : PolyfitSpec pf) (lines : List (List Pt)) (h0 : lines ≠ [])
    (hne : ∀ l ∈ lines, l ≠ []) (slope residual : ℝ) (hr : 0 < residual)
    (hon : ∀ l ∈ lines, ∃ a b c : ℝ, ∀ p ∈ l, p.y = a * p.x ^ 2 + b * p.x + c) :
    removeResidualHor pf lines slope residual = .ok lines := by
  classical
  have key : ∀ l ∈ lines, closeDots pf slope residual l = .ok (id l) := by
    intro l hl
    obtain ⟨a, b, c, _, e, h⟩ := closeDots_ok hpf slope residual (hne l hl)
    rw [h]
    congr 1
    rw [List.filter_eq_self.2]; · rfl
    intro p hp
    obtain ⟨a', b', c', hon'⟩ := hon l hl
    have hex := hpf.exact (xs := l.map Pt.x) (ys := l.map Pt.y) (deg := 2) (by simp) (by simpa using hne l hl)
      (q := [a', b', c']) rfl (by
        intro r hr'
        rw [List.zip_map', List.mem_map] at hr'
        obtain ⟨p, hp, rfl⟩ := hr'
        rw [polyval_three]; exact (hon' p hp).symm)
    have := hex (p.x, p.y) (by rw [List.zip_map', List.mem_map]; exact ⟨p, hp, rfl⟩)
    rw [e, polyval_three] at this
    simp only at this
    rw [decide_eq_true_eq, CloseTo, this]
    simpa using hr
  unfold removeResidualHor
  rw [mapM_eq_map key, ok_bind, List.map_id]
  have : (lines.filter fun l => decide (l.length > 0)) = lines := by
    rw [List.filter_eq_self]
    intro l hl
    simpa using List.length_pos_iff.2 (hne l hl)
  rw [this, if_neg]
  rw [List.length_eq_zero_iff]
  exact h0

/-- **C32** (vertical lines): the vertical filter is the horizontal one with swapped coordinates. -/
theorem C32_vertical (pf : PolyfitFn) (lines : List (List Pt)) (slope residual : ℝ) :
    removeResidualVer pf lines slope residual = (removeResidualHor pf (swapLines lines) slope residual).map swapLines := by
  unfold removeResidualVer removeResidualHor swapLines
  rw [mapM_map']
  have hf : flipPt = swapPt := rfl
  rw [hf]
  cases lines.mapM (fun l => closeDots pf slope residual (l.map swapPt)) with
  | error e => rfl
  | ok kept =>
    simp only [ok_bind]
    by_cases h : (kept.filter fun l => decide (l.length > 0)).length = 0
    · rw [if_pos h, if_pos (by simpa using h)]; rfl
    · rw [if_neg h, if_neg (by simpa using h)]; rfl

/-- **C32** (invalid lines): a line without dots makes both filters raise `IndexError`. -/
theorem C32_empty_line (pf : PolyfitFn) (hpf : PolyfitSpec pf) (lines : List (List Pt)) (slope residual : ℝ)
    (h : [] ∈ lines) : removeResidualHor pf lines slope residual = .error .indexError := by
  have : lines.mapM (closeDots pf slope residual) = .error .indexError := by
    induction lines with
    | nil => cases h
    | cons l lines ih =>
      rw [List.mapM_cons]
      by_cases hl : l = []
      · subst hl; simp [closeDots]
      · obtain ⟨a, b, c, _, _, e⟩ := closeDots_ok hpf slope residual hl
        rw [e, ok_bind, ih ((List.mem_cons.1 h).resolve_left fun h' => hl h'.symm)]
        rfl
  unfold removeResidualHor
  rw [this]; rfl

example := C32_empty_line refPolyfit refPolyfit_spec [[⟨0, 0⟩], []] 0.1 2.5 (by simp)

/-- Non-vacuity: dots on `y = x²` are kept. -/
example : removeResidualHor refPolyfit [[⟨0, 0⟩, ⟨1, 1⟩, ⟨4, 2⟩, ⟨9, 3⟩]] 0.1 2.5 = .ok [[⟨0, 0⟩, ⟨1, 1⟩, ⟨4, 2⟩, ⟨9, 3⟩]] := by
  apply C32_exact refPolyfit refPolyfit_spec _ (by simp) (by simp) _ _ (by norm_num)
  intro l hl
  simp only [List.mem_singleton] at hl
  subst hl
  exact ⟨1, 0, 0, by norm_num⟩

end Discorpy
