import Verif.Lemmas.RadialFit
import Verif.Lemmas.Transform
import Verif.Spec.RadialModel

/-! # Helper lemmas: least-squares fits of polynomials in the radius -/

namespace Discorpy

open Spec

/-- A system with rows `(1, x, x², …)` is solved in the sense of least squares. -/
theorem lstsq_powers_min {lstsq : LstsqFn} (h : LstsqSpec lstsq) (n : ℕ) {data : List (ℝ × ℝ)} (hne : data ≠ []) :
    ∃ v, lstsqChecked lstsq (data.map fun d => (powers d.1 n, d.2)) = .ok v ∧ v.length = n ∧
      ∀ w : List ℝ, w.length = n →
        (data.map fun d => (radial v d.1 - d.2) ^ 2).sum ≤ (data.map fun d => (radial w d.1 - d.2) ^ 2).sum := by
  set rows := data.map fun d => (powers d.1 n, d.2) with hrows
  have hnil : rows ≠ [] := by simpa [hrows] using hne
  have hA : rows.map Prod.fst ≠ [] := by simpa using hnil
  have hl : (rows.map Prod.fst).length = (rows.map Prod.snd).length := by simp
  have hr : ∀ r ∈ rows.map Prod.fst, r.length = n := by
    intro r hr
    simp only [hrows, List.map_map, List.mem_map, Function.comp_apply] at hr
    obtain ⟨d, _, rfl⟩ := hr
    exact powers_length _ _
  have hlen := h.length _ _ _ hA hl hr
  have hz : (rows.map Prod.fst).zip (rows.map Prod.snd) = rows := by rw [List.zip_map']; simp
  have hse : ∀ w : List ℝ, w.length = n → systemError (rows.map Prod.fst) (rows.map Prod.snd) w =
      (data.map fun d => (radial w d.1 - d.2) ^ 2).sum := by
    rintro w rfl
    unfold systemError
    rw [hz, hrows, List.map_map]
    congr 1
    apply List.map_congr_left
    intro d _
    simp only [Function.comp_apply, rowDot_powers]
  refine ⟨lstsq (rows.map Prod.fst) (rows.map Prod.snd), by rw [lstsqChecked, if_neg hnil], hlen, fun w hw => ?_⟩
  have := h.minimal _ _ _ hA hl hr w hw
  rwa [hse _ hlen, hse _ hw] at this

/-- All rows of one direction, when no row fails. -/
theorem rowsOf_eq {ρ : Type} {row : Para → ℝ → ℝ → Pt → Except PyErr ρ} {g : Para → ℝ → Pt → ρ} {along : Pt → ℝ}
    {coefs : List Para} {uc : List ℝ} {lines : List (List Pt)} {xc yc : ℝ}
    (H : ForDots coefs uc lines fun q u p => row q u (along ⟨p.y - yc, p.x - xc⟩) ⟨p.y - yc, p.x - xc⟩ = .ok (g q u p)) :
    rowsOf row along coefs uc (lines.map (shiftLine xc yc)) =
      .ok ((List.zip (List.zip coefs uc) lines).map fun z => z.2.map fun p => g z.1.1 z.1.2 p).flatten := by
  have e : List.zip (List.zip coefs uc) (lines.map (shiftLine xc yc)) =
      (List.zip (List.zip coefs uc) lines).map fun z => (z.1, shiftLine xc yc z.2) := by
    rw [List.zip_map_right]; rfl
  unfold rowsOf
  rw [e, List.mapM_map]
  rw [mapM_eq_map (g := fun z => z.2.map fun p => g z.1.1 z.1.2 p)]
  · rfl
  · intro z hz
    obtain ⟨i, h1, h2, h3⟩ := zip3_mem.1 hz
    simp only [Function.comp_apply, shiftLine, List.mapM_map]
    exact mapM_eq_map fun p hp => H i _ _ _ h1 h2 h3 p hp

theorem sum_flatten_map {α : Type} (l : List (List α)) (f : α → ℝ) : (l.flatten.map f).sum = (l.map fun x => (x.map f).sum).sum := by
  induction l with
  | nil => rfl
  | cons a l ih => rw [List.flatten_cons, List.map_append, List.sum_append, ih]; rfl

theorem sum_append_map {α : Type} (l m : List α) (f : α → ℝ) : ((l ++ m).map f).sum = (l.map f).sum + (m.map f).sum := by simp

theorem flatMap_range {α : Type} (m n : ℕ) (hn : 0 < n) (f : ℕ → ℕ → α) :
    ((List.range m).flatMap fun i => (List.range n).map fun j => f i j) = (List.range (m * n)).map fun k => f (k / n) (k % n) := by
  induction m with
  | zero => simp
  | succ m ih =>
    rw [List.range_succ, List.flatMap_append, ih, Nat.succ_mul, List.range_add, List.map_append]
    congr 1
    rw [List.flatMap_singleton, List.map_map]
    apply List.map_congr_left
    intro j hj
    have hj := List.mem_range.1 hj
    simp only [Function.comp_apply]
    rw [show m * n + j = j + n * m by ring, Nat.add_mul_div_left _ _ hn, Nat.add_mul_mod_self_left, Nat.div_eq_of_lt hj,
      Nat.mod_eq_of_lt hj, zero_add]

theorem grid40_eq (y x : ℕ → ℝ) :
    ((List.range 40).flatMap fun i : ℕ => (List.range 40).map fun j : ℕ => (⟨y i, x j⟩ : Pt)) = grid40 y x := by
  rw [flatMap_range 40 40 (by norm_num) fun i j => (⟨y i, x j⟩ : Pt)]
  rfl

theorem ptDist_origin (p : Pt) : ptDist p ⟨0, 0⟩ = √(p.x * p.x + p.y * p.y) := by
  unfold ptDist; simp [sq]

/-- The inverse system is solved in the sense of least squares. -/
theorem lstsq_inverse_min {lstsq : LstsqFn} (h : LstsqSpec lstsq) (f : List ℝ) (pts : List Pt)
    (hne : ∃ p ∈ pts, radial f (ptDist p ⟨0, 0⟩) ≠ 0) :
    ∃ g, lstsqChecked lstsq (pts.filterMap (inverseRow f)) = .ok g ∧ g.length = f.length ∧
      ∀ g' : List ℝ, g'.length = g.length →
        (pts.map (inverseDeviation ⟨0, 0⟩ f g)).sum ≤ (pts.map (inverseDeviation ⟨0, 0⟩ f g')).sum := by
  set pick : Pt → Option (ℝ × ℝ) := fun p => if radial f (ptDist p ⟨0, 0⟩) ≠ 0 then
    some (radial f (ptDist p ⟨0, 0⟩) * ptDist p ⟨0, 0⟩, 1 / radial f (ptDist p ⟨0, 0⟩)) else none with hpick
  have e : pts.filterMap (inverseRow f) = (pts.filterMap pick).map fun d => (powers d.1 f.length, d.2) := by
    rw [List.map_filterMap]
    congr 1
    funext p
    rw [inverseRow_eq, hpick, ← ptDist_origin]
    simp only
    split_ifs <;> rfl
  have hs : ∀ (g : List ℝ) (l : List Pt), ((l.filterMap pick).map fun d => (radial g d.1 - d.2) ^ 2).sum =
      (l.map (inverseDeviation ⟨0, 0⟩ f g)).sum := by
    intro g l
    induction l with
    | nil => rfl
    | cons p l ih =>
      by_cases h0 : radial f (ptDist p ⟨0, 0⟩) = 0
      · rw [List.filterMap_cons_none (by simp [hpick, h0]), ih, List.map_cons, List.sum_cons, inverseDeviation, if_pos h0, zero_add]
      · rw [List.filterMap_cons_some (by simp only [hpick]; rw [if_pos h0]), List.map_cons, List.sum_cons, ih, List.map_cons,
          List.sum_cons, inverseDeviation, if_neg h0]
  obtain ⟨p, hp, h0⟩ := hne
  obtain ⟨g, eg, hg, hm⟩ := lstsq_powers_min h f.length (data := pts.filterMap pick)
    (List.ne_nil_of_mem (List.mem_filterMap.2 ⟨p, hp, by simp only [hpick]; rw [if_pos h0]⟩))
  refine ⟨g, by rw [e, eg], hg, fun g' hg' => ?_⟩
  have := hm g' (by omega)
  rwa [hs, hs] at this

end Discorpy
