import Verif.Lemmas.Lines
import Verif.Model.Transform

/-! # Helper lemmas: the linear system of coefficient conversion -/

namespace Discorpy

open Spec

theorem powers_length (r : ℝ) (n : ℕ) : (powers r n).length = n := by simp [powers]

theorem rowDot_powers (r : ℝ) (v : List ℝ) : rowDot (powers r v.length) v = radial v r := by
  obtain ⟨w, hw⟩ : ∃ w : Fin v.length → ℝ, v = List.ofFn w := ⟨fun i => v[i], by simp⟩
  have h1 : rowDot (powers r v.length) (List.ofFn fun i : Fin v.length => v[i]) = _ := rowDot_ofFn _ (powers_length _ _) _
  have h2 : (List.ofFn fun i : Fin v.length => v[i]) = v := by simp
  rw [h2] at h1
  rw [h1, radial]
  apply Finset.sum_congr rfl
  intro i _
  simp [powers, List.getD_eq_getElem?_getD, mul_comm]

/-- The origin. -/
def originPt : Pt := ⟨0, 0⟩

theorem inverseRow_eq (fact : List ℝ) (p : Pt) :
    inverseRow fact p = if radial fact (√(p.x * p.x + p.y * p.y)) ≠ 0 then
      some (powers (radial fact (√(p.x * p.x + p.y * p.y)) * √(p.x * p.x + p.y * p.y)) fact.length,
        1 / radial fact (√(p.x * p.x + p.y * p.y))) else none := by
  unfold inverseRow
  simp only [polySum_eq_radial]

/-- A consistent inverse system is solved exactly. -/
theorem lstsq_inverse {lstsq : List (List ℝ) → List ℝ → List ℝ} (h : LstsqSpec lstsq) (fact : List ℝ) (pts : List Pt)
    (hne : ∃ p ∈ pts, radial fact (√(p.x * p.x + p.y * p.y)) ≠ 0) (g : List ℝ) (hg : g.length = fact.length)
    (hex : ∀ p ∈ pts, radial fact (√(p.x * p.x + p.y * p.y)) ≠ 0 →
      radial fact (√(p.x * p.x + p.y * p.y)) *
        radial g (radial fact (√(p.x * p.x + p.y * p.y)) * √(p.x * p.x + p.y * p.y)) = 1) :
    ∃ g', lstsqChecked lstsq (pts.filterMap (inverseRow fact)) = .ok g' ∧ g'.length = fact.length ∧
      ∀ p ∈ pts, radial fact (√(p.x * p.x + p.y * p.y)) ≠ 0 →
        radial fact (√(p.x * p.x + p.y * p.y)) *
          radial g' (radial fact (√(p.x * p.x + p.y * p.y)) * √(p.x * p.x + p.y * p.y)) = 1 := by
  set rows := pts.filterMap (inverseRow fact) with hrows
  have hmem : ∀ p ∈ pts, radial fact (√(p.x * p.x + p.y * p.y)) ≠ 0 →
      (powers (radial fact (√(p.x * p.x + p.y * p.y)) * √(p.x * p.x + p.y * p.y)) fact.length,
        1 / radial fact (√(p.x * p.x + p.y * p.y))) ∈ rows := by
    intro p hp h0
    rw [hrows, List.mem_filterMap]
    exact ⟨p, hp, by rw [inverseRow_eq, if_pos h0]⟩
  have hinv : ∀ r ∈ rows, ∃ p ∈ pts, radial fact (√(p.x * p.x + p.y * p.y)) ≠ 0 ∧
      r = (powers (radial fact (√(p.x * p.x + p.y * p.y)) * √(p.x * p.x + p.y * p.y)) fact.length,
        1 / radial fact (√(p.x * p.x + p.y * p.y))) := by
    intro r hr
    rw [hrows, List.mem_filterMap] at hr
    obtain ⟨p, hp, e⟩ := hr
    rw [inverseRow_eq] at e
    split at e
    · exact ⟨p, hp, ‹_›, by simpa using e.symm⟩
    · simp at e
  have hnil : rows ≠ [] := by
    obtain ⟨p, hp, h0⟩ := hne
    exact List.ne_nil_of_mem (hmem p hp h0)
  have hA : rows.map Prod.fst ≠ [] := by simpa using hnil
  have hl : (rows.map Prod.fst).length = (rows.map Prod.snd).length := by simp
  have hr : ∀ r ∈ rows.map Prod.fst, r.length = fact.length := by
    intro r hr
    obtain ⟨q, hq, rfl⟩ := List.mem_map.1 hr
    obtain ⟨p, _, _, e⟩ := hinv q hq
    rw [e]; exact powers_length _ _
  have hlen := h.length _ _ _ hA hl hr
  refine ⟨lstsq (rows.map Prod.fst) (rows.map Prod.snd), by rw [lstsqChecked, if_neg hnil], hlen, ?_⟩
  have hz : (rows.map Prod.fst).zip (rows.map Prod.snd) = rows := by rw [List.zip_map']; simp
  have hs := h.solves hA hl hr hg (by
    rw [hz]
    intro q hq
    obtain ⟨p, hp, h0, e⟩ := hinv q hq
    rw [e]
    simp only
    rw [← hg, rowDot_powers]
    rw [eq_div_iff h0, mul_comm]
    exact hex p hp h0)
  rw [hz] at hs
  intro p hp h0
  have := hs _ (hmem p hp h0)
  simp only at this
  rw [← hlen, rowDot_powers, eq_div_iff h0, mul_comm] at this
  exact this

end Discorpy
