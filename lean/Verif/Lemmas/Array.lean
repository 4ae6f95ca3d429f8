import Verif.Lemmas.Except
import Mathlib.Order.Interval.Finset.Nat

/-! # Helper lemmas: 1D arrays -/

namespace Discorpy

theorem exists_min_mem {l : List ℝ} (hne : l ≠ []) : ∃ x ∈ l, ∀ y ∈ l, x ≤ y := by
  induction l with
  | nil => exact absurd rfl hne
  | cons a l ih =>
    by_cases h : l = []
    · subst h; exact ⟨a, by simp, by simp⟩
    · obtain ⟨x, hx, hm⟩ := ih h
      by_cases hax : a ≤ x
      · refine ⟨a, by simp, ?_⟩
        intro y hy
        rcases List.mem_cons.1 hy with rfl | hy
        · exact le_rfl
        · exact hax.trans (hm y hy)
      · refine ⟨x, by simp [hx], ?_⟩
        intro y hy
        rcases List.mem_cons.1 hy with rfl | hy
        · exact (not_le.1 hax).le
        · exact hm y hy

theorem exists_max_mem {l : List ℝ} (hne : l ≠ []) : ∃ x ∈ l, ∀ y ∈ l, y ≤ x := by
  obtain ⟨x, hx, hm⟩ := exists_min_mem (l := l.map fun t => -t) (by simpa using hne)
  obtain ⟨a, ha, rfl⟩ := List.mem_map.1 hx
  refine ⟨a, ha, fun y hy => ?_⟩
  have := hm (-y) (List.mem_map.2 ⟨y, hy, rfl⟩)
  linarith

theorem npArgmin_ok {l : List ℝ} (hne : l ≠ []) :
    ∃ k, npArgmin l = .ok k ∧ ∃ h : k < l.length, (∀ y ∈ l, l[k] ≤ y) ∧ ∀ j (hj : j < k), ∃ y ∈ l, y < l[j] := by
  classical
  obtain ⟨x, hx, hm⟩ := exists_min_mem hne
  unfold npArgmin
  rw [if_neg hne]
  refine ⟨_, rfl, ?_⟩
  have hlt : l.findIdx (fun x => decide (∀ y ∈ l, x ≤ y)) < l.length :=
    List.findIdx_lt_length_of_exists ⟨x, hx, by simpa using hm⟩
  refine ⟨hlt, ?_, ?_⟩
  · have := List.findIdx_getElem (w := hlt)
    simpa using this
  · intro j hj
    have := List.not_of_lt_findIdx hj
    simp only [decide_eq_false_iff_not, not_forall, not_le] at this
    obtain ⟨y, hy, h⟩ := this
    exact ⟨y, hy, h⟩

theorem npArgmax_ok {l : List ℝ} (hne : l ≠ []) :
    ∃ k, npArgmax l = .ok k ∧ ∃ h : k < l.length, (∀ y ∈ l, y ≤ l[k]) ∧ ∀ j (hj : j < k), ∃ y ∈ l, l[j] < y := by
  classical
  obtain ⟨x, hx, hm⟩ := exists_max_mem hne
  unfold npArgmax
  rw [if_neg hne]
  refine ⟨_, rfl, ?_⟩
  have hlt : l.findIdx (fun x => decide (∀ y ∈ l, y ≤ x)) < l.length :=
    List.findIdx_lt_length_of_exists ⟨x, hx, by simpa using hm⟩
  refine ⟨hlt, ?_, ?_⟩
  · have := List.findIdx_getElem (w := hlt)
    simpa using this
  · intro j hj
    have := List.not_of_lt_findIdx hj
    simp only [decide_eq_false_iff_not, not_forall, not_le] at this
    obtain ⟨y, hy, h⟩ := this
    exact ⟨y, hy, h⟩

theorem npMean_ok {l : List ℝ} (hne : l ≠ []) : npMean l = .ok (l.sum / l.length) := by
  rw [npMean, if_neg hne]

theorem npMean_const {l : List ℝ} {v : ℝ} (hne : l ≠ []) (h : ∀ x ∈ l, x = v) : npMean l = .ok v := by
  rw [npMean_ok hne]
  have : l = List.replicate l.length v := List.eq_replicate_iff.2 ⟨rfl, h⟩
  have hl : (l.length : ℝ) ≠ 0 := by
    have := List.length_pos_iff.2 hne
    positivity
  rw [this]
  simp only [List.sum_replicate, List.length_replicate, nsmul_eq_mul]
  rw [mul_div_cancel_left₀ _ hl]

theorem npMax_ok {l : List ℝ} (hne : l ≠ []) : ∃ m, npMax l = .ok m ∧ m ∈ l ∧ ∀ y ∈ l, y ≤ m := by
  obtain ⟨m, hm⟩ := Option.ne_none_iff_exists'.1 (mt List.max?_eq_none_iff.1 hne)
  unfold npMax
  rw [hm]
  rw [List.max?_eq_some_iff] at hm
  exact ⟨m, rfl, hm.1, hm.2⟩

theorem npDiff_mem {l : List ℝ} {t : ℝ} (h : t ∈ npDiff l) :
    ∃ i a b, l[i]? = some a ∧ l[i + 1]? = some b ∧ t = b - a := by
  unfold npDiff at h
  obtain ⟨i, hi, e⟩ := List.getElem_of_mem h
  rw [List.getElem_zipWith] at e
  simp only [List.length_zipWith, List.length_tail, lt_min_iff] at hi
  refine ⟨i, l[i], l[i + 1], List.getElem?_eq_getElem (by omega), List.getElem?_eq_getElem (by omega), ?_⟩
  rw [← e]
  simp

theorem npDiff_ne_nil {l : List ℝ} (h : 2 ≤ l.length) : npDiff l ≠ [] := by
  rw [← List.length_pos_iff]
  simp [npDiff]
  omega

theorem npSlice_getElem? {α : Type} {l : List α} {a b i : ℕ} {x : α} (h : (npSlice l a b)[i]? = some x) : l[a + i]? = some x := by
  unfold npSlice at h
  rw [List.getElem?_drop, List.getElem?_take] at h
  split at h
  · exact h
  · cases h

end Discorpy
