import Verif.Py.Array
import Mathlib.Data.List.Sort
import Mathlib.Tactic.Linarith

/-! # The median splits a list into halves -/

namespace Discorpy

theorem sorted_mergeSort (l : List ℝ) : (l.mergeSort fun a b => decide (a ≤ b)).Pairwise (· ≤ ·) := by
  have := List.pairwise_mergeSort (le := fun a b : ℝ => decide (a ≤ b)) (fun a b c => by simpa using le_trans)
    (fun a b => by simpa using le_total a b) l
  exact this.imp fun h => by simpa using h

/-- In a sorted list at least `k + 1` elements are not above the element at `k`, and at least `n - k` not below. -/
theorem count_sorted {s : List ℝ} (hs : s.Pairwise (· ≤ ·)) {k : ℕ} (hk : k < s.length) (v : ℝ) :
    (s[k] ≤ v → k + 1 ≤ (s.filter fun x => decide (x ≤ v)).length) ∧
    (v ≤ s[k] → s.length - k ≤ (s.filter fun x => decide (v ≤ x)).length) := by
  constructor
  · intro hv
    have h1 : ((s.take (k + 1)).filter fun x => decide (x ≤ v)).length = k + 1 := by
      rw [List.filter_eq_self.2, List.length_take, min_eq_left (by omega)]
      intro x hx
      obtain ⟨i, hi, rfl⟩ := List.getElem_of_mem hx
      rw [List.length_take] at hi
      rw [List.getElem_take, decide_eq_true_eq]
      refine le_trans ?_ hv
      rcases Nat.lt_or_ge i k with h | h
      · exact List.pairwise_iff_getElem.1 hs i k _ hk h
      · have : i = k := by omega
        subst this; exact le_rfl
    calc k + 1 = _ := h1.symm
      _ ≤ _ := ((List.take_sublist (k + 1) s).filter _).length_le
  · intro hv
    have h1 : ((s.drop k).filter fun x => decide (v ≤ x)).length = s.length - k := by
      rw [List.filter_eq_self.2, List.length_drop]
      intro x hx
      obtain ⟨i, hi, rfl⟩ := List.getElem_of_mem hx
      rw [List.length_drop] at hi
      rw [List.getElem_drop, decide_eq_true_eq]
      refine le_trans hv ?_
      rcases Nat.eq_zero_or_pos i with h | h
      · subst h; exact le_rfl
      · exact List.pairwise_iff_getElem.1 hs k (k + i) hk (by omega) (by omega)
    calc s.length - k = _ := h1.symm
      _ ≤ _ := ((List.drop_sublist k s).filter _).length_le

/-- At least half of the elements are not above the median, at least half are not below. -/
theorem npMedian_halves {l : List ℝ} {v : ℝ} (h : npMedian l = .ok v) :
    l ≠ [] ∧ l.length ≤ 2 * (l.filter fun x => decide (x ≤ v)).length ∧ l.length ≤ 2 * (l.filter fun x => decide (v ≤ x)).length := by
  simp only [npMedian] at h
  split_ifs at h with h0 h1
  · refine ⟨h0, ?_⟩
    have hp := List.mergeSort_perm l fun a b : ℝ => decide (a ≤ b)
    have hs := sorted_mergeSort l
    have hlen := hp.length_eq
    rw [← (hp.filter _).length_eq, ← (hp.filter _).length_eq]
    rw [Except.ok.injEq] at h
    generalize (l.mergeSort fun a b => decide (a ≤ b)) = s at *
    have hk : l.length / 2 < s.length := by omega
    rw [List.getD_eq_getElem?_getD, List.getElem?_eq_getElem hk, Option.getD_some] at h
    have := count_sorted hs hk v
    have a := this.1 h.le
    have b := this.2 h.ge
    omega
  · refine ⟨h0, ?_⟩
    have hp := List.mergeSort_perm l fun a b : ℝ => decide (a ≤ b)
    have hs := sorted_mergeSort l
    have hlen := hp.length_eq
    rw [← (hp.filter _).length_eq, ← (hp.filter _).length_eq]
    rw [Except.ok.injEq] at h
    have hl : 0 < l.length := List.length_pos_iff.2 h0
    generalize (l.mergeSort fun a b => decide (a ≤ b)) = s at *
    have hk : l.length / 2 < s.length := by omega
    have hk' : l.length / 2 - 1 < s.length := by omega
    rw [List.getD_eq_getElem?_getD, List.getElem?_eq_getElem hk', Option.getD_some, List.getD_eq_getElem?_getD,
      List.getElem?_eq_getElem hk, Option.getD_some] at h
    have hle : s[l.length / 2 - 1] ≤ s[l.length / 2] := List.pairwise_iff_getElem.1 hs _ _ hk' hk (by omega)
    have a := (count_sorted hs hk' v).1 (by linarith)
    have b := (count_sorted hs hk v).2 (by linarith)
    omega

theorem npMedian_ok {l : List ℝ} (h : l ≠ []) : ∃ v, npMedian l = .ok v := by
  simp only [npMedian, if_neg h]
  split_ifs <;> exact ⟨_, rfl⟩

end Discorpy
