import Verif.Model.LinePattern
import Verif.Spec.Profile
import Verif.Lemmas.Array
import Verif.Lemmas.Median
import Verif.Lemmas.Except

/-! # Helper lemmas: windows of a profile -/

namespace Discorpy
open Spec

theorem topMean_sorted {w s : List ℝ} {r : ℕ} (hp : s.Perm w) (hs : s.Pairwise (· ≤ ·)) (hr : r ≤ w.length) (m : ℝ) :
    TopMean w r m ↔ m = (s.drop (s.length - r)).sum / r := by
  have hlen := hp.length_eq
  constructor
  · rintro ⟨rest, top, hperm, hlt, hle, rfl⟩
    have h1 := List.mergeSort_perm rest fun a b : ℝ => decide (a ≤ b)
    have h2 := List.mergeSort_perm top fun a b : ℝ => decide (a ≤ b)
    have hsort : ((rest.mergeSort fun a b : ℝ => decide (a ≤ b)) ++ top.mergeSort fun a b : ℝ => decide (a ≤ b)).Pairwise (· ≤ ·) := by
      rw [List.pairwise_append]
      refine ⟨sorted_mergeSort rest, sorted_mergeSort top, fun a ha b hb => ?_⟩
      exact hle a (h1.mem_iff.1 ha) b (h2.mem_iff.1 hb)
    have he : s = (rest.mergeSort fun a b : ℝ => decide (a ≤ b)) ++ top.mergeSort fun a b : ℝ => decide (a ≤ b) := by
      refine List.Perm.eq_of_pairwise (le := (· ≤ ·)) (fun a b _ _ h h' => le_antisymm h h') hs hsort ?_
      exact (hp.trans hperm).trans (h1.append h2).symm
    have hl1 := h1.length_eq
    have hl2 := h2.length_eq
    rw [he]
    have : ((rest.mergeSort fun a b : ℝ => decide (a ≤ b)) ++ top.mergeSort fun a b : ℝ => decide (a ≤ b)).length - r =
        (rest.mergeSort fun a b : ℝ => decide (a ≤ b)).length := by
      rw [List.length_append, hl2, hlt]; omega
    rw [this, List.drop_left, h2.sum_eq]
  · rintro rfl
    refine ⟨s.take (s.length - r), s.drop (s.length - r), ?_, ?_, ?_, rfl⟩
    · rw [List.take_append_drop]; exact hp.symm
    · rw [List.length_drop]; omega
    · have := hs
      rw [← List.take_append_drop (s.length - r) s, List.pairwise_append] at this
      exact this.2.2

theorem topMean_unique {w : List ℝ} {r : ℕ} (hr : r ≤ w.length) {m m' : ℝ} (h : TopMean w r m) (h' : TopMean w r m') : m = m' := by
  have hp := List.mergeSort_perm w fun a b : ℝ => decide (a ≤ b)
  rw [topMean_sorted hp (sorted_mergeSort w) hr] at h h'
  rw [h, h']

theorem npSlice_around (l : List ℝ) {r i : ℕ} (h1 : r ≤ i) (h2 : i + r < l.length) :
    npSlice l (i - r) (i + r + 1) = around (fun k => l.getD k 0) r i := by
  apply List.ext_getElem
  · simp [npSlice, around]; omega
  · intro k hk hk'
    simp [around] at hk'
    simp only [npSlice, List.getElem_drop, List.getElem_take, around, List.getElem_map, List.getElem_range]
    rw [List.getD_eq_getElem?_getD, List.getElem?_eq_getElem (by omega), Option.getD_some]

theorem contrast_eq (v m : ℝ) : (if m ≠ 0 then |(v - m) / m| else 0) = contrast v m := by
  unfold contrast
  by_cases h : m = 0
  · rw [if_neg (by simpa using h), if_pos h]
  · rw [if_pos h, if_neg h, abs_div]

theorem mem_around {f : ℕ → ℝ} {r i : ℕ} (h1 : r ≤ i) {x : ℝ} : x ∈ around f r i ↔ ∃ j, i ≤ j + r ∧ j ≤ i + r ∧ f j = x := by
  unfold around
  rw [List.mem_map]
  constructor
  · rintro ⟨k, hk, rfl⟩
    rw [List.mem_range] at hk
    exact ⟨i - r + k, by omega, by omega, rfl⟩
  · rintro ⟨j, h3, h4, rfl⟩
    exact ⟨j - (i - r), List.mem_range.2 (by omega), by congr 1; omega⟩

open Classical in
/-- The decision about one index, in terms of the specification. -/
theorem isExtremum_eq (l : List ℝ) {r i : ℕ} (s : ℝ) (h1 : r ≤ i) (h2 : i + r < l.length) (hr : 0 < r) :
    isExtremum l r s i = .ok (decide (Minimum (fun k => l.getD k 0) r s i)) := by
  have hi : i < l.length := by omega
  have hw := npSlice_around l h1 h2
  have hp := List.mergeSort_perm (around (fun k => l.getD k 0) r i) fun a b : ℝ => decide (a ≤ b)
  have hs := sorted_mergeSort (around (fun k => l.getD k 0) r i)
  have hlen : (around (fun k => l.getD k 0) r i).length = 2 * r + 1 := by simp [around]
  unfold isExtremum
  rw [npGet_of_lt hi, ok_bind, hw]
  simp only
  have htm := fun m => topMean_sorted hp hs (r := r) (by omega) m
  have hmem : ∀ x, x ∈ (around (fun k => l.getD k 0) r i).mergeSort (fun a b : ℝ => decide (a ≤ b)) ↔ _ := fun x => hp.mem_iff (a := x)
  have hl2 := hp.length_eq
  generalize (around (fun k => l.getD k 0) r i).mergeSort (fun a b : ℝ => decide (a ≤ b)) = t at *
  have hval : l.getD i 0 = l[i] := by rw [List.getD_eq_getElem?_getD, List.getElem?_eq_getElem hi, Option.getD_some]
  rw [npGet_of_lt (by omega : 0 < t.length), ok_bind, if_neg (by omega), npMean_ok, ok_bind]
  · have hlr : (t.drop (t.length - r)).length = r := by rw [List.length_drop]; omega
    rw [hlr, contrast_eq]
    congr 1
    rw [decide_eq_decide]
    unfold Minimum
    simp only [hval]
    constructor
    · rintro ⟨ha, hb⟩
      refine ⟨fun j hj1 hj2 => ?_, _, (htm _).2 rfl, hb⟩
      have hj : l.getD j 0 ∈ t := by rw [hmem, mem_around h1]; exact ⟨j, hj1, hj2, rfl⟩
      obtain ⟨k, hk, e⟩ := List.getElem_of_mem hj
      rw [← e]
      have : t[0] ≤ t[k] := by
        rcases Nat.eq_zero_or_pos k with h | h
        · subst h; exact le_rfl
        · exact List.pairwise_iff_getElem.1 hs 0 k _ hk h
      linarith
    · rintro ⟨ha, m, hm, hb⟩
      rw [(htm m).1 hm] at hb
      refine ⟨?_, hb⟩
      have h0 : t[0] ∈ t := List.getElem_mem _
      rw [hmem, mem_around h1] at h0
      obtain ⟨j, hj1, hj2, e⟩ := h0
      have h3 := ha j hj1 hj2
      rw [e] at h3
      have hv : l.getD i 0 ∈ t := by rw [hmem, mem_around h1]; exact ⟨i, by omega, by omega, rfl⟩
      obtain ⟨k, hk, e⟩ := List.getElem_of_mem hv
      have : t[0] ≤ t[k] := by
        rcases Nat.eq_zero_or_pos k with h | h
        · subst h; exact le_rfl
        · exact List.pairwise_iff_getElem.1 hs 0 k _ hk h
      rw [hval] at e
      linarith
  · rw [← List.length_pos_iff, List.length_drop]; omega

/-- With a single-sample window nothing stands out. -/
theorem isExtremum_zero (l : List ℝ) {i : ℕ} {s : ℝ} (hs : 0 ≤ s) (hi : i < l.length) : isExtremum l 0 s i = .ok false := by
  have hw := npSlice_around l (r := 0) (Nat.zero_le i) hi
  have e : around (fun k => l.getD k 0) 0 i = [l[i]] := by
    simp [around, List.getElem?_eq_getElem hi]
  unfold isExtremum
  rw [npGet_of_lt hi, ok_bind, hw, e]
  simp only [List.mergeSort_singleton, if_true]
  rw [npGet_of_lt (by simp), ok_bind, npMean_ok (by simp), ok_bind]
  simp [hs, not_lt]

end Discorpy
