import Verif.Props.C39
import Verif.Lemmas.Vanish
import Verif.Lemmas.GridPara
import Verif.Spec.Prep

/-! # Helper lemmas: dropping lines found twice -/

namespace Discorpy

open Spec

/-- Picking the elements at the positions given by a predicate. -/
theorem fancyIndex_filter_cons {α : Type} (P : ℕ → Bool) (a : α) (l : List α) :
    fancyIndex (a :: l) ((List.range (a :: l).length).filter P) =
      (if P 0 then [a] else []) ++ fancyIndex l ((List.range l.length).filter fun i => P (i + 1)) := by
  unfold fancyIndex
  rw [List.length_cons, List.range_succ_eq_map, List.filter_cons, List.filter_map]
  have e : ∀ idx : List ℕ, (idx.map Nat.succ).filterMap (fun i => (a :: l)[i]?) = idx.filterMap fun i => l[i]? := by
    intro idx
    rw [List.filterMap_map]
    rfl
  split_ifs with h
  · rw [List.filterMap_cons_some (by rfl), e]
    rfl
  · rw [e]
    rfl

theorem fancyIndex_jumps (d : ℝ) (pos : List Pt → ℝ) (lines : List (List Pt)) (prev : List Pt) :
    fancyIndex lines ((List.range lines.length).filter fun i =>
      open Classical in decide (d < |(((prev :: lines).map pos).getD (i + 1) 0) - ((prev :: lines).map pos).getD i 0|)) =
      jumpsAfter d pos prev lines := by
  classical
  induction lines generalizing prev with
  | nil => rfl
  | cons l lines ih =>
    rw [fancyIndex_filter_cons, jumpsAfter]
    have := ih l
    simp only [List.map_cons, List.getD_cons_succ, List.getD_cons_zero, decide_eq_true_eq] at this ⊢
    rw [this]
    split_ifs <;> rfl

theorem jumpsAfter_eq_nil {d : ℝ} {pos : List Pt → ℝ} {prev : List Pt} {lines : List (List Pt)} :
    jumpsAfter d pos prev lines = [] ↔ ∀ i < lines.length,
      ¬ d < |(((prev :: lines).map pos).getD (i + 1) 0) - ((prev :: lines).map pos).getD i 0| := by
  classical
  rw [← fancyIndex_jumps]
  constructor
  · intro h i hi hd
    unfold fancyIndex at h
    rw [List.filterMap_eq_nil_iff] at h
    have := h i (List.mem_filter.2 ⟨List.mem_range.2 hi, by simpa using hd⟩)
    rw [List.getElem?_eq_getElem hi] at this
    cases this
  · intro h
    have : ((List.range lines.length).filter fun i =>
      decide (d < |(((prev :: lines).map pos).getD (i + 1) 0) - ((prev :: lines).map pos).getD i 0|)) = [] := by
      rw [List.filter_eq_nil_iff]
      intro i hi
      simpa using h i (List.mem_range.1 hi)
    rw [this]
    rfl

/-- What is left after the removal of repeated lines. -/
theorem dropRepeated_eq {across : Pt → ℝ} {lineDist : ℝ} {lines r : List (List Pt)} (h : dropRepeated across lineDist lines = .ok r) :
    ∃ pos : List Pt → ℝ, (∀ l ∈ lines, IsMedian across l (pos l)) ∧ r = withoutRepeats (0.1 * lineDist) pos lines := by
  classical
  unfold dropRepeated at h
  rw [bind_ok_iff] at h
  obtain ⟨vals, hv, h⟩ := h
  obtain ⟨pos, hpos⟩ : ∃ pos : List Pt → ℝ, pos = fun l => match npMedian (l.map across) with | .ok v => v | .error _ => 0 := ⟨_, rfl⟩
  have hf := mapM_ok_iff.1 hv
  have e : vals = lines.map pos := by
    clear hv h
    induction hf with
    | nil => rfl
    | cons h1 _ ih => rw [List.map_cons, ← ih, hpos]; simp only [h1]
  have hmed : ∀ l ∈ lines, IsMedian across l (pos l) := by
    intro l hl
    obtain ⟨v, -, hv⟩ := forall₂_left hf hl
    have : pos l = v := by rw [hpos]; simp only [hv]
    rw [this]
    exact isMedian_of_npMedian hv
  refine ⟨pos, hmed, ?_⟩
  simp only at h
  rw [e, npDiff_eq_range] at h
  cases lines with
  | nil => simp at h; rw [h]; rfl
  | cons l r' =>
    set J : ℕ → Prop := fun i => 0.1 * lineDist < |(((l :: r').map pos).getD (i + 1) 0) - ((l :: r').map pos).getD i 0| with hJ
    have hlen : ((l :: r').map pos).length - 1 = r'.length := by simp
    rw [hlen] at h
    have hget : ∀ i, i < r'.length → (((List.range r'.length).map fun i : ℕ => ((l :: r').map pos).getD (i + 1) 0 -
        ((l :: r').map pos).getD i 0).map fun t => decide (|t| > 0.1 * lineDist)).getD i false = decide (J i) := by
      intro i hi
      rw [List.getD_eq_getElem?_getD, List.getElem?_map, List.getElem?_map, List.getElem?_range hi]
      rfl
    have hids : ((List.range (((List.range r'.length).map fun i : ℕ => ((l :: r').map pos).getD (i + 1) 0 -
        ((l :: r').map pos).getD i 0).map fun t => decide (|t| > 0.1 * lineDist)).length).filter fun i =>
        (((List.range r'.length).map fun i : ℕ => ((l :: r').map pos).getD (i + 1) 0 -
        ((l :: r').map pos).getD i 0).map fun t => decide (|t| > 0.1 * lineDist)).getD i false) =
        (List.range r'.length).filter fun i => decide (J i) := by
      rw [List.length_map, List.length_map, List.length_range]
      apply List.filter_congr
      intro i hi
      exact hget i (List.mem_range.1 hi)
    rw [hids] at h
    rw [withoutRepeats]
    by_cases hn : jumpsAfter (0.1 * lineDist) pos l r' = []
    · rw [if_pos hn]
      have := jumpsAfter_eq_nil.1 hn
      have h0 : (List.range r'.length).filter (fun i => decide (J i)) = [] := by
        rw [List.filter_eq_nil_iff]
        intro i hi
        simpa [hJ] using this i (List.mem_range.1 hi)
      rw [h0, if_neg (by simp)] at h
      exact (Except.ok.inj h).symm
    · rw [if_neg hn]
      have h0 : (List.range r'.length).filter (fun i => decide (J i)) ≠ [] := by
        intro h0
        apply hn
        rw [jumpsAfter_eq_nil]
        intro i hi
        rw [List.filter_eq_nil_iff] at h0
        have := h0 i (List.mem_range.2 hi)
        rwa [decide_eq_true_eq] at this
      rw [if_pos (List.length_pos_iff.2 h0)] at h
      rw [← Except.ok.inj h, fancyIndex_filter_cons, if_pos (by simp), List.singleton_append]
      congr 1
      rw [← fancyIndex_jumps]
      congr 1
      apply List.filter_congr
      intro i hi
      have hi := List.mem_range.1 hi
      rw [Bool.eq_iff_iff]
      simp only [List.contains_iff_mem, List.mem_cons, Nat.add_eq_zero_iff, one_ne_zero, and_false, List.mem_map, List.mem_filter,
        List.mem_range, Nat.add_right_cancel_iff, exists_eq_right, decide_eq_true_eq, false_or, hJ, hi, true_and]

end Discorpy
