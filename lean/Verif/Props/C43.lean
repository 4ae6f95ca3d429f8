import Verif.Lemmas.Profile
import Verif.Props.C42

/-! # C43 — local extrema of a profile -/

namespace Discorpy
open Spec

/-- The radius that is used: clipped to `[1, n // 4]`. -/
def usedRadius (radius : ℤ) (n : ℕ) : ℕ := (min (max radius 1) ((n / 4 : ℕ) : ℤ)).toNat

theorem usedRadius_pos {radius : ℤ} {n : ℕ} (hn : 4 ≤ n) : 0 < usedRadius radius n := by unfold usedRadius; omega

theorem usedRadius_le {radius : ℤ} {n : ℕ} : usedRadius radius n ≤ n / 4 := by unfold usedRadius; omega

theorem usedRadius_zero {radius : ℤ} {n : ℕ} (hn : n < 4) : usedRadius radius n = 0 := by unfold usedRadius; omega

theorem mem_slice_range {n a b i : ℕ} : i ∈ npSlice (List.range n) a b ↔ a ≤ i ∧ i < b ∧ i < n := by
  unfold npSlice
  rw [List.take_range, List.mem_iff_getElem]
  constructor
  · rintro ⟨k, hk, rfl⟩
    simp at hk ⊢
    omega
  · rintro ⟨h1, h2, h3⟩
    exact ⟨i - a, by simp; omega, by simp; omega⟩

theorem slice_range_sorted (n a b : ℕ) : (npSlice (List.range n) a b).Pairwise (· < ·) := by
  unfold npSlice
  rw [List.take_range]
  exact List.pairwise_lt_range.sublist (List.drop_sublist _ _)

open Classical in
/-- The indices the search loop keeps. -/
noncomputable def extremaIdx (l : List ℝ) (r : ℕ) (s : ℝ) : List ℕ :=
  (npSlice (List.range l.length) r (l.length - r - 1)).filter fun i => decide (Minimum (fun k => l.getD k 0) r s i)

theorem mem_extremaIdx {l : List ℝ} {r : ℕ} {s : ℝ} {i : ℕ} :
    i ∈ extremaIdx l r s ↔ r ≤ i ∧ i + r + 1 < l.length ∧ Minimum (fun k => l.getD k 0) r s i := by
  classical
  unfold extremaIdx
  rw [List.mem_filter, mem_slice_range, decide_eq_true_eq]
  constructor
  · rintro ⟨⟨h1, h2, h3⟩, h⟩; exact ⟨h1, by omega, h⟩
  · rintro ⟨h1, h2, h⟩; exact ⟨⟨h1, by omega, by omega⟩, h⟩

theorem extremaIdx_sorted (l : List ℝ) (r : ℕ) (s : ℝ) : (extremaIdx l r s).Pairwise (· < ·) := by
  classical
  unfold extremaIdx
  exact (slice_range_sorted _ _ _).sublist List.filter_sublist

theorem flags_eq (l : List ℝ) {r : ℕ} (hr : 0 < r) (s : ℝ) :
    ∃ flags, ((npSlice (List.range l.length) r (l.length - r - 1)).mapM fun i => (do
        let ok ← isExtremum l r s i
        return (i, ok) : Except PyErr (ℕ × Bool))) = .ok flags ∧
      ((flags.filter fun f => f.2).map fun f => (f.1 : ℤ)) = (extremaIdx l r s).map fun i : ℕ => (i : ℤ) := by
  classical
  refine ⟨_, mapM_eq_map (g := fun i => (i, decide (Minimum (fun k => l.getD k 0) r s i))) ?_, ?_⟩
  · intro i hi
    rw [mem_slice_range] at hi
    rw [isExtremum_eq l s hi.1 (by omega) hr, ok_bind]
    rfl
  · rw [List.filter_map, List.map_map]
    rfl

/-- Without filters: the result in terms of the mirrored or plain data. -/
theorem extrema_plain (E : Ext) (l : List ℝ) (radius : ℤ) (s : ℝ) (hn : 4 ≤ l.length) :
    getLocalExtremaPoints E l "min" radius s false false false none =
      .ok ((extremaIdx l (usedRadius radius l.length) s).map fun i : ℕ => (i : ℝ)) := by
  obtain ⟨flags, h1, h2⟩ := flags_eq l (usedRadius_pos hn (radius := radius)) s
  unfold getLocalExtremaPoints
  simp only [Bool.false_eq_true, if_false, String.reduceEq, ok_bind]
  unfold usedRadius at h1 h2 ⊢
  rw [h1, ok_bind, h2]
  simp [Function.comp_def]

theorem extrema_max (E : Ext) (l : List ℝ) (radius : ℤ) (s : ℝ) {M : ℝ} (hM : npMax l = .ok M) (norm sub : Bool)
    (sel : Option PeakParams) :
    getLocalExtremaPoints E l "max" radius s false norm sub sel =
      getLocalExtremaPoints E (l.map fun x => M - x) "min" radius s false norm sub sel := by
  unfold getLocalExtremaPoints
  simp only [Bool.false_eq_true, if_false, if_true, String.reduceEq, ok_bind, hM]

/-- **C43 (minima).** Without filters, `get_local_extrema_points` on at least four samples returns the increasing list of exactly
those indices `i` with `r ≤ i < n - r - 1` whose value is the smallest among the `2r + 1` neighbours and whose contrast against the
mean of the `r` largest neighbours exceeds the sensitivity; `r` is the radius clipped to `[1, n // 4]`. -/
theorem C43_min (E : Ext) (l : List ℝ) (radius : ℤ) (s : ℝ) (hn : 4 ≤ l.length) (r : ℕ)
    (hr : (r : ℤ) = min (max radius 1) ((l.length / 4 : ℕ) : ℤ)) :
    ∃ pts : List ℕ, getLocalExtremaPoints E l "min" radius s false false false none = .ok (pts.map fun i : ℕ => (i : ℝ)) ∧
      pts.Pairwise (· < ·) ∧
      ∀ i, i ∈ pts ↔ r ≤ i ∧ i + r + 1 < l.length ∧ Minimum (fun k => l.getD k 0) r s i := by
  have e : usedRadius radius l.length = r := by unfold usedRadius; omega
  refine ⟨_, extrema_plain E l radius s hn, extremaIdx_sorted _ _ _, fun i => ?_⟩
  rw [e, mem_extremaIdx]

/-- **C43 (maxima).** With `option="max"` the indices are those of the largest values, the contrast being taken on the data
subtracted from its maximum `M`. -/
theorem C43_max (E : Ext) (l : List ℝ) (radius : ℤ) (s : ℝ) (hn : 4 ≤ l.length) (r : ℕ)
    (hr : (r : ℤ) = min (max radius 1) ((l.length / 4 : ℕ) : ℤ)) :
    ∃ M ∈ l, (∀ x ∈ l, x ≤ M) ∧
    ∃ pts : List ℕ, getLocalExtremaPoints E l "max" radius s false false false none = .ok (pts.map fun i : ℕ => (i : ℝ)) ∧
      pts.Pairwise (· < ·) ∧
      ∀ i, i ∈ pts ↔ r ≤ i ∧ i + r + 1 < l.length ∧ (∀ j, i ≤ j + r → j ≤ i + r → l.getD j 0 ≤ l.getD i 0) ∧
        ∃ m, TopMean (around (fun k => M - l.getD k 0) r i) r m ∧ s < contrast (M - l.getD i 0) m := by
  have hne : l ≠ [] := by rw [← List.length_pos_iff]; omega
  obtain ⟨M, hM, hmem, hmax⟩ := npMax_ok hne
  refine ⟨M, hmem, hmax, ?_⟩
  have e : usedRadius radius (l.map fun x => M - x).length = r := by
    rw [List.length_map]; unfold usedRadius; omega
  refine ⟨_, (extrema_max E l radius s hM false false none).trans (extrema_plain E _ radius s (by simpa using hn)),
    extremaIdx_sorted _ _ _, fun i => ?_⟩
  rw [e, mem_extremaIdx, List.length_map]
  have hg : ∀ k, k < l.length → (l.map fun x => M - x).getD k 0 = M - l.getD k 0 := by
    intro k hk
    simp [List.getD_eq_getElem?_getD, List.getElem?_eq_getElem hk]
  constructor
  · rintro ⟨h1, h2, h3, m, h4, h5⟩
    refine ⟨h1, h2, fun j hj1 hj2 => ?_, m, ?_, ?_⟩
    · have := h3 j hj1 hj2
      simp only at this
      rw [hg i (by omega), hg j (by omega)] at this
      linarith
    · have ea : around (fun k => M - l.getD k 0) r i = around (fun k => (l.map fun x => M - x).getD k 0) r i := by
        unfold around
        apply List.map_congr_left
        intro k hk
        rw [List.mem_range] at hk
        simp only
        rw [hg _ (by omega)]
      rw [ea]; exact h4
    · rw [← hg i (by omega)]; exact h5
  · rintro ⟨h1, h2, h3, m, h4, h5⟩
    refine ⟨h1, h2, fun j hj1 hj2 => ?_, m, ?_, ?_⟩
    · simp only
      rw [hg i (by omega), hg j (by omega)]
      linarith [h3 j hj1 hj2]
    · have ea : around (fun k => (l.map fun x => M - x).getD k 0) r i = around (fun k => M - l.getD k 0) r i := by
        unfold around
        apply List.map_congr_left
        intro k hk
        rw [List.mem_range] at hk
        simp only
        rw [hg _ (by omega)]
      rw [ea]; exact h4
    · simp only
      rw [hg i (by omega)]; exact h5

example (E : Ext) := C43_max E [1, 5, 1, 1] 1 (1 / 10) (by simp) 1 (by simp)

/-- **C43 (short data).** Fewer than four samples never give a point for a non-negative sensitivity. -/
theorem C43_short (E : Ext) (l : List ℝ) (radius : ℤ) (s : ℝ) (hs : 0 ≤ s) (hn : l.length < 4) (sub : Bool) :
    getLocalExtremaPoints E l "min" radius s false false sub none = .ok [] := by
  have hu := usedRadius_zero hn (radius := radius)
  unfold usedRadius at hu
  unfold getLocalExtremaPoints
  simp only [Bool.false_eq_true, if_false, String.reduceEq, ok_bind]
  have hm : ((npSlice (List.range l.length) 0 (l.length - 0 - 1)).mapM fun i => (do
        let ok ← isExtremum l 0 s i
        return (i, ok) : Except PyErr (ℕ × Bool))) = .ok ((npSlice (List.range l.length) 0 (l.length - 0 - 1)).map fun i => (i, false)) := by
    apply mapM_eq_map
    intro i hi
    rw [mem_slice_range] at hi
    rw [isExtremum_zero l hs (by omega), ok_bind]
    rfl
  rw [hu, hm, ok_bind]
  have : (((npSlice (List.range l.length) 0 (l.length - 0 - 1)).map fun i => ((i, false) : ℕ × Bool)).filter fun f => f.2) = [] := by
    rw [List.filter_eq_nil_iff]
    intro f hf
    obtain ⟨i, _, rfl⟩ := List.mem_map.1 hf
    simp
  rw [this]
  cases sub <;> simp [pure, Except.pure]

example (E : Ext) := C43_short E [5, 1, 5] 1 (1 / 10) (by norm_num) (by simp) true

/-- The position in a three-sample window whose middle is not above its neighbours. -/
theorem locate_weak {pf : PolyfitFn} (hpf : PolyfitSpec pf) {u v w : ℝ} (h1 : v ≤ u) (h2 : v ≤ w) :
    ∃ p, locateSubpixelPoint pf [u, v, w] "min" = .ok p ∧ (|p - 1| ≤ 1 / 2 ∨ (u = v ∧ w = v ∧ p = 0)) := by
  by_cases hf : u = v ∧ w = v
  · obtain ⟨rfl, rfl⟩ := hf
    exact ⟨0, C42_flat hpf _ _, Or.inr ⟨rfl, rfl, rfl⟩⟩
  · have hd : 0 < u - 2 * v + w := by
      rcases lt_or_eq_of_le h1 with h | h
      · linarith
      · rcases lt_or_eq_of_le h2 with h' | h'
        · linarith
        · exact absurd ⟨h.symm, h'.symm⟩ hf
    obtain ⟨k, hk, _⟩ := locate_pos (l := [u, v, w]) (by simp) "min"
    rw [locate_eq (by simp) (fit_triple hpf u v w), hk, ok_bind]
    have e : -((4 * v - 3 * u - w) / 2) / (2 * ((u - 2 * v + w) / 2)) - 1 = (u - w) / (2 * (u - 2 * v + w)) := by
      have hs := hd.ne'
      generalize hd : u - 2 * v + w = d at hs ⊢
      have hw : w = d - u + 2 * v := by linarith
      subst hw
      field_simp
      ring
    have hlt : |-((4 * v - 3 * u - w) / 2) / (2 * ((u - 2 * v + w) / 2)) - 1| ≤ 1 / 2 := by
      rw [e, abs_div, div_le_iff₀ (by positivity), abs_mul, abs_two, abs_of_pos hd, abs_le]
      constructor <;> linarith
    rw [if_pos (by simpa using hd.ne')]
    simp only
    have hb := abs_le.1 hlt
    rw [if_pos ⟨by linarith, by simp only [List.length_cons, List.length_nil]; push_cast; linarith⟩]
    exact ⟨_, rfl, Or.inl hlt⟩

/-- **C43 (sub-pixel).** With sub-pixel refinement each of the plain indices moves by at most half a sample, except on a flat
three-sample bottom, where it moves to the left neighbour. -/
theorem C43_subpixel (E : Ext) (hpf : PolyfitSpec E.pf) (l : List ℝ) (radius : ℤ) (s : ℝ) (hn : 4 ≤ l.length) :
    ∃ (pts : List ℕ) (sub : List ℝ),
      getLocalExtremaPoints E l "min" radius s false false false none = .ok (pts.map fun i : ℕ => (i : ℝ)) ∧
      getLocalExtremaPoints E l "min" radius s false false true none = .ok sub ∧
      List.Forall₂ (fun (i : ℕ) (v : ℝ) => |v - i| ≤ 1 / 2 ∨
        (v = (i : ℝ) - 1 ∧ l.getD (i - 1) 0 = l.getD i 0 ∧ l.getD (i + 1) 0 = l.getD i 0)) pts sub := by
  obtain ⟨flags, h1, h2⟩ := flags_eq l (usedRadius_pos hn (radius := radius)) s
  have hpt : ∀ i ∈ extremaIdx l (usedRadius radius l.length) s, ∃ v : ℝ,
      (do let s ← locateSubpixelPoint E.pf (npSlice l (sliceBound l.length ((i : ℤ) - 1)) (sliceBound l.length ((i : ℤ) + 2))) "min"
          return (((i : ℤ) : ℝ) - 1 + s) : Except PyErr ℝ) = .ok v ∧
      (|v - i| ≤ 1 / 2 ∨ (v = (i : ℝ) - 1 ∧ l.getD (i - 1) 0 = l.getD i 0 ∧ l.getD (i + 1) 0 = l.getD i 0)) := by
    intro i hi
    rw [mem_extremaIdx] at hi
    obtain ⟨ha, hb, hc, _⟩ := hi
    have hr := usedRadius_pos hn (radius := radius)
    have hw := npSlice_around l (r := 1) (i := i) (by omega) (by omega)
    have e1 : sliceBound l.length ((i : ℤ) - 1) = i - 1 := by unfold sliceBound; rw [if_neg (by omega)]; omega
    have e2 : sliceBound l.length ((i : ℤ) + 2) = i + 1 + 1 := by unfold sliceBound; rw [if_neg (by omega)]; omega
    have e3 : around (fun k => l.getD k 0) 1 i = [l.getD (i - 1) 0, l.getD i 0, l.getD (i + 1) 0] := by
      have : i - 1 + 1 = i := by omega
      have h' : i - 1 + 2 = i + 1 := by omega
      simp [around, List.range_succ, this, h']
    rw [e1, e2, hw, e3]
    obtain ⟨p, hp, h⟩ := locate_weak hpf (hc (i - 1) (by omega) (by omega)) (hc (i + 1) (by omega) (by omega))
    rw [hp, ok_bind]
    refine ⟨_, rfl, ?_⟩
    rcases h with h | ⟨h3, h4, rfl⟩
    · left
      have e : ((i : ℤ) : ℝ) - 1 + p - i = p - 1 := by push_cast; ring
      rw [e]; exact h
    · right
      exact ⟨by push_cast; ring, h3, h4⟩
  have hall : ∃ sub, ((extremaIdx l (usedRadius radius l.length) s).map fun i : ℕ => (i : ℤ)).mapM (fun i : ℤ => (do
      let s ← locateSubpixelPoint E.pf (npSlice l (sliceBound l.length (i - 1)) (sliceBound l.length (i + 2))) "min"
      return ((i : ℝ) - 1 + s) : Except PyErr ℝ)) = .ok sub := by
    apply exists_mapM_ok
    intro i hi
    obtain ⟨k, hk, rfl⟩ := List.mem_map.1 hi
    obtain ⟨v, hv, _⟩ := hpt k hk
    exact ⟨v, hv⟩
  obtain ⟨sub, hsub⟩ := hall
  refine ⟨_, sub, extrema_plain E l radius s hn, ?_, ?_⟩
  · unfold getLocalExtremaPoints
    simp only [Bool.false_eq_true, if_false, if_true, String.reduceEq, ok_bind]
    unfold usedRadius at h1 h2 hsub
    rw [h1, ok_bind, h2]
    exact hsub
  · rw [mapM_ok_iff, List.forall₂_map_left_iff] at hsub
    rw [List.forall₂_iff_get] at hsub ⊢
    refine ⟨hsub.1, fun k hk hk' => ?_⟩
    obtain ⟨v, hv, h⟩ := hpt _ (List.get_mem (extremaIdx l (usedRadius radius l.length) s) ⟨k, hk⟩)
    have := hsub.2 k hk hk'
    rw [hv] at this
    injection this with this
    rw [← this]; exact h

example (f : List ℝ → ℝ → List ℝ) (g : List ℝ → GaussFit) := C43_subpixel ⟨refPolyfit, refArgsort, f, g⟩ refPolyfit_spec [5, 1, 5, 5] 1 (1 / 10) (by simp)

/-- The hypotheses can be met: the samples `5, 1, 5, 5` have a minimum at index 1, with contrast `4/5`. -/
example (E : Ext) : ∃ pts : List ℕ,
    getLocalExtremaPoints E [5, 1, 5, 5] "min" 1 (1 / 10) false false false none = .ok (pts.map fun i : ℕ => (i : ℝ)) ∧ 1 ∈ pts := by
  obtain ⟨pts, h, _, hm⟩ := C43_min E [5, 1, 5, 5] 1 (1 / 10) (by simp) 1 (by simp)
  refine ⟨pts, h, (hm 1).2 ⟨le_rfl, by simp, ?_, 5, ?_, ?_⟩⟩
  · intro j h1 h2
    have : j = 0 ∨ j = 1 ∨ j = 2 := by omega
    rcases this with rfl | rfl | rfl <;> simp
  · refine ⟨[1, 5], [5], ?_, by simp, by simp, by simp⟩
    simp [around, List.range_succ]
    exact List.Perm.swap _ _ _
  · unfold contrast
    rw [if_neg (by norm_num)]
    norm_num

end Discorpy
