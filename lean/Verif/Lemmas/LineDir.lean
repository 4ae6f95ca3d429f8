import Verif.Spec.LineDir
import Verif.Lemmas.Spacing
import Verif.Lemmas.Chessboard
import Verif.Lemmas.Centre
import Verif.Model.LinePattern
import Verif.Props.C35
import Verif.Props.C50

/-! # Helper lemmas: direction and distance of lines -/

namespace Discorpy

open Spec

theorem invert_roi {roi roi' : Mat ℝ} {bright : Bool}
    (h : (if bright then do
        let mx ← npMax roi.flat
        .ok { roi with get := fun i j => mx - roi.get i j }
      else .ok roi : Except PyErr (Mat ℝ)) = .ok roi') :
    roi'.height = roi.height ∧ roi'.width = roi.width ∧ ∃ value : ℝ → ℝ, (∀ i j, roi'.get i j = value (roi.get i j)) ∧
      (bright = false → ∀ v, value v = v) ∧
      (bright = true → ∃ M, (∀ v, value v = M - v) ∧ (∃ i j, i < roi.height ∧ j < roi.width ∧ M = roi.get i j) ∧
        ∀ i j, i < roi.height → j < roi.width → roi.get i j ≤ M) := by
  cases bright with
  | false =>
    simp only [Bool.false_eq_true, if_false] at h
    injection h with h
    subst h
    exact ⟨rfl, rfl, id, fun _ _ => rfl, fun _ _ => rfl, by simp⟩
  | true =>
    simp only [if_true] at h
    rw [bind_ok_iff] at h
    obtain ⟨mx, h1, h2⟩ := h
    injection h2 with h2
    have hne : roi.flat ≠ [] := by rintro h0; rw [h0] at h1; cases h1
    obtain ⟨M, e, hm, hmax⟩ := npMax_ok hne
    rw [h1] at e
    injection e with e
    subst e
    subst h2
    refine ⟨rfl, rfl, fun v => mx - v, fun _ _ => rfl, by simp, fun _ => ⟨mx, fun _ => rfl, ?_, ?_⟩⟩
    · obtain ⟨i, j, hi, hj, e⟩ := mem_flat_iff.1 hm
      exact ⟨i, j, hi, hj, e.symm⟩
    · intro i j hi hj
      exact hmax _ (mem_flat_iff.2 ⟨i, j, hi, hj, rfl⟩)

theorem lineRegion_disc {filter2 : Mat ℝ → Mat ℝ} {m img : Mat ℝ} {ratio : ℝ} {bright denoise : Bool}
    (h : lineRegion filter2 m ratio bright denoise = .ok img) :
    IsMiddleDisc (if denoise then filter2 m else m) ratio bright img := by
  unfold lineRegion at h
  simp only at h
  generalize (if denoise = true then filter2 m else m) = m' at h ⊢
  rw [bind_ok_iff] at h
  obtain ⟨roi', h1, h2⟩ := h
  injection h2 with h2
  subst h2
  obtain ⟨eh, ew, value, hv, hv0, hv1⟩ := invert_roi h1
  obtain ⟨a, b, k, hp, kh, kw, ha, hb, hr⟩ := C37_square m' ratio
  refine ⟨a, b, k, by simpa [eh] using kh, by simpa [ew] using kw, ha, hb, hr, value, fun i j => ?_, hv0, ?_⟩
  · have hc := (C50_pixels roi'.height 0.92).2.2 i j
    simp only
    rw [hc, hv, hp.get, eh, kh]
    have e : 2 * k / 2 = k := by omega
    rw [e, abs_of_pos (by norm_num : (0 : ℝ) < 0.92)]
    split_ifs <;> simp
  · intro hb'
    obtain ⟨M, h3, ⟨i, j, hi, hj, e⟩, h5⟩ := hv1 hb'
    rw [kh] at hi; rw [kw] at hj
    rw [hp.get] at e
    refine ⟨M, h3, ⟨i, j, hi, hj, e⟩, fun i j hi hj => ?_⟩
    rw [← hp.get]
    exact h5 i j (by omega) (by omega)

/-- The region of an image with pixels exists. -/
theorem lineRegion_ok {filter2 : Mat ℝ → Mat ℝ} {m : Mat ℝ} {ratio : ℝ} {bright denoise : Bool}
    (hm : 2 ≤ max 0.05 (min ratio 1) * (min (if denoise then filter2 m else m).height (if denoise then filter2 m else m).width : ℕ)) :
    ∃ img, lineRegion filter2 m ratio bright denoise = .ok img := by
  unfold lineRegion
  simp only
  generalize (if denoise = true then filter2 m else m) = m' at hm ⊢
  cases bright with
  | false => exact ⟨_, rfl⟩
  | true =>
    obtain ⟨a, b, k, hp, kh, kw, ha, hb, hr⟩ := C37_square m' ratio
    have hk : 0 < k := by
      have := (hr _ rfl).2
      rcases Nat.eq_zero_or_pos k with rfl | h
      · norm_num at this hm; linarith
      · exact h
    have hne : (selectRoi m' ratio true).flat ≠ [] := by
      intro h0
      have : (selectRoi m' ratio true).get 0 0 ∈ (selectRoi m' ratio true).flat :=
        mem_flat_iff.2 ⟨0, 0, by omega, by omega, rfl⟩
      rw [h0] at this
      simp at this
    obtain ⟨M, e, _, _⟩ := npMax_ok hne
    simp only [if_true, e, ok_bind]
    exact ⟨_, rfl⟩

theorem colMax_ok {sino : Mat ℝ} (h : 0 < sino.height) : ∃ l, colMax sino = .ok l ∧ l.length = sino.width ∧
    ∀ j (hj : j < l.length), (∃ i, i < sino.height ∧ l[j] = sino.get i j) ∧ ∀ i, i < sino.height → sino.get i j ≤ l[j] := by
  have hne : ∀ j, ((List.range sino.height).map fun i => sino.get i j) ≠ [] := by
    intro j; simp; omega
  choose f hf using fun j => npMax_ok (hne j)
  refine ⟨(List.range sino.width).map f, mapM_eq_map (fun j _ => (hf j).1), by simp, fun j hj => ?_⟩
  obtain ⟨_, h1, h2⟩ := hf j
  simp only [List.getElem_map, List.getElem_range]
  constructor
  · obtain ⟨i, hi, e⟩ := List.mem_map.1 h1
    exact ⟨i, List.mem_range.1 hi, e.symm⟩
  · intro i hi
    exact h2 _ (List.mem_map.2 ⟨i, List.mem_range.2 hi, rfl⟩)

/-- Outcome of the search for the sharpest column. -/
theorem sharpestAngle_ok {sino : Mat ℝ} {angles : List ℝ} (hh : 0 < sino.height) (hw : sino.width = angles.length)
    (hne : angles ≠ []) : ∃ k a, sharpestAngle sino angles = .ok (k, a) ∧ angles[k]? = some a ∧ IsSharpest sino k := by
  obtain ⟨l, e, hl, hs⟩ := colMax_ok hh
  have hl0 : l ≠ [] := by
    intro h0; rw [h0] at hl; simp only [List.length_nil] at hl
    exact hne (List.length_eq_zero_iff.1 (by omega))
  obtain ⟨k, e', hk, hmax, _⟩ := npArgmax_ok hl0
  have hka : k < angles.length := by omega
  refine ⟨k, angles[k], ?_, List.getElem?_eq_getElem hka, by omega, ?_⟩
  · unfold sharpestAngle
    rw [e, ok_bind, e', ok_bind, npGet_of_lt hka, ok_bind]
  · obtain ⟨⟨i, hi, ei⟩, _⟩ := hs k hk
    refine ⟨i, hi, fun i' j hi' hj => ?_⟩
    have hj' : j < l.length := by omega
    rw [← ei]
    exact ((hs j hj').2 i' hi').trans (hmax _ (List.getElem_mem hj'))

theorem sharpestAngle_spec {sino : Mat ℝ} {angles : List ℝ} (hw : sino.width = angles.length) {r : ℕ × ℝ}
    (h : sharpestAngle sino angles = .ok r) : angles[r.1]? = some r.2 ∧ IsSharpest sino r.1 := by
  have h' := h
  unfold sharpestAngle at h
  rw [bind_ok_iff] at h
  obtain ⟨l, h1, h⟩ := h
  rw [bind_ok_iff] at h
  obtain ⟨k, h2, _⟩ := h
  have hl0 : l ≠ [] := by rintro rfl; cases h2
  have hlen : l.length = sino.width := by
    unfold colMax at h1
    have := (mapM_ok_iff.1 h1).length_eq
    simpa using this.symm
  have hwp : 0 < sino.width := by rw [← hlen]; exact List.length_pos_iff.2 hl0
  have hhp : 0 < sino.height := by
    rcases Nat.eq_zero_or_pos sino.height with h0 | h0
    · exfalso
      unfold colMax at h1
      rw [h0] at h1
      have hf := mapM_ok_iff.1 h1
      rw [List.forall₂_iff_get] at hf
      have := hf.2 0 (by simpa using hwp) (by omega)
      simp [npMax] at this
    · exact h0
  obtain ⟨k', a, e, h3, h4⟩ := sharpestAngle_ok hhp hw (by rintro rfl; simp at hw; omega)
  rw [h'] at e
  injection e with e
  subst e
  exact ⟨h3, h4⟩

theorem lineSpacing_spec {pts : List ℝ} (h : 2 ≤ pts.length) : ∃ d, lineSpacing pts = .ok d ∧ IsPointDistance pts d := by
  unfold lineSpacing IsPointDistance
  have hs : ∀ s, ∃ d, lineDist s pts = .ok d ∧ IsSpacing pts d s := fun s => lineDist_spacing s h
  by_cases h4 : 4 ≤ pts.length
  · obtain ⟨d, e, hd⟩ := hs .median
    rw [if_pos h4, if_pos (by omega)]
    exact ⟨d, e, h, hd⟩
  · obtain ⟨d, e, hd⟩ := hs .mean
    rw [if_neg h4, if_neg (by omega)]
    exact ⟨d, e, h, hd⟩

theorem lineSpacing_few {pts : List ℝ} (h : pts.length < 2) : lineSpacing pts = .error .nonFinite := by
  unfold lineSpacing
  rw [if_neg (by omega)]
  match pts, h with
  | [], _ => rfl
  | [_], _ => rfl

/-- Angles of the search grid. -/
theorem arange_getElem? {start stop step s : ℝ} {k : ℕ} (hs : 0 < step) (h : (arange start stop step)[k]? = some s) :
    s = start + k * step ∧ s < stop := by
  unfold arange at h
  rw [List.getElem?_map] at h
  rw [Option.map_eq_some_iff] at h
  obtain ⟨i, hi, e⟩ := h
  rw [List.getElem?_eq_some_iff] at hi
  obtain ⟨hk, hi⟩ := hi
  rw [List.getElem_range] at hi
  subst hi
  refine ⟨e.symm, ?_⟩
  have hm : s ∈ arange start stop step := by
    unfold arange
    rw [List.length_range] at hk
    exact List.mem_map.2 ⟨k, List.mem_range.2 hk, e⟩
  obtain ⟨_, _, hlt⟩ := (mem_arange hs).1 hm
  exact hlt

/-- Some angle of the grid is within half a step of `α`. -/
theorem arange_near {start stop step α : ℝ} (hs : 0 < step) (h0 : start ≤ α) (h1 : α + step ≤ stop) :
    ∃ s ∈ arange start stop step, |s - α| ≤ step / 2 := by
  have hq : 0 ≤ (α - start) / step := div_nonneg (by linarith) hs.le
  have hf := Nat.floor_le hq
  have hf' := Nat.lt_floor_add_one ((α - start) / step)
  rw [le_div_iff₀ hs] at hf
  rw [div_lt_iff₀ hs] at hf'
  generalize ⌊(α - start) / step⌋₊ = k at hf hf'
  by_cases hh : α - start - k * step ≤ step / 2
  · refine ⟨start + k * step, (mem_arange hs).2 ⟨k, rfl, by linarith⟩, ?_⟩
    rw [abs_le]; constructor <;> linarith
  · have hh := not_le.1 hh
    by_cases hlt : start + ((k + 1 : ℕ) : ℝ) * step < stop
    · refine ⟨start + ((k + 1 : ℕ) : ℝ) * step, (mem_arange hs).2 ⟨k + 1, rfl, hlt⟩, ?_⟩
      push_cast
      rw [abs_le]; constructor <;> nlinarith
    · push_cast at hlt
      have := not_lt.1 hlt
      exfalso
      nlinarith

end Discorpy
