import Verif.Lemmas.Chessboard

/-! # C47 — conversion of a chessboard image to a line pattern -/

namespace Discorpy
open Spec

theorem convert_dark (filter2 : Mat ℝ → Mat ℝ) (m : Mat ℝ) (hh : 4 < m.height) (hw : 4 < m.width) :
    convertChessboard filter2 m false false = normLine (cropPad (meanAbsGradient m) 2) := by
  unfold convertChessboard
  simp only [Bool.false_eq_true, if_false]
  rw [if_neg (by omega), if_neg (by omega)]
  rfl

theorem convert_bright (filter2 : Mat ℝ → Mat ℝ) (m : Mat ℝ) (hh : 4 < m.height) (hw : 4 < m.width) :
    convertChessboard filter2 m false true = (do
      let mx ← npMax (cropPad (meanAbsGradient m) 2).flat
      normLine { cropPad (meanAbsGradient m) 2 with get := fun i j => mx - (cropPad (meanAbsGradient m) 2).get i j }) := by
  unfold convertChessboard
  simp only [Bool.false_eq_true, if_false, if_true]
  rw [if_neg (by omega), if_neg (by omega), bind_assoc]
  rfl

/-- **C47 (small images).** An image with at most four rows or columns is rejected. -/
theorem C47_small (filter2 : Mat ℝ → Mat ℝ) (m : Mat ℝ) (bright : Bool) (h : m.height ≤ 4 ∨ m.width ≤ 4) :
    convertChessboard filter2 m false bright = .error .valueError := by
  unfold convertChessboard
  simp only [Bool.false_eq_true, if_false]
  split_ifs
  · rfl
  · rfl

example (f : Mat ℝ → Mat ℝ) := C47_small f ⟨4, 9, fun _ j => if j ≤ 2 then 0 else 1⟩ true (.inl (by norm_num))

/-- **C47 (dark background).** The output has the shape of the input; its values are proportional to the edge strength at the
pixel (for the two outer rows and columns: at the nearest inner pixel), hence non-negative; their mean is 1. If there are no
edges at all, the division fails. -/
theorem C47_dark (filter2 : Mat ℝ → Mat ℝ) (m : Mat ℝ) (hh : 4 < m.height) (hw : 4 < m.width) :
    ((∀ i j, i < m.height → j < m.width → edgeStrength m (inner m.height i) (inner m.width j) = 0) ∧
      convertChessboard filter2 m false false = .error .nonFinite) ∨
    ((∃ i j, i < m.height ∧ j < m.width ∧ edgeStrength m (inner m.height i) (inner m.width j) ≠ 0) ∧
      ∃ μ > 0, ∃ r, convertChessboard filter2 m false false = .ok r ∧ r.height = m.height ∧ r.width = m.width ∧
        (∀ i j, r.get i j = edgeStrength m (inner m.height i) (inner m.width j) / μ ∧ 0 ≤ r.get i j) ∧
        (r.flat.map abs).sum / (r.height * r.width : ℕ) = 1) := by
  rw [convert_dark filter2 m hh hw]
  have hval := line_inner m hh hw
  have hnn : ∀ i j, 0 ≤ edgeStrength m i j := fun i j => by unfold edgeStrength; positivity
  rcases normLine_outcome (line := cropPad (meanAbsGradient m) 2) (by exact (by omega : 0 < m.height))
    (by exact (by omega : 0 < m.width)) (fun i j _ _ => by rw [hval]; exact hnn _ _) with ⟨h1, h2⟩ | ⟨h1, μ, hμ, r, h2, h3, h4, h5, h6⟩
  · left
    refine ⟨fun i j hi hj => ?_, h2⟩
    rw [← hval]; exact h1 i j hi hj
  · right
    obtain ⟨i, j, hi, hj, hne⟩ := h1
    rw [hval] at hne
    refine ⟨⟨i, j, hi, hj, hne⟩, μ, hμ, r, h2, h3, h4, fun i j => ?_, h6⟩
    rw [h5, hval]
    exact ⟨rfl, div_nonneg (hnn _ _) hμ.le⟩

/-- **C47 (bright background).** The same with the edge strength subtracted from its maximum `M`; the division fails exactly
if the edge strength is constant. -/
theorem C47_bright (filter2 : Mat ℝ → Mat ℝ) (m : Mat ℝ) (hh : 4 < m.height) (hw : 4 < m.width) :
    ∃ M, (∃ i j, i < m.height ∧ j < m.width ∧ edgeStrength m (inner m.height i) (inner m.width j) = M) ∧
      (∀ i j, i < m.height → j < m.width → edgeStrength m (inner m.height i) (inner m.width j) ≤ M) ∧
    (((∀ i j, i < m.height → j < m.width → edgeStrength m (inner m.height i) (inner m.width j) = M) ∧
      convertChessboard filter2 m false true = .error .nonFinite) ∨
    ((∃ i j, i < m.height ∧ j < m.width ∧ edgeStrength m (inner m.height i) (inner m.width j) ≠ M) ∧
      ∃ μ > 0, ∃ r, convertChessboard filter2 m false true = .ok r ∧ r.height = m.height ∧ r.width = m.width ∧
        (∀ i j, i < m.height → j < m.width → r.get i j = (M - edgeStrength m (inner m.height i) (inner m.width j)) / μ ∧
          0 ≤ r.get i j) ∧
        (r.flat.map abs).sum / (r.height * r.width : ℕ) = 1)) := by
  rw [convert_bright filter2 m hh hw]
  have hval := line_inner m hh hw
  have h0 : 0 < (cropPad (meanAbsGradient m) 2).height := by exact (by omega : 0 < m.height)
  have w0 : 0 < (cropPad (meanAbsGradient m) 2).width := by exact (by omega : 0 < m.width)
  obtain ⟨M, hM, hmem, hmax⟩ := npMax_ok (flat_ne_nil h0 w0)
  obtain ⟨i0, j0, hi0, hj0, hM0⟩ := mem_flat_iff.1 hmem
  have hle : ∀ i j, i < m.height → j < m.width → edgeStrength m (inner m.height i) (inner m.width j) ≤ M := by
    intro i j hi hj
    rw [← hval]
    exact hmax _ (mem_flat_iff.2 ⟨i, j, hi, hj, rfl⟩)
  refine ⟨M, ⟨i0, j0, hi0, hj0, by rw [← hval]; exact hM0⟩, hle, ?_⟩
  rw [hM, ok_bind]
  rcases normLine_outcome (line := { cropPad (meanAbsGradient m) 2 with get := fun i j => M - (cropPad (meanAbsGradient m) 2).get i j })
    h0 w0 (fun i j hi hj => by simp only [hval]; linarith [hle i j hi hj]) with ⟨h1, h2⟩ | ⟨h1, μ, hμ, r, h2, h3, h4, h5, h6⟩
  · left
    refine ⟨fun i j hi hj => ?_, h2⟩
    have := h1 i j hi hj
    simp only [hval] at this
    linarith
  · right
    obtain ⟨i, j, hi, hj, hne⟩ := h1
    simp only [hval] at hne
    refine ⟨⟨i, j, hi, hj, fun h => hne (by rw [h, sub_self])⟩, μ, hμ, r, h2, h3, h4, fun i j hi hj => ?_, h6⟩
    rw [h5]
    simp only [hval, true_and]
    exact div_nonneg (by linarith [hle i j hi hj]) hμ.le

example (f : Mat ℝ → Mat ℝ) := C47_bright f ⟨5, 5, fun _ j => if j ≤ 2 then 0 else 1⟩ (by norm_num) (by norm_num)

/-- **C47 (invariance).** Scaling the grey values by a non-zero factor and adding a constant does not change the outcome. -/
theorem C47_affine (filter2 : Mat ℝ → Mat ℝ) (m : Mat ℝ) (c d : ℝ) (hc : c ≠ 0) (bright : Bool) :
    convertChessboard filter2 { m with get := fun i j => c * m.get i j + d } false bright = convertChessboard filter2 m false bright := by
  by_cases hs : m.height ≤ 4 ∨ m.width ≤ 4
  · rw [C47_small _ _ _ hs, C47_small _ _ _ (by exact hs)]
  · have hh : 4 < m.height := by omega
    have hw : 4 < m.width := by omega
    have hc' : 0 < |c| := abs_pos.2 hc
    cases bright with
    | false => rw [convert_dark _ m hh hw, convert_dark _ ⟨m.height, m.width, fun i j => c * m.get i j + d⟩ hh hw, line_affine, normLine_scale hc']
    | true =>
      rw [convert_bright _ m hh hw, convert_bright _ ⟨m.height, m.width, fun i j => c * m.get i j + d⟩ hh hw, line_affine, scaleMat_flat]
      have h0 : 0 < (cropPad (meanAbsGradient m) 2).height := by exact (by omega : 0 < m.height)
      have w0 : 0 < (cropPad (meanAbsGradient m) 2).width := by exact (by omega : 0 < m.width)
      obtain ⟨M, hM, _⟩ := npMax_ok (flat_ne_nil h0 w0)
      rw [npMax_scale hc' hM, hM, ok_bind, ok_bind]
      have e : ({ scaleMat |c| (cropPad (meanAbsGradient m) 2) with
          get := fun i j => |c| * M - (scaleMat |c| (cropPad (meanAbsGradient m) 2)).get i j } : Mat ℝ) =
          scaleMat |c| { cropPad (meanAbsGradient m) 2 with get := fun i j => M - (cropPad (meanAbsGradient m) 2).get i j } := by
        simp only [scaleMat, ← mul_sub]
      rw [e, normLine_scale hc']

example (f : Mat ℝ → Mat ℝ) := C47_affine f ⟨5, 5, fun _ j => if j ≤ 2 then 0 else 1⟩ (-2) 3 (by norm_num) true

/-- The hypotheses can be met: in a 5 × 5 image with a step between columns 2 and 3 the output exists and is positive at the
centre. -/
example (filter2 : Mat ℝ → Mat ℝ) : ∃ r, convertChessboard filter2 ⟨5, 5, fun _ j => if j ≤ 2 then 0 else 1⟩ false false = .ok r ∧
    0 < r.get 2 2 := by
  rcases C47_dark filter2 ⟨5, 5, fun _ j => if j ≤ 2 then 0 else 1⟩ (by norm_num) (by norm_num) with ⟨h, _⟩ | ⟨_, μ, hμ, r, h, _, _, hv, _⟩
  · have := h 2 2 (by norm_num) (by norm_num)
    norm_num [edgeStrength, inner] at this
  · refine ⟨r, h, ?_⟩
    rw [(hv 2 2).1]
    refine div_pos ?_ hμ
    norm_num [edgeStrength, inner]

end Discorpy
