import Verif.Model.LinePattern
import Verif.Spec.Chessboard
import Verif.Lemmas.Array
import Verif.Lemmas.Except

/-! # Helper lemmas: chessboard to line pattern -/

namespace Discorpy
open Spec

theorem mem_flat_iff {m : Mat ℝ} {x : ℝ} : x ∈ m.flat ↔ ∃ i j, i < m.height ∧ j < m.width ∧ m.get i j = x := by
  unfold Mat.flat
  simp only [List.mem_flatMap, List.mem_map, List.mem_range]
  constructor
  · rintro ⟨i, hi, j, hj, rfl⟩; exact ⟨i, j, hi, hj, rfl⟩
  · rintro ⟨i, j, hi, hj, rfl⟩; exact ⟨i, hi, j, hj, rfl⟩

theorem flat_length (m : Mat ℝ) : m.flat.length = m.height * m.width := by
  unfold Mat.flat
  rw [List.length_flatMap]
  simp

theorem flat_ne_nil {m : Mat ℝ} (h : 0 < m.height) (w : 0 < m.width) : m.flat ≠ [] := by
  rw [← List.length_pos_iff, flat_length]; positivity

theorem flat_map (m : Mat ℝ) (f : ℝ → ℝ) : ({ m with get := fun i j => f (m.get i j) } : Mat ℝ).flat = m.flat.map f := by
  unfold Mat.flat
  simp [List.map_flatMap, Function.comp_def]

theorem npMax_scale {l : List ℝ} {c : ℝ} (hc : 0 < c) {M : ℝ} (h : npMax l = .ok M) : npMax (l.map fun x => c * x) = .ok (c * M) := by
  have hne : l ≠ [] := by rintro rfl; cases h
  obtain ⟨M', h1, hm, hmax⟩ := npMax_ok hne
  rw [h] at h1; injection h1 with h1; subst h1
  have : (l.map fun x => c * x).max? = some (c * M) := by
    rw [List.max?_eq_some_iff]
    refine ⟨List.mem_map.2 ⟨M, hm, rfl⟩, fun y hy => ?_⟩
    obtain ⟨x, hx, rfl⟩ := List.mem_map.1 hy
    exact mul_le_mul_of_nonneg_left (hmax x hx) hc.le
  unfold npMax
  rw [this]

/-- A scaled image. -/
def scaleMat (c : ℝ) (m : Mat ℝ) : Mat ℝ := { m with get := fun i j => c * m.get i j }

theorem scaleMat_flat (c : ℝ) (m : Mat ℝ) : (scaleMat c m).flat = m.flat.map fun x => c * x := flat_map m _

theorem gradient1_affine (f : ℕ → ℝ) (c d : ℝ) (n i : ℕ) : gradient1 (fun k => c * f k + d) n i = c * gradient1 f n i := by
  unfold gradient1
  split_ifs <;> ring

theorem line_affine (m : Mat ℝ) (c d : ℝ) (k : ℕ) :
    cropPad (meanAbsGradient { m with get := fun i j => c * m.get i j + d }) k = scaleMat |c| (cropPad (meanAbsGradient m) k) := by
  unfold cropPad meanAbsGradient scaleMat
  simp only [gradient1_affine, abs_mul]
  congr 1
  funext i j
  ring

/-- Final normalisation of the line image. -/
noncomputable def normLine (line : Mat ℝ) : Except PyErr (Mat ℝ) := do
  let mean ← npMean (line.flat.map abs)
  if mean = 0 then .error .nonFinite else .ok { line with get := fun i j => line.get i j / mean }

theorem normLine_scale {line : Mat ℝ} {c : ℝ} (hc : 0 < c) : normLine (scaleMat c line) = normLine line := by
  unfold normLine
  rw [scaleMat_flat]
  rcases eq_or_ne line.flat [] with h | h
  · rw [h]
    rfl
  have e : ((line.flat.map fun x => c * x).map abs) = (line.flat.map abs).map fun x => c * x := by
    rw [List.map_map, List.map_map]
    apply List.map_congr_left
    intro x _
    simp only [Function.comp, abs_mul, abs_of_pos hc]
  rw [npMean_ok (by simpa using h), npMean_ok (by simpa using h), ok_bind, ok_bind, e, List.sum_map_mul_left, List.length_map,
    List.map_id', mul_div_assoc]
  by_cases h0 : (line.flat.map abs).sum / (line.flat.map abs).length = 0
  · rw [if_pos h0, if_pos (by rw [h0, mul_zero])]
  · rw [if_neg h0, if_neg (mul_ne_zero hc.ne' h0)]
    congr 1
    unfold scaleMat
    simp only [mul_div_mul_left _ _ hc.ne']

/-- The outcome of the normalisation of a non-negative image. -/
theorem normLine_outcome {line : Mat ℝ} (hh : 0 < line.height) (hw : 0 < line.width)
    (hnn : ∀ i j, i < line.height → j < line.width → 0 ≤ line.get i j) :
    ((∀ i j, i < line.height → j < line.width → line.get i j = 0) ∧ normLine line = .error .nonFinite) ∨
    ((∃ i j, i < line.height ∧ j < line.width ∧ line.get i j ≠ 0) ∧
      ∃ μ > 0, ∃ r, normLine line = .ok r ∧ r.height = line.height ∧ r.width = line.width ∧ (∀ i j, r.get i j = line.get i j / μ) ∧
        (r.flat.map abs).sum / (r.height * r.width : ℕ) = 1) := by
  have hne := flat_ne_nil hh hw
  have hlen : (0 : ℝ) < line.flat.length := by exact_mod_cast List.length_pos_iff.2 hne
  have hnn' : ∀ x ∈ line.flat.map abs, 0 ≤ x := by
    intro x hx
    obtain ⟨y, _, rfl⟩ := List.mem_map.1 hx
    exact abs_nonneg y
  unfold normLine
  rw [npMean_ok (by simpa using hne), ok_bind, List.length_map]
  by_cases h0 : (line.flat.map abs).sum / line.flat.length = 0
  · left
    rw [if_pos h0]
    refine ⟨fun i j hi hj => ?_, rfl⟩
    have hs : (line.flat.map abs).sum = 0 := by
      rcases div_eq_zero_iff.1 h0 with h | h
      · exact h
      · exact absurd h hlen.ne'
    have hm : |line.get i j| ∈ line.flat.map abs := List.mem_map.2 ⟨_, mem_flat_iff.2 ⟨i, j, hi, hj, rfl⟩, rfl⟩
    have := List.single_le_sum hnn' _ hm
    rw [hs] at this
    exact abs_nonpos_iff.1 this
  · right
    rw [if_neg h0]
    have hμ : 0 < (line.flat.map abs).sum / line.flat.length :=
      lt_of_le_of_ne (div_nonneg (List.sum_nonneg hnn') hlen.le) (Ne.symm h0)
    refine ⟨?_, _, hμ, _, rfl, rfl, rfl, fun i j => rfl, ?_⟩
    · by_contra hc
      push Not at hc
      apply h0
      rw [List.sum_eq_zero, zero_div]
      intro x hx
      obtain ⟨y, hy, rfl⟩ := List.mem_map.1 hx
      obtain ⟨i, j, hi, hj, rfl⟩ := mem_flat_iff.1 hy
      rw [hc i j hi hj, abs_zero]
    · have e := flat_map line fun x => x / ((line.flat.map abs).sum / line.flat.length)
      rw [e, List.map_map]
      have e2 : (line.flat.map (abs ∘ fun x => x / ((line.flat.map abs).sum / line.flat.length))) =
          (line.flat.map abs).map fun x => x * ((line.flat.map abs).sum / line.flat.length)⁻¹ := by
        rw [List.map_map]
        apply List.map_congr_left
        intro x _
        simp only [Function.comp]
        rw [abs_div, abs_of_pos hμ, div_eq_mul_inv]
      rw [e2, List.sum_map_mul_right, List.map_id', flat_length line] at *
      have hl : (0 : ℝ) < ((line.height * line.width : ℕ) : ℝ) := by exact_mod_cast Nat.mul_pos hh hw
      have : (line.flat.map abs).sum ≠ 0 := fun h => h0 (by rw [h, zero_div])
      field_simp

/-- At least two pixels from the border, the gradient is the central difference. -/
theorem line_inner (m : Mat ℝ) (hh : 4 < m.height) (hw : 4 < m.width) (i j : ℕ) :
    (cropPad (meanAbsGradient m) 2).get i j = edgeStrength m (inner m.height i) (inner m.width j) := by
  have h1 : max 2 (min i (m.height - 1 - 2)) = inner m.height i := by unfold inner; omega
  have h2 : max 2 (min j (m.width - 1 - 2)) = inner m.width j := by unfold inner; omega
  have b1 : 2 ≤ inner m.height i ∧ inner m.height i < m.height - 2 := by unfold inner; omega
  have b2 : 2 ≤ inner m.width j ∧ inner m.width j < m.width - 2 := by unfold inner; omega
  unfold cropPad meanAbsGradient edgeStrength gradient1
  simp only
  rw [h1, h2, if_neg (by omega), if_neg (by omega), if_neg (by omega), if_neg (by omega), abs_div, abs_div, abs_two]

end Discorpy
