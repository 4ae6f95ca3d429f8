import Verif.Model.LinePattern

/-! # C50 — the circle mask -/

namespace Discorpy

/-- **C50 (pixels).** The mask is a square of the requested width; a pixel is 1 exactly if its distance to the pixel
(width // 2, width // 2) is at most |ratio| · (width // 2), and 0 otherwise. -/
theorem C50_pixels (width : ℕ) (ratio : ℝ) :
    (makeCircleMask width ratio).height = width ∧ (makeCircleMask width ratio).width = width ∧
    ∀ i j : ℕ, (makeCircleMask width ratio).get i j =
      if √(((i : ℝ) - (width / 2 : ℕ)) ^ 2 + ((j : ℝ) - (width / 2 : ℕ)) ^ 2) ≤ |ratio| * (width / 2 : ℕ) then 1 else 0 := by
  refine ⟨rfl, rfl, fun i j => ?_⟩
  have h0 : 0 ≤ |ratio| * ((width / 2 : ℕ) : ℝ) := by positivity
  unfold makeCircleMask
  simp only [Real.sqrt_le_left h0, mul_pow, sq_abs]
  congr 1
  simp only [Int.cast_natCast]
  apply propext
  constructor <;> intro h <;> nlinarith

/-- **C50 (symmetry).** The mask is symmetric under transposition and under reflection at the pixel (width // 2, width // 2)
along each axis. -/
theorem C50_symmetric (width : ℕ) (ratio : ℝ) (i j : ℕ) :
    (makeCircleMask width ratio).get i j = (makeCircleMask width ratio).get j i ∧
    (∀ i', i + i' = 2 * (width / 2) → (makeCircleMask width ratio).get i' j = (makeCircleMask width ratio).get i j) ∧
    (∀ j', j + j' = 2 * (width / 2) → (makeCircleMask width ratio).get i j' = (makeCircleMask width ratio).get i j) := by
  simp only [(C50_pixels width ratio).2.2]
  refine ⟨by rw [add_comm], fun i' h => ?_, fun j' h => ?_⟩
  · have e : (i : ℝ) + i' = 2 * ((width / 2 : ℕ) : ℝ) := by exact_mod_cast h
    rw [show (i' : ℝ) - (width / 2 : ℕ) = -((i : ℝ) - (width / 2 : ℕ)) by linarith, neg_sq]
  · have e : (j : ℝ) + j' = 2 * ((width / 2 : ℕ) : ℝ) := by exact_mod_cast h
    rw [show (j' : ℝ) - (width / 2 : ℕ) = -((j : ℝ) - (width / 2 : ℕ)) by linarith, neg_sq]

/-- **C50 (growth).** A larger ratio gives a larger mask. -/
theorem C50_mono (width : ℕ) {r1 r2 : ℝ} (h0 : 0 ≤ r1) (h : r1 ≤ r2) (i j : ℕ) :
    (makeCircleMask width r1).get i j ≤ (makeCircleMask width r2).get i j := by
  simp only [(C50_pixels width _).2.2]
  have : |r1| * ((width / 2 : ℕ) : ℝ) ≤ |r2| * (width / 2 : ℕ) := by
    rw [abs_of_nonneg h0, abs_of_nonneg (h0.trans h)]
    exact mul_le_mul_of_nonneg_right h (by positivity)
  split_ifs with h1 h2
  · exact le_rfl
  · exact absurd (h1.trans this) h2
  · exact zero_le_one
  · exact le_rfl

example := C50_mono 5 (r1 := 1 / 2) (r2 := 1) (by norm_num) (by norm_num) 2 0

/-- A concrete mask: width 5, ratio 1 contains (2, 0) and not (1, 0). -/
example : (makeCircleMask 5 1).get 2 0 = 1 ∧ (makeCircleMask 5 1).get 1 0 = 0 := by
  norm_num [makeCircleMask]

end Discorpy
