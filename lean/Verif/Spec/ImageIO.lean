import Verif.Model.ImageIO

/-! # Specification: image files -/

namespace Discorpy.Spec

/-- Numbers that a pixel of the given type can hold. -/
def PixelOf : PixelType → ℝ → Prop
  | .uint8, x => ∃ n : ℤ, x = n ∧ 0 ≤ n ∧ n < 256
  | .bool, x => x = 0 ∨ x = 1
  | .int bits, x => ∃ n : ℤ, x = n ∧ -2 ^ (bits - 1) ≤ n ∧ n < 2 ^ (bits - 1)
  | .uint bits, x => ∃ n : ℤ, x = n ∧ 0 ≤ n ∧ n < 2 ^ bits
  | .float, _ => True

/-- The least and the greatest of some numbers. -/
def Extremes (l : List ℝ) (lo hi : ℝ) : Prop := lo ∈ l ∧ hi ∈ l ∧ ∀ x ∈ l, lo ≤ x ∧ x ≤ hi

/-- Types in which differences of pixels between the two values can be computed. -/
def DifferencesFit : PixelType → ℝ → ℝ → Prop
  | .int bits, lo, hi => 1 ≤ bits ∧ hi - lo < 2 ^ (bits - 1)
  | .bool, _, _ => False
  | _, _, _ => True

/-- The mean of the channels of a pixel. -/
noncomputable def channelMean (c : ℕ) (get : ℕ → ℕ → ℕ → ℝ) (i j : ℕ) : ℝ := (∑ k ∈ Finset.range c, get i j k) / c

end Discorpy.Spec
