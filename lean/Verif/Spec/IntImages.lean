import Verif.Model.IntImages
import Verif.Spec.Image

/-! # Specification: images with integer pixels -/

namespace Discorpy.Spec

open Discorpy

/-- The value can be stored in the dtype. -/
def Fits (T : IntType) (n : ℤ) : Prop := T.lo ≤ n ∧ n ≤ T.hi

/-- `n` is the value of the dtype nearest to `t`, of two equally near ones the one further from zero. -/
structure IsNearest (T : IntType) (t : ℝ) (n : ℤ) : Prop where
  fits : Fits T n
  near : ∀ k, Fits T k → |(n : ℝ) - t| ≤ |(k : ℝ) - t|
  tie : ∀ k, Fits T k → |(n : ℝ) - t| = |(k : ℝ) - t| → |k| ≤ |n|

/-- All pixels are values of the dtype. -/
def FitsImage (T : IntType) (m : Mat ℤ) : Prop := ∀ i < m.height, ∀ j < m.width, Fits T (m.get i j)

end Discorpy.Spec
