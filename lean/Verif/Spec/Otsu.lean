import Mathlib.Data.Real.Basic
import Mathlib.Data.List.Basic

/-! # Specification: Otsu's criterion -/

namespace Discorpy.Spec

/-- The variance between the two classes of values, up to `t` and above `t` (up to a factor): the product of the numbers of values and
of the squared difference of the means; nothing if a class is empty. -/
noncomputable def classSpread (ys : List ℝ) (t : ℝ) : ℝ :=
  let a := ys.filter fun y => y ≤ t
  let b := ys.filter fun y => t < y
  a.length * b.length * (a.sum / a.length - b.sum / b.length) ^ 2

/-- `t` is the least of the values with the largest variance between the classes. -/
structure OtsuThreshold (ys : List ℝ) (t : ℝ) : Prop where
  mem : t ∈ ys
  best : ∀ s, classSpread ys s ≤ classSpread ys t
  first : ∀ s < t, classSpread ys s < classSpread ys t

/-- `y` is the centre of the bin to which `x` belongs, for `n` bins of equal width from `lo` to `hi`. -/
def Binned (lo hi : ℝ) (n : ℕ) (x y : ℝ) : Prop :=
  ∃ k : ℕ, k < n ∧ y = lo + (k + 1 / 2) * ((hi - lo) / n) ∧ lo + k * ((hi - lo) / n) ≤ x ∧
    (x < lo + (k + 1) * ((hi - lo) / n) ∨ k + 1 = n ∧ x = hi)

end Discorpy.Spec
