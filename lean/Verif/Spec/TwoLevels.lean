import Verif.Spec.Otsu

/-! # Specification: brightness values near two levels -/

namespace Discorpy.Spec

/-- The values are near two levels `a` and `b`, within `e`, and the levels are far apart: the square of the gap between the two groups of values
is at least the square of their width `2 * e` times the number of all values over the number of values of either group. -/
structure TwoLevels (ys : List ℝ) (a b e : ℝ) : Prop where
  near : ∀ y ∈ ys, |y - a| ≤ e ∨ |y - b| ≤ e
  apart : a + 2 * e < b
  low : ∃ y ∈ ys, |y - a| ≤ e
  high : ∃ y ∈ ys, |y - b| ≤ e
  dark : (2 * e) ^ 2 * ys.length ≤ (b - a - 2 * e) ^ 2 * (ys.filter fun y => |y - a| ≤ e).length
  bright : (2 * e) ^ 2 * ys.length ≤ (b - a - 2 * e) ^ 2 * (ys.filter fun y => |y - b| ≤ e).length

end Discorpy.Spec
