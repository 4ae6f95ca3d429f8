import Verif.Spec.Spacing
import Verif.Py.Array

/-! # Specification of the direction and the distance of lines -/

namespace Discorpy.Spec

open Discorpy

/-- `img` is the square in the middle of `m` with a side of about `ratio` (limited to `[0.05, 1]`) of the smaller side of `m`;
pixels outside of the circle with a radius of 92% of half the side are zero, and the contrast of the others is inverted against
the brightest pixel of the square if asked for. -/
def IsMiddleDisc (m : Mat ℝ) (ratio : ℝ) (invert : Bool) (img : Mat ℝ) : Prop :=
  ∃ a b k : ℕ, img.height = 2 * k ∧ img.width = 2 * k ∧
    (2 * a + 2 * k = m.height ∨ 2 * a + 2 * k + 1 = m.height) ∧ (2 * b + 2 * k = m.width ∨ 2 * b + 2 * k + 1 = m.width) ∧
    (∀ r, r = max 0.05 (min ratio 1) → 2 * (k : ℝ) ≤ r * (min m.height m.width : ℕ) ∧ r * (min m.height m.width : ℕ) < 2 * k + 2) ∧
    ∃ value : ℝ → ℝ,
      (∀ i j : ℕ, img.get i j = if √(((i : ℝ) - k) ^ 2 + ((j : ℝ) - k) ^ 2) ≤ 0.92 * k then value (m.get (a + i) (b + j)) else 0) ∧
      (invert = false → ∀ v, value v = v) ∧
      (invert = true → ∃ M, (∀ v, value v = M - v) ∧ (∃ i j, i < 2 * k ∧ j < 2 * k ∧ M = m.get (a + i) (b + j)) ∧
        ∀ i j, i < 2 * k → j < 2 * k → m.get (a + i) (b + j) ≤ M)

/-- Column `k` has the largest value of all columns. -/
def IsSharpest (sino : Mat ℝ) (k : ℕ) : Prop :=
  k < sino.width ∧ ∃ i, i < sino.height ∧ ∀ i' j, i' < sino.height → j < sino.width → sino.get i' j ≤ sino.get i k

/-- A search for the sharpest angle in two steps. The coarse angles are those in steps of one degree within `R` of `base`, `a1` is
the sharpest; the fine angles are the 41 angles in steps of 1/20 degree around `a1`, `a2` (number `k2`) is the sharpest. -/
def IsAngleSearch (radon : Mat ℝ → List ℝ → Mat ℝ) (img : Mat ℝ) (base R a1 a2 : ℝ) (coarse fine : List ℝ) (k2 : ℕ) : Prop :=
  (∀ a, a ∈ coarse ↔ ∃ k : ℕ, a = base - R + k ∧ a < base + R + 1) ∧
  (∃ k1, coarse[k1]? = some a1 ∧ IsSharpest (radon img coarse) k1) ∧
  (∀ a, a ∈ fine ↔ ∃ k : ℕ, k ≤ 40 ∧ a = a1 - 1 + k / 20) ∧
  fine[k2]? = some a2 ∧ IsSharpest (radon img fine) k2

/-- Column `k` of an array. -/
def column (m : Mat ℝ) (k : ℕ) : List ℝ := (List.range m.height).map fun i => m.get i k

/-- The distance of points on a line: the median of the gaps, the mean for fewer than four points. -/
def IsPointDistance (pts : List ℝ) (d : ℝ) : Prop :=
  2 ≤ pts.length ∧ IsSpacing pts d (if 4 ≤ pts.length then .median else .mean)

end Discorpy.Spec
