import Verif.Spec.Image

/-! # Specification of cropped images and of coordinates counted from another pixel -/

namespace Discorpy.Spec

open Discorpy

/-- `m'` is the part of the image `m` that begins at row `t` and column `l`. -/
structure IsCrop (t l : ℕ) (m m' : Mat ℝ) : Prop where
  height : t + m'.height ≤ m.height
  width : l + m'.width ≤ m.width
  pixel : ∀ i < m'.height, ∀ j < m'.width, m'.get i j = m.get (t + i) (l + j)

/-- The perspective coefficients for coordinates counted from the point with row `t` and column `l`. -/
noncomputable def movedCoefs (t l c1 c2 c3 c4 c5 c6 c7 c8 : ℝ) : List ℝ :=
  let d := c7 * l + c8 * t + 1
  [(c1 - l * c7) / d, (c2 - l * c8) / d, (c1 * l + c2 * t + c3 - l * d) / d, (c4 - t * c7) / d, (c5 - t * c8) / d,
    (c4 * l + c5 * t + c6 - t * d) / d, c7 / d, c8 / d]

end Discorpy.Spec
