import Verif.Py.Num

/-!
# Specification of linear interpolation and of radial polynomials

Independent of the model: no boundary handling, no crops.
-/

namespace Discorpy.Spec

open Discorpy

/-- Bilinear interpolation of `m` at a coordinate inside the image: the four surrounding samples (the upper
neighbour is clamped to the last sample, where its weight is `0`), weighted by the fractional parts. -/
noncomputable def bilinear (m : Mat ℝ) (y x : ℝ) : ℝ :=
  let y0 := ⌊y⌋₊
  let x0 := ⌊x⌋₊
  let y1 := min (y0 + 1) (m.height - 1)
  let x1 := min (x0 + 1) (m.width - 1)
  let fy := y - y0
  let fx := x - x0
  (1 - fy) * (1 - fx) * m.get y0 x0 + (1 - fy) * fx * m.get y0 x1 +
    fy * (1 - fx) * m.get y1 x0 + fy * fx * m.get y1 x1

/-- The coordinate `(y, x)` lies inside the image `m`. -/
def InFrame (m : Mat ℝ) (y x : ℝ) : Prop :=
  0 ≤ y ∧ y ≤ (m.height : ℝ) - 1 ∧ 0 ≤ x ∧ x ≤ (m.width : ℝ) - 1

/-- The radial polynomial `c₀ + c₁ r + c₂ r² + …`. -/
noncomputable def radial (c : List ℝ) (r : ℝ) : ℝ :=
  ∑ i : Fin c.length, c[i] * r ^ (i : ℕ)

end Discorpy.Spec
