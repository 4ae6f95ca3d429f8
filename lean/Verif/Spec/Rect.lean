import Verif.Spec.Grid
import Verif.Model.Perspective

/-! # Specifications about rectangles -/

namespace Discorpy.Spec

open Discorpy

/-- The promised length for two opposite sides of lengths `d`, `d'`. -/
noncomputable def sideFor (s : ScaleOpt) (d d' : ℝ) : ℝ :=
  match s with
  | .max => Max.max d d'
  | .min => Min.min d d'
  | .float k => k * ((d + d') / 2)
  | _ => (d + d') / 2

/-- The promised common length of a square, from the two side lengths. -/
noncomputable def squareFor (s : ScaleOpt) (h v : ℝ) : ℝ :=
  match s with
  | .max => Max.max h v
  | .min => Min.min h v
  | _ => (h + v) / 2

/-- `q1 q2 / q3 q4` (top-left, top-right, bottom-left, bottom-right) is a rectangle with sides `|h|` (top) and `|v|`
(left), not turned over. -/
structure IsRect (q1 q2 q3 q4 : Pt) (h v : ℝ) : Prop where
  paraX : q2.x - q1.x = q4.x - q3.x
  paraY : q2.y - q1.y = q4.y - q3.y
  perp : (q2.x - q1.x) * (q3.x - q1.x) + (q2.y - q1.y) * (q3.y - q1.y) = 0
  top : ptDist q1 q2 = |h|
  left : ptDist q1 q3 = |v|
  leftRight : q1.x ≤ q2.x
  upDown : q1.y ≤ q3.y

end Discorpy.Spec
