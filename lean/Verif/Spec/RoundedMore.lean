import Verif.Spec.Rounded
import Verif.Model.RoundedMore

/-! # Specification: numbers with few bits, and the errors of coordinates -/

namespace Discorpy.Spec

open Discorpy

/-- A number with at most `bits` significant bits (exponents of any size). -/
def HasBits (bits : ℕ) (x : ℝ) : Prop := ∃ M e : ℤ, x = (M : ℝ) * 2 ^ e ∧ |M| ≤ 2 ^ bits

/-- Error of the row (column) of the place to which a radial model moves a pixel, if every operation has the relative error `u`; `c` is the row (column) of the
centre, `a` that of the pixel, `r` the distance from the centre. -/
noncomputable def coordError (u : ℝ) (fact : List ℝ) (r c a : ℝ) : ℝ := roundings u (6 * fact.length + 3) * (|c| + absModel fact r * |a - c|)

/-- Error of a coordinate of the projective image of the pixel `p`, as in C98: `a, b, k` are the coefficients of the numerator, `d, e` those of the denominator. -/
noncomputable def projError (u : ℝ) (a b k d e : ℝ) (p : Pt) (t : ℝ) : ℝ :=
  (1 + u) * quotientError (roundings u 3) (formSize a b k p) (formSize d e 1 p) (d * p.x + e * p.y + 1) t + u * |t|

end Discorpy.Spec
