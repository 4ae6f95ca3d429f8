import Verif.Spec.Projective
import Verif.Spec.Lines

/-! # Specification: perspective coefficients that differ a little -/

namespace Discorpy.Spec

open Discorpy

/-- How much `a·x + b·y + k` can change at a point if the numbers become `a'`, `b'`, `k'`. -/
def formChange (a b k a' b' k' : ℝ) (p : Pt) : ℝ := |a - a'| * |p.x| + |b - b'| * |p.y| + |k - k'|

/-- How much the quotient `t` of two numbers can change: the numerator changes by `n`, the denominator `w` by `d`. -/
noncomputable def quotientChange (n d w t : ℝ) : ℝ := (n + |t| * d) / (|w| - d)

/-- The denominator of the perspective map at a point. -/
def denomAt (c : Fin 8 → ℝ) (p : Pt) : ℝ := c 6 * p.x + c 7 * p.y + 1

/-- How much that denominator can change if the coefficients `c'` are used instead of `c`. -/
def denomChange (c c' : Fin 8 → ℝ) (p : Pt) : ℝ := formChange (c 6) (c 7) 1 (c' 6) (c' 7) 1 p

/-- How far the image `q` of `p` can move horizontally if the coefficients `c'` are used instead of `c`. -/
noncomputable def changeX (c c' : Fin 8 → ℝ) (p q : Pt) : ℝ :=
  quotientChange (formChange (c 0) (c 1) (c 2) (c' 0) (c' 1) (c' 2) p) (denomChange c c' p) (denomAt c p) q.x

/-- How far the image `q` of `p` can move vertically. -/
noncomputable def changeY (c c' : Fin 8 → ℝ) (p q : Pt) : ℝ :=
  quotientChange (formChange (c 3) (c 4) (c 5) (c' 3) (c' 4) (c' 5) p) (denomChange c c' p) (denomAt c p) q.y

/-- The points of the line `y = a·x + b` do not all get the same `x` from the coefficients: the corrected line is not vertical. -/
def StaysHor (c : Fin 8 → ℝ) (a b : ℝ) : Prop := (c 0 + c 1 * a) * (c 7 * b + 1) ≠ (c 1 * b + c 2) * (c 6 + c 7 * a)

/-- The points of the line `x = a·y + b` do not all get the same `y` from the coefficients: the corrected line is not horizontal. -/
def StaysVer (c : Fin 8 → ℝ) (a b : ℝ) : Prop := (c 3 * a + c 4) * (c 6 * b + 1) ≠ (c 3 * b + c 5) * (c 6 * a + c 7)

end Discorpy.Spec
