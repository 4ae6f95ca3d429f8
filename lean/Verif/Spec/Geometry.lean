import Verif.Spec.Interp
import Verif.Model.Post
import Mathlib.Analysis.SpecialFunctions.Trigonometric.Basic

/-! # Specifications about points -/

namespace Discorpy.Spec

open Discorpy

/-- Euclidean distance of two points. -/
noncomputable def ptDist (p q : Pt) : ℝ := √((p.x - q.x) ^ 2 + (p.y - q.y) ^ 2)

/-- The radial model: `c + F(|p - c|)·(p - c)`. -/
noncomputable def radialMap (c : Pt) (coefs : List ℝ) (p : Pt) : Pt where
  y := c.y + radial coefs (ptDist p c) * (p.y - c.y)
  x := c.x + radial coefs (ptDist p c) * (p.x - c.x)

/-- Rotation of `p` by the angle `t` about `c`. -/
noncomputable def rotateAbout (c : Pt) (t : ℝ) (p : Pt) : Pt where
  x := c.x + (Real.cos t * (p.x - c.x) - Real.sin t * (p.y - c.y))
  y := c.y + (Real.sin t * (p.x - c.x) + Real.cos t * (p.y - c.y))

/-- `n` is the integer nearest to `x`, the even one in case of a tie. -/
def IsNearestEven (x : ℝ) (n : ℤ) : Prop :=
  |x - n| < 1 / 2 ∨ (|x - n| = 1 / 2 ∧ Even n)

/-- Nearest value to `y` in the interval `[0, m]`. -/
noncomputable def clampTo (m : ℝ) (y : ℝ) : ℝ := max 0 (min m y)

/-- Pixel `p = (row, column)` of an `h × w` image, moved by the radial model and clamped to the frame, rounds to pixel
`q`. -/
def LandsAt (h w : ℕ) (c : Pt) (coefs : List ℝ) (p q : ℕ × ℕ) : Prop :=
  IsNearestEven (clampTo ((h : ℝ) - 1) (radialMap c coefs ⟨p.1, p.2⟩).y) q.1 ∧
    IsNearestEven (clampTo ((w : ℝ) - 1) (radialMap c coefs ⟨p.1, p.2⟩).x) q.2

/-- Row-major (C) order of pixels. -/
def RowMajorLT (p q : ℕ × ℕ) : Prop := p.1 < q.1 ∨ (p.1 = q.1 ∧ p.2 < q.2)

end Discorpy.Spec
