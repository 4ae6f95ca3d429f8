import Verif.Spec.Projective
import Verif.Spec.Script
import Verif.Model.Util
import Mathlib.Analysis.SpecialFunctions.Complex.Circle

/-! # Spec: four points -/

namespace Discorpy.Spec

open Discorpy Matrix

/-- No three of the four points are on a line. -/
def GeneralPosition (p : Fin 4 → Pt) : Prop := ∀ i j k : Fin 4, i ≠ j → j ≠ k → i ≠ k → ¬ Collinear3 (p i) (p j) (p k)

/-- Inner points of the segments `p1 p4` and `p2 p3` coincide, and the segments are not on a line: `p1 p2 p4 p3` is a convex quadrilateral. -/
def DiagonalsCross (p1 p2 p3 p4 : Pt) : Prop :=
  ¬ Collinear3 p1 p4 p2 ∧ ∃ l m : ℝ, 0 < l ∧ l < 1 ∧ 0 < m ∧ m < 1 ∧
    l * p1.x + (1 - l) * p4.x = m * p2.x + (1 - m) * p3.x ∧ l * p1.y + (1 - l) * p4.y = m * p2.y + (1 - m) * p3.y

/-- The point `q` is in the convex hull of four points. -/
def InHull (p1 p2 p3 p4 q : Pt) : Prop :=
  ∃ a b c d : ℝ, 0 ≤ a ∧ 0 ≤ b ∧ 0 ≤ c ∧ 0 ≤ d ∧ a + b + c + d = 1 ∧ q.x = a * p1.x + b * p2.x + c * p3.x + d * p4.x ∧
    q.y = a * p1.y + b * p2.y + c * p3.y + d * p4.y

/-- The point `(x, y)` as the complex number `x + y·i`. -/
def asComplex (p : Pt) : ℂ := ⟨p.x, p.y⟩

/-- `q` is `p` turned about the origin by an angle in degrees (from the x-axis to the y-axis), scaled, and moved. -/
def IsTurned (angle k dx dy : ℝ) (p q : Pt) : Prop :=
  asComplex q = k * Complex.exp ((angle * Real.pi / 180 : ℝ) * Complex.I) * asComplex p + ⟨dx, dy⟩

/-- `out` has the size of `m`; each of its pixels which does not come from infinity under the projective map of `H` is the value of `m` at the
place it comes from, moved into the frame and rounded. -/
def ReadsProjective (sample : Mat ℝ → ℝ → ℝ → ℝ) (rnd : ℝ → ℝ) (H : Matrix (Fin 3) (Fin 3) ℝ) (m out : Mat ℝ) : Prop :=
  out.height = m.height ∧ out.width = m.width ∧
    ∀ i < m.height, ∀ j < m.width, ∀ q, IsImage H ⟨(i : ℝ), (j : ℝ)⟩ q →
      out.get i j = sample m (rnd (clampTo ((m.height : ℝ) - 1) q.y)) (rnd (clampTo ((m.width : ℝ) - 1) q.x))

/-- The same for all channels of a colour image. -/
def ReadsProjectiveColour (sample : Mat ℝ → ℝ → ℝ → ℝ) (rnd : ℝ → ℝ) (H : Matrix (Fin 3) (Fin 3) ℝ) : Img → Img → Prop
  | .color h w n g, .color h' w' n' g' => h' = h ∧ w' = w ∧ n' = n ∧
      ∀ c < n, ReadsProjective sample rnd H ⟨h, w, fun i j => g i j c⟩ ⟨h', w', fun i j => g' i j c⟩
  | _, _ => False

end Discorpy.Spec
