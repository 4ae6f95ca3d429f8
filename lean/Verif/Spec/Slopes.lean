import Verif.Spec.Lines
import Verif.Spec.InnerMask
import Verif.Spec.LineDir

/-! # Specification of the slope of a grid of dots -/

namespace Discorpy.Spec

open Discorpy

/-- The points of the line `y = t·x + …` through `p`. -/
def horThrough (t : ℝ) (p : Pt) : Pt → Prop := onHorLine t (p.y - t * p.x)

/-- The points of the line `x = t·y + …` through `p`. -/
def verThrough (t : ℝ) (p : Pt) : Pt → Prop := onVerLine t (p.x - t * p.y)

/-- `g` is the mean of the points. -/
def IsMeanPt (pts : List Pt) (g : Pt) : Prop :=
  pts ≠ [] ∧ g.x * pts.length = (pts.map Pt.x).sum ∧ g.y * pts.length = (pts.map Pt.y).sum

open Classical in
/-- The points closer than `tol` to the set `L`. -/
noncomputable def closerThan (pts : List Pt) (L : Pt → Prop) (tol : ℝ) : List Pt :=
  pts.filter fun p => decide (∃ d, IsDistTo L p d ∧ d < tol)

/-- `s` is the slope found with the first guess `t`: take the point nearest to the mean of all points and the points closer than
`tol` to the line with slope `t` through it; `s` is the slope of a least-squares line of these points if there is more than
one, and `t` otherwise. -/
def IsGridSlope (through : ℝ → Pt → Pt → Prop) (lsq : List Pt → ℝ → ℝ → Prop) (pts : List Pt) (t tol s : ℝ) : Prop :=
  ∃ g mid, IsMeanPt pts g ∧ mid ∈ pts ∧ (∀ p ∈ pts, ptDist g mid ≤ ptDist g p) ∧
    (2 ≤ (closerThan pts (through t mid) tol).length → ∃ b, lsq (closerThan pts (through t mid) tol) s b) ∧
    ((closerThan pts (through t mid) tol).length < 2 → s = t)

/-- The points form rows of slope `a`, seen with the first guess `t` and the tolerance `tol` (along the other axis): every point
has another one in its row that is near enough, and the rows are far enough apart. -/
def HorRows (pts : List Pt) (a t tol : ℝ) : Prop :=
  ∀ p ∈ pts, (∃ q ∈ pts, q.y - a * q.x = p.y - a * p.x ∧ q.x ≠ p.x ∧ |t - a| * |q.x - p.x| < tol) ∧
    ∀ q ∈ pts, q.y - a * q.x ≠ p.y - a * p.x → tol + |t - a| * |q.x - p.x| ≤ |(q.y - a * q.x) - (p.y - a * p.x)|

/-- The same for columns. -/
def VerRows (pts : List Pt) (a t tol : ℝ) : Prop :=
  ∀ p ∈ pts, (∃ q ∈ pts, q.x - a * q.y = p.x - a * p.y ∧ q.y ≠ p.y ∧ |t - a| * |q.y - p.y| < tol) ∧
    ∀ q ∈ pts, q.x - a * q.y ≠ p.x - a * p.y → tol + |t - a| * |q.y - p.y| ≤ |(q.x - a * q.y) - (p.x - a * p.y)|

/-- One degree in radians. -/
noncomputable def degree : ℝ := Real.pi / 180

end Discorpy.Spec
