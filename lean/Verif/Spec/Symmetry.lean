import Verif.Spec.Image
import Verif.Spec.Grouping
import Verif.Spec.RadialModel

/-! # Specification of symmetries: transposed and mirrored images, mirrored and scaled coordinates -/

namespace Discorpy.Spec

open Discorpy

/-- `m'` is the transposed image of `m`. -/
def IsTransposed (m m' : Mat ℝ) : Prop :=
  m'.height = m.width ∧ m'.width = m.height ∧ ∀ i < m.height, ∀ j < m.width, m'.get j i = m.get i j

/-- The index of the pixel `i` of `n`, counted from the other end if `b`. -/
def mirrorIndex (b : Bool) (n i : ℕ) : ℕ := if b then n - 1 - i else i

/-- `m'` is the image `m` turned upside down (if `ud`) and with left and right exchanged (if `lr`). -/
def IsMirrored (ud lr : Bool) (m m' : Mat ℝ) : Prop :=
  m'.height = m.height ∧ m'.width = m.width ∧
    ∀ i < m.height, ∀ j < m.width, m'.get (mirrorIndex ud m.height i) (mirrorIndex lr m.width j) = m.get i j

/-- The coordinate of a mirrored axis with `n` pixels. -/
noncomputable def mirrorCoord (b : Bool) (n : ℕ) (t : ℝ) : ℝ := if b then (n : ℝ) - 1 - t else t

/-- A change of coordinates: the axes may be turned round (`sy`, `sx` are 1 or -1) and the unit of length changed. -/
structure Units where
  sy : ℝ
  sx : ℝ
  unit : ℝ
  hy : sy = 1 ∨ sy = -1
  hx : sx = 1 ∨ sx = -1
  pos : 0 < unit

/-- The new coordinates of a point. -/
noncomputable def Units.pt (T : Units) (p : Pt) : Pt := ⟨T.sy * T.unit * p.y, T.sx * T.unit * p.x⟩

/-- The new coordinates of the dots of lines. -/
noncomputable def Units.lines (T : Units) (ls : List (List Pt)) : List (List Pt) := ls.map fun l => l.map T.pt

/-- The coefficients of the same radial model in the new unit of length. -/
noncomputable def Units.model (T : Units) (k : List ℝ) : List ℝ := k.mapIdx fun i a => a / T.unit ^ i

/-- `r` is the distance to `c` of a dot on a line with undistorted intercept different from 0. -/
def ForwardRadius (us : List ℝ) (lines : List (List Pt)) (c : Pt) (r : ℝ) : Prop :=
  ∃ (i : ℕ) (u : ℝ) (dots : List Pt), us[i]? = some u ∧ lines[i]? = some dots ∧ u ≠ 0 ∧ ∃ p ∈ dots, r = ptDist p c

/-- `r` is the undistorted radius of a dot: its distance to `c` divided by the ratio of the bent and the undistorted intercept. -/
def BackwardRadius (along : Pt → ℝ) (paras : List Para) (us : List ℝ) (lines : List (List Pt)) (c : Pt) (r : ℝ) : Prop :=
  ∃ (i : ℕ) (q : Para) (u : ℝ) (dots : List Pt), paras[i]? = some q ∧ us[i]? = some u ∧ lines[i]? = some dots ∧
    ∃ p ∈ dots, r = ptDist p c / (bent q (along p - along c) / u)

/-- There are three dots at different places along the line. -/
def ThreeAlong (along : Pt → ℝ) (dots : List Pt) : Prop :=
  ∃ p ∈ dots, ∃ q ∈ dots, ∃ r ∈ dots, along p ≠ along q ∧ along p ≠ along r ∧ along q ≠ along r

end Discorpy.Spec
