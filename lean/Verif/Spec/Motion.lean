import Verif.Spec.Symmetry

/-! # Specification of turned images and of rigid motions of the plane of the detector -/

namespace Discorpy.Spec

open Discorpy

/-- `m'` is the image `m` turned by a quarter turn against the hands of a clock (`np.rot90(m)`): the last column becomes the first row. -/
def IsQuarterTurn (m m' : Mat ℝ) : Prop :=
  m'.height = m.width ∧ m'.width = m.height ∧ ∀ i < m.height, ∀ j < m.width, m'.get (m.width - 1 - j) i = m.get i j

/-- A rigid motion of the plane: a shift after a rotation by any angle or a reflection. -/
structure Motion where
  yy : ℝ
  yx : ℝ
  xy : ℝ
  xx : ℝ
  ty : ℝ
  tx : ℝ
  unitY : yy ^ 2 + xy ^ 2 = 1
  unitX : yx ^ 2 + xx ^ 2 = 1
  orth : yy * yx + xy * xx = 0

/-- The new place of a point. -/
noncomputable def Motion.pt (T : Motion) (p : Pt) : Pt := ⟨T.yy * p.y + T.yx * p.x + T.ty, T.xy * p.y + T.xx * p.x + T.tx⟩

/-- The new places of the dots of lines. -/
noncomputable def Motion.lines (T : Motion) (ls : List (List Pt)) : List (List Pt) := ls.map fun l => l.map T.pt

end Discorpy.Spec
