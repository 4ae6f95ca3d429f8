import Verif.Model.Example

/-! # Specification: photographs with another brightness and contrast -/

namespace Discorpy.Spec

open Discorpy

/-- The image with contrast `α` and brightness `β`. -/
noncomputable def exposed (α β : ℝ) (m : Mat ℝ) : Mat ℝ := { m with get := fun i j => α * m.get i j + β }

/-- `m'` has the size of `m`, and its pixels have contrast `α` and brightness `β`. -/
def IsExposed (α β : ℝ) (m m' : Mat ℝ) : Prop :=
  m'.height = m.height ∧ m'.width = m.width ∧ ∀ i < m.height, ∀ j < m.width, m'.get i j = α * m.get i j + β

/-- The same, but pixels may also be blank (0) in both images. -/
def IsExposedOrBlank (α β : ℝ) (m m' : Mat ℝ) : Prop :=
  m'.height = m.height ∧ m'.width = m.width ∧
    ∀ i < m.height, ∀ j < m.width, m'.get i j = α * m.get i j + β ∨ m.get i j = 0 ∧ m'.get i j = 0

/-- The same correction of two photographs whose corrected images are in relation `rel`. -/
def SameCorrection (rel : Mat ℝ → Mat ℝ → Prop) (r r' : Corrected) : Prop :=
  r'.coefs = r.coefs ∧ r'.warned = r.warned ∧ r'.hor = r.hor ∧ r'.ver = r.ver ∧ r'.bad = r.bad ∧ rel r.image r'.image

/-- The same calibration from two photographs; the images corrected with a backward model are in relation `rel`, the ones corrected with a
forward model in relation `relF`. -/
structure SameCalibration (rel relF : Mat ℝ → Mat ℝ → Prop) (r r' : Calibration) : Prop where
  binarized : r'.binarized = r.binarized
  dotSize : r'.dotSize = r.dotSize
  dotDist : r'.dotDist = r.dotDist
  selected : r'.selected = r.selected
  horSlope : r'.horSlope = r.horSlope
  verSlope : r'.verSlope = r.verSlope
  hor : r'.hor = r.hor
  ver : r'.ver = r.ver
  significant : r'.significant = r.significant
  centre : r'.centre = r.centre
  backward : SameCorrection rel r.backward r'.backward
  forward : SameCorrection relF r.forward r'.forward
  backFromForward : SameCorrection rel r.backFromForward r'.backFromForward

end Discorpy.Spec
