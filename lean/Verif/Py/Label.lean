import Verif.Model.Post
import Mathlib.Logic.Relation

/-!
# Labelling of connected components (`scipy.ndimage.label`, `find_objects`, `center_of_mass`)

SciPy's default structuring element in 2D is the 4-neighbourhood; labels are given in the order in which a row-by-row
scan meets the components.
-/

namespace Discorpy

/-- `(y, x)` of a pixel. -/
abbrev Pix := ℕ × ℕ

/-- A pixel of the image with non-zero value. -/
def IsDotPix (m : Mat ℤ) (p : Pix) : Prop := p.1 < m.height ∧ p.2 < m.width ∧ m.get p.1 p.2 ≠ 0

/-- Direct neighbours (left, right, above, below). -/
def Adj4 (p q : Pix) : Prop :=
  (p.1 = q.1 ∧ (p.2 + 1 = q.2 ∨ q.2 + 1 = p.2)) ∨ (p.2 = q.2 ∧ (p.1 + 1 = q.1 ∨ q.1 + 1 = p.1))

/-- The two pixels belong to the same connected component of non-zero pixels. -/
def SameDot (m : Mat ℤ) (p q : Pix) : Prop :=
  IsDotPix m p ∧ Relation.ReflTransGen (fun a b => Adj4 a b ∧ IsDotPix m b) p q

/-- Row-by-row order. -/
def RasterLe (p q : Pix) : Prop := p.1 < q.1 ∨ (p.1 = q.1 ∧ p.2 ≤ q.2)

open Classical in
/-- The first pixels of the components, in order of the labels `1, 2, …` (`ndi.label`). -/
noncomputable def dotReps (m : Mat ℤ) : List Pix :=
  (pixels m.height m.width).filter fun p => decide (IsDotPix m p ∧ ∀ q, SameDot m p q → RasterLe p q)

open Classical in
/-- The pixels with the label of the component of `p`. -/
noncomputable def dotPixels (m : Mat ℤ) (p : Pix) : List Pix :=
  (pixels m.height m.width).filter fun q => decide (SameDot m p q)

/-- A pair of slices `(slice(y0, y1), slice(x0, x1))`. -/
structure Box where
  y0 : ℕ
  y1 : ℕ
  x0 : ℕ
  x1 : ℕ

/-- The pixel is in the box. -/
def Box.Has (b : Box) (i j : ℕ) : Prop := b.y0 ≤ i ∧ i < b.y1 ∧ b.x0 ≤ j ∧ j < b.x1

/-- Bounding box of a non-empty list of pixels. -/
def boundingBox : List Pix → Box
  | [] => ⟨0, 0, 0, 0⟩
  | [p] => ⟨p.1, p.1 + 1, p.2, p.2 + 1⟩
  | p :: l =>
    let b := boundingBox l
    ⟨min p.1 b.y0, max (p.1 + 1) b.y1, min p.2 b.x0, max (p.2 + 1) b.x1⟩

/-- `ndi.find_objects(ndi.label(mat)[0])`: the bounding boxes of the components in order of their labels. -/
noncomputable def findObjects (m : Mat ℤ) : List Box := (dotReps m).map fun p => boundingBox (dotPixels m p)

/-- `mat[box]`. -/
def Mat.sub {α : Type} (m : Mat α) (b : Box) : Mat α :=
  ⟨min b.y1 m.height - b.y0, min b.x1 m.width - b.x0, fun i j => m.get (b.y0 + i) (b.x0 + j)⟩

/-- `out[box] = src[box]`. -/
noncomputable def copyBox {α : Type} (src out : Mat α) (b : Box) : Mat α :=
  { out with get := fun i j => open Classical in if b.Has i j then src.get i j else out.get i j }

/-- `np.int16(mat)` for a float array: truncation, then wrap-around. -/
noncomputable def int16Mat (m : Mat ℝ) : Mat ℤ := ⟨m.height, m.width, fun i j => toInt16 (truncInt (m.get i j))⟩

/-- One entry of `center_of_mass(mat, labels, index)`: the mean position weighted with the values; `nan` if the values add up
to zero. -/
noncomputable def centerOfMass (m : Mat ℤ) (ps : List Pix) : Except PyErr Pt :=
  let w : ℝ := (ps.map fun p => (m.get p.1 p.2 : ℝ)).sum
  if w = 0 then .error .nonFinite
  else .ok ⟨(ps.map fun p => (m.get p.1 p.2 : ℝ) * p.1).sum / w, (ps.map fun p => (m.get p.1 p.2 : ℝ) * p.2).sum / w⟩

end Discorpy
