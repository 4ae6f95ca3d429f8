import Verif.Model.Dots

/-!
# The axes of the fitted ellipse (`skimage.measure.regionprops`)

`meas.regionprops(mat)` takes the integer array as an image of labels: the pixels of equal positive value form a region, and the regions
are listed in increasing order of the values. `minor_axis_length` and `major_axis_length` are four times the square roots of the
eigenvalues of the inertia tensor, which has the second central moments (divided by the number of pixels) as entries; negative eigenvalues
(rounding errors) count as zero.
-/

namespace Discorpy

/-- The pixels of `meas.regionprops(mat)[0]` — prep/preprocessing.py:380-381; without a positive value an `IndexError`. -/
def firstRegion (m : Mat ℤ) : Except PyErr (List Pix) :=
  match (((pixels m.height m.width).map fun p => m.get p.1 p.2).filter fun v => decide (0 < v)).min? with
  | none => .error .indexError
  | some v => .ok ((pixels m.height m.width).filter fun p => decide (m.get p.1 p.2 = v))

/-- The eigenvalues of the inertia tensor of the region `ps`, the smaller one first. -/
noncomputable def inertiaEigenvalues (ps : List Pix) : ℝ × ℝ :=
  let n : ℝ := ps.length
  let ym := (ps.map fun p => (p.1 : ℝ)).sum / n
  let xm := (ps.map fun p => (p.2 : ℝ)).sum / n
  let a := (ps.map fun p => ((p.2 : ℝ) - xm) ^ 2).sum / n
  let c := (ps.map fun p => ((p.1 : ℝ) - ym) ^ 2).sum / n
  let b := -((ps.map fun p => ((p.1 : ℝ) - ym) * ((p.2 : ℝ) - xm)).sum / n)
  let root := √(((a - c) / 2) ^ 2 + b ^ 2)
  ((a + c) / 2 - root, (a + c) / 2 + root)

/-- `minor_axis_length` and `major_axis_length` of `meas.regionprops(mat)[0]` — prep/preprocessing.py:380-381. -/
noncomputable def ellipseAxes (m : Mat ℤ) : Except PyErr (ℝ × ℝ) := do
  let ps ← firstRegion m
  let (l2, l1) := inertiaEigenvalues ps
  .ok (4 * √(max l2 0), 4 * √(max l1 0))

end Discorpy
