import Verif.Spec.Image
import Verif.Py.Num
import Mathlib.Algebra.BigOperators.Intervals

/-! # Vocabulary for the standalone script `examples/unwarp.py` -/

namespace Discorpy.Spec

open Discorpy

/-- A file name with the extension `.hdf` or `.nxs` after a stem that is not made of dots only. -/
def HasHdfName (name : List Char) : Prop :=
  ∃ stem : List Char, (∃ c ∈ stem, c ≠ '.') ∧ (name = stem ++ ['.', 'h', 'd', 'f'] ∨ name = stem ++ ['.', 'n', 'x', 's'])

/-- `m` is the average of the images of the stack `a` of `d` images. -/
def IsStackAverage (a : List ℕ → ℝ) (d h w : ℕ) (m : Mat ℝ) : Prop :=
  m.height = h ∧ m.width = w ∧ ∀ i < h, ∀ j < w, d * m.get i j = ∑ k ∈ Finset.range d, a [k, i, j]

/-- The photograph of a surface under an uneven illumination: each pixel is that of the surface times that of the illumination, which is
nowhere zero. -/
def IsLitBy (photo light surface : Mat ℝ) : Prop :=
  light.height = photo.height ∧ light.width = photo.width ∧ surface.height = photo.height ∧ surface.width = photo.width ∧
    ∀ i < photo.height, ∀ j < photo.width, light.get i j ≠ 0 ∧ photo.get i j = light.get i j * surface.get i j

/-- The mean of the pixels of an image. -/
def IsImageMean (m : Mat ℝ) (mean : ℝ) : Prop :=
  mean * (m.height * m.width : ℕ) = ∑ i ∈ Finset.range m.height, ∑ j ∈ Finset.range m.width, m.get i j

/-- The pixel of a flat-field by which a pixel of column `j` is divided: that of the same column, or of the only column; the stored mean
instead of a zero. -/
def IsDivisor (flat : Mat ℝ) (storedMean : ℝ) (i j : ℕ) (v : ℝ) : Prop :=
  ∃ k, (k = j ∧ flat.width ≠ 1 ∨ k = 0 ∧ flat.width = 1) ∧
    (flat.get i k ≠ 0 → v = flat.get i k) ∧ (flat.get i k = 0 → v = storedMean)

end Discorpy.Spec
