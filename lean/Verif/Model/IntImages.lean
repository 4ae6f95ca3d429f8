import Verif.Model.Post
import Verif.Model.Binary
import Verif.Model.Util

/-!
# Model of `discorpy/post/postprocessing.py` and `discorpy/util/utility.py`, images and stacks with integer pixels

`map_coordinates` is called without `output` (post/postprocessing.py:147, 227, 251, 491), so its result has the dtype of the image. SciPy
interpolates in double precision and converts the value when it writes the pixel.
-/

namespace Discorpy

/-- An integer dtype of NumPy: its least and its greatest value. -/
structure IntType where
  lo : ℤ
  hi : ℤ

def IntType.uint8 : IntType := ⟨0, 255⟩
def IntType.uint16 : IntType := ⟨0, 65535⟩
def IntType.int16 : IntType := ⟨-32768, 32767⟩

/-- The conversion of an interpolated value to an integer dtype in `map_coordinates` (SciPy, `CASE_INTERP_OUT_INT` and
`CASE_INTERP_OUT_UINT` of ni_interpolation.c): add or subtract one half, cut at the limits of the dtype, truncate. For unsigned types
SciPy replaces values that are not positive by zero, which is what the cut at `lo = 0` does. The source of SciPy is not part of the
repository: this definition is an assumption about it. -/
noncomputable def IntType.cast (T : IntType) (t : ℝ) : ℤ :=
  let u := if t > 0 then t + 1 / 2 else t - 1 / 2
  let v := if u > T.hi then (T.hi : ℝ) else u
  let w := if v < T.lo then (T.lo : ℝ) else v
  truncInt w

/-- The converted image. -/
noncomputable def IntType.castMat (T : IntType) (m : Mat ℝ) : Mat ℤ := ⟨m.height, m.width, fun i j => T.cast (m.get i j)⟩

/-- A stack of integers as a stack of numbers. -/
def realArr (a : NdArr ℤ) : NdArr ℝ := ⟨a.shape, fun idx => (a.get idx : ℝ)⟩

/-- `unwarp_image_backward` for an image of integers — post/postprocessing.py:111-148. -/
noncomputable def unwarpImageBackwardInt (T : IntType) (S : Sampler) (rnd : ℝ → ℝ) (mat : Mat ℤ) (xcenter ycenter : ℝ) (fact : List ℝ) : Mat ℤ :=
  T.castMat (unwarpImageBackward S rnd (realMat mat) xcenter ycenter fact)

/-- `unwarp_slice_backward` for a stack of integers — post/postprocessing.py:188-229. The row of integers returned by
`map_coordinates` is written to a float32 array (lines 224-228); `rnd` is the conversion to float32. -/
noncomputable def unwarpSliceBackwardInt (T : IntType) (B : Boundary) (rnd : ℝ → ℝ) (mat3D : NdArr ℤ) (xcenter ycenter : ℝ) (fact : List ℝ)
    (index : ℤ) : Except PyErr (Mat ℝ) := do
  let out ← unwarpSliceBackward B (realArr mat3D) xcenter ycenter fact index
  .ok ⟨out.height, out.width, fun i j => rnd (T.cast (out.get i j))⟩

/-- `unwarp_chunk_slices_backward` for a stack of integers — post/postprocessing.py:255-313. The array of integers made by `_mapping`
is returned as it is. -/
noncomputable def unwarpChunkSlicesBackwardInt (T : IntType) (B : Boundary) (rnd : ℝ → ℝ) (mat3D : NdArr ℤ) (xcenter ycenter : ℝ) (fact : List ℝ)
    (startIndex stopIndex : ℤ) : Except PyErr (NdArr ℤ) := do
  let out ← unwarpChunkSlicesBackward B rnd (realArr mat3D) xcenter ycenter fact startIndex stopIndex
  .ok ⟨out.shape, fun idx => T.cast (out.get idx)⟩

/-- `correct_perspective_image` for an image of integers — post/postprocessing.py:462-492. -/
noncomputable def correctPerspectiveImageInt (T : IntType) (S : Sampler) (rnd : ℝ → ℝ) (mat : Mat ℤ) (coef : List ℝ)
    (mapIndex : Option (ℕ → ℕ → Pt)) : Except PyErr (Mat ℤ) := do
  let out ← correctPerspectiveImage S rnd (realMat mat) coef mapIndex
  .ok (T.castMat out)

/-- `unwarp_color_image_backward` for a colour image of integers — util/utility.py:278-342, with `map_coordinates` in line 338. Result:
height, width and pixels. The value of the padded pixels is arbitrary, as in `unwarpColorImageBackward`. -/
noncomputable def unwarpColorImageBackwardInt (T : IntType) (lstsq : List (List ℝ) → List ℝ → List ℝ) (S : Sampler) (rnd : ℝ → ℝ)
    (fill : Mat ℝ → ℕ → ℕ → ℝ) (height width channels : ℕ) (get : ℕ → ℕ → ℕ → ℤ) (xcenter ycenter : ℝ) (fact : List ℝ) (pad : PadArg) :
    Except PyErr (ℕ × ℕ × (ℕ → ℕ → ℕ → ℤ)) := do
  let out ← unwarpColorImageBackward lstsq S rnd fill (.color height width channels fun i j c => (get i j c : ℝ)) xcenter ycenter fact pad
  match out with
  | .color h w _ get' => .ok (h, w, fun i j c => T.cast (get' i j c))
  | .gray m => .ok (m.height, m.width, fun i j _ => T.cast (m.get i j))

end Discorpy
