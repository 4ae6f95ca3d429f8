import Verif.Model.Path
import Verif.Model.Util
import Verif.Py.Array

/-!
# Model: image files (`losa/loadersaver.py`)

What Pillow stores in a file is taken to be the array it is given. The conversion `np.uint8(x)` of floats outside [0, 256) is
unspecified in NumPy; it is a parameter here.
-/

namespace Discorpy

/-- Types of pixels. -/
inductive PixelType where
  | uint8
  | bool
  | int (bits : ℕ)
  | uint (bits : ℕ)
  | float
deriving DecidableEq

/-- The pixels of an image, row by row. -/
def Img.pixels : Img → List ℝ
  | .gray m => (List.range m.height).flatMap fun i => (List.range m.width).map fun j => m.get i j
  | .color h w c get =>
    (List.range h).flatMap fun i => (List.range w).flatMap fun j => (List.range c).map fun k => get i j k

/-- An operation on every pixel. -/
def Img.map (f : ℝ → ℝ) : Img → Img
  | .gray m => .gray ⟨m.height, m.width, fun i j => f (m.get i j)⟩
  | .color h w c get => .color h w c fun i j k => f (get i j k)

/-- The difference of two pixels: integers wrap around. -/
noncomputable def pixelSub : PixelType → ℝ → ℝ → ℝ
  | .int bits, a, b => (Int.bmod ⌊a - b⌋ (2 ^ bits) : ℤ)
  | .uint bits, a, b => (⌊a - b⌋ % (2 ^ bits) : ℤ)
  | _, a, b => a - b

/-- `np.uint8(x)` for a number of the given type: integers wrap around; a float in [0, 256) is cut off. -/
noncomputable def toUint8 (castOut : ℝ → ℝ) : PixelType → ℝ → ℝ
  | .float, x => if 0 ≤ x ∧ x < 256 then (⌊x⌋ : ℤ) else castOut x
  | _, x => (⌊x⌋ % 256 : ℤ)

/-- The average over the first axis of least extent of a 3D array: `np.mean(mat, axis=np.argmin(mat.shape))` (loadersaver.py,
lines 104-105, 440-441). The mean over an axis of length 0 is `nan`. -/
noncomputable def meanLeastAxis (h w c : ℕ) (get : ℕ → ℕ → ℕ → ℝ) : Except PyErr (Mat ℝ) :=
  if h = 0 ∨ w = 0 ∨ c = 0 then .error .nonFinite
  else if h ≤ w ∧ h ≤ c then .ok ⟨w, c, fun j k => ((List.range h).map fun i => get i j k).sum / h⟩
  else if w ≤ c then .ok ⟨h, c, fun i k => ((List.range w).map fun j => get i j k).sum / w⟩
  else .ok ⟨h, w, fun i j => ((List.range c).map fun k => get i j k).sum / c⟩

/-- The array given to Pillow by `save_image` (loadersaver.py, lines 430-441) for a file with the given suffix. -/
noncomputable def saveImageData (castOut : ℝ → ℝ) (suffix : PyStr) (t : PixelType) (img : Img) : Except PyErr Img :=
  if ¬ (suffix = ".tif".toList ∨ suffix = ".tiff".toList) then
    if t ≠ .uint8 then do
      let nmin ← npMin img.pixels
      let nmax ← npMax img.pixels
      if nmax ≠ nmin then
        if t = .bool then .error .typeError
        else .ok (img.map fun x => toUint8 castOut .float (255 * pixelSub t x nmin / pixelSub t nmax nmin))
      else .ok (img.map (toUint8 castOut t))
    else .ok img
  else
    match img with
    | .gray m => .ok (.gray m)
    | .color h w c get => do .ok (.gray (← meanLeastAxis h w c get))

/-- `load_image` of a file in which Pillow finds the given array (loadersaver.py, lines 84-106). -/
noncomputable def loadImageData (img : Img) (average : Bool) : Except PyErr Img :=
  match img with
  | .gray m => .ok (.gray m)
  | .color h w c get => if average then do .ok (.gray (← meanLeastAxis h w c get)) else .ok img

end Discorpy
