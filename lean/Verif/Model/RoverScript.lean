import Verif.Model.StackScript
import Verif.Model.ImageIO
import Verif.Model.Load
import Verif.Model.Metadata

/-!
# Model: correction without a calibration pattern

The scripts `examples/readthedocs_demo/demo_08.py` and `examples/Perseverance_distortion_correction/*.py`: straight lines are warped by a guessed
forward model and laid over the photograph; once they follow what should be straight, the forward model is turned into a backward model and the
photographs are unwarped. The constants of the scripts (factors, centres, ranges) are parameters. The results list what is saved: paths below the
output folder, and the arrays given to `save_image`. A photograph with maximum zero gives `nan` (error `nonFinite`).
-/

namespace Discorpy

/-- The ruled sheet: demo_08.py, lines 16-18 (`b = 2`); forward_model_estimation.py, lines 39-41 (`b = 1`). -/
def ruledSheet (height width : ℕ) (b : ℤ) : Mat ℝ :=
  (rangeList 50 (height - 50) 40).foldl (fun m i => setBlock m (i - b) (i + b + 1) 0 width 1) ⟨height, width, fun _ _ => 0⟩

/-- `np.pad(mat, pad, mode='edge')` for an array that is not empty (the scripts have divided by the maximum before, which is an error for an
empty array): demo_08.py, line 30; forward_model_estimation.py, line 53. -/
def padFrame (m : Mat ℝ) (pad : ℕ) : Mat ℝ where
  height := pad + m.height + pad
  width := pad + m.width + pad
  get i j := m.get (min (i - pad) (m.height - 1)) (min (j - pad) (m.width - 1))

/-- `mat0 / np.max(mat0)`: demo_08.py, line 12; backward_mapping.py, line 33; forward_model_estimation.py, line 36. -/
noncomputable def scaleToMax (m : Mat ℝ) : Except PyErr (Mat ℝ) := do
  let top ← npMax (Img.gray m).pixels
  if top = 0 then .error .nonFinite else .ok { m with get := fun i j => m.get i j / top }

/-- `post.unwarp_image_backward(mat_pad, xcenter + pad, ycenter + pad, list_ffact)[pad:pad + height, pad:pad + width]`: demo_08.py, lines
45-47, 69-73, 86-89; forward_model_estimation.py, lines 54-56. -/
noncomputable def warpedSheet (S : Sampler) (rnd : ℝ → ℝ) (matPad : Mat ℝ) (pad height width : ℕ) (xc yc : ℝ) (ffact : List ℝ) : Mat ℝ :=
  let w := unwarpImageBackward S rnd matPad (xc + pad) (yc + pad) ffact
  ⟨height, width, fun i j => w.get (pad + i) (pad + j)⟩

/-- `mat0 + 0.5 * line_img_warped`: demo_08.py, lines 49, 75, 91; forward_model_estimation.py, line 57. -/
noncomputable def overlay (mat0 sheet : Mat ℝ) : Mat ℝ := { mat0 with get := fun i j => mat0.get i j + 0.5 * sheet.get i j }

/-- `list_power * list_coef` (broadcasting of an array of length one is not modelled). -/
noncomputable def timesPowers (power coef : List ℝ) : Except PyErr (List ℝ) :=
  if power.length = coef.length then .ok (List.zipWith (· * ·) power coef) else .error .valueError

/-- `np.arange(start, stop + step, step)`; a zero step raises `ZeroDivisionError`. -/
noncomputable def scanValues (start stop step : ℝ) : Except PyErr (List ℝ) :=
  if step = 0 then .error .zeroDivisionError else .ok (arange start (stop + step) step)

/-- `np.int16(np.linspace(0, n, k))`. -/
noncomputable def linspace16 (n k : ℕ) : List ℤ := (List.range k).map fun i : ℕ => toInt16 (truncInt ((i : ℝ) * n / ((k : ℝ) - 1)))

/-- `ref_points`: demo_08.py, lines 52-54, 78-80, 94-96. -/
noncomputable def scanRefPoints (height width : ℕ) (xc yc : ℝ) : List Pt :=
  (linspace16 height 40).flatMap fun i : ℤ => (linspace16 width 50).map fun j : ℤ => ⟨(i : ℝ) - yc, (j : ℝ) - xc⟩

/-- `"{:w.2f}".format(x)` — demo_08.py, lines 48 (`w = 4`), 74, 90 (`w = 7`). -/
noncomputable def fmtFixed2 (w : ℕ) (x : ℝ) : PyStr :=
  let n := (roundHalfEven (100 * x)).natAbs
  List.leftpad w ' ' ((if x < 0 then ['-'] else []) ++ (Nat.toDigits 10 (n / 100) ++ '.' :: [(n % 100 / 10).digitChar, (n % 10).digitChar]))

/-- The folder of a scan: demo_08.py, lines 36-39, 61-64. `isdir` tells which folders below the output folder exist. -/
noncomputable def scanFolder (isdir : PyStr → Bool) (stem : PyStr) (ntime : ℕ) : Except PyErr PyStr :=
  whileLoop (fun n : ℕ =>
    let folder := stem ++ "_ntime_".toList ++ Nat.toDigits 10 n
    if isdir folder then .ok (.inl (n + 1)) else .ok (.inr folder)) ntime

/-- What one turn of a scan saves, for the centre `(xt, yt)` and the forward coefficients: the overlay, and (with `backward`) the unwarped
photograph. The backward model is fitted to points around the centre `(xc, yc)`. demo_08.py, lines 45-57, 69-83, 86-99. -/
noncomputable def scanTurn (lstsq : LstsqFn) (S : Sampler) (rnd : ℝ → ℝ) (mat0 matPad : Mat ℝ) (pad : ℕ) (xc yc xt yt : ℝ) (ffact : List ℝ)
    (folder name : PyStr) (backward : Bool) : Except PyErr (List (PyStr × Mat ℝ)) := do
  let sheet := warpedSheet S rnd matPad pad mat0.height mat0.width xt yt ffact
  let first := (folder ++ "/forward/img_".toList ++ name ++ ".jpg".toList, overlay mat0 sheet)
  if backward then do
    let bfact ← transformCoef lstsq ffact "backward" (some (scanRefPoints mat0.height mat0.width xc yc))
    .ok [first, (folder ++ "/backward/img_".toList ++ name ++ ".jpg".toList, unwarpImageBackward S rnd mat0 xt yt bfact)]
  else .ok [first]

/-- `scan_coef` — demo_08.py, lines 34-57, for an index that is not negative. The centre is the global one of the script. -/
noncomputable def scanCoef (lstsq : LstsqFn) (S : Sampler) (rnd : ℝ → ℝ) (isdir : PyStr → Bool) (idx : ℕ) (start stop step : ℝ) (coef power : List ℝ)
    (mat0 matPad : Mat ℝ) (pad : ℕ) (xc yc : ℝ) (ntime : ℕ) (backward : Bool) : Except PyErr (List (PyStr × Mat ℝ)) := do
  let folder ← scanFolder isdir ("/coef_".toList ++ Nat.toDigits 10 idx) ntime
  let nums ← scanValues start stop step
  let files ← nums.mapM fun num => do
    let old ← npGet coef idx
    let est := coef.set idx (old + num)
    let ffact ← timesPowers power est
    let name := "coef_".toList ++ Nat.toDigits 10 idx ++ "_val_".toList ++ fmtFixed2 4 (old + num)
    scanTurn lstsq S rnd mat0 matPad pad xc yc xc yc ffact folder name backward
  .ok files.flatten

/-- `scan_center` — demo_08.py, lines 59-99. -/
noncomputable def scanCenter (lstsq : LstsqFn) (S : Sampler) (rnd : ℝ → ℝ) (isdir : PyStr → Bool) (xc yc start stop step : ℝ) (coef power : List ℝ)
    (mat0 matPad : Mat ℝ) (pad : ℕ) (axis : PyStr) (ntime : ℕ) (backward : Bool) : Except PyErr (List (PyStr × Mat ℝ)) := do
  let folder ← scanFolder isdir ("/".toList ++ axis ++ "_center".toList) ntime
  let ffact ← timesPowers power coef
  let nums ← scanValues start stop step
  if axis = "x".toList then do
    let files ← nums.mapM fun num =>
      scanTurn lstsq S rnd mat0 matPad pad xc yc (xc + num) yc ffact folder ("xcenter_".toList ++ fmtFixed2 7 (xc + num)) backward
    .ok files.flatten
  else do
    let files ← nums.mapM fun num =>
      scanTurn lstsq S rnd mat0 matPad pad xc yc xc (yc + num) ffact folder ("ycenter_".toList ++ fmtFixed2 7 (yc + num)) backward
    .ok files.flatten

/-- `for i in range(img.shape[-1]): img_corrected[:, :, i] = post.unwarp_image_backward(img[:, :, i], ...)`: demo_08.py, lines 144-149,
157-160, 164-167; apply_correction_to_images.py, lines 36-38. The index of three axes is an `IndexError` for a grey image (of at least one column). -/
noncomputable def unwarpChannels (S : Sampler) (rnd : ℝ → ℝ) (img : Img) (xc yc : ℝ) (bfact : List ℝ) : Except PyErr Img :=
  match img with
  | .gray _ => .error .indexError
  | .color h w n get => .ok (.color h w n fun i j c => (unwarpImageBackward S rnd (channel h w get c) xc yc bfact).get i j)

/-- The final correction of demo_08.py, lines 135-168: the photograph of which the size is known to be `height × width`, and others of the same camera. -/
noncomputable def demo08Correction (lstsq : LstsqFn) (S : Sampler) (rnd : ℝ → ℝ) (height width : ℕ) (xc yc : ℝ) (coef power : List ℝ) (imgs : List Img) :
    Except PyErr (List Img) := do
  let ffact ← timesPowers coef power
  let pts := (rangeList 0 height 50).flatMap fun i : ℤ => (rangeList 0 width 50).map fun j : ℤ => (⟨(i : ℝ) - yc, (j : ℝ) - xc⟩ : Pt)
  let bfact ← transformCoef lstsq ffact "backward" (some pts)
  imgs.mapM fun img => do
    let img ← loadImageData img false
    unwarpChannels S rnd img xc yc bfact

/-- forward_model_estimation.py, lines 33-57, for the coefficients already multiplied by their powers of ten. -/
noncomputable def estimateForward (S : Sampler) (rnd : ℝ → ℝ) (img : Img) (dx dy : ℝ) (ffact : List ℝ) : Except PyErr (Mat ℝ) := do
  match ← loadImageData img true with
  | .color _ _ _ _ => .error .valueError
  | .gray m => do
    let mat0 ← scaleToMax m
    let pad := m.width
    let xc := (m.width : ℝ) / 2 + dx
    let yc := (m.height : ℝ) / 2 + dy
    .ok (overlay mat0 (warpedSheet S rnd (padFrame (ruledSheet m.height m.width 1) pad) pad m.height m.width xc yc ffact))

/-- What backward_mapping.py saves. -/
structure RoverRun where
  xcenter : ℝ
  ycenter : ℝ
  bfact : List ℝ
  before : Mat ℝ
  after : Mat ℝ

/-- The points of backward_mapping.py, lines 42-48, 52-53. -/
noncomputable def roverPoints (height width : ℕ) (xc yc : ℝ) : List Pt :=
  (rangeList 20 (height - 20) 50).flatMap fun i : ℤ => (rangeList 20 (width - 20) 50).map fun j : ℤ => ⟨(i : ℝ) - yc, (j : ℝ) - xc⟩

/-- backward_mapping.py, lines 30-71. The loop over the points (lines 52-62) is that of `transform_coef_backward_and_forward`, without the check of
their number. -/
noncomputable def backwardMapping (lstsq : LstsqFn) (S : Sampler) (rnd : ℝ → ℝ) (img : Img) (dx dy : ℝ) (ffact : List ℝ) : Except PyErr RoverRun := do
  match ← loadImageData img true with
  | .color _ _ _ _ => .error .valueError
  | .gray m => do
    let mat0 ← scaleToMax m
    let xc := (m.width : ℝ) / 2 + dx
    let yc := (m.height : ℝ) / 2 + dy
    let bfact ← lstsqChecked lstsq ((roverPoints m.height m.width xc yc).filterMap (inverseRow ffact))
    .ok ⟨xc, yc, bfact, mat0, unwarpImageBackward S rnd mat0 xc yc bfact⟩

/-- apply_correction_to_images.py, lines 32-38, for the array found by Pillow. `float` reads a number of the file, `val` is its value. -/
noncomputable def applyCorrection {F : Type} (val : F → ℝ) (float : PyStr → Except PyErr F) (S : Sampler) (rnd : ℝ → ℝ) (fs : FS PyStr) (p : FilePath)
    (img : Img) : Except PyErr Img := do
  let (xc, yc, bfact) ← loadMetadataTxt float fs p
  unwarpChannels S rnd img (val xc) (val yc) (bfact.map val)

end Discorpy
