import Verif.Model.Perspective
import Verif.Model.Post
import Verif.Model.Util
import Mathlib.Analysis.SpecialFunctions.Trigonometric.Basic

/-!
# Model: correction from four points (`examples/readthedocs_demo/demo_07.py`)

The script for a loaded colour image; loading, saving and the constants (which are parameters here) are left out.
-/

namespace Discorpy

/-- `mat_cor[:, :, i] = post.correct_perspective_image(mat[:, :, i], ...)` for all channels (demo_07.py, lines 23-25 and 58-60). The index of
three axes is an `IndexError` for a grey image (of at least one column). -/
noncomputable def correctChannels (S : Sampler) (rnd : ℝ → ℝ) (img : Img) (coef : List ℝ) : Except PyErr Img :=
  match img with
  | .gray _ => .error .indexError
  | .color h w n get => do
    let chans ← (List.range n).mapM fun c => correctPerspectiveImage S rnd (channel h w get c) coef none
    .ok (.color h w n fun i j c => (chans.getD c ⟨h, w, fun _ _ => 0⟩).get i j)

/-- Rotating, scaling and moving the target points (demo_07.py, lines 38-53). -/
noncomputable def turnPoints (angle scale xOffset yOffset : ℝ) (points : List Pt) : List Pt :=
  let a := angle * Real.pi / 180
  points.map fun p =>
    let xRot := p.x * Real.cos a - p.y * Real.sin a
    let yRot := p.x * Real.sin a + p.y * Real.cos a
    ⟨yRot * scale + yOffset, xRot * scale + xOffset⟩

/-- The results of the script: coefficients and image, without and with the changed targets. -/
structure FourPointOut where
  coef : List ℝ
  image : Img
  coefAdjusted : List ℝ
  imageAdjusted : Img

/-- demo_07.py, lines 13-60. `S` and `S3` are the interpolations of order 1 and 3. -/
noncomputable def fourPointScript (lstsq : LstsqFn) (argsort : List ℝ → List ℕ) (S S3 : Sampler) (rnd : ℝ → ℝ) (img : Img) (points : List Pt)
    (xy equalDist : Bool) (scale : ScaleOpt) (angle k xOffset yOffset : ℝ) : Except PyErr FourPointOut := do
  let (s, t) ← generate4SourceTarget argsort points xy equalDist scale
  let coef ← calcPerspectiveCoefs lstsq s t "backward"
  let image ← correctChannels S rnd img coef
  let coef2 ← calcPerspectiveCoefs lstsq s (turnPoints angle k xOffset yOffset t) "backward"
  let image2 ← correctChannels S3 rnd img coef2
  .ok ⟨coef, image, coef2, image2⟩

end Discorpy
