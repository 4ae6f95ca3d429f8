import Verif.Model.LinePattern
import Verif.Model.Normalize
import Verif.Model.UnwarpScript
import Verif.Model.Vanish

/-!
# Model of the scripts `examples/fisheye_calibration_dot_pattern.py`, `…_line_pattern.py` and `…_chessboard.py`

Plots, printed text and the files written at the end are not modelled (saving is modelled in Model/Metadata and Model/ImageIO). The scripts
differ in the way points are found, in the margins and in the tolerance of the residuals.
-/

namespace Discorpy

/-- What the functions for line patterns need besides `Libs`. -/
structure LineLibs where
  /-- `ndi.gaussian_filter1d` -/
  gaussFilter : List ℝ → ℝ → List ℝ
  /-- the fit of a Gaussian to a peak -/
  gaussFit : List ℝ → GaussFit
  /-- `ndi.gaussian_filter(mat, 3)` -/
  filter2 : Mat ℝ → Mat ℝ
  /-- the smoothing inside `convert_chessboard_to_linepattern` -/
  chess : Mat ℝ → Mat ℝ
  /-- `prep.normalization_fft(mat, 5)` -/
  fft5 : Mat ℝ → Mat ℝ

/-- Points on the lines of both directions, with the slopes and the distances of the lines. -/
structure FisheyePoints where
  hor : List Pt
  ver : List Pt
  slopeHor : ℝ
  slopeVer : ℝ
  distHor : ℝ
  distVer : ℝ

/-- The points of a dot pattern — fisheye_calibration_dot_pattern.py:23-36; both directions share the points and the distance. -/
noncomputable def fisheyeDots (lib : Libs) (norm : Mat ℝ) : Except PyErr FisheyePoints := do
  let mat1 ← binarization lib.otsu norm 0.3 none true
  let (_, dist) ← calcSizeDistance (realMat mat1) 0.3
  let slopeHor ← calcHorSlope lib.polyfit lib.argsort lib.radon (realMat mat1) 0.3
  let slopeVer ← calcVerSlope lib.polyfit lib.argsort lib.radon (realMat mat1) 0.3
  let points ← getPointsDotPattern lib.otsu (realMat mat1) false 0.3 none
  .ok ⟨points, points, slopeHor, slopeVer, dist, dist⟩

/-- The points of a line pattern (`sensitive = 0.1`) or of a chessboard (`sensitive = 0.3`) — fisheye_calibration_line_pattern.py:22-36,
fisheye_calibration_chessboard.py:26-38. -/
noncomputable def fisheyeLines (lib : Libs) (ext : LineLibs) (chessboard : Bool) (sensitive : ℝ) (norm : Mat ℝ) : Except PyErr FisheyePoints := do
  let E : Ext := ⟨lib.polyfit, lib.argsort, ext.gaussFilter, ext.gaussFit⟩
  let (slopeHor, distHor) ← calcSlopeDistanceHor E ext.filter2 ext.chess lib.radon norm 0.3 30 9 0.1 true true true true chessboard none
  let (slopeVer, distVer) ← calcSlopeDistanceVer E ext.filter2 ext.chess lib.radon norm 0.3 30 9 0.1 true true true true chessboard none
  let hor ← getCrossPointsHorLines E lib.sample ext.fft5 ext.filter2 lib.float32 norm slopeVer distVer 0.3 0 true true chessboard true true 9
    sensitive none
  let ver ← getCrossPointsVerLines E lib.sample ext.fft5 ext.filter2 lib.float32 norm slopeHor distHor 0.3 0 true true chessboard true true 9
    sensitive none
  .ok ⟨hor, ver, slopeHor, slopeVer, distHor, distVer⟩

/-- The settings in which the scripts differ: the margins of the mask and the tolerance of the residuals. -/
structure FisheyeOpts where
  left : ℝ
  right : ℝ
  top : ℝ
  bot : ℝ
  residual : ℝ

/-- fisheye_calibration_dot_pattern.py:38-39, 71-72. -/
noncomputable def dotOpts : FisheyeOpts := ⟨450, 100, 100, 100, 2.0⟩

/-- fisheye_calibration_line_pattern.py:38-44, 55-56. -/
noncomputable def lineOpts : FisheyeOpts := ⟨400, 300, 150, 200, 3.0⟩

/-- fisheye_calibration_chessboard.py:40-41, 83-84. -/
noncomputable def chessOpts : FisheyeOpts := ⟨500, 450, 250, 250, 3.0⟩

/-- What a script finds. -/
structure FisheyeModel where
  hor : List (List Pt)
  ver : List (List Pt)
  centre : Pt
  corrHor : List (List Pt)
  corrVer : List (List Pt)
  coefs : List ℝ
  warned : Bool

/-- From the points to the model — fisheye_calibration_dot_pattern.py:40-95, fisheye_calibration_line_pattern.py:38-67,
fisheye_calibration_chessboard.py:42-101. -/
noncomputable def fisheyeModel (lib : Libs) (roots : RootsFn) (rot : Mat ℝ → ℝ → Mat ℝ) (opts : FisheyeOpts) (height width : ℕ)
    (pts : FisheyePoints) : Except PyErr FisheyeModel := do
  let horMargin := Margin.seq [opts.left, opts.right]
  let verMargin := Margin.seq [opts.top, opts.bot]
  let pointsHor ← removePointsMask rot pts.hor height width 0.4 0.3 horMargin verMargin 0
  let pointsVer ← removePointsMask rot pts.ver height width 0.4 0.3 horMargin verMargin 0
  let linesHor ← groupPolyfitHor lib.polyfit lib.argsort pointsHor pts.slopeHor pts.distHor 0.1 3 0.65 0.5 2
  let linesVer ← groupPolyfitVer lib.polyfit lib.argsort pointsVer pts.slopeVer pts.distVer 0.1 3 0.65 0.5 2
  let hor ← removeResidualHor lib.polyfit linesHor pts.slopeHor opts.residual
  let ver ← removeResidualVer lib.polyfit linesVer pts.slopeVer opts.residual
  let c ← findCentreVanishingIter lib.polyfit lib.lstsq roots lib.argsort hor ver 2 .mean
  let (corrHor, corrVer) ← correctPerspectiveEffect lib.polyfit lib.lstsq lib.argsort hor ver c.x c.y .mean .mean
  let (coefs, warned) ← calcCoefBackward lib.polyfit lib.lstsq lib.minimize corrHor corrVer c.x c.y 5 false 0.3
  .ok ⟨hor, ver, c, corrHor, corrVer, coefs, warned⟩

/-- The pattern photographed. -/
inductive FisheyeTarget
  | dots | lines | chessboard

/-- The points of the pattern. -/
noncomputable def fisheyeFind (lib : Libs) (ext : LineLibs) (norm : Mat ℝ) : FisheyeTarget → Except PyErr FisheyePoints
  | .dots => fisheyeDots lib norm
  | .lines => fisheyeLines lib ext false 0.1 norm
  | .chessboard => fisheyeLines lib ext true 0.3 norm

/-- The settings for the pattern. -/
noncomputable def FisheyeTarget.opts : FisheyeTarget → FisheyeOpts
  | .dots => dotOpts
  | .lines => lineOpts
  | .chessboard => chessOpts

/-- The unpacking `(height, width) = img0.shape` of an averaged image — line 18 or 19 of the scripts. -/
noncomputable def asGray : Img → Except PyErr (Mat ℝ)
  | .gray m => .ok m
  | .color _ _ _ _ => .error .valueError

/-- What a script computes. -/
structure FisheyeRun where
  found : FisheyeModel
  image : Img
  test : Option Img

/-- Loading and correction of a colour image — fisheye_calibration_dot_pattern.py:101-103, 110-112, fisheye_calibration_line_pattern.py:73-75,
fisheye_calibration_chessboard.py:107-109, 115-117. The default padding of `np.pad` is with zeros. -/
noncomputable def fisheyeCorrect {α : Type} (lib : Libs) (D : Disk α) (p : FilePath) (c : Pt) (coefs : List ℝ) :
    Except PyErr Img := do
  let img ← loadImageAt D.decode D.fs p false
  unwarpColorImageBackward lib.lstsq lib.sample lib.float32 (fun _ _ _ => 0) img c.x c.y coefs (.int 400)

/-- The scripts. `test` is the second image corrected by the scripts for dots and for the chessboard. -/
noncomputable def fisheyeScript {α : Type} (lib : Libs) (ext : LineLibs) (roots : RootsFn) (rot : Mat ℝ → ℝ → Mat ℝ)
    (padIdx : ℕ → ℤ → ℕ) (D : Disk α) (target : FisheyeTarget) (file : FilePath) (test : Option FilePath) :
    Except PyErr FisheyeRun := do
  let img0 ← asGray (← loadImageAt D.decode D.fs file true)
  let norm ← normalizationFft padIdx img0 10 100
  let pts ← fisheyeFind lib ext norm target
  let found ← fisheyeModel lib roots rot target.opts img0.height img0.width pts
  let image ← fisheyeCorrect lib D file found.centre found.coefs
  match test with
  | none => .ok ⟨found, image, none⟩
  | some p => do
    let img ← fisheyeCorrect lib D p found.centre found.coefs
    .ok ⟨found, image, some img⟩

end Discorpy
