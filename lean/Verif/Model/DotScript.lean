import Verif.Model.LineScript
import Verif.Model.Perspective
import Verif.Model.Threshold

/-!
# Model: the calibration scripts for dot patterns in `examples/readthedocs_demo`, and `examples/example_03.py`

`demo_01.py` (no perspective), `demo_02.py`, `demo_03.py` and `example_03.py` (perspective corrected by parabolas), `demo_05.py` (radial and
perspective distortion separated). Figures, printing and files are not modelled; the results list the arrays that are saved or plotted.
-/

namespace Discorpy

/-- How an image is binarized: directly, or after division by its background, with a threshold computed from the noise or by Otsu's method. -/
inductive BinOpt where
  /-- `prep.binarization(mat0)` — demo_01.py:14, demo_02.py:15 -/
  | plain
  /-- `prep.normalization_fft(mat0, sigma)`, `prep.binarization(mat1, ratio=ratio, thres=None)` — example_03.py:56-61 -/
  | normed (sigma ratio : ℝ)
  /-- the same with `thres=prep.calculate_threshold(mat1, bgr="bright", snr=snr)` — demo_03.py:15-20, demo_05.py:17-20 -/
  | noise (sigma snr ratio : ℝ)

/-- The settings in which the scripts differ: the binarization; the ratios of the selection of dots by size and by shape, if done; the tolerances of
the grouping; the distance of residual dots, if these are removed. -/
structure DotOpts where
  bin : BinOpt
  select : Option (ℝ × ℝ)
  groupRatio : ℝ
  miss : ℝ
  acceptedHor : ℝ
  acceptedVer : ℝ
  residual : Option ℝ

/-- demo_01.py:13-34; what is not given is the default. -/
noncomputable def demo01Opts : DotOpts := ⟨.plain, some (0.3, 0.3), 0.3, 6, 0.65, 0.75, some 2.5⟩

/-- demo_02.py:14-33. -/
noncomputable def demo02Opts : DotOpts := ⟨.plain, some (0.3, 0.3), 0.3, 6, 0.8, 0.8, some 2.5⟩

/-- demo_03.py:14-45. -/
noncomputable def demo03Opts : DotOpts := ⟨.noise 20 3.0 0.5, some (0.8, 0.8), 0.3, 10, 0.65, 0.65, some 2.0⟩

/-- demo_05.py:16-35: the dots are not selected, and none is removed from the lines. -/
noncomputable def demo05Opts : DotOpts := ⟨.noise 20 1.5 0.3, none, 0.3, 2, 0.6, 0.6, none⟩

/-- example_03.py:55-98. -/
noncomputable def example03Opts : DotOpts := ⟨.normed 5 0.5, some (0.9, 1.0), 0.3, 10, 0.6, 0.6, some 2.0⟩

/-- The binarized image. `zoom` is the resampling inside `calculate_threshold`. -/
noncomputable def dotBinary (lib : Libs) (zoom : List ℝ → ℕ → List ℝ) (mat0 : Mat ℝ) : BinOpt → Except PyErr (Mat ℤ)
  | .plain => binarization lib.otsu mat0 0.3 none true
  | .normed sigma ratio => do
    let mat1 ← normalizationFft padReflect mat0 sigma 100
    binarization lib.otsu mat1 ratio none true
  | .noise sigma snr ratio => do
    let mat1 ← normalizationFft padReflect mat0 sigma 100
    let thres ← calculateThreshold zoom lib.polyfit mat1 true snr
    binarization lib.otsu mat1 ratio (some thres) true

/-- What is found in the binarized image: size and distance of the dots, the selected dots, the slopes and the lines. -/
structure DotsFound where
  dotSize : ℝ
  dotDist : ℝ
  selected : Mat ℤ
  horSlope : ℝ
  verSlope : ℝ
  hor : List (List Pt)
  ver : List (List Pt)

/-- The selection of dots by size and shape, if done — demo_01.py:18-20, demo_02.py:19-21, demo_03.py:26-28, example_03.py:71-79. -/
noncomputable def selectDots (lib : Libs) (o : DotOpts) (bin : Mat ℤ) (dotSize : ℝ) : Except PyErr (Mat ℤ) :=
  match o.select with
  | none => .ok bin
  | some (a, b) => selectDotsBasedRatio lib.axes (realMat (selectDotsBasedSize (realMat bin) dotSize a)) b

/-- The removal of residual dots from horizontal lines, if done. -/
noncomputable def dropHor (lib : Libs) (o : DotOpts) (hor : List (List Pt)) (slope : ℝ) : Except PyErr (List (List Pt)) :=
  match o.residual with
  | none => .ok hor
  | some r => removeResidualHor lib.polyfit hor slope r

/-- The removal of residual dots from vertical lines, if done. -/
noncomputable def dropVer (lib : Libs) (o : DotOpts) (ver : List (List Pt)) (slope : ℝ) : Except PyErr (List (List Pt)) :=
  match o.residual with
  | none => .ok ver
  | some r => removeResidualVer lib.polyfit ver slope r

/-- From the binarized image to the lines — demo_01.py:16-34, demo_02.py:17-33, demo_03.py:23-45, demo_05.py:24-35, example_03.py:65-98. -/
noncomputable def dotLines (lib : Libs) (o : DotOpts) (bin : Mat ℤ) : Except PyErr DotsFound := do
  let (dotSize, dotDist) ← calcSizeDistance (realMat bin) 0.3
  let sel ← selectDots lib o bin dotSize
  let horSlope ← calcHorSlope lib.polyfit lib.argsort lib.radon (realMat sel) 0.3
  let verSlope ← calcVerSlope lib.polyfit lib.argsort lib.radon (realMat sel) 0.3
  let hor ← groupDotsHorImage lib.argsort sel horSlope dotDist o.groupRatio o.miss o.acceptedHor
  let ver ← groupDotsVerImage lib.argsort sel verSlope dotDist o.groupRatio o.miss o.acceptedVer
  let hor ← dropHor lib o hor horSlope
  let ver ← dropVer lib o ver verSlope
  .ok ⟨dotSize, dotDist, sel, horSlope, verSlope, hor, ver⟩

/-- Model, unwarped lines and corrected image for the grid of lines used, and the saved difference — demo_01.py:54-87, demo_02.py:91-119,
demo_03.py:63-95. -/
noncomputable def radialRun (lib : Libs) (numCoef : ℤ) (mat0 : Mat ℝ) (found grid : List (List Pt) × List (List Pt))
    (before : List (ℝ × ℝ) × List (ℝ × ℝ)) : Except PyErr LineRun := do
  let model ← radialModel lib numCoef grid
  let unwarped := unwarpBoth lib model grid
  let after ← lineResiduals lib unwarped model.centre.x model.centre.y
  let corrected := unwarpImageBackward lib.sample lib.float32 mat0 model.centre.x model.centre.y model.coefs
  .ok ⟨found, grid, before, model, unwarped, after, corrected, subMat corrected mat0⟩

/-- The part of demo_02.py and demo_05.py that only plots: the parabolas of the lines around the centre of `find_cod_bailey`, and the corrected ones —
demo_02.py:47-83, demo_05.py:49-79. -/
noncomputable def plottedParabolas (lib : Libs) (lines : List (List Pt) × List (List Pt)) : Except PyErr ((List Para × List Para) × (List Para × List Para)) := do
  let c ← findCodBailey lib.polyfit lines.1 lines.2 2
  let (ch, _) ← paraFitHor lib.polyfit lines.1 c.x c.y
  let (cv, _) ← paraFitVer lib.polyfit lines.2 c.x c.y
  let (ch', cv', _) ← nonPerspectiveParaCoef lib.polyfit lines.1 lines.2
  .ok ((ch, cv), (ch', cv'))

/-- demo_01.py:16-87, from the binarized image on. -/
noncomputable def demo01Rest (lib : Libs) (numCoef : ℤ) (mat0 : Mat ℝ) (bin : Mat ℤ) : Except PyErr (DotsFound × LineRun) := do
  let f ← dotLines lib demo01Opts bin
  let before ← lineResiduals lib (f.hor, f.ver) 0 0
  let run ← radialRun lib numCoef mat0 (f.hor, f.ver) (f.hor, f.ver) before
  .ok (f, run)

/-- demo_02.py:17-119, from the binarized image on. -/
noncomputable def demo02Rest (lib : Libs) (fsolve : (ℝ × ℝ → ℝ × ℝ) → ℝ × ℝ → ℝ × ℝ) (numCoef : ℤ) (mat0 : Mat ℝ) (bin : Mat ℤ) :
    Except PyErr (DotsFound × LineRun) := do
  let f ← dotLines lib demo02Opts bin
  let before ← lineResiduals lib (f.hor, f.ver) 0 0
  let _ ← plottedParabolas lib (f.hor, f.ver)
  let grid ← regenerateGridParabola lib.polyfit fsolve f.hor f.ver true false
  let run ← radialRun lib numCoef mat0 (f.hor, f.ver) grid before
  .ok (f, run)

/-- demo_03.py:22-95, from the binarized image on. -/
noncomputable def demo03Rest (lib : Libs) (fsolve : (ℝ × ℝ → ℝ × ℝ) → ℝ × ℝ → ℝ × ℝ) (numCoef : ℤ) (mat0 : Mat ℝ) (bin : Mat ℤ) :
    Except PyErr (DotsFound × LineRun) := do
  let f ← dotLines lib demo03Opts bin
  let before ← lineResiduals lib (f.hor, f.ver) 0 0
  let grid ← regenerateGridParabola lib.polyfit fsolve f.hor f.ver true false
  let run ← radialRun lib numCoef mat0 (f.hor, f.ver) grid before
  .ok (f, run)

/-- What demo_05.py computes: `run.grid` are the lines with the perspective corrected, of which the model is found, `lines` the ones without, which are
unwarped; then the points and the coefficients of the perspective, the image, and its difference to the image with the radial correction. -/
structure PerspRun where
  run : LineRun
  lines : List (List Pt) × List (List Pt)
  source : List Pt
  target : List Pt
  coefs : List ℝ
  image : Mat ℝ
  difference : Mat ℝ

/-- demo_05.py:23-151, from the binarized image on. -/
noncomputable def demo05Rest (lib : Libs) (fsolve : (ℝ × ℝ → ℝ × ℝ) → ℝ × ℝ → ℝ × ℝ) (numCoef : ℤ) (mat0 : Mat ℝ) (bin : Mat ℤ) :
    Except PyErr (DotsFound × PerspRun) := do
  let f ← dotLines lib demo05Opts bin
  let before ← lineResiduals lib (f.hor, f.ver) 0 0
  let _ ← plottedParabolas lib (f.hor, f.ver)
  let grid ← regenerateGridParabola lib.polyfit fsolve f.hor f.ver true false
  let model ← radialModel lib numCoef grid
  let lines ← regenerateGridParabola lib.polyfit fsolve f.hor f.ver false false
  let unwarped := unwarpBoth lib model lines
  let after ← lineResiduals lib unwarped model.centre.x model.centre.y
  let corrected := unwarpImageBackward lib.sample lib.float32 mat0 model.centre.x model.centre.y model.coefs
  let (source, target) ← generateSourceTarget lib.polyfit lib.minimize unwarped.1 unwarped.2 true .mean false
  let coefs ← calcPerspectiveCoefs lib.lstsq source target "backward"
  let image ← correctPerspectiveImage lib.sample lib.float32 corrected coefs none
  .ok (f, ⟨⟨(f.hor, f.ver), grid, before, model, unwarped, after, corrected, subMat corrected mat0⟩, lines, source, target, coefs, image,
    subMat image corrected⟩)

/-- What example_03.py computes. -/
structure Example03Run where
  significant : Bool
  used : List (List Pt) × List (List Pt)
  centre : Pt
  forward : List ℝ
  backward : List ℝ
  warned : Bool
  image : Mat ℝ
  difference : Mat ℝ
  unwarped : List (List Pt) × List (List Pt)
  bad : Bool

/-- example_03.py:64-166, from the binarized image on; `perspective` is set in line 46. -/
noncomputable def example03Rest (lib : Libs) (fsolve : (ℝ × ℝ → ℝ × ℝ) → ℝ × ℝ → ℝ × ℝ) (numCoef : ℤ) (perspective : Bool) (mat0 : Mat ℝ) (bin : Mat ℤ) :
    Except PyErr (DotsFound × Example03Run) := do
  let f ← dotLines lib example03Opts bin
  let significant ← linesDistorted lib f.hor f.ver 0 0
  let used ← modelLines lib fsolve f.hor f.ver perspective
  let c ← findCodCoarse lib.polyfit used.1 used.2
  let (fw, bw, warned) ← calcCoefBackwardFromForward lib.polyfit lib.lstsq lib.minimize used.1 used.2 c.x c.y numCoef false 0.3
  let image := unwarpImageBackward lib.sample lib.float32 mat0 c.x c.y bw
  let unwarped := (unwarpLineForward id used.1 c.x c.y fw, unwarpLineForward id used.2 c.x c.y fw)
  let bad ← linesDistorted lib unwarped.1 unwarped.2 c.x c.y
  .ok (f, ⟨significant, used, c, fw, bw, warned, image, { image with get := fun i j => |image.get i j - mat0.get i j| }, unwarped, bad⟩)

/-- demo_01.py:11-87. -/
noncomputable def demo01 {α : Type} (lib : Libs) (numCoef : ℤ) (D : Disk α) (file : FilePath) : Except PyErr (Mat ℤ × DotsFound × LineRun) := do
  let mat0 ← asGray (← loadImageAt D.decode D.fs file true)
  let bin ← dotBinary lib (fun l _ => l) mat0 demo01Opts.bin
  let r ← demo01Rest lib numCoef mat0 bin
  .ok (bin, r)

/-- demo_02.py:12-119. -/
noncomputable def demo02 {α : Type} (lib : Libs) (fsolve : (ℝ × ℝ → ℝ × ℝ) → ℝ × ℝ → ℝ × ℝ) (numCoef : ℤ) (D : Disk α) (file : FilePath) :
    Except PyErr (Mat ℤ × DotsFound × LineRun) := do
  let mat0 ← asGray (← loadImageAt D.decode D.fs file true)
  let bin ← dotBinary lib (fun l _ => l) mat0 demo02Opts.bin
  let r ← demo02Rest lib fsolve numCoef mat0 bin
  .ok (bin, r)

/-- demo_03.py:11-95. -/
noncomputable def demo03 {α : Type} (lib : Libs) (zoom : List ℝ → ℕ → List ℝ) (fsolve : (ℝ × ℝ → ℝ × ℝ) → ℝ × ℝ → ℝ × ℝ) (numCoef : ℤ) (D : Disk α)
    (file : FilePath) : Except PyErr (Mat ℤ × DotsFound × LineRun) := do
  let mat0 ← asGray (← loadImageAt D.decode D.fs file true)
  let bin ← dotBinary lib zoom mat0 demo03Opts.bin
  let r ← demo03Rest lib fsolve numCoef mat0 bin
  .ok (bin, r)

/-- demo_05.py:13-151. -/
noncomputable def demo05 {α : Type} (lib : Libs) (zoom : List ℝ → ℕ → List ℝ) (fsolve : (ℝ × ℝ → ℝ × ℝ) → ℝ × ℝ → ℝ × ℝ) (numCoef : ℤ) (D : Disk α)
    (file : FilePath) : Except PyErr (Mat ℤ × DotsFound × PerspRun) := do
  let mat0 ← asGray (← loadImageAt D.decode D.fs file true)
  let bin ← dotBinary lib zoom mat0 demo05Opts.bin
  let r ← demo05Rest lib fsolve numCoef mat0 bin
  .ok (bin, r)

/-- example_03.py:52-166. -/
noncomputable def example03 {α : Type} (lib : Libs) (fsolve : (ℝ × ℝ → ℝ × ℝ) → ℝ × ℝ → ℝ × ℝ) (numCoef : ℤ) (perspective : Bool) (D : Disk α)
    (file : FilePath) : Except PyErr (Mat ℤ × DotsFound × Example03Run) := do
  let mat0 ← asGray (← loadImageAt D.decode D.fs file true)
  let bin ← dotBinary lib (fun l _ => l) mat0 example03Opts.bin
  let r ← example03Rest lib fsolve numCoef perspective mat0 bin
  .ok (bin, r)

end Discorpy
