import Verif.Model.Fisheye
import Verif.Model.RoverScript
import Verif.Model.GridPara

/-!
# Model: the calibration scripts that correct perspective by parabolas

`examples/line_pattern/example_01.py` and `examples/readthedocs_demo/demo_04.py` (a line pattern) and
`examples/readthedocs_demo/demo_06.py` (a chessboard). Figures and printing are not modelled; the results list the arrays that are saved.
`fsolve f x0` is `optimize.fsolve(f, x0)`.
-/

namespace Discorpy

/-- The settings in which the scripts for lines and chessboards differ: the radius and sensitivity of the search for slopes; the ratio, offsets,
radius and sensitivity of the search for points; the tolerances of the grouping; whether the number of points is checked. -/
structure LineOpts where
  slopeRadius : ℤ
  slopeSensitive : ℝ
  ratio : ℝ
  offsetHor : ℝ
  offsetVer : ℝ
  radius : ℤ
  sensitive : ℝ
  groupRatio : ℝ
  miss : ℝ
  acceptedHor : ℝ
  acceptedVer : ℝ
  check : Bool

/-- line_pattern/example_01.py:33-47; what is not given there is the default of the functions (`accepted_ratio` is 0.65 for horizontal and 0.75 for
vertical lines). -/
noncomputable def lineExampleOpts : LineOpts := ⟨9, 0.1, 1.0, 0, 0, 11, 0.1, 0.3, 6, 0.65, 0.75, false⟩

/-- readthedocs_demo/demo_04.py:18-32. -/
noncomputable def demo04Opts : LineOpts := ⟨9, 0.1, 0.5, 0, 0, 11, 0.1, 0.3, 6, 0.65, 0.75, false⟩

/-- readthedocs_demo/demo_06.py:20-47. -/
noncomputable def demo06Opts : LineOpts := ⟨15, 0.5, 0.3, 450, 150, 15, 0.5, 0.1, 2, 0.8, 0.8, true⟩

/-- Slopes and distances — line_pattern/example_01.py:33-34, demo_06.py:20-21: of the horizontal and of the vertical lines. -/
noncomputable def lineSlopes (lib : Libs) (ext : LineLibs) (o : LineOpts) (mat : Mat ℝ) : Except PyErr ((ℝ × ℝ) × (ℝ × ℝ)) := do
  let E : Ext := ⟨lib.polyfit, lib.argsort, ext.gaussFilter, ext.gaussFit⟩
  let hor ← calcSlopeDistanceHor E ext.filter2 ext.chess lib.radon mat 0.3 30 o.slopeRadius o.slopeSensitive true true true true false none
  let ver ← calcSlopeDistanceVer E ext.filter2 ext.chess lib.radon mat 0.3 30 o.slopeRadius o.slopeSensitive true true true true false none
  .ok (hor, ver)

/-- The reference points, and the check of their number — line_pattern/example_01.py:39-40, demo_06.py:26-37. -/
noncomputable def linePoints (lib : Libs) (ext : LineLibs) (o : LineOpts) (mat : Mat ℝ) (slopeHor distHor slopeVer distVer : ℝ) :
    Except PyErr (List Pt × List Pt) := do
  let E : Ext := ⟨lib.polyfit, lib.argsort, ext.gaussFilter, ext.gaussFit⟩
  let hor ← getCrossPointsHorLines E lib.sample ext.fft5 ext.filter2 lib.float32 mat slopeVer distVer o.ratio o.offsetHor true true false true true
    o.radius o.sensitive none
  let ver ← getCrossPointsVerLines E lib.sample ext.fft5 ext.filter2 lib.float32 mat slopeHor distHor o.ratio o.offsetVer true true false true true
    o.radius o.sensitive none
  if o.check && (hor.length == 0 || ver.length == 0) then .error .valueError else .ok (hor, ver)

/-- Grouping and removal of residual points — line_pattern/example_01.py:46-50, demo_06.py:44-50. -/
noncomputable def lineGroups (lib : Libs) (o : LineOpts) (slopeHor distHor slopeVer distVer : ℝ) (pts : List Pt × List Pt) :
    Except PyErr (List (List Pt) × List (List Pt)) := do
  let hor ← groupDotsHor lib.argsort pts.1 slopeHor distHor o.groupRatio o.miss o.acceptedHor
  let ver ← groupDotsVer lib.argsort pts.2 slopeVer distVer o.groupRatio o.miss o.acceptedVer
  let hor ← removeResidualHor lib.polyfit hor slopeHor 2.0
  let ver ← removeResidualVer lib.polyfit ver slopeVer 2.0
  .ok (hor, ver)

/-- The radii and residuals that are plotted for lines — line_pattern/example_01.py:61-66, 87-94, demo_06.py:55-60, 82-92. -/
noncomputable def lineResiduals (lib : Libs) (lines : List (List Pt) × List (List Pt)) (xc yc : ℝ) :
    Except PyErr (List (ℝ × ℝ) × List (ℝ × ℝ)) := do
  let hd ← calcResidualHor lib.polyfit lib.argsort lines.1 xc yc
  let vd ← calcResidualVer lib.polyfit lib.argsort lines.2 xc yc
  .ok (hd, vd)

/-- `a - b` for images of the same size. -/
noncomputable def subMat (a b : Mat ℝ) : Mat ℝ := { a with get := fun i j => a.get i j - b.get i j }

/-- The radial model — line_pattern/example_01.py:69-75, demo_06.py:67-69. -/
structure RadialModel where
  centre : Pt
  coefs : List ℝ
  warned : Bool

/-- Centre and coefficients of lines — line_pattern/example_01.py:69-75, demo_06.py:67-69. -/
noncomputable def radialModel (lib : Libs) (numCoef : ℤ) (lines : List (List Pt) × List (List Pt)) : Except PyErr RadialModel := do
  let c ← findCodCoarse lib.polyfit lines.1 lines.2
  let (coefs, warned) ← calcCoefBackward lib.polyfit lib.lstsq lib.minimize lines.1 lines.2 c.x c.y numCoef false 0.3
  .ok ⟨c, coefs, warned⟩

/-- Unwarping of both families of lines — line_pattern/example_01.py:83-86, demo_06.py:77-80. -/
noncomputable def unwarpBoth (lib : Libs) (m : RadialModel) (lines : List (List Pt) × List (List Pt)) : List (List Pt) × List (List Pt) :=
  (unwarpLineBackward lib.minimize id lines.1 m.centre.x m.centre.y m.coefs, unwarpLineBackward lib.minimize id lines.2 m.centre.x m.centre.y m.coefs)

/-- What the scripts for lines and chessboards save: the lines found, the regenerated lines, residuals before and after, the model, the unwarped
lines, the corrected image and the difference. -/
structure LineRun where
  found : List (List Pt) × List (List Pt)
  grid : List (List Pt) × List (List Pt)
  before : List (ℝ × ℝ) × List (ℝ × ℝ)
  model : RadialModel
  unwarped : List (List Pt) × List (List Pt)
  after : List (ℝ × ℝ) × List (ℝ × ℝ)
  corrected : Mat ℝ
  difference : Mat ℝ

/-- line_pattern/example_01.py:38-94, demo_04.py:24-75, for the slopes and distances found before. -/
noncomputable def lineExampleRest (lib : Libs) (ext : LineLibs) (o : LineOpts) (fsolve : (ℝ × ℝ → ℝ × ℝ) → ℝ × ℝ → ℝ × ℝ) (numCoef : ℤ) (mat0 : Mat ℝ)
    (slopeHor distHor slopeVer distVer : ℝ) : Except PyErr LineRun := do
  let pts ← linePoints lib ext o mat0 slopeHor distHor slopeVer distVer
  let found ← lineGroups lib o slopeHor distHor slopeVer distVer pts
  let grid ← regenerateGridParabola lib.polyfit fsolve found.1 found.2 true false
  let before ← lineResiduals lib grid 0 0
  let model ← radialModel lib numCoef grid
  let corrected := unwarpImageBackward lib.sample lib.float32 mat0 model.centre.x model.centre.y model.coefs
  let unwarped := unwarpBoth lib model grid
  let after ← lineResiduals lib unwarped model.centre.x model.centre.y
  .ok ⟨found, grid, before, model, unwarped, after, corrected, subMat mat0 corrected⟩

/-- line_pattern/example_01.py:25-94 and demo_04.py:13-75, which differ in the settings `o`. -/
noncomputable def lineExample {α : Type} (lib : Libs) (ext : LineLibs) (o : LineOpts) (fsolve : (ℝ × ℝ → ℝ × ℝ) → ℝ × ℝ → ℝ × ℝ) (numCoef : ℤ) (D : Disk α)
    (file : FilePath) : Except PyErr LineRun := do
  let mat0 ← asGray (← loadImageAt D.decode D.fs file true)
  let (hor, ver) ← lineSlopes lib ext o mat0
  lineExampleRest lib ext o fsolve numCoef mat0 hor.1 hor.2 ver.1 ver.2

/-- demo_06.py:25-98, for the image `mat0`, the line pattern `mat1` and the slopes and distances found before. -/
noncomputable def demo06Rest (lib : Libs) (ext : LineLibs) (fsolve : (ℝ × ℝ → ℝ × ℝ) → ℝ × ℝ → ℝ × ℝ) (numCoef : ℤ) (mat0 mat1 : Mat ℝ)
    (slopeHor distHor slopeVer distVer : ℝ) : Except PyErr LineRun := do
  let pts ← linePoints lib ext demo06Opts mat1 slopeHor distHor slopeVer distVer
  let found ← lineGroups lib demo06Opts slopeHor distHor slopeVer distVer pts
  let before ← lineResiduals lib found 0 0
  let grid ← regenerateGridParabola lib.polyfit fsolve found.1 found.2 true false
  let model ← radialModel lib numCoef grid
  let unwarped := unwarpBoth lib model grid
  let after ← lineResiduals lib unwarped model.centre.x model.centre.y
  let corrected := unwarpImageBackward lib.sample lib.float32 mat0 model.centre.x model.centre.y model.coefs
  .ok ⟨found, grid, before, model, unwarped, after, corrected, subMat corrected mat0⟩

/-- demo_06.py:12-127: the line pattern, what is found, the corrected colour image and the corrected test image. -/
noncomputable def demo06 {α : Type} (lib : Libs) (ext : LineLibs) (fsolve : (ℝ × ℝ → ℝ × ℝ) → ℝ × ℝ → ℝ × ℝ) (numCoef : ℤ) (D : Disk α)
    (file test : FilePath) : Except PyErr (Mat ℝ × LineRun × Img × Img) := do
  let mat0 ← asGray (← loadImageAt D.decode D.fs file true)
  let mat1 ← convertChessboard ext.chess mat0 true true
  let (hor, ver) ← lineSlopes lib ext demo06Opts mat1
  let run ← demo06Rest lib ext fsolve numCoef mat0 mat1 hor.1 hor.2 ver.1 ver.2
  let img ← loadImageAt D.decode D.fs file false
  let img ← unwarpChannels lib.sample lib.float32 img run.model.centre.x run.model.centre.y run.model.coefs
  let tst ← loadImageAt D.decode D.fs test false
  let tst ← unwarpChannels lib.sample lib.float32 tst run.model.centre.x run.model.centre.y run.model.coefs
  .ok (mat1, run, img, tst)

end Discorpy
