import Verif.Model.Slopes
import Verif.Model.Proc
import Verif.Model.Post
import Verif.Model.Dots

/-!
# Model: the calibration script `examples/example_01.py`

The script with the settings `norm = False` and `perspective = False`. Loading of the image, printing and writing of files are not
modelled: the result of the model lists what the script prints and saves.
-/

namespace Discorpy

/-- `group_dots_hor_lines` on an integer image — prep/preprocessing.py:629-640. An array with at most two columns is a list of
points. Without dots `list_dots` is a 1D array and `list_dots_left[:, 1]` an `IndexError`. -/
noncomputable def groupDotsHorImage (argsort : List ℝ → List ℕ) (m : Mat ℤ) (slope dotDist ratio numDotMiss acceptedRatio : ℝ) :
    Except PyErr (List (List Pt)) :=
  if 2 < m.width then do
    let cents ← dotCentres m
    if cents = [] then .error .indexError
    else groupDotsHor argsort cents slope dotDist ratio numDotMiss acceptedRatio
  else if m.height = 0 then .error .valueError
  else if m.width < 2 then .error .indexError
  else groupDotsHor argsort ((List.range m.height).map fun i => ⟨(m.get i 0 : ℝ), (m.get i 1 : ℝ)⟩) slope dotDist ratio numDotMiss
    acceptedRatio

/-- `group_dots_ver_lines` on an integer image — prep/preprocessing.py:699-712. Without dots `np.fliplr` gets a 1D array, a
`ValueError`. -/
noncomputable def groupDotsVerImage (argsort : List ℝ → List ℕ) (m : Mat ℤ) (slope dotDist ratio numDotMiss acceptedRatio : ℝ) :
    Except PyErr (List (List Pt)) :=
  if 2 < m.width then do
    let cents ← dotCentres m
    if cents = [] then .error .valueError
    else groupDotsVer argsort cents slope dotDist ratio numDotMiss acceptedRatio
  else if m.height = 0 then .error .valueError
  else if m.width < 2 then .error .indexError
  else groupDotsVer argsort ((List.range m.height).map fun i => ⟨(m.get i 0 : ℝ), (m.get i 1 : ℝ)⟩) slope dotDist ratio numDotMiss
    acceptedRatio

/-- The functions of NumPy, SciPy and scikit-image which the package calls. -/
structure Libs where
  /-- `np.polyfit` -/
  polyfit : PolyfitFn
  /-- `np.argsort` -/
  argsort : List ℝ → List ℕ
  /-- `np.linalg.lstsq` -/
  lstsq : LstsqFn
  /-- `optimize.minimize(f, x0).x[0]` -/
  minimize : (ℝ → ℝ) → ℝ → ℝ
  /-- `skimage.transform.radon` -/
  radon : Mat ℝ → List ℝ → Mat ℝ
  /-- `map_coordinates` -/
  sample : Sampler
  /-- `np.float32` -/
  float32 : ℝ → ℝ
  /-- `skimage.filters.threshold_otsu` -/
  otsu : Mat ℝ → Except PyErr ℝ
  /-- the axes found by `skimage.measure.regionprops` -/
  axes : Mat ℤ → Except PyErr (ℝ × ℝ)

/-- `check1 or check2` of the residuals of both families of lines — examples/example_01.py:178-188, 222-232, 261-271 (and 126-134 with the
centre 0). -/
noncomputable def linesDistorted (lib : Libs) (hor ver : List (List Pt)) (xcenter ycenter : ℝ) : Except PyErr Bool := do
  let hd ← calcResidualHor lib.polyfit lib.argsort hor xcenter ycenter
  let vd ← calcResidualVer lib.polyfit lib.argsort ver xcenter ycenter
  let c1 ← checkDistortion hd
  let c2 ← checkDistortion vd
  .ok (c1 || c2)

/-- What the script saves for one model: the coefficients, whether a missing line was reported, the corrected image, the unwarped
lines, and whether these are reported as not accurate. -/
structure Corrected where
  coefs : List ℝ
  warned : Bool
  image : Mat ℝ
  hor : List (List Pt)
  ver : List (List Pt)
  bad : Bool

/-- Correction with a backward model — examples/example_01.py:164-190, 247-273. -/
noncomputable def correctBackward (lib : Libs) (mat0 : Mat ℝ) (hor ver : List (List Pt)) (c : Pt) (coefs : List ℝ) (warned : Bool) :
    Except PyErr Corrected := do
  let image := unwarpImageBackward lib.sample lib.float32 mat0 c.x c.y coefs
  let uhor := unwarpLineBackward lib.minimize id hor c.x c.y coefs
  let uver := unwarpLineBackward lib.minimize id ver c.x c.y coefs
  let bad ← linesDistorted lib uhor uver c.x c.y
  .ok ⟨coefs, warned, image, uhor, uver, bad⟩

/-- Correction with a forward model — examples/example_01.py:204-234. -/
noncomputable def correctForward (lib : Libs) (mat0 : Mat ℝ) (hor ver : List (List Pt)) (c : Pt) (coefs : List ℝ) (warned : Bool) :
    Except PyErr Corrected := do
  let image ← unwarpImageForward mat0 c.x c.y coefs
  let uhor := unwarpLineForward id hor c.x c.y coefs
  let uver := unwarpLineForward id ver c.x c.y coefs
  let bad ← linesDistorted lib uhor uver c.x c.y
  .ok ⟨coefs, warned, image, uhor, uver, bad⟩

/-- The results of the script. -/
structure Calibration where
  binarized : Mat ℤ
  dotSize : ℝ
  dotDist : ℝ
  selected : Mat ℤ
  horSlope : ℝ
  verSlope : ℝ
  hor : List (List Pt)
  ver : List (List Pt)
  /-- the message "Distortion is not significant" is not printed -/
  significant : Bool
  centre : Pt
  backward : Corrected
  forward : Corrected
  backFromForward : Corrected

/-- The script from the loaded image on — examples/example_01.py:47-273. -/
noncomputable def runExample (lib : Libs) (mat0 : Mat ℝ) (numCoef : ℤ) : Except PyErr Calibration := do
  let mat1 ← binarization lib.otsu mat0 0.3 none true
  if checkNumDots mat1 then .error .valueError
  else do
    let (dotSize, dotDist) ← calcSizeDistance (realMat mat1) 0.3
    let mat2 := selectDotsBasedSize (realMat mat1) dotSize 0.3
    let mat3 ← selectDotsBasedRatio lib.axes (realMat mat2) 0.5
    let horSlope ← calcHorSlope lib.polyfit lib.argsort lib.radon (realMat mat3) 0.3
    let verSlope ← calcVerSlope lib.polyfit lib.argsort lib.radon (realMat mat3) 0.3
    let hor ← groupDotsHorImage lib.argsort mat3 horSlope dotDist 0.3 6 0.7
    let ver ← groupDotsVerImage lib.argsort mat3 verSlope dotDist 0.3 6 0.7
    let hor ← removeResidualHor lib.polyfit hor horSlope 2
    let ver ← removeResidualVer lib.polyfit ver verSlope 2
    let significant ← linesDistorted lib hor ver 0 0
    let c ← findCodCoarse lib.polyfit hor ver
    let (bw, w1) ← calcCoefBackward lib.polyfit lib.lstsq lib.minimize hor ver c.x c.y numCoef false 0.3
    let backward ← correctBackward lib mat0 hor ver c bw w1
    let (fw, w2) ← calcCoefForward lib.polyfit lib.lstsq lib.minimize hor ver c.x c.y numCoef false 0.3
    let forward ← correctForward lib mat0 hor ver c fw w2
    let (_, bf, w3) ← calcCoefBackwardFromForward lib.polyfit lib.lstsq lib.minimize hor ver c.x c.y numCoef false 0.3
    let backFromForward ← correctBackward lib mat0 hor ver c bf w3
    .ok ⟨mat1, dotSize, dotDist, mat3, horSlope, verSlope, hor, ver, significant, c, backward, forward, backFromForward⟩

end Discorpy
