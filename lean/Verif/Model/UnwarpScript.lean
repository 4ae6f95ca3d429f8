import Verif.Model.Example
import Verif.Model.GridPara
import Verif.Model.Load
import Verif.Model.Normalize

/-!
# Model: the standalone script `examples/unwarp.py`

The script from the command line to its results. Printing, the time, and the writing of files are not modelled: the result of the model
lists what the script saves. The flat-field of an HDF file can have integer pixels; `store` is the conversion of a number to the type of
its pixels (nothing for floats).
-/

namespace Discorpy

/-- The value of a command-line option: Python's `True` and `False`, or a text. -/
inductive ArgVal where
  | bool (b : Bool)
  | str (s : PyStr)
deriving DecidableEq

/-- `x is True` — examples/unwarp.py:159. -/
def ArgVal.isTrue : ArgVal → Bool
  | .bool true => true
  | _ => false

/-- The option `-p` as `argparse` gives it: the text after it, or its default — examples/unwarp.py:58-60. -/
def perspectiveArg : Option PyStr → ArgVal
  | none => .bool false
  | some s => .str s

/-- The option `-f`: the texts `none` (also the default) and `norm`, or a path — examples/unwarp.py:52-54, 86, 102. -/
inductive FlatArg where
  | none
  | norm
  | file (p : FilePath)

/-- The options of the command line — examples/unwarp.py:45-60. -/
structure UnwarpArgs where
  input : FilePath
  key : Option PyStr
  flat : FlatArg
  order : ℤ
  perspective : Option PyStr

/-- What the loaders need: the file system and the parts of h5py, Pillow and NumPy that are parameters of the model. -/
structure Disk (α : Type) where
  fs : FS α
  parse : α → Except PyErr H5File
  decode : α → Except PyErr Img
  h5List : ℕ → List ℤ → Except PyErr (List ℕ)
  f32 : ℝ → ℝ

/-- `os.path.splitext(path)[1]` for a path with the given last component — examples/unwarp.py:75, 87. -/
def splitExt (s : PyStr) : PyStr :=
  match lastDot s with
  | none => []
  | some i => if (s.take i).all (· = '.') then [] else s.drop i

/-- `np.mean(mat, axis=0)` for a 3D array, and unpacking of the shape — examples/unwarp.py:79-83, 91-95. -/
noncomputable def stackAverage (a : NdArr ℝ) : Except PyErr (Mat ℝ) :=
  match a.shape with
  | [d, h, w] => if d = 0 then .error .nonFinite else .ok ⟨h, w, fun i j => ((List.range d).map fun k => a.get [k, i, j]).sum / d⟩
  | [h, w] => .ok ⟨h, w, fun i j => a.get [i, j]⟩
  | _ => .error .valueError

/-- Loading of the image or of the flat-field — examples/unwarp.py:75-83, 87-95. -/
noncomputable def scriptLoad {α : Type} (D : Disk α) (p : FilePath) (key : Option PyStr) : Except PyErr (Mat ℝ) :=
  if splitExt p.name = ".hdf".toList ∨ splitExt p.name = ".nxs".toList then do
    stackAverage (← loadHdfFileAt D.parse D.h5List D.f32 D.fs p key .none 0)
  else do
    match ← loadImageAt D.decode D.fs p true with
    | .gray m => .ok m
    | .color _ _ _ _ => .error .valueError

/-- `mat0 / flat` for arrays with the same number of rows: NumPy repeats a single column; a division by zero is not finite —
examples/unwarp.py:101. -/
noncomputable def divideImages (mat0 flat : Mat ℝ) : Except PyErr (Mat ℝ) :=
  if mat0.width ≠ flat.width ∧ mat0.width ≠ 1 ∧ flat.width ≠ 1 then .error .valueError
  else if (flat.flat.any fun v => decide (v = 0)) = true ∧ 0 < mat0.width then .error .nonFinite
  else .ok ⟨mat0.height, if mat0.width = 1 then flat.width else mat0.width, fun i j =>
    mat0.get i (if mat0.width = 1 then 0 else j) / flat.get i (if flat.width = 1 then 0 else j)⟩

/-- Correction by the flat-field — examples/unwarp.py:95-101. The second comparison is that of the width of the image with itself. -/
noncomputable def flatField (store : ℝ → ℝ) (mat0 flat : Mat ℝ) : Except PyErr (Mat ℝ) :=
  if mat0.height ≠ flat.height ∨ mat0.width ≠ mat0.width then .error .valueError
  else
    let nmean := flat.flat.sum / flat.flat.length
    divideImages mat0 { flat with get := fun i j => if flat.get i j = 0 then store nmean else flat.get i j }

/-- The image used to find the dots — examples/unwarp.py:86-105. -/
noncomputable def dotImage {α : Type} (D : Disk α) (store : ℝ → ℝ) (mat0 : Mat ℝ) (key : Option PyStr) : FlatArg → Except PyErr (Mat ℝ)
  | .file p => do flatField store mat0 (← scriptLoad D p key)
  | .norm => normalizationFft padReflect mat0 5 40
  | .none => .ok mat0

/-- What the script finds: the saved images of the dots, the measures and the lines; the lines used for the model; the centre and the
coefficients; whether a missing line is reported; the unwarped lines, and whether these are reported as not accurate. -/
structure FoundModel where
  binarized : Mat ℤ
  dotSize : ℝ
  dotDist : ℝ
  selected : Mat ℤ
  horSlope : ℝ
  verSlope : ℝ
  hor : List (List Pt)
  ver : List (List Pt)
  usedHor : List (List Pt)
  usedVer : List (List Pt)
  centre : Pt
  coefs : List ℝ
  warned : Bool
  unwarpedHor : List (List Pt)
  unwarpedVer : List (List Pt)
  bad : Bool

/-- The results of the script. -/
structure UnwarpRun where
  found : FoundModel
  image : Mat ℝ

/-- The lines used for the model — examples/unwarp.py:159-165. -/
noncomputable def modelLines (lib : Libs) (fsolve : (ℝ × ℝ → ℝ × ℝ) → ℝ × ℝ → ℝ × ℝ) (hor ver : List (List Pt)) (perspective : Bool) :
    Except PyErr (List (List Pt) × List (List Pt)) :=
  if perspective then
    match regenerateGridParabola lib.polyfit fsolve hor ver true false with
    | .error .attributeError => .error .valueError
    | r => r
  else .ok (hor, ver)

/-- The script after loading — examples/unwarp.py:109-212. -/
noncomputable def unwarpSteps (lib : Libs) (fsolve : (ℝ × ℝ → ℝ × ℝ) → ℝ × ℝ → ℝ × ℝ) (mat0 mat1 : Mat ℝ) (order : ℤ) (perspective : Bool) :
    Except PyErr UnwarpRun := do
  let bin ← binarization lib.otsu mat1 0.3 none true
  let (dotSize, dotDist) ← calcSizeDistance (realMat bin) 0.5
  let sized := selectDotsBasedSize (realMat bin) dotSize 0.5
  let sel ← selectDotsBasedRatio lib.axes (realMat sized) 0.3
  let horSlope ← calcHorSlope lib.polyfit lib.argsort lib.radon (realMat sel) 0.3
  let verSlope ← calcVerSlope lib.polyfit lib.argsort lib.radon (realMat sel) 0.3
  let hor ← groupDotsHorImage lib.argsort sel horSlope dotDist 0.3 6 0.65
  let ver ← groupDotsVerImage lib.argsort sel verSlope dotDist 0.3 6 0.65
  let hor ← removeResidualHor lib.polyfit hor horSlope 2
  let ver ← removeResidualVer lib.polyfit ver verSlope 2
  let _ ← calcResidualHor lib.polyfit lib.argsort hor 0 0
  let _ ← calcResidualVer lib.polyfit lib.argsort ver 0 0
  let (usedHor, usedVer) ← modelLines lib fsolve hor ver perspective
  let c ← findCodCoarse lib.polyfit usedHor usedVer
  let (_, coefs, warned) ← calcCoefBackwardFromForward lib.polyfit lib.lstsq lib.minimize usedHor usedVer c.x c.y order false 0.3
  let r ← correctBackward lib mat0 usedHor usedVer c coefs warned
  .ok ⟨⟨bin, dotSize, dotDist, sel, horSlope, verSlope, hor, ver, usedHor, usedVer, c, coefs, warned, r.hor, r.ver, r.bad⟩, r.image⟩

/-- The script — examples/unwarp.py:65-212. -/
noncomputable def unwarpScript {α : Type} (lib : Libs) (fsolve : (ℝ × ℝ → ℝ × ℝ) → ℝ × ℝ → ℝ × ℝ) (D : Disk α) (store : ℝ → ℝ)
    (args : UnwarpArgs) : Except PyErr UnwarpRun := do
  let mat0 ← scriptLoad D args.input args.key
  let mat1 ← dotImage D store mat0 args.key args.flat
  unwarpSteps lib fsolve mat0 mat1 args.order (perspectiveArg args.perspective).isTrue

end Discorpy
