import Verif.Model.UnwarpScript
import Verif.Model.Pattern

/-!
# Model: the scripts `examples/example_02.py`, `example_04.py` and `example_05.py`

The short calibration with default parameters, the correction of one image, of some slices of a stack, and the search of a centre. Loading of
the image, printing, the time and the writing of files are not modelled: the results list what the scripts save. The settings at the head of
the scripts (number of coefficients, perspective, indices, ranges) are parameters, and so is the number of images of the stack. `cast` is
the conversion of a pixel to `float32`.
-/

namespace Discorpy

/-- `calc_distor_coef` — examples/example_02.py:37-61, examples/example_04.py:42-66. The parameters that are not given have their default
values, which for `accepted_ratio` are different for rows and columns (prep/preprocessing.py:216, 274, 332, 394, 460, 511, 601-602, 671-672, 743,
778; proc/processing.py:414-415). Result: the centre, the coefficients, and whether a missing line is reported. -/
noncomputable def calcDistorCoef (lib : Libs) (fsolve : (ℝ × ℝ → ℝ × ℝ) → ℝ × ℝ → ℝ × ℝ) (mat : Mat ℝ) (numCoef : ℤ) (perspective : Bool) :
    Except PyErr (Pt × List ℝ × Bool) := do
  let mat1 ← binarization lib.otsu mat 0.3 none true
  let (dotSize, dotDist) ← calcSizeDistance (realMat mat1) 0.3
  let mat2 := selectDotsBasedSize (realMat mat1) dotSize 0.3
  let mat3 ← selectDotsBasedRatio lib.axes (realMat mat2) 0.3
  let horSlope ← calcHorSlope lib.polyfit lib.argsort lib.radon (realMat mat3) 0.3
  let verSlope ← calcVerSlope lib.polyfit lib.argsort lib.radon (realMat mat3) 0.3
  let hor ← groupDotsHorImage lib.argsort mat3 horSlope dotDist 0.3 6 0.65
  let ver ← groupDotsVerImage lib.argsort mat3 verSlope dotDist 0.3 6 0.75
  let hor ← removeResidualHor lib.polyfit hor horSlope 2.5
  let ver ← removeResidualVer lib.polyfit ver verSlope 2.5
  let (usedHor, usedVer) ← modelLines lib fsolve hor ver perspective
  let c ← findCodCoarse lib.polyfit usedHor usedVer
  let (coefs, warned) ← calcCoefBackward lib.polyfit lib.lstsq lib.minimize usedHor usedVer c.x c.y numCoef false 0.3
  .ok (c, coefs, warned)

/-- What `example_02.py` saves. -/
structure SimpleRun where
  centre : Pt
  coefs : List ℝ
  corrected : Mat ℝ
  difference : Mat ℝ

/-- The script `examples/example_02.py`, lines 75-86. -/
noncomputable def simpleScript (lib : Libs) (fsolve : (ℝ × ℝ → ℝ × ℝ) → ℝ × ℝ → ℝ × ℝ) (mat0 : Mat ℝ) (numCoef : ℤ) (perspective : Bool) :
    Except PyErr SimpleRun := do
  let (c, coefs, _) ← calcDistorCoef lib fsolve mat0 numCoef perspective
  let corrected := unwarpImageBackward lib.sample lib.float32 mat0 c.x c.y coefs
  .ok ⟨c, coefs, corrected, { mat0 with get := fun i j => corrected.get i j - mat0.get i j }⟩

/-- `mat3D = np.zeros((depth, height, width), dtype=np.float32); mat3D[:] = mat0` — examples/example_04.py:87-88, example_05.py:56-57. -/
def stackOf (cast : ℝ → ℝ) (depth : ℕ) (mat0 : Mat ℝ) : NdArr ℝ where
  shape := [depth, mat0.height, mat0.width]
  get idx :=
    match idx with
    | [_, y, x] => cast (mat0.get y x)
    | _ => 0

/-- `("0000" + str(i))[-5:]` — examples/example_04.py:98-99. -/
def sliceNumber (i : ℕ) : PyStr :=
  let name := "0000".toList ++ Nat.toDigits 10 i
  name.drop (name.length - 5)

/-- One pair of files of `example_04.py`: the number in the names, the slice before and after. -/
structure SlicePair where
  number : PyStr
  before : Mat ℝ
  after : Mat ℝ

/-- What `example_04.py` saves. -/
structure ChunkRun where
  centre : Pt
  coefs : List ℝ
  files : List SlicePair

/-- The script `examples/example_04.py`, lines 76-102. The indices of the loop are positions of the stack because the correction has accepted
`start` and `stop`; there is at least one projection (600 in the script). -/
noncomputable def chunkScript (lib : Libs) (B : Boundary) (cast : ℝ → ℝ) (fsolve : (ℝ × ℝ → ℝ × ℝ) → ℝ × ℝ → ℝ × ℝ) (mat0 : Mat ℝ) (numCoef : ℤ)
    (perspective : Bool) (depth : ℕ) (start stop : ℤ) : Except PyErr ChunkRun := do
  let (c, coefs, _) ← calcDistorCoef lib fsolve mat0 numCoef perspective
  let mat3D := stackOf cast depth mat0
  let out ← unwarpChunkSlicesBackward B lib.float32 mat3D c.x c.y coefs start stop
  .ok ⟨c, coefs, (rangeList start stop 1).map fun i =>
    ⟨sliceNumber i.toNat, ⟨depth, mat0.width, fun d j => mat3D.get [d, i.toNat, j]⟩,
      ⟨depth, mat0.width, fun d j => out.get [d, (i - start).toNat, j]⟩⟩⟩

/-- `"{:5.2f}".format(x)` — examples/example_05.py:70-71. -/
noncomputable def fmt52 (x : ℝ) : PyStr :=
  let n := (roundHalfEven (100 * x)).natAbs
  List.leftpad 5 ' ' ((if x < 0 then ['-'] else []) ++ (Nat.toDigits 10 (n / 100) ++ '.' :: [(n % 100 / 10).digitChar, (n % 10).digitChar]))

/-- The name of a file of `example_05.py`, lines 69-71. -/
noncomputable def centreName (x y : ℝ) : PyStr :=
  "xcenter_".toList ++ fmt52 x ++ "_ycenter_".toList ++ fmt52 y ++ ".tif".toList

/-- The script `examples/example_05.py`, lines 48-72, for the loaded centre and coefficients and the loaded image: names and slices. -/
noncomputable def centreSearch (B : Boundary) (cast : ℝ → ℝ) (mat0 : Mat ℝ) (c : Pt) (coefs : List ℝ) (depth : ℕ) (searchRange step index : ℤ) :
    Except PyErr (List (PyStr × Mat ℝ)) := do
  let mat3D := stackOf cast depth mat0
  let xs ← pyRange (-searchRange) (searchRange + step) step
  (xs.flatMap fun x => xs.map fun y => (x, y)).mapM fun (s : ℤ × ℤ) => do
    let slice ← unwarpSliceBackward B mat3D (c.x + s.1) (c.y + s.2) coefs index
    .ok (centreName (c.x + s.1) (c.y + s.2), slice)

end Discorpy
