import Verif.Py.Array
import Verif.Py.Label
import Verif.Model.Prep

/-!
# Model of `discorpy/prep/preprocessing.py`, selection of dots
-/

namespace Discorpy

/-- `check_num_dots` — prep/preprocessing.py:251-271 (`np.int16` is implicit in the labelling of non-zero pixels). -/
noncomputable def checkNumDots (m : Mat ℤ) : Bool := decide ((dotReps m).length < 5 * 5)

/-- `list_cent` of `calc_size_distance` and `select_dots_based_distance` — prep/preprocessing.py:299-300, 444-445. -/
noncomputable def dotCentres (m : Mat ℤ) : Except PyErr (List Pt) :=
  (dotReps m).mapM fun p => centerOfMass m (dotPixels m p)

/-- Sorted distances of a dot to all dots, `np.sort(np.sqrt(…))` — prep/preprocessing.py:301-303, 446-449. -/
noncomputable def sortedDists (cents : List Pt) (dot : Pt) : List ℝ :=
  (cents.map fun c => √((dot.y - c.y) ^ 2 + (dot.x - c.x) ^ 2)).mergeSort fun a b => decide (a ≤ b)

/-- `_check_dot_size` — prep/preprocessing.py:308-329. -/
noncomputable def checkDotSize (m : Mat ℝ) (minSize maxSize : ℝ) : Bool :=
  decide (m.flat.sum ≥ minSize ∧ m.flat.sum ≤ maxSize)

/-- The zero image and the copying loop shared by the three selections — prep/preprocessing.py:357-359, 416-418,
450-456. -/
noncomputable def keepBoxes (src : Mat ℤ) (boxes : List Box) : Mat ℤ :=
  boxes.foldl (copyBox src) ⟨src.height, src.width, fun _ _ => 0⟩

/-- `select_dots_based_size` — prep/preprocessing.py:332-360. -/
noncomputable def selectDotsBasedSize (m : Mat ℝ) (dotSize ratio : ℝ) : Mat ℤ :=
  let minSize := max (dotSize - ratio * dotSize) 0
  let maxSize := dotSize + ratio * dotSize
  let boxes := (findObjects (int16Mat m)).filter fun b => checkDotSize (m.sub b) minSize maxSize
  keepBoxes (int16Mat m) boxes

/-- `_check_axes_ratio` — prep/preprocessing.py:363-391. `axes` gives minor and major axis length of
`meas.regionprops(mat)[0]` (an `IndexError` if there is no region); these are Python floats, so a zero minor axis raises
`ZeroDivisionError`. -/
noncomputable def checkAxesRatio (axes : Mat ℤ → Except PyErr (ℝ × ℝ)) (m : Mat ℤ) (ratio : ℝ) : Except PyErr Bool :=
  if m.height < 2 ∨ m.width < 2 then .ok false
  else do
    let (minor, major) ← axes m
    if minor = 0 then .error .zeroDivisionError
    else .ok (decide (|major / minor - 1| < ratio))

/-- `select_dots_based_ratio` — prep/preprocessing.py:394-419. -/
noncomputable def selectDotsBasedRatio (axes : Mat ℤ → Except PyErr (ℝ × ℝ)) (m : Mat ℝ) (ratio : ℝ) :
    Except PyErr (Mat ℤ) := do
  let mat := int16Mat m
  let flags ← (findObjects mat).mapM fun b => do
    let ok ← checkAxesRatio axes (mat.sub b) ratio
    return (b, ok)
  .ok (keepBoxes mat ((flags.filter fun f => f.2).map fun f => f.1))

/-- The test of one dot in `select_dots_based_distance` — prep/preprocessing.py:452-455. With `dot_dist = 0` NumPy computes
`nan`, which is not below any ratio. -/
noncomputable def distanceOk (dists : List ℝ) (dotDist ratio : ℝ) : Bool :=
  dists.any fun dist =>
    let num : ℝ := ⌊dist / dotDist⌋
    decide (dotDist ≠ 0 ∧ (dist - num * dotDist) / dotDist < ratio)

/-- `select_dots_based_distance` — prep/preprocessing.py:422-457. -/
noncomputable def selectDotsBasedDistance (m : Mat ℝ) (dotDist ratio : ℝ) : Except PyErr (Mat ℤ) := do
  let mat := int16Mat m
  let cents ← dotCentres mat
  let listDist := cents.map fun dot => npSlice (sortedDists cents dot) 1 4
  .ok (keepBoxes mat ((((findObjects mat).zip listDist).filter fun q => distanceOk q.2 dotDist ratio).map fun q => q.1))

end Discorpy
