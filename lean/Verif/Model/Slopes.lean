import Verif.Model.Binary
import Verif.Model.LinePattern

/-!
# Model of `discorpy/prep/preprocessing.py`, slopes of the grid of dots

The Radon transform, `np.polyfit` and `np.argsort` are parameters. The dots of the region of interest are those of `dotReps`.
-/

namespace Discorpy

/-- The mean of the centres — prep/preprocessing.py:490-491, 540-541. -/
noncomputable def meanCentre (cents : List Pt) : Except PyErr Pt := do
  let mx ← npMean (cents.map Pt.x)
  let my ← npMean (cents.map Pt.y)
  .ok ⟨my, mx⟩

/-- The dot used, the first entry of `np.argsort` of the distances to the mean — prep/preprocessing.py:490-494, 540-544. -/
noncomputable def midDot (argsort : List ℝ → List ℕ) (cents : List Pt) : Except PyErr Pt := do
  let mean ← meanCentre cents
  let k ← npGet (argsort (cents.map fun c => √((mean.x - c.x) ^ 2 + (mean.y - c.y) ^ 2))) 0
  npGet cents k

/-- `dist_error` — prep/preprocessing.py:484, 535; `best` in degrees. -/
noncomputable def slopeTolerance (width : ℕ) (best : ℝ) : ℝ :=
  0.5 * width * (Real.tan (Real.pi / 180) / Real.cos (best * (Real.pi / 180)))

/-- `list_dist` of one dot — prep/preprocessing.py:495-501, 545-551. -/
noncomputable def slopeDist (slope : ℝ) (used c : Pt) : ℝ :=
  |slope * c.x - c.y + (used.y - slope * used.x)| / √(slope ^ 2 + 1)

open Classical in
/-- The dots near the line through the dot used — prep/preprocessing.py:502-503, 552-553. -/
noncomputable def slopeDots (cents : List Pt) (slope : ℝ) (used : Pt) (tol : ℝ) : List Pt :=
  cents.filter fun c => decide (slopeDist slope used c < tol)

/-- The final fit — prep/preprocessing.py:504-508, 554-558. -/
noncomputable def fitSlope (pf : List ℝ → List ℝ → ℕ → List ℝ) (dots : List Pt) (slope : ℝ) : Except PyErr ℝ :=
  if dots.length > 1 then npGet (pf (dots.map Pt.x) (dots.map Pt.y) 1) 0
  else .ok slope

/-- The common part of the two functions below — prep/preprocessing.py:490-508, 540-558. -/
noncomputable def slopeOfDots (pf : List ℝ → List ℝ → ℕ → List ℝ) (argsort : List ℝ → List ℕ) (cents : List Pt) (width : ℕ)
    (best : ℝ) : Except PyErr ℝ := do
  let used ← midDot argsort cents
  let slope := Real.tan (best * (Real.pi / 180))
  fitSlope pf (slopeDots cents slope used (slopeTolerance width best)) slope

/-- `list_angle` without the offset: `np.arange(-30.0, 31.0)` — prep/preprocessing.py:480, 531. -/
noncomputable def slopeAngles : List ℝ := arange (-30) (30 + 1) 1

/-- `calc_hor_slope` — prep/preprocessing.py:460-508. Without dots `list_cent` is a 1D array and `list_cent[:, 1]` an `IndexError`. -/
noncomputable def calcHorSlope (pf : List ℝ → List ℝ → ℕ → List ℝ) (argsort : List ℝ → List ℕ)
    (radon : Mat ℝ → List ℝ → Mat ℝ) (m : Mat ℝ) (ratio : ℝ) : Except PyErr ℝ := do
  let mat ← innerMask m ratio
  let angles := slopeAngles.map fun a => 90 + a
  let best ← sharpestAngle (radon (realMat mat) angles) angles
  let cents ← dotCentres mat
  if cents = [] then .error .indexError
  else slopeOfDots pf argsort (cents.map fun c => ⟨-c.y, -c.x⟩) mat.width (-(best.2 - 90))

/-- `calc_ver_slope` — prep/preprocessing.py:511-558. Without dots `np.fliplr` gets a 1D array, a `ValueError`. The tolerance
uses the width of the region as in `calc_hor_slope`. -/
noncomputable def calcVerSlope (pf : List ℝ → List ℝ → ℕ → List ℝ) (argsort : List ℝ → List ℕ)
    (radon : Mat ℝ → List ℝ → Mat ℝ) (m : Mat ℝ) (ratio : ℝ) : Except PyErr ℝ := do
  let mat ← innerMask m ratio
  let best ← sharpestAngle (radon (realMat mat) slopeAngles) slopeAngles
  let cents ← dotCentres mat
  if cents = [] then .error .valueError
  else slopeOfDots pf argsort (cents.map fun c => ⟨c.x, c.y⟩) mat.width best.2

end Discorpy
