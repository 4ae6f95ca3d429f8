import Verif.Model.Prep
import Verif.Py.Fit

/-!
# Model of `discorpy/prep/preprocessing.py`, `calculate_threshold`

`scipy.ndimage.zoom` of the sorted list (`zoom l n`: resampling of `l` to `n` values) and `np.polyfit` are parameters.
-/

namespace Discorpy

/-- `a[start:stop]` of a 1D array. -/
def listSlice {α : Type*} (l : List α) (start stop : ℤ) : List α :=
  (l.take (sliceBound l.length stop)).drop (sliceBound l.length start)

open Classical in
/-- `np.polyfit(x, y, 1)` with its failures: a `TypeError` for empty vectors, and a `LinAlgError` if all abscissae are zero (the
column of the design matrix is divided by its norm) — prep/preprocessing.py:845-846. -/
noncomputable def thresholdFit (pf : List ℝ → List ℝ → ℕ → List ℝ) (xs ys : List ℝ) : Except PyErr (List ℝ) :=
  if xs = [] then .error .typeError
  else if ∀ x ∈ xs, x = 0 then .error .linAlgError
  else .ok (pf xs ys 1)

/-- The two thresholds — prep/preprocessing.py:847-853. -/
noncomputable def thresholdOf (bright : Bool) (snr intercept yEnd : ℝ) : ℝ :=
  let noise := |yEnd - intercept|
  if bright then intercept - noise * snr * 0.5 else yEnd + noise * snr * 0.5

/-- `calculate_threshold` — prep/preprocessing.py:816-853; `bright` is `bgr == "bright"`. -/
noncomputable def calculateThreshold (zoom : List ℝ → ℕ → List ℝ) (pf : List ℝ → List ℝ → ℕ → List ℝ) (m : Mat ℝ) (bright : Bool)
    (snr : ℝ) : Except PyErr ℝ := do
  let size := max m.height m.width
  let listSort := m.flat.mergeSort fun a b => decide (a ≤ b)
  if listSort.length = 0 then .error .zeroDivisionError
  let listDsp := zoom listSort size
  let npoint := listDsp.length
  let xlist : List ℝ := (List.range npoint).map fun k : ℕ => (k : ℝ)
  let ndrop : ℤ := truncInt (0.25 * npoint)
  let fit ← thresholdFit pf (listSlice xlist ndrop (-ndrop - 1)) (listSlice listDsp ndrop (-ndrop - 1))
  let slope ← npGet fit 0
  let intercept ← npGet fit 1
  let xLast ← npGet xlist (npoint - 1)
  .ok (thresholdOf bright snr intercept (intercept + slope * xLast))

end Discorpy
