import Verif.Py.Fit

/-!
# 1D-array helpers of NumPy
-/

namespace Discorpy

/-- `np.diff(a)`. -/
noncomputable def npDiff (l : List ℝ) : List ℝ := List.zipWith (fun a b => b - a) l l.tail

/-- `np.mean(a)`; the mean of an empty array is `nan`. -/
noncomputable def npMean (l : List ℝ) : Except PyErr ℝ :=
  if l = [] then .error .nonFinite else .ok (l.sum / l.length)

open Classical in
/-- `np.argmin(a)`: the first index of a smallest element; `ValueError` on an empty array. -/
noncomputable def npArgmin (l : List ℝ) : Except PyErr ℕ :=
  if l = [] then .error .valueError else .ok (l.findIdx fun x => decide (∀ y ∈ l, x ≤ y))

open Classical in
/-- `np.argmax(a)`: the first index of a largest element; `ValueError` on an empty array. -/
noncomputable def npArgmax (l : List ℝ) : Except PyErr ℕ :=
  if l = [] then .error .valueError else .ok (l.findIdx fun x => decide (∀ y ∈ l, y ≤ x))

/-- `a[start:stop]` for non-negative bounds. -/
def npSlice {α : Type*} (l : List α) (start stop : ℕ) : List α := (l.take stop).drop start

/-- `a[i]` for a non-negative index. -/
def npGet {α : Type*} (l : List α) (i : ℕ) : Except PyErr α :=
  match l[i]? with
  | some x => .ok x
  | none => .error .indexError

/-- `np.max(a)`; `ValueError` on an empty array. -/
noncomputable def npMax (l : List ℝ) : Except PyErr ℝ :=
  match l.max? with
  | some x => .ok x
  | none => .error .valueError

/-- `np.min(a)`; `ValueError` on an empty array. -/
noncomputable def npMin (l : List ℝ) : Except PyErr ℝ :=
  match l.min? with
  | some x => .ok x
  | none => .error .valueError

/-- `np.median(a)`: middle element of the sorted array, or the mean of the two middle ones; `nan` when empty. -/
noncomputable def npMedian (l : List ℝ) : Except PyErr ℝ :=
  if l = [] then .error .nonFinite
  else
    let s := l.mergeSort (fun a b => decide (a ≤ b))
    let n := l.length
    if n % 2 = 1 then .ok (s.getD (n / 2) 0)
    else .ok ((s.getD (n / 2 - 1) 0 + s.getD (n / 2) 0) / 2)

/-- A division whose result must be finite. -/
noncomputable def finDiv (a b : ℝ) : Except PyErr ℝ := if b = 0 then .error .nonFinite else .ok (a / b)

/-- `np.std(a)`. -/
noncomputable def npStd (l : List ℝ) : ℝ := √((l.map fun x => (x - l.sum / l.length) ^ 2).sum / l.length)

/-- `np.percentile(a, q)` (linear interpolation between the neighbouring order statistics), `0 ≤ q ≤ 100`; `IndexError` on an
empty array. -/
noncomputable def npPercentile (l : List ℝ) (q : ℝ) : Except PyErr ℝ :=
  if l = [] then .error .indexError
  else
    let s := l.mergeSort (fun a b => decide (a ≤ b))
    let idx := q / 100 * ((l.length : ℝ) - 1)
    let k := ⌊idx⌋₊
    .ok (s.getD k 0 + (idx - k) * (s.getD (min (k + 1) (l.length - 1)) 0 - s.getD k 0))

/-- `np.linspace(0, stop, num)`. -/
noncomputable def linspace0 (stop : ℝ) (num : ℕ) : List ℝ :=
  (List.range num).map fun k : ℕ => if num = 1 then 0 else (k : ℝ) * stop / ((num : ℝ) - 1)

end Discorpy
