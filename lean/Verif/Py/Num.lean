import Mathlib.Analysis.Real.Sqrt
import Mathlib.Algebra.Order.Round
import Mathlib.Data.Int.ModEq
import Mathlib.Algebra.Order.Archimedean.Real.Basic
import Mathlib.Tactic.Linarith
import Mathlib.Tactic.Ring
import Mathlib.Tactic.NormNum

/-!
# Python / NumPy numeric primitives used by discorpy

Floats are modelled by `ℝ`, Python integers by `ℤ`/`ℕ` (see DESIGN.md, section 2).
-/

namespace Discorpy

/-- The Python exceptions the modelled functions can raise. `nonFinite` is not an exception: it marks the points where
NumPy would go on with `nan`/`inf`, which is outside the model. `diverges` is not an exception either: it marks a loop that
never ends. -/
inductive PyErr
  | valueError | indexError | typeError | keyError | nameError | zeroDivisionError
  | attributeError | fileNotFoundError | linAlgError | runtimeError | osError | nonFinite | diverges
  deriving DecidableEq, Repr

/-- `np.clip(x, lo, hi)` = `np.minimum(np.maximum(x, lo), hi)`. -/
noncomputable def clip (x lo hi : ℝ) : ℝ := min (max x lo) hi

/-- Python's `int(x)` on a float: truncation toward zero. -/
noncomputable def truncInt (x : ℝ) : ℤ := if 0 ≤ x then ⌊x⌋ else ⌈x⌉

/-- `np.round(x)`: nearest integer, ties to even. -/
noncomputable def roundHalfEven (x : ℝ) : ℤ :=
  let n := ⌊x⌋
  let f := x - n
  if f < 1 / 2 then n
  else if 1 / 2 < f then n + 1
  else if n % 2 = 0 then n else n + 1

/-- `np.int16(n)`: two's-complement wrap-around into `[-32768, 32767]`. -/
def toInt16 (n : ℤ) : ℤ := Int.bmod n 65536

/-- `np.sign`. -/
noncomputable def npSign (x : ℝ) : ℝ := if x < 0 then -1 else if 0 < x then 1 else 0

/-- Resolution of the bounds of a Python slice `a[start:stop]` (step 1) on an axis of length `len`:
negative bounds count from the end, everything is clamped to `[0, len]`. -/
def sliceBound (len : ℕ) (b : ℤ) : ℕ :=
  if b < 0 then (b + len).toNat else min b.toNat len

/-- `np.sum(list_fact * np.power(r, np.arange(len(list_fact))))`, equivalently
`np.sum([f * r ** i for i, f in enumerate(list_fact)])` (NumPy has `0.0 ** 0 = 1`, as here).
Used at post/postprocessing.py:60, 68-69, 142-143, 217-218, 305-306, util/utility.py:223-224, … -/
noncomputable def polySum (fact : List ℝ) (r : ℝ) : ℝ :=
  (fact.mapIdx fun i f => f * r ^ i).sum

/-- A 2D NumPy array: shape and entries; only entries with `i < height`, `j < width` are meaningful. -/
structure Mat (α : Type*) where
  height : ℕ
  width : ℕ
  get : ℕ → ℕ → α

/-- An n-D NumPy array given by its shape and its entries. -/
structure NdArr (α : Type*) where
  shape : List ℕ
  get : List ℕ → α

/-- `mat[start:stop, :]`. -/
def Mat.rows {α : Type*} (m : Mat α) (start stop : ℤ) : Mat α :=
  let a := sliceBound m.height start
  let b := sliceBound m.height stop
  { height := b - a, width := m.width, get := fun i j => m.get (i + a) j }

/-- `mat[:, start:stop]`. -/
def Mat.cols {α : Type*} (m : Mat α) (start stop : ℤ) : Mat α :=
  let a := sliceBound m.width start
  let b := sliceBound m.width stop
  { height := m.height, width := b - a, get := fun i j => m.get i (j + a) }

/-- Behaviour of an out-of-range sample/coordinate in `scipy.ndimage.map_coordinates`; it depends on the
`mode` argument and is left completely arbitrary here. -/
structure Boundary where
  out : Mat ℝ → ℤ → ℤ → ℝ
  far : Mat ℝ → ℝ → ℝ → ℝ

/-- Entry `(i, j)` of the image, or whatever the boundary mode says if it is outside. -/
noncomputable def tap (B : Boundary) (m : Mat ℝ) (i j : ℤ) : ℝ :=
  if 0 ≤ i ∧ i < m.height ∧ 0 ≤ j ∧ j < m.width then m.get i.toNat j.toNat else B.out m i j

/-- `scipy.ndimage.map_coordinates(mat, (y, x), order=1, mode=…)` at one coordinate: linear interpolation
between the samples at `⌊y⌋, ⌊y⌋+1` and `⌊x⌋, ⌊x⌋+1`. -/
noncomputable def linearInterp (B : Boundary) (m : Mat ℝ) (y x : ℝ) : ℝ :=
  if 0 ≤ y ∧ y ≤ (m.height : ℝ) - 1 ∧ 0 ≤ x ∧ x ≤ (m.width : ℝ) - 1 then
    let y0 := ⌊y⌋
    let x0 := ⌊x⌋
    let fy := y - y0
    let fx := x - x0
    (1 - fy) * ((1 - fx) * tap B m y0 x0 + fx * tap B m y0 (x0 + 1)) +
      fy * ((1 - fx) * tap B m (y0 + 1) x0 + fx * tap B m (y0 + 1) (x0 + 1))
  else B.far m y x

/-- An interpolation method: image, row coordinate, column coordinate ↦ value
(`map_coordinates` with some `order`/`mode`, or `cv2.remap`). -/
abbrev Sampler := Mat ℝ → ℝ → ℝ → ℝ

end Discorpy
