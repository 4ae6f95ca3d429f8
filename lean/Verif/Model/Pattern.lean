import Verif.Model.LinePattern

/-!
# Model of the calibration-pattern images of `discorpy/util/utility.py`

Pixel values are reals (`float32` in the code, which represents 0 and 1 exactly). The mask `make_circle_mask` is in
`Verif.Model.LinePattern`.
-/

namespace Discorpy

/-- `range(start, stop, step)` / `np.arange(start, stop, step)` for integers: number of elements. -/
def rangeLen (start stop step : ℤ) : ℕ :=
  if 0 < step then ((stop - start + step - 1) / step).toNat
  else ((start - stop - step - 1) / (-step)).toNat

/-- The elements of `range(start, stop, step)`, `step ≠ 0`. -/
def rangeList (start stop step : ℤ) : List ℤ :=
  (List.range (rangeLen start stop step)).map fun k : ℕ => start + k * step

/-- `range(start, stop, step)`; a zero step raises `ValueError`. -/
def pyRange (start stop step : ℤ) : Except PyErr (List ℤ) :=
  if step = 0 then .error .valueError else .ok (rangeList start stop step)

/-- `np.arange(start, stop, step)` for integers; a zero step raises `ZeroDivisionError`. -/
def arangeInt (start stop step : ℤ) : Except PyErr (List ℤ) :=
  if step = 0 then .error .zeroDivisionError else .ok (rangeList start stop step)

/-- `mat[a:b, c:d] = v`. -/
def setBlock (m : Mat ℝ) (a b c d : ℤ) (v : ℝ) : Mat ℝ :=
  { m with
    get := fun i j =>
      if sliceBound m.height a ≤ i ∧ i < sliceBound m.height b ∧ sliceBound m.width c ≤ j ∧ j < sliceBound m.width d then v
      else m.get i j }

/-- One row of cells of `make_chessboard` — util/utility.py:172-178 (`first = 1`, `second = 0`) and 180-186. -/
def chessRow (m : Mat ℝ) (i size : ℤ) (first second : ℝ) (js : List ℤ) : Mat ℝ :=
  (js.foldl (fun (s : Mat ℝ × ℕ) j =>
    (setBlock s.1 i (i + size) j (j + size) (if s.2 % 2 = 0 then first else second), s.2 + 1)) (m, 0)).1

/-- `make_chessboard` — util/utility.py:146-189. -/
def makeChessboard (height width : ℕ) (size margin : ℤ) (gray : ℝ) : Except PyErr (Mat ℝ) := do
  let is ← pyRange (size + margin) (height - margin - size) size
  let js ← pyRange (size + margin) (width - margin - size) size
  .ok (is.foldl (fun (s : Mat ℝ × ℕ) i =>
    (if s.2 % 2 = 0 then chessRow s.1 i size 1 0 js else chessRow s.1 i size 0 1 js, s.2 + 1))
    ((⟨height, width, fun _ _ => gray⟩ : Mat ℝ), 0)).1

/-- The `margin` argument: an `int` or a `tuple`/`list`. -/
inductive MarginArg
  | int (n : ℤ)
  | seq (l : List ℤ)

/-- `marg_ver, marg_hor = margin[0:2]` or `= margin` — util/utility.py:92-95, 129-132. Unpacking fewer than two values raises
`ValueError`. -/
def unpackMargin : MarginArg → Except PyErr (ℤ × ℤ)
  | .int n => .ok (n, n)
  | .seq (a :: b :: _) => .ok (a, b)
  | .seq _ => .error .valueError

/-- `np.clip(size, 1, min(height, width) // 8)` — util/utility.py:88, 127 (the upper bound wins). -/
def clipSize (size : ℤ) (height width : ℕ) : ℤ := min (max size 1) ((min height width / 8 : ℕ) : ℤ)

/-- `xs[0]` and `xs[-1]`; `IndexError` on an empty array. -/
def firstLast (xs : List ℤ) : Except PyErr (ℤ × ℤ) :=
  match xs.head?, xs.getLast? with
  | some a, some b => .ok (a, b)
  | _, _ => .error .indexError

/-- `make_line_pattern` — util/utility.py:106-143. The first loop looks up `list_j[0]`, `list_j[-1]` in each turn, so that
there is no error if it has no turn; the same holds for the second loop. -/
def makeLinePattern (height width : ℕ) (lineDistance lineSize : ℤ) (margin : MarginArg) : Except PyErr (Mat ℝ) := do
  let size := clipSize lineSize height width
  let (mv, mh) ← unpackMargin margin
  let is ← arangeInt mv (height - mv - size) lineDistance
  let js ← arangeInt mh (width - mh - size) lineDistance
  let m1 ← is.foldlM (fun m i => do
    let (a, b) ← firstLast js
    .ok (setBlock m i (i + size) a (b + size) 1)) (⟨height, width, fun _ _ => 0⟩ : Mat ℝ)
  let m2 ← js.foldlM (fun m j => do
    let (a, b) ← firstLast is
    .ok (setBlock m a (b + size) j (j + size) 1)) m1
  .ok { m2 with get := fun i j => 1 - m2.get i j }

/-- `mat[a:b:step]`: is index `i` selected (`0 < step`)? -/
def inSteppedSlice (len : ℕ) (a b step : ℤ) (i : ℕ) : Prop :=
  ∃ k : ℕ, (i : ℤ) = sliceBound len a + k * step ∧ i < sliceBound len b

open Classical in
/-- `scipy.ndimage.binary_dilation(mat, iterations=1, structure=mask)` for a square structure: a pixel is set if some set pixel
of `mat` reaches it by an offset of the structure relative to its centre `size // 2`. An empty structure raises
`RuntimeError`. -/
noncomputable def binaryDilation (m : Mat ℝ) (mask : Mat ℝ) : Except PyErr (Mat ℝ) :=
  if mask.height = 0 ∨ mask.width = 0 then .error .runtimeError
  else .ok { m with
    get := fun i j =>
      if ∃ p q a b : ℕ, p < m.height ∧ q < m.width ∧ m.get p q ≠ 0 ∧ a < mask.height ∧ b < mask.width ∧ mask.get a b ≠ 0 ∧
          (i : ℤ) = p + (a - (mask.height / 2 : ℕ)) ∧ (j : ℤ) = q + (b - (mask.width / 2 : ℕ)) then 1 else 0 }

open Classical in
/-- `make_dot_pattern` — util/utility.py:66-103. A non-positive `dot_distance` can only get past the comparison with the dot
size if the dot size is 0, where a zero slice step raises `ValueError`, and otherwise the empty structure fails. -/
noncomputable def makeDotPattern (height width : ℕ) (dotDistance dotSize : ℤ) (margin : MarginArg) : Except PyErr (Mat ℝ) := do
  let size := clipSize dotSize height width
  if dotDistance < size then .error .valueError
  else do
    let (mv, mh) ← unpackMargin margin
    let half := size / 2 + 1
    let mask := makeCircleMask size.toNat 1
    if dotDistance = 0 then .error .valueError
    else do
      let mat : Mat ℝ := ⟨height, width, fun i j =>
        if inSteppedSlice height (mv + half) (height - mv - half) dotDistance i ∧
          inSteppedSlice width (mh + half) (width - mh - half) dotDistance j then 1 else 0⟩
      let d ← binaryDilation mat mask
      .ok { d with get := fun i j => 1 - d.get i j }

end Discorpy
