import Verif.Py.Fit

/-!
# Model of `discorpy/post/postprocessing.py` 
-/

namespace Discorpy

/-- A point in the `(y, x)` order used throughout discorpy. -/
structure Pt where
  y : ℝ
  x : ℝ

@[ext] theorem Pt.ext' {p q : Pt} (hy : p.y = q.y) (hx : p.x = q.x) : p = q := by
  cases p; cases q; simp_all

/-- `unwarp_image_backward` — post/postprocessing.py:111-148.
`S` is `map_coordinates(·, ·, order=order, mode=mode)`; `rnd` is the `np.float32` cast of the coordinates. -/
noncomputable def unwarpImageBackward (S : Sampler) (rnd : ℝ → ℝ) (mat : Mat ℝ)
    (xcenter ycenter : ℝ) (fact : List ℝ) : Mat ℝ where
  height := mat.height
  width := mat.width
  get i j :=
    let xu := (j : ℝ) - xcenter
    let yu := (i : ℝ) - ycenter
    let ru := √(xu ^ 2 + yu ^ 2)
    let f := polySum fact ru
    let xd := rnd (clip (xcenter + f * xu) 0 ((mat.width : ℝ) - 1))
    let yd := rnd (clip (ycenter + f * yu) 0 ((mat.height : ℝ) - 1))
    S mat yd xd

/-- Assignment `m[y, x] = v` with Python index semantics (negative indices count from the end). -/
def Mat.setItem {α : Type*} (m : Mat α) (y x : ℤ) (v : α) : Except PyErr (Mat α) :=
  let y' := if y < 0 then y + m.height else y
  let x' := if x < 0 then x + m.width else x
  if 0 ≤ y' ∧ y' < m.height ∧ 0 ≤ x' ∧ x' < m.width then
    .ok { m with get := fun i j => if (i : ℤ) = y' ∧ (j : ℤ) = x' then v else m.get i j }
  else .error .indexError

/-- All pixel positions of an `h × w` array in row-major (C) order. -/
def pixels (h w : ℕ) : List (ℕ × ℕ) :=
  (List.range h).flatMap fun i => (List.range w).map fun j => (i, j)

/-- The array index (`np.intp(np.round(np.clip(..)))`) pixel `(i, j)` is sent to by
`unwarp_image_forward` — post/postprocessing.py:172-182. Result is `(row, column)`. -/
noncomputable def forwardIndex (h w : ℕ) (xcenter ycenter : ℝ) (fact : List ℝ) (p : ℕ × ℕ) : ℤ × ℤ :=
  let xd := (p.2 : ℝ) - xcenter
  let yd := (p.1 : ℝ) - ycenter
  let rd := √(xd ^ 2 + yd ^ 2)
  let f := polySum fact rd
  (roundHalfEven (clip (ycenter + f * yd) 0 ((h : ℝ) - 1)),
   roundHalfEven (clip (xcenter + f * xd) 0 ((w : ℝ) - 1)))

/-- `unwarp_image_forward` — post/postprocessing.py:151-185. The fancy assignment
`mat_unw[yu_mat, xu_mat] = mat` writes the pixels one after the other in C order. -/
noncomputable def unwarpImageForward (mat : Mat ℝ) (xcenter ycenter : ℝ) (fact : List ℝ) :
    Except PyErr (Mat ℝ) :=
  (pixels mat.height mat.width).foldlM
    (fun m p =>
      let q := forwardIndex mat.height mat.width xcenter ycenter fact p
      m.setItem q.1 q.2 (mat.get p.1 p.2))
    { height := mat.height, width := mat.width, get := fun _ _ => 0 }

/-- Projection `i` of a 3D stack (`mat3D[i]`) as a 2D array. -/
def NdArr.proj (a : NdArr ℝ) (h w i : ℕ) : Mat ℝ where
  height := h
  width := w
  get y x := a.get [i, y, x]

/-- `unwarp_slice_backward` — post/postprocessing.py:188-229.
The unpacking `(depth, height, width) = mat3D.shape` also raises `ValueError` for more than 3 axes, and
`np.amin` raises `ValueError` on an empty row. `index` is an integer. Without coefficients `flist` and so `yd_list` is a
single number, which cannot be put in an array with `xd_list` (lines 225-228, reached if there are projections). -/
noncomputable def unwarpSliceBackward (B : Boundary) (mat3D : NdArr ℝ) (xcenter ycenter : ℝ)
    (fact : List ℝ) (index : ℤ) : Except PyErr (Mat ℝ) :=
  match mat3D.shape with
  | [depth, height, width] =>
    if fact = [] then (if depth = 0 then .ok ⟨0, width, fun _ _ => 0⟩ else .error .valueError)
    else
      let yu := (index : ℝ) - ycenter
      let xu := fun j : ℕ => (j : ℝ) - xcenter
      let f := fun j : ℕ => polySum fact (√(xu j ^ 2 + yu ^ 2))
      let xd := fun j : ℕ => clip (xcenter + f j * xu j) 0 ((width : ℝ) - 1)
      let yd := fun j : ℕ => clip (ycenter + f j * yu) 0 ((height : ℝ) - 1)
      let ydList := (List.range width).map yd
      match ydList.min?, ydList.max? with
      | some ymin, some ymax =>
        let ydMin := toInt16 ⌊ymin⌋
        let ydMax := toInt16 (toInt16 ⌈ymax⌉ + 1)
        .ok { height := depth
              width := width
              get := fun i j =>
                linearInterp B ((mat3D.proj height width i).rows ydMin ydMax) (yd j - ydMin) (xd j) }
      | _, _ => .error .valueError
  | _ => .error .valueError

/-- `_mapping` — post/postprocessing.py:232-252: sampling of `mat` at the coordinate arrays. -/
noncomputable def mapping (B : Boundary) (mat : Mat ℝ) (h w : ℕ) (xmat ymat : ℕ → ℕ → ℝ) : Mat ℝ where
  height := h
  width := w
  get i j := linearInterp B mat (ymat i j) (xmat i j)

/-- `np.arange(height, dtype=np.int16)` — post/postprocessing.py:284. -/
def indexList16 (height : ℕ) : List ℤ := (List.range height).map fun i : ℕ => toInt16 (i : ℤ)

/-- `unwarp_chunk_slices_backward` — post/postprocessing.py:255-313. Result: per projection an array of
slices, `(depth, n, width)` with `n = stop + 1 - start`; `np.asarray([])` without projections. `rnd` is `np.float32` on coordinates. -/
noncomputable def unwarpChunkSlicesBackward (B : Boundary) (rnd : ℝ → ℝ) (mat3D : NdArr ℝ)
    (xcenter ycenter : ℝ) (fact : List ℝ) (startIndex stopIndex : ℤ) : Except PyErr (NdArr ℝ) :=
  match mat3D.shape with
  | [depth, height, width] =>
    let stop := if stopIndex = -1 then (height : ℤ) else stopIndex
    if startIndex ∉ indexList16 height ∨ stop ∉ indexList16 height then .error .valueError
    else
      let xu := fun j : ℕ => (j : ℝ) - xcenter
      let yu1 := (startIndex : ℝ) - ycenter
      let yd1 := fun j : ℕ =>
        clip (ycenter + polySum fact (√(xu j ^ 2 + yu1 ^ 2)) * yu1) 0 ((height : ℝ) - 1)
      let yu2 := (stop : ℝ) - ycenter
      let yd2 := fun j : ℕ =>
        clip (ycenter + polySum fact (√(xu j ^ 2 + yu2 ^ 2)) * yu2) 0 ((height : ℝ) - 1)
      match ((List.range width).map yd1).min?, ((List.range width).map yd2).max? with
      | some ymin, some ymax =>
        let ydMin := toInt16 ⌊ymin⌋
        let ydMax := toInt16 (toInt16 ⌈ymax⌉ + 1)
        let n := (stop + 1 - startIndex).toNat
        let yu := fun k : ℕ => ((startIndex + k : ℤ) : ℝ) - ycenter
        let fm := fun k j : ℕ => polySum fact (√(xu j ^ 2 + yu k ^ 2))
        let xd := fun k j : ℕ => rnd (clip (xcenter + fm k j * xu j) 0 ((width : ℝ) - 1))
        let yd := fun k j : ℕ => rnd (clip (ycenter + fm k j * yu k) 0 ((height : ℝ) - 1)) - ydMin
        .ok { shape := if depth = 0 then [0] else [depth, n, width]
              get := fun idx =>
                match idx with
                | [i, k, j] =>
                  (mapping B ((mat3D.proj height width i).rows ydMin ydMax) n width xd yd).get k j
                | _ => 0 }
      | _, _ => .error .valueError
  | _ => .error .valueError

/-- `unwarp_line_forward` — post/postprocessing.py:36-64. `store` is the cast done when writing into the
result buffer `np.zeros_like(line)`: the identity for float lines, truncation for integer lines. -/
noncomputable def unwarpLineForward (store : ℝ → ℝ) (lines : List (List Pt)) (xcenter ycenter : ℝ)
    (fact : List ℝ) : List (List Pt) :=
  lines.map fun line => line.map fun dot =>
    let xd := dot.x - xcenter
    let yd := dot.y - ycenter
    let rd := √(xd * xd + yd * yd)
    let factor := polySum fact rd
    { x := store (xcenter + factor * xd), y := store (ycenter + factor * yd) }

/-- `_func_diff` — post/postprocessing.py:67-69. -/
noncomputable def funcDiff (ru rd : ℝ) (fact : List ℝ) : ℝ := (rd - ru * polySum fact ru) ^ 2

/-- `unwarp_line_backward` — post/postprocessing.py:72-108. `minimize f x0` stands for `optimize.minimize(f, x0).x[0]`. -/
noncomputable def unwarpLineBackward (minimize : (ℝ → ℝ) → ℝ → ℝ) (store : ℝ → ℝ)
    (lines : List (List Pt)) (xcenter ycenter : ℝ) (fact : List ℝ) : List (List Pt) :=
  lines.map fun line => line.map fun dot =>
    let xd := dot.x - xcenter
    let yd := dot.y - ycenter
    let rd := √(xd * xd + yd * yd)
    let ru := minimize (fun ru => funcDiff ru rd fact) rd
    let factor := if rd ≠ 0 then ru / rd else 0
    { x := store (xcenter + factor * xd), y := store (ycenter + factor * yd) }

/-! ## Residuals -/

/-- Body of the loop over lines in `calc_residual_hor` — post/postprocessing.py:340-349: the `(radius, distance)` pair of
every dot. `pf` is `np.polyfit`. An empty line is the 1D array `np.asarray([])`, for which `line[:, 0]` raises `IndexError`. -/
noncomputable def residualLineHor (pf : List ℝ → List ℝ → ℕ → List ℝ) (xcenter ycenter : ℝ)
    (line : List Pt) : Except PyErr (List (ℝ × ℝ)) :=
  let yl := line.map fun p => p.y - ycenter
  let xl := line.map fun p => p.x - xcenter
  if line = [] then .error .indexError
  else match pf xl yl 1 with
    | [a, b] =>
      .ok (List.zipWith (fun x y => (√(x ^ 2 + y ^ 2), |a * x - y + b| / √(a ^ 2 + 1))) xl yl)
    | _ => .error .valueError

/-- Body of the loop in `calc_residual_ver` — post/postprocessing.py:377-386. -/
noncomputable def residualLineVer (pf : List ℝ → List ℝ → ℕ → List ℝ) (xcenter ycenter : ℝ)
    (line : List Pt) : Except PyErr (List (ℝ × ℝ)) :=
  let yl := line.map fun p => p.y - ycenter
  let xl := line.map fun p => p.x - xcenter
  if line = [] then .error .indexError
  else match pf yl xl 1 with
    | [a, b] =>
      .ok (List.zipWith (fun x y => (√(x ^ 2 + y ^ 2), |a * y - x + b| / √(a ^ 2 + 1))) xl yl)
    | _ => .error .valueError

/-- `list_data[list_data[:, 0].argsort()]` — post/postprocessing.py:350-351, 387-388 (an empty `list_data` has no column 0:
`IndexError`). -/
noncomputable def sortByRadius (argsort : List ℝ → List ℕ) (data : List (ℝ × ℝ)) :
    Except PyErr (List (ℝ × ℝ)) :=
  if data = [] then .error .indexError
  else .ok (fancyIndex data (argsort (data.map Prod.fst)))

/-- `calc_residual_hor` — post/postprocessing.py:316-351. -/
noncomputable def calcResidualHor (pf : List ℝ → List ℝ → ℕ → List ℝ) (argsort : List ℝ → List ℕ)
    (lines : List (List Pt)) (xcenter ycenter : ℝ) : Except PyErr (List (ℝ × ℝ)) := do
  let l ← lines.mapM (residualLineHor pf xcenter ycenter)
  sortByRadius argsort l.flatten

/-- `calc_residual_ver` — post/postprocessing.py:354-388. -/
noncomputable def calcResidualVer (pf : List ℝ → List ℝ → ℕ → List ℝ) (argsort : List ℝ → List ℕ)
    (lines : List (List Pt)) (xcenter ycenter : ℝ) : Except PyErr (List (ℝ × ℝ)) := do
  let l ← lines.mapM (residualLineVer pf xcenter ycenter)
  sortByRadius argsort l.flatten

/-- `check_distortion` — post/postprocessing.py:391-411. Division by `len = 0` raises `ZeroDivisionError` (for an empty
2-column array; both operands are Python numbers). -/
noncomputable def checkDistortion (data : List (ℝ × ℝ)) : Except PyErr Bool :=
  let res := data.map Prod.snd
  if res.length = 0 then .error .zeroDivisionError
  else
    let percErr : ℝ := 1.0 * ((res.filter fun r => 1 < r).length : ℝ) / (res.length : ℝ)
    .ok (decide (percErr > 0.15))

/-! ## Perspective correction -/

/-- `correct_perspective_line` — post/postprocessing.py:414-441. A vanishing denominator gives inf/nan in NumPy; here
`x / 0 = 0`, so theorems must assume non-zero denominators. A line given as an empty list becomes a 1D array, whose
`[:, 1]` raises `IndexError`. -/
noncomputable def correctPerspectiveLine (lines : List (List Pt)) (coef : List ℝ) :
    Except PyErr (List (List Pt)) :=
  match coef with
  | [c1, c2, c3, c4, c5, c6, c7, c8] =>
    if lines.any List.isEmpty then .error .indexError
    else .ok (lines.map fun line => line.map fun p =>
      { x := (c1 * p.x + c2 * p.y + c3) / (c7 * p.x + c8 * p.y + 1)
        y := (c4 * p.x + c5 * p.y + c6) / (c7 * p.x + c8 * p.y + 1) })
  | _ => .error .valueError

/-- `_generate_perspective_map` — post/postprocessing.py:444-459: `(yd, xd)` per pixel. Unpacking anything but 8
coefficients raises `ValueError`. -/
noncomputable def generatePerspectiveMap (rnd : ℝ → ℝ) (mat : Mat ℝ) (coef : List ℝ) :
    Except PyErr (ℕ → ℕ → Pt) :=
  match coef with
  | [c1, c2, c3, c4, c5, c6, c7, c8] =>
    .ok fun i j =>
      let xu : ℝ := j
      let yu : ℝ := i
      let tmp := c7 * xu + c8 * yu + 1
      { x := rnd (clip ((c1 * xu + c2 * yu + c3) / tmp) 0 ((mat.width : ℝ) - 1))
        y := rnd (clip ((c4 * xu + c5 * yu + c6) / tmp) 0 ((mat.height : ℝ) - 1)) }
  | _ => .error .valueError

/-- `correct_perspective_image` — post/postprocessing.py:462-492. `mapIndex = none` is `map_index=None`. -/
noncomputable def correctPerspectiveImage (S : Sampler) (rnd : ℝ → ℝ) (mat : Mat ℝ) (coef : List ℝ)
    (mapIndex : Option (ℕ → ℕ → Pt)) : Except PyErr (Mat ℝ) :=
  if coef.length ≠ 8 then .error .valueError
  else do
    let idx ← match mapIndex with
      | none => generatePerspectiveMap rnd mat coef
      | some m => .ok m
    .ok { height := mat.height, width := mat.width
          get := fun i j => S mat (idx i j).y (idx i j).x }

end Discorpy
