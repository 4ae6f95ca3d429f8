import Verif.Py.Array
import Verif.Py.Loop
import Verif.Model.Post
import Mathlib.Analysis.SpecialFunctions.Trigonometric.Arctan

/-!
# Model of `discorpy/prep/preprocessing.py`, points and masks

`argsort` is `np.argsort` with its default unstable sort, `pf` is `np.polyfit`.
Connected-component labelling enters only through its result (a list of dot centroids).
-/

namespace Discorpy

/-! ## Region of interest, contrast -/

/-- `_select_roi` — prep/preprocessing.py:161-191; `square is True` selects the first branch. -/
noncomputable def selectRoi {α : Type} (m : Mat α) (ratio : ℝ) (square : Bool) : Mat α :=
  let r := clip ratio 0.05 1
  if square then
    let ch : ℤ := m.height / 2
    let cw : ℤ := m.width / 2
    let radi : ℤ := truncInt (r * (min m.height m.width : ℕ)) / 2
    (m.rows (ch - radi) (ch + radi)).cols (cw - radi) (cw + radi)
  else
    let dh : ℤ := truncInt (((m.height : ℝ) - r * m.height) / 2)
    let dw : ℤ := truncInt (((m.width : ℝ) - r * m.width) / 2)
    (m.rows dh (m.height - dh)).cols dw (m.width - dw)

/-- All entries of a 2D array in row-major order. -/
def Mat.flat {α : Type} (m : Mat α) : List α :=
  (List.range m.height).flatMap fun i => (List.range m.width).map (m.get i)

/-- `_invert_dots_contrast` — prep/preprocessing.py:194-213. For an array without entries `np.max` raises `ValueError`. -/
noncomputable def invertDotsContrast (m : Mat ℝ) : Except PyErr (Mat ℝ) := do
  let ratio := m.flat.sum / ((m.height : ℝ) * m.width)
  let maxVal ← npMax m.flat
  if ratio > 0.5 then .ok { m with get := fun i j => maxVal - m.get i j } else .ok m

/-! ## Grouping dots into lines -/

/-- `_check_dot_on_line` for two points — prep/preprocessing.py:561-598. -/
noncomputable def checkDotOnLine (slope dotDist ratio numDotMiss : ℝ) (dot1 dot2 : Pt) : Bool :=
  let distError := ratio * dotDist
  let searchDist := numDotMiss * dotDist
  let xmin := dot1.x - searchDist
  let xmax := dot1.x + searchDist
  let n1 := √(slope * slope + 1)
  let n2 := dot1.y - slope * dot1.x
  open Classical in
  decide ((xmin < dot2.x ∧ dot2.x < xmax) ∧ |slope * dot2.x - dot2.y + n2| / n1 < distError)

/-- The variables of the inner loop — prep/preprocessing.py:644-654. -/
structure LineScan where
  dot1 : Pt
  selected : List Pt
  posGet : List ℕ

/-- One turn of the inner loop — prep/preprocessing.py:647-654. -/
def scanStep (check : Pt → Pt → Bool) (left : List Pt) (st : LineScan) (i : ℕ) : LineScan :=
  match left[i]? with
  | none => st
  | some dot2 =>
    if check st.dot1 dot2 then ⟨dot2, st.selected ++ [dot2], st.posGet ++ [i]⟩ else st

/-- The inner loop — prep/preprocessing.py:644-654; `d` is the first remaining dot. -/
def scanLine (check : Pt → Pt → Bool) (d : Pt) (left : List Pt) : LineScan :=
  (List.range' 1 (left.length - 1)).foldl (scanStep check left) ⟨d, [d], [0]⟩

/-- The dots that were not taken — prep/preprocessing.py:655-659. -/
def dotsLeft (left : List Pt) (posGet : List ℕ) : List Pt :=
  fancyIndex left ((List.range left.length).filter fun pos => !posGet.contains pos)

/-- The lengths decrease: position 0 is always taken. -/
theorem posGet_zero (check : Pt → Pt → Bool) (d : Pt) (left : List Pt) : 0 ∈ (scanLine check d left).posGet := by
  unfold scanLine
  suffices ∀ (L : List ℕ) (st : LineScan), 0 ∈ st.posGet → 0 ∈ (L.foldl (scanStep check left) st).posGet from
    this _ _ (by simp)
  intro L
  induction L with
  | nil => intro st h; exact h
  | cons i L ih =>
    intro st h
    apply ih
    unfold scanStep
    split
    · exact h
    · split
      · simp [h]
      · exact h

theorem dotsLeft_length_lt {left : List Pt} {posGet : List ℕ} (h0 : 0 ∈ posGet) (hne : left ≠ []) :
    (dotsLeft left posGet).length < left.length := by
  unfold dotsLeft fancyIndex
  refine lt_of_le_of_lt (List.length_filterMap_le _ _) ?_
  have : ((List.range left.length).filter fun pos => !posGet.contains pos).length < (List.range left.length).length := by
    rw [List.length_filter_lt_length_iff_exists]
    exact ⟨0, List.mem_range.2 (List.length_pos_iff.2 hne), by simpa using h0⟩
  simpa using this

/-- The outer loop `while num_dots_left > 1` — prep/preprocessing.py:643-662. Lean accepts it because the number of
remaining dots decreases (position 0 is always taken). -/
def groupLoop (check : Pt → Pt → Bool) (left : List Pt) : List (List Pt) :=
  match h : left with
  | [] => []
  | [_] => []
  | d :: d' :: rest =>
    let sc := scanLine check d (d :: d' :: rest)
    let others := groupLoop check (dotsLeft (d :: d' :: rest) sc.posGet)
    if sc.selected.length > 1 then sc.selected :: others else others
termination_by left.length
decreasing_by
  exact dotsLeft_length_lt (posGet_zero _ _ _) (by simp)

/-- `np.mean` of a coordinate, used as a sorting key — prep/preprocessing.py:666-667. -/
noncomputable def meanOf (coord : Pt → ℝ) (line : List Pt) : ℝ := (line.map coord).sum / line.length

/-- Python's `sorted(lines, key=mean of a coordinate)` (stable). -/
noncomputable def sortLines (coord : Pt → ℝ) (lines : List (List Pt)) : List (List Pt) :=
  open Classical in lines.mergeSort fun a b => decide (meanOf coord a ≤ meanOf coord b)

/-- Number of dots of each line as floats. -/
noncomputable def lineLengths (lines : List (List Pt)) : List ℝ := lines.map fun l => (l.length : ℝ)

/-- `group_dots_hor_lines` on a list of points — prep/preprocessing.py:601-668. -/
noncomputable def groupDotsHor (argsort : List ℝ → List ℕ) (dots : List Pt)
    (slope dotDist ratio numDotMiss acceptedRatio : ℝ) : Except PyErr (List (List Pt)) :=
  if dots = [] then .error .valueError
  else do
    let left := fancyIndex dots (argsort (dots.map Pt.x))
    let lines := groupLoop (checkDotOnLine slope dotDist ratio numDotMiss) left
    let longest ← npMax (lineLengths lines)
    let accepted := truncInt (acceptedRatio * longest)
    .ok (sortLines Pt.y (lines.filter fun l => decide ((l.length : ℤ) > accepted)))

/-- `np.fliplr` on points. -/
def flipPt (p : Pt) : Pt := ⟨p.x, p.y⟩

/-- `group_dots_ver_lines` on a list of points — prep/preprocessing.py:671-740. -/
noncomputable def groupDotsVer (argsort : List ℝ → List ℕ) (dots : List Pt)
    (slope dotDist ratio numDotMiss acceptedRatio : ℝ) : Except PyErr (List (List Pt)) :=
  if dots = [] then .error .valueError
  else do
    let flipped := dots.map flipPt
    let left := fancyIndex flipped (argsort (flipped.map Pt.x))
    let lines := (groupLoop (checkDotOnLine slope dotDist ratio numDotMiss) left).map fun l => l.map flipPt
    let longest ← npMax (lineLengths lines)
    let accepted := truncInt (acceptedRatio * longest)
    .ok (sortLines Pt.x (lines.filter fun l => decide ((l.length : ℤ) > accepted)))

/-- The dots meant by the first argument of `group_dots_*_lines`, a 2D array — prep/preprocessing.py:629-641: an image
(more than two columns) stands for the centroids of its dots, a two-column array for the points in its rows. An image
without dots gives a 1D array, so that `[:, 1]` raises `IndexError`. -/
noncomputable def dotsOfArray (centroids : Mat ℝ → List Pt) (m : Mat ℝ) : Except PyErr (List Pt) :=
  if m.width > 2 then
    if centroids m = [] then .error .indexError else .ok (centroids m)
  else if m.height = 0 then .error .valueError
  else if m.width = 2 then .ok ((List.range m.height).map fun i => ⟨m.get i 0, m.get i 1⟩)
  else .error .indexError

/-! ## Residual filter -/

/-- The dots of a horizontal line within the residual — prep/preprocessing.py:764-770. -/
noncomputable def closeDots (pf : PolyfitFn) (slope residual : ℝ) (line : List Pt) : Except PyErr (List Pt) :=
  if line = [] then .error .indexError
  else match pf (line.map Pt.x) (line.map Pt.y) 2 with
    | [a2, a1, a0] => .ok (line.filter fun p =>
        open Classical in
        decide (|((a2 * p.x ^ 2 + a1 * p.x + a0) - p.y) * Real.cos (Real.arctan slope)| < residual))
    | _ => .error .valueError

/-- `remove_residual_dots_hor` — prep/preprocessing.py:743-775. -/
noncomputable def removeResidualHor (pf : PolyfitFn) (lines : List (List Pt)) (slope residual : ℝ) :
    Except PyErr (List (List Pt)) := do
  let kept ← lines.mapM (closeDots pf slope residual)
  let lines2 := kept.filter fun l => decide (l.length > 0)
  if lines2.length = 0 then .error .valueError else .ok lines2

/-- `remove_residual_dots_ver` — prep/preprocessing.py:778-813. -/
noncomputable def removeResidualVer (pf : PolyfitFn) (lines : List (List Pt)) (slope residual : ℝ) :
    Except PyErr (List (List Pt)) := do
  let kept ← lines.mapM fun l => closeDots pf slope residual (l.map flipPt)
  let lines2 := (kept.filter fun l => decide (l.length > 0)).map fun l => l.map flipPt
  if lines2.length = 0 then .error .valueError else .ok lines2

/-! ## Parabolic mask -/

/-- A margin argument: a number, or a tuple/list. -/
inductive Margin
  | one (v : ℝ)
  | seq (v : List ℝ)

/-- `(first, last)` margin — prep/preprocessing.py:888-897. -/
def Margin.pair : Margin → Except PyErr (ℝ × ℝ)
  | .one v => .ok (v, v)
  | .seq v => match v.head?, v.getLast? with
    | some a, some b => .ok (a, b)
    | _, _ => .error .indexError

open Classical in
/-- `np.float32(condition)`. -/
noncomputable def indic (p : Prop) : ℝ := if p then 1 else 0

open Classical in
/-- `make_parabola_mask` — prep/preprocessing.py:856-918. `rot` is `ndi.rotate(mask, rotate, reshape=False)`. Dividing
by a zero width or height is `ZeroDivisionError`. -/
noncomputable def makeParabolaMask (rot : Mat ℝ → ℝ → Mat ℝ) (height width : ℕ) (horCurv verCurv : ℝ)
    (horMargin verMargin : Margin) (rotate : ℝ) : Except PyErr (Mat ℝ) := do
  let (top, bot) ← verMargin.pair
  let (left, right) ← horMargin.pair
  if left + right > width then .error .valueError
  else if top + bot > height then .error .valueError
  else if width = 0 ∨ height = 0 then .error .zeroDivisionError
  else
    let mask : Mat ℝ :=
      { height := height, width := width
        get := fun y x =>
          indic ((y : ℝ) < -(verCurv / width) * ((x : ℝ) - width / 2) ^ 2 + height - bot) *
          indic ((y : ℝ) > (verCurv / width) * ((x : ℝ) - width / 2) ^ 2 + top) *
          indic ((x : ℝ) > (horCurv / height) * ((y : ℝ) - height / 2) ^ 2 + left) *
          indic ((x : ℝ) < -(horCurv / height) * ((y : ℝ) - height / 2) ^ 2 + width - right) }
    if rotate ≠ 0 then
      let r := rot mask rotate
      .ok { r with get := fun i j => (roundHalfEven (r.get i j) : ℝ) }
    else .ok mask

/-- Element of an axis of length `n` meant by a (possibly negative) index; `IndexError` outside `[-n, n)`. -/
def pyIndex (n : ℕ) (i : ℤ) : Except PyErr ℕ :=
  if 0 ≤ i ∧ i < n then .ok i.toNat
  else if -n ≤ i ∧ i < 0 then .ok (i + n).toNat
  else .error .indexError

open Classical in
/-- The test of one point — prep/preprocessing.py:959-962. The mask is read for every point before the bounds test
can exclude it. -/
noncomputable def maskTest (mask : Mat ℝ) (height width : ℕ) (p : Pt) : Except PyErr Bool := do
  let y := truncInt p.y
  let x := truncInt p.x
  let i ← pyIndex mask.height y
  let j ← pyIndex mask.width x
  .ok (decide (0 ≤ y ∧ y < height ∧ 0 ≤ x ∧ x < width ∧ mask.get i j = 1))

/-- `remove_points_using_parabola_mask` — prep/preprocessing.py:921-963 (`np.int32` of values below `2^31`). -/
noncomputable def removePointsMask (rot : Mat ℝ → ℝ → Mat ℝ) (points : List Pt) (height width : ℕ) (horCurv verCurv : ℝ)
    (horMargin verMargin : Margin) (rotate : ℝ) : Except PyErr (List Pt) := do
  let mask ← makeParabolaMask rot height width horCurv verCurv horMargin verMargin rotate
  let flags ← points.mapM (maskTest mask height width)
  .ok (((points.zip flags).filter fun q => q.2).map Prod.fst)

/-! ## Rotation, removal of points -/

/-- `rotate_points` — prep/preprocessing.py:1000-1025. -/
noncomputable def rotatePoints (points : List Pt) (angle : ℝ) (degreeUnit : Bool) : List Pt :=
  let a := if degreeUnit then angle * (Real.pi / 180) else angle
  points.map fun p => ⟨p.x * Real.sin a + p.y * Real.cos a, p.x * Real.cos a - p.y * Real.sin a⟩

open Classical in
/-- `remove_subset_points` — prep/preprocessing.py:1028-1047. -/
noncomputable def removeSubset (selected points : List Pt) : List Pt :=
  points.filter fun p => decide (p ∉ selected)

/-! ## Grouping based on a polynomial fit -/

/-- `_get_nearby_hor_points` — prep/preprocessing.py:1050-1077; `along` is the coordinate along the line (`x` for
horizontal lines, `y` for vertical ones — prep/preprocessing.py:1229-1256). -/
noncomputable def nearbyPoints (pf : PolyfitFn) (along across : Pt → ℝ) (current points : List Pt) (residual : ℝ)
    (order : ℕ) : Except PyErr (List Pt) :=
  if current = [] then .error .typeError
  else
    let f := pf (current.map along) (current.map across) order
    open Classical in
    .ok (points.filter fun p => decide (|across p - polyval f (along p)| ≤ residual))

/-- Lexicographic order of rows `(y, x)`. -/
def lexLe (p q : Pt) : Prop := p.y < q.y ∨ (p.y = q.y ∧ p.x ≤ q.x)

open Classical in
/-- `np.unique(points, axis=0)`: sorted rows without repetitions. -/
noncomputable def uniqueRows (l : List Pt) : List Pt := l.dedup.mergeSort fun p q => decide (lexLe p q)

/-- The variables of the search loop — prep/preprocessing.py:1112-1120. -/
structure SearchState where
  rCurr : ℝ
  rNext : ℝ
  lCurr : ℝ
  lNext : ℝ
  selected : List Pt

/-- One turn of the search loop — prep/preprocessing.py:1121-1140 (vertical: 1300-1319). -/
noncomputable def searchStep (pf : PolyfitFn) (along across : Pt → ℝ) (points : List Pt) (searchDist overlap residual : ℝ)
    (order : ℕ) (s : SearchState) : Except PyErr (SearchState ⊕ List Pt) := do
  let cand := points.filter fun p =>
    open Classical in
    decide ((s.rNext + overlap ≥ along p ∧ along p > s.rCurr - overlap) ∨
      (s.lNext - overlap ≤ along p ∧ along p < s.lCurr + overlap))
  if cand.length > 0 then do
    let near ← nearbyPoints pf along across s.selected cand residual order
    if near.length > 0 then
      .ok (.inl { rCurr := s.rNext, rNext := s.rNext + searchDist, lCurr := s.lNext, lNext := s.lNext - searchDist
                  selected := uniqueRows (s.selected ++ near) })
    else .ok (.inr s.selected)
  else .ok (.inr s.selected)

/-- `_get_nearby_hor_points_iter` — prep/preprocessing.py:1080-1141 (vertical: 1259-1320). -/
noncomputable def nearbyIter (pf : PolyfitFn) (along across : Pt → ℝ) (initial points : List Pt)
    (left right searchDist residual overlapRatio : ℝ) (order : ℕ) : Except PyErr (List Pt) :=
  let overlap := searchDist * clip overlapRatio 0 1
  whileLoop (searchStep pf along across points searchDist overlap residual order)
    ⟨right, right + searchDist, left, left - searchDist, initial⟩

/-- The body of the loop over the coarse groups — prep/preprocessing.py:1199-1213 (vertical: 1378-1391). The variable
`selected_points` survives from one group to the next (first component of the state). -/
noncomputable def polyfitGroup (pf : PolyfitFn) (argsort : List ℝ → List ℕ) (along across : Pt → ℝ) (points : List Pt)
    (angle searchDist residual overlapRatio : ℝ) (order : ℕ) (st : List Pt × List (List Pt)) (current : List Pt) :
    Except PyErr (List Pt × List (List Pt)) := do
  let selected ←
    if current.length > 2 then
      match current.head?, current.getLast? with
      | some a, some b => nearbyIter pf along across current points (along a) (along b) searchDist residual overlapRatio order
      | _, _ => .error .indexError
    else .ok st.1
  if selected.length > 2 then
    let back := rotatePoints selected (-angle) false
    let sorted := fancyIndex back (argsort (back.map along))
    .ok (sorted, st.2 ++ [sorted])
  else .ok (selected, st.2)

/-- Lines with a jump of the median coordinate before them — prep/preprocessing.py:1217-1223. -/
noncomputable def dropRepeated (across : Pt → ℝ) (lineDist : ℝ) (lines : List (List Pt)) : Except PyErr (List (List Pt)) := do
  let vals ← lines.mapM fun l => npMedian (l.map across)
  let jumps := (npDiff vals).map fun t => open Classical in decide (|t| > 0.1 * lineDist)
  let ids := (List.range jumps.length).filter fun i => jumps.getD i false
  if ids.length > 0 then
    let ids' := 0 :: ids.map (· + 1)
    .ok (fancyIndex lines ((List.range lines.length).filter fun i => ids'.contains i))
  else .ok lines

/-- Common body of `group_dots_hor_lines_based_polyfit` (prep/preprocessing.py:1144-1226) and
`group_dots_ver_lines_based_polyfit` (1323-1404): they differ in the sign of the angle, the swapped roles of the two
coordinates and the coarse grouping that is called. -/
noncomputable def groupPolyfit (pf : PolyfitFn) (argsort : List ℝ → List ℕ) (along across : Pt → ℝ) (angle : ℝ)
    (coarse : List Pt → ℝ → Except PyErr (List (List Pt))) (points0 : List Pt)
    (lineDist ratio numDotMiss acceptedRatio overlapRatio : ℝ) (order : ℕ) : Except PyErr (List (List Pt)) :=
  if points0.length = 0 then .error .valueError
  else do
    let rotated := rotatePoints points0 angle false
    let points := fancyIndex rotated (argsort (rotated.map along))
    match points.head?, points.getLast? with
    | some first, some last => do
      let tmin := along first
      let tmax := along last
      let tmid := (tmin + tmax) * 0.5
      let miss := clip numDotMiss 1 points0.length
      let searchDist := miss * lineDist + 0.5 * lineDist
      let start := clip (tmid - searchDist) tmin tmax
      let stop := clip (tmid + searchDist) tmin tmax
      let sel := points.filter fun p => open Classical in decide (along p ≥ start ∧ along p ≤ stop)
      let lines ←
        if sel.length > 0 then do
          let grouped ← coarse sel miss
          let (_, lines) ← grouped.foldlM
            (polyfitGroup pf argsort along across points angle searchDist (ratio * lineDist) overlapRatio order) (sel, [])
          .ok lines
        else .ok []
      let longest ← npMax (lineLengths lines)
      let accepted := toInt16 (truncInt (acceptedRatio * longest))
      let chosen := lines.filter fun l => decide ((l.length : ℤ) > accepted)
      let chosen ← dropRepeated across lineDist chosen
      .ok (sortLines across chosen)
    | _, _ => .error .indexError

/-- `group_dots_hor_lines_based_polyfit` — prep/preprocessing.py:1144-1226. -/
noncomputable def groupPolyfitHor (pf : PolyfitFn) (argsort : List ℝ → List ℕ) (points : List Pt)
    (slope lineDist ratio numDotMiss acceptedRatio overlapRatio : ℝ) (order : ℕ) : Except PyErr (List (List Pt)) :=
  groupPolyfit pf argsort Pt.x Pt.y (-Real.arctan slope)
    (fun sel miss => groupDotsHor argsort sel 0 lineDist ratio miss acceptedRatio)
    points lineDist ratio numDotMiss acceptedRatio overlapRatio order

/-- `group_dots_ver_lines_based_polyfit` — prep/preprocessing.py:1323-1404. -/
noncomputable def groupPolyfitVer (pf : PolyfitFn) (argsort : List ℝ → List ℕ) (points : List Pt)
    (slope lineDist ratio numDotMiss acceptedRatio overlapRatio : ℝ) (order : ℕ) : Except PyErr (List (List Pt)) :=
  groupPolyfit pf argsort Pt.y Pt.x (Real.arctan slope)
    (fun sel miss => groupDotsVer argsort sel 0 lineDist ratio miss acceptedRatio)
    points lineDist ratio numDotMiss acceptedRatio overlapRatio order

end Discorpy
