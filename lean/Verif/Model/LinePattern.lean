import Verif.Py.Array
import Verif.Model.Prep
import Verif.Model.Proc
import Mathlib.Analysis.SpecialFunctions.Trigonometric.Arctan

/-!
# Model of `discorpy/prep/linepattern.py`

Filters (`gaussian_filter`, `gaussian_filter1d`, `normalization_fft`), the Radon transform and the Gaussian peak fit are
arbitrary functions.
-/

namespace Discorpy

/-! ## Extrema of a profile -/

/-- `locate_subpixel_point` — prep/linepattern.py:46-72. `np.polyfit` raises `TypeError` on an empty array. -/
noncomputable def locateSubpixelPoint (pf : PolyfitFn) (l : List ℝ) (option : String) : Except PyErr ℝ :=
  if l = [] then .error .typeError
  else
    match pf ((List.range l.length).map fun i : ℕ => (i : ℝ)) l 2 with
    | [a, b, _] => do
      let pos ← (if option = "min" then npArgmin l else npArgmax l)
      if a ≠ 0 then
        let num := -b / (2 * a)
        if num ≥ 0 ∧ num < l.length then .ok num else .ok pos
      else .ok pos
    | _ => .error .valueError

/-- Result of `_get_gauss_peak_fit` — prep/linepattern.py:80-102: fitted data, peak position, offset, success. -/
structure GaussFit where
  fit : List ℝ
  pos : ℝ
  offset : ℝ
  check : Bool

/-- The window of a peak, scaled to minimum 0 and standard deviation 1 — prep/linepattern.py:137-143; `none` if it has at
most three samples or no spread. -/
noncomputable def peakWindow (l : List ℝ) (radius p : ℤ) : Option (List ℝ) :=
  let start := max 0 (p - radius)
  let stop := min (l.length : ℤ) (p + radius + 1)
  if stop - start > 3 then
    let sub := npSlice l start.toNat stop.toNat
    let std := npStd sub
    if std ≠ 0 then
      match sub.min? with
      | some m => some (sub.map fun x => (x - m) / std)
      | none => none
    else none
  else none

/-- The decision about one peak — prep/linepattern.py:143-151. -/
noncomputable def goodPeak (gaussFit : List ℝ → GaussFit) (l : List ℝ) (tol : ℝ) (radius : ℤ) (useOffset : Bool) (p : ℤ) :
    Except PyErr Bool :=
  match peakWindow l radius p with
  | none => .ok false
  | some norm => do
    let g := gaussFit norm
    let num ← npPercentile (List.zipWith (fun a b => |a - b|) g.fit norm) 80
    if g.check ∧ |g.pos| < ((radius / 2 : ℤ) : ℝ) ∧ num < tol then
      if useOffset then .ok (decide (|g.offset| < tol)) else .ok true
    else .ok false

/-- `select_good_peaks` — prep/linepattern.py:105-152. -/
noncomputable def selectGoodPeaks (gaussFilter : List ℝ → ℝ → List ℝ) (gaussFit : List ℝ → GaussFit) (l : List ℝ)
    (peaks : List ℤ) (tol : ℝ) (radius : ℤ) (sigma : ℝ) (useOffset : Bool) : Except PyErr (List ℤ) := do
  let l := if sigma > 0 then gaussFilter l sigma else l
  let flags ← peaks.mapM fun p => do
    let ok ← goodPeak gaussFit l tol radius useOffset p
    return (p, ok)
  .ok ((flags.filter fun f => f.2).map fun f => f.1)

/-- `np.pad(a, (r, r), 'edge')` for a non-empty array. -/
def padEdge (l : List ℝ) (r : ℕ) : List ℝ :=
  match l with
  | [] => []
  | x :: t => List.replicate r x ++ (x :: t) ++ List.replicate r ((x :: t).getLast (by simp))

/-- `sliding_window_slope` — prep/linepattern.py:155-192. `store` is the cast on assignment into `np.zeros_like(list_data)`:
the identity for float data, truncation for integer data. -/
noncomputable def slidingWindowSlope (pf : PolyfitFn) (store : ℝ → ℝ) (l : List ℝ) (size : ℤ) (norm : Bool) :
    Except PyErr (List ℝ) :=
  let n := l.length
  if n < 3 then .error .valueError
  else do
    let size : ℕ := (min (max size 3) (n : ℤ)).toNat
    let size := if size % 2 = 0 then size + 1 else size
    let radius := size / 2
    let padded := padEdge l radius
    let xs := (List.range size).map fun i : ℕ => (i : ℝ)
    let slopes ← (List.range n).mapM fun i => do
      let s ← npGet (pf xs (npSlice padded i (i + size)) 1) 0
      return |store s|
    if norm then
      let m ← npMean slopes
      if m ≠ 0 then .ok (slopes.map fun s => s / m) else .ok slopes
    else .ok slopes

/-- Settings of the optional peak selection (`select_peaks=True` with its keyword arguments). -/
structure PeakParams where
  tol : ℝ
  sigma : ℝ
  useOffset : Bool

/-- External functions used by `get_local_extrema_points`. -/
structure Ext where
  pf : PolyfitFn
  argsort : List ℝ → List ℕ
  gaussFilter : List ℝ → ℝ → List ℝ
  gaussFit : List ℝ → GaussFit

open Classical in
/-- Background normalisation — prep/linepattern.py:235-253, for data of type float (with integers the background is truncated).
`np.polyfit` fails without samples and if the only abscissa is zero. -/
noncomputable def normBackground (E : Ext) (l : List ℝ) : Except PyErr (List ℝ) :=
  let n := l.length
  let xs := (List.range n).map fun i : ℕ => (i : ℝ)
  let order := E.argsort l
  let sorted := fancyIndex l order
  let ndrop : ℕ := ⌊(0.25 : ℝ) * n⌋₊
  let fx := npSlice xs ndrop (n - ndrop - 1)
  let fy := npSlice sorted ndrop (n - ndrop - 1)
  if fx = [] then .error .typeError
  else if ∀ x ∈ fx, x = 0 then .error .linAlgError
  else
    match E.pf fx fy 1 with
    | [a1, a0] => do
      let fit := xs.map fun x => a1 * x + a0
      let lo := a0
      let hi := a1 * ((n : ℝ) - 1) + a0
      let sorted' := List.zipWith (fun s f => if f ≥ lo ∧ f ≤ hi then f else s) sorted fit
      let nmean ← npMean (fit.map abs)
      let backgr := fancyIndex sorted' (E.argsort (order.map fun i : ℕ => (i : ℝ)))
      .ok (List.zipWith (fun v b => if b ≠ 0 then v / b else nmean) l backgr)
    | _ => .error .valueError

/-- The test of one index — prep/linepattern.py:256-263. For `radius = 0` the slice `list_sort[-0:]` is the whole list. -/
noncomputable def isExtremum (l : List ℝ) (radius : ℕ) (sensitive : ℝ) (i : ℕ) : Except PyErr Bool := do
  let val ← npGet l i
  let sorted := (npSlice l (i - radius) (i + radius + 1)).mergeSort fun a b => decide (a ≤ b)
  let first ← npGet sorted 0
  let nmean ← npMean (if radius = 0 then sorted else sorted.drop (sorted.length - radius))
  let num2 := if nmean ≠ 0 then |(val - nmean) / nmean| else 0
  .ok (decide (first - val = 0 ∧ num2 > sensitive))

/-- `get_local_extrema_points` — prep/linepattern.py:195-274. -/
noncomputable def getLocalExtremaPoints (E : Ext) (l : List ℝ) (option : String) (radius : ℤ) (sensitive : ℝ)
    (denoise norm subpixel : Bool) (selectPeaks : Option PeakParams) : Except PyErr (List ℝ) := do
  let l := if denoise then E.gaussFilter l 3 else l
  let l ← (if option = "max" then do
      let m ← npMax l
      .ok (l.map fun x => m - x)
    else .ok l)
  let n := l.length
  let radius : ℕ := (min (max radius 1) ((n / 4 : ℕ) : ℤ)).toNat
  let l ← (if norm then normBackground E l else .ok l)
  let flags ← (npSlice (List.range n) radius (n - radius - 1)).mapM fun i => do
    let ok ← isExtremum l radius sensitive i
    return (i, ok)
  let points : List ℤ := (flags.filter fun f => f.2).map fun f => (f.1 : ℤ)
  let points ← (match selectPeaks with
    | none => .ok points
    | some k => do
      let m ← npMax l
      selectGoodPeaks E.gaussFilter E.gaussFit (l.map fun x => m - x) points k.tol radius k.sigma k.useOffset)
  if subpixel then
    points.mapM fun i : ℤ => do
      let s ← locateSubpixelPoint E.pf (npSlice l (sliceBound n (i - 1)) (sliceBound n (i + 2))) "min"
      return ((i : ℝ) - 1 + s)
  else .ok (points.map fun i : ℤ => (i : ℝ))

/-! ## Slopes and distances of lines -/

/-- `_make_circle_mask` — prep/linepattern.py:277-299; `make_circle_mask` — util/utility.py:41-63. -/
noncomputable def makeCircleMask (width : ℕ) (ratio : ℝ) : Mat ℝ where
  height := width
  width := width
  get i j :=
    let center : ℤ := (width / 2 : ℕ)
    let radius := ratio * center
    let y : ℝ := -center + (i : ℤ)
    let x : ℝ := -center + (j : ℤ)
    if x * x + y * y ≤ radius * radius then 1 else 0

/-- `np.amax(sinogram, axis=0)`; `ValueError` for an array without rows. -/
noncomputable def colMax (m : Mat ℝ) : Except PyErr (List ℝ) :=
  (List.range m.width).mapM fun j => npMax ((List.range m.height).map fun i => m.get i j)

/-- Spacing of the detected lines — prep/linepattern.py:371-374, 445-448. -/
noncomputable def lineSpacing (pts : List ℝ) : Except PyErr ℝ :=
  if pts.length > 3 then npMedian ((npDiff pts).map abs) else npMean ((npDiff pts).map abs)

/-! ## Tilted profiles -/

/-- `_calc_index_range` — prep/linepattern.py:452-509. At the other odd multiples of 90 degrees the floating-point tangent has
a magnitude of about `1e15`, so that the range check fails; the model says so directly. -/
noncomputable def calcIndexRange (height width : ℕ) (angleDeg : ℝ) (direction : String) : Except PyErr (ℤ × ℤ) :=
  let angle := angleDeg * Real.pi / 180
  if direction = "horizontal" then
    if |angleDeg| = 90 then .error .valueError
    else if Real.cos angle = 0 then .error .valueError
    else
      let minIdx : ℤ := if angleDeg > 0 then ⌈(width : ℝ) * Real.tan angle⌉ else 0
      let maxIdx : ℤ := if angleDeg > 0 then (height : ℤ) - 1 else (height : ℤ) - 1 - ⌊(width : ℝ) * Real.tan |angle|⌋
      if minIdx < 0 ∨ minIdx ≥ height ∨ maxIdx < 0 ∨ maxIdx ≥ height then .error .valueError
      else .ok (minIdx, maxIdx)
  else
    if |angleDeg| = 90 then .error .valueError
    else if Real.cos angle = 0 then .error .valueError
    else
      let minIdx : ℤ := if angleDeg > 0 then 0 else ⌊(height : ℝ) * Real.tan |angle|⌋
      let maxIdx : ℤ := if angleDeg > 0 then (width : ℤ) - 1 - ⌈(height : ℝ) * Real.tan angle⌉ else (width : ℤ) - 1
      if minIdx < 0 ∨ minIdx ≥ width ∨ maxIdx < 0 ∨ maxIdx ≥ width then .error .valueError
      else .ok (minIdx, maxIdx)

/-- `get_tilted_profile` — prep/linepattern.py:512-567. `S` is `map_coordinates(…, order=3, mode='nearest')`. The result is
`(xlist, ylist, profile)`. -/
noncomputable def getTiltedProfile (S : Sampler) (m : Mat ℝ) (index angleDeg : ℝ) (direction : String) :
    Except PyErr (List ℝ × List ℝ × List ℝ) := do
  let (minIdx, maxIdx) ← calcIndexRange m.height m.width angleDeg direction
  let angle := angleDeg * Real.pi / 180
  if index < minIdx ∨ index > maxIdx then .error .valueError
  else if direction = "horizontal" then
    let rlist := linspace0 ⌊(m.width : ℝ) / Real.cos angle⌋ m.width
    let xlist := rlist.map fun r => clip (r * Real.cos angle) 0 ((m.width : ℝ) - 1)
    let ylist := rlist.map fun r => clip (index + r * Real.sin (-angle)) 0 ((m.height : ℝ) - 1)
    let ylo ← npMin ylist
    let yhi ← npMax ylist
    let ymin := toInt16 ⌊ylo⌋
    let ymax := toInt16 (toInt16 ⌈yhi⌉ + 1)
    .ok (xlist, ylist, List.zipWith (fun x y => S (m.rows ymin ymax) (y - ymin) x) xlist ylist)
  else
    let rlist := linspace0 ⌊(m.height : ℝ) / Real.cos angle⌋ m.height
    let ylist := rlist.map fun r => clip (r * Real.cos angle) 0 ((m.height : ℝ) - 1)
    let xlist := rlist.map fun r => clip (index + r * Real.sin angle) 0 ((m.width : ℝ) - 1)
    let xlo ← npMin xlist
    let xhi ← npMax xlist
    let xmin := toInt16 ⌊xlo⌋
    let xmax := toInt16 (toInt16 ⌈xhi⌉ + 1)
    .ok (xlist, ylist, List.zipWith (fun x y => S (m.cols xmin xmax) y (x - xmin)) xlist ylist)

/-! ## Chessboard images -/

/-- One component of `np.gradient` along an axis of length `n ≥ 2`. -/
noncomputable def gradient1 (f : ℕ → ℝ) (n i : ℕ) : ℝ :=
  if i = 0 then f 1 - f 0
  else if i = n - 1 then f (n - 1) - f (n - 2)
  else (f (i + 1) - f (i - 1)) / 2

/-- Mean of the absolute gradients along both axes, `np.mean(np.abs(np.gradient(mat)), axis=0)`. -/
noncomputable def meanAbsGradient (m : Mat ℝ) : Mat ℝ :=
  { m with get := fun i j => (|gradient1 (fun k => m.get k j) m.height i| + |gradient1 (fun k => m.get i k) m.width j|) / 2 }

/-- `np.pad(mat[k:-k, k:-k], k, mode="edge")` for an image larger than `2k` in both directions. -/
def cropPad (m : Mat ℝ) (k : ℕ) : Mat ℝ :=
  { m with get := fun i j => m.get (max k (min i (m.height - 1 - k))) (max k (min j (m.width - 1 - k))) }

/-- `convert_chessboard_to_linepattern` — prep/linepattern.py:570-601. `filter2` is `ndi.gaussian_filter(mat, sigma,
mode="nearest")`. `np.gradient` needs two samples per axis; `np.pad` with mode `edge` fails on an empty array; the division by a
zero mean gives `nan`. -/
noncomputable def convertChessboard (filter2 : Mat ℝ → Mat ℝ) (m : Mat ℝ) (smooth bright : Bool) : Except PyErr (Mat ℝ) := do
  let m := if smooth then filter2 m else m
  let k := if smooth then 4 else 2
  if m.height < 2 ∨ m.width < 2 then .error .valueError
  else if m.height ≤ 2 * k ∨ m.width ≤ 2 * k then .error .valueError
  else
    let line := cropPad (meanAbsGradient m) k
    let line ← (if bright then do
        let mx ← npMax line.flat
        .ok { line with get := fun i j => mx - line.get i j }
      else .ok line)
    let mean ← npMean (line.flat.map abs)
    if mean = 0 then .error .nonFinite
    else .ok { line with get := fun i j => line.get i j / mean }

/-! ## Representative slope and distance -/

/-- The image handed to the Radon transform: smoothing, square region, contrast inversion, circular mask —
prep/linepattern.py:347-354, 421-428. `filter2` is `ndi.gaussian_filter(mat, 3)`. -/
noncomputable def lineRegion (filter2 : Mat ℝ → Mat ℝ) (m : Mat ℝ) (ratio : ℝ) (bright denoise : Bool) : Except PyErr (Mat ℝ) := do
  let m := if denoise then filter2 m else m
  let roi := selectRoi m ratio true
  let roi ← (if bright then do
      let mx ← npMax roi.flat
      .ok { roi with get := fun i j => mx - roi.get i j }
    else .ok roi)
  let mask := makeCircleMask roi.height 0.92
  .ok { roi with get := fun i j => roi.get i j * mask.get i j }

/-- The column of the sinogram with the largest value and its angle — prep/linepattern.py:355-357, 429-431 and 360-362, 434-436. -/
noncomputable def sharpestAngle (sino : Mat ℝ) (angles : List ℝ) : Except PyErr (ℕ × ℝ) := do
  let maxima ← colMax sino
  let pos ← npArgmax maxima
  let best ← npGet angles pos
  .ok (pos, best)

/-- The common part of the two functions below. `radon` is the Radon transform; its result has one column per angle. The value
`base` is the angle in the middle of the search. -/
noncomputable def calcSlopeDistance (E : Ext) (filter2 chess : Mat ℝ → Mat ℝ) (radon : Mat ℝ → List ℝ → Mat ℝ) (base : ℝ)
    (slopeOf : ℝ → ℝ) (m : Mat ℝ) (ratio searchRange : ℝ) (radius : ℤ) (sensitive : ℝ)
    (bright denoise norm subpixel chessboard : Bool) (selectPeaks : Option PeakParams) : Except PyErr (ℝ × ℝ) := do
  let m ← (if chessboard then convertChessboard chess m true true else .ok m)
  let masked ← lineRegion filter2 m ratio bright denoise
  let coarse := (arange (-searchRange) (searchRange + 1) 1).map fun a => base + a
  let best1 ← sharpestAngle (radon masked coarse) coarse
  let fine := arange (best1.2 - 1) (best1.2 + 1.05) 0.05
  let sino := radon masked fine
  let best2 ← sharpestAngle sino fine
  let pts ← getLocalExtremaPoints E ((List.range sino.height).map fun i => sino.get i best2.1) "max" radius sensitive denoise norm
    subpixel selectPeaks
  let distance ← lineSpacing pts
  .ok (Real.tan (slopeOf best2.2 * Real.pi / 180), distance)

/-- `calc_slope_distance_hor_lines` — prep/linepattern.py:302-375. `chess` is the smoothing inside
`convert_chessboard_to_linepattern`. -/
noncomputable def calcSlopeDistanceHor (E : Ext) (filter2 chess : Mat ℝ → Mat ℝ) (radon : Mat ℝ → List ℝ → Mat ℝ) (m : Mat ℝ)
    (ratio searchRange : ℝ) (radius : ℤ) (sensitive : ℝ) (bright denoise norm subpixel chessboard : Bool)
    (selectPeaks : Option PeakParams) : Except PyErr (ℝ × ℝ) :=
  calcSlopeDistance E filter2 chess radon 90 (fun a => -(a - 90)) m ratio searchRange radius sensitive bright denoise norm subpixel
    chessboard selectPeaks

/-- `calc_slope_distance_ver_lines` — prep/linepattern.py:378-449. -/
noncomputable def calcSlopeDistanceVer (E : Ext) (filter2 chess : Mat ℝ → Mat ℝ) (radon : Mat ℝ → List ℝ → Mat ℝ) (m : Mat ℝ)
    (ratio searchRange : ℝ) (radius : ℤ) (sensitive : ℝ) (bright denoise norm subpixel chessboard : Bool)
    (selectPeaks : Option PeakParams) : Except PyErr (ℝ × ℝ) :=
  calcSlopeDistance E filter2 chess radon 0 (fun a => a) m ratio searchRange radius sensitive bright denoise norm subpixel
    chessboard selectPeaks

/-! ## Cross points -/

/-- The points found along one generated line — prep/linepattern.py:666-680, 746-760. `fx`, `fy` are the factors of `rlist` in the
`x` and `y` coordinate. -/
noncomputable def crossPointsOnLine (E : Ext) (store : ℝ → ℝ) (prof : List ℝ × List ℝ × List ℝ) (n : ℕ) (fx fy : ℝ)
    (chessboard : Bool) (radius : ℤ) (sensitive : ℝ) (denoise norm subpixel : Bool) (selectPeaks : Option PeakParams) :
    Except PyErr (List Pt) := do
  let (xlist, ylist, profile) := prof
  match xlist.head?, xlist.getLast?, ylist.head?, ylist.getLast? with
  | some x0, some x1, some y0, some y1 =>
    let scale ← finDiv (√((x1 - x0) ^ 2 + (y1 - y0) ^ 2)) ((n : ℝ) - 1)
    let profile ← (if chessboard then slidingWindowSlope E.pf store profile 3 true else .ok profile)
    let pts ← getLocalExtremaPoints E profile "max" radius sensitive (!denoise) (!norm) subpixel selectPeaks
    .ok (pts.map fun r => ⟨r * scale * fy + y0, r * scale * fx + x0⟩)
  | _, _, _, _ => .error .indexError

/-- The contrast inversion, background normalisation and smoothing — prep/linepattern.py:654-659, 734-739. `fft` is
`prep.normalization_fft(mat, 5)`, `filter2` is `ndi.gaussian_filter(mat, 3)`. -/
noncomputable def crossImage (fft filter2 : Mat ℝ → Mat ℝ) (m : Mat ℝ) (bright norm denoise : Bool) : Except PyErr (Mat ℝ) := do
  let m ← (if bright then do
      let mx ← npMax m.flat
      .ok { m with get := fun i j => mx - m.get i j }
    else .ok m)
  let m := if norm then fft m else m
  .ok (if denoise then filter2 m else m)

/-- `get_cross_points_hor_lines` — prep/linepattern.py:604-681. `np.arange` raises for a step of zero. -/
noncomputable def getCrossPointsHorLines (E : Ext) (S : Sampler) (fft filter2 : Mat ℝ → Mat ℝ) (store : ℝ → ℝ) (mat : Mat ℝ)
    (slopeVer distVer ratio offset : ℝ) (bright norm chessboard denoise subpixel : Bool) (radius : ℤ) (sensitive : ℝ)
    (selectPeaks : Option PeakParams) : Except PyErr (List Pt) := do
  let m ← crossImage fft filter2 mat bright norm denoise
  let angle := Real.arctan slopeVer
  let deg := angle * 180 / Real.pi
  let (minRow, maxRow) ← calcIndexRange mat.height mat.width deg "vertical"
  let offset : ℤ := truncInt (clip offset 0 ((min mat.height mat.width / 3 : ℕ) : ℝ))
  if ratio * distVer = 0 then .error .zeroDivisionError
  else
    let groups ← (arange ((minRow + offset : ℤ) : ℝ) ((maxRow - offset : ℤ) : ℝ) (ratio * distVer)).mapM fun i => do
      let prof ← getTiltedProfile S m i deg "vertical"
      crossPointsOnLine E store prof mat.height (Real.sin angle) (Real.cos angle) chessboard radius sensitive denoise norm subpixel
        selectPeaks
    .ok groups.flatten

/-- `get_cross_points_ver_lines` — prep/linepattern.py:684-761. -/
noncomputable def getCrossPointsVerLines (E : Ext) (S : Sampler) (fft filter2 : Mat ℝ → Mat ℝ) (store : ℝ → ℝ) (mat : Mat ℝ)
    (slopeHor distHor ratio offset : ℝ) (bright norm chessboard denoise subpixel : Bool) (radius : ℤ) (sensitive : ℝ)
    (selectPeaks : Option PeakParams) : Except PyErr (List Pt) := do
  let m ← crossImage fft filter2 mat bright norm denoise
  let angle := Real.arctan slopeHor
  let deg := -(angle * 180 / Real.pi)
  let (minCol, maxCol) ← calcIndexRange mat.height mat.width deg "horizontal"
  let offset : ℤ := truncInt (clip offset 0 ((min mat.height mat.width / 8 : ℕ) : ℝ))
  if ratio * distHor = 0 then .error .zeroDivisionError
  else
    let groups ← (arange ((minCol + offset : ℤ) : ℝ) ((maxCol - offset : ℤ) : ℝ) (ratio * distHor)).mapM fun i => do
      let prof ← getTiltedProfile S m i deg "horizontal"
      crossPointsOnLine E store prof mat.width (Real.cos angle) (Real.sin angle) chessboard radius sensitive denoise norm subpixel
        selectPeaks
    .ok groups.flatten

end Discorpy
