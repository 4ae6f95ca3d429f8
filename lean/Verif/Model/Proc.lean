import Verif.Py.Array
import Verif.Model.Transform

/-!
# Model of `discorpy/proc/processing.py`, radial part

`pf` is `np.polyfit`, `lstsq` is `np.linalg.lstsq(·)[0]`, `minimize f x0` is `optimize.minimize(f, x0).x[0]`.
The `float32` storage of fitted coefficients and intercepts is not modelled (reals are exact).
A division by zero on an array that feeds a linear solve gives `PyErr.nonFinite`.
-/

namespace Discorpy

/-- Coefficients of a parabola `a·t² + b·t + c`. -/
structure Para where
  a : ℝ
  b : ℝ
  c : ℝ

/-- Coefficients of a straight line `a·t + b`. -/
structure Lin where
  a : ℝ
  b : ℝ

/-- Unpacking three coefficients. -/
def Para.ofList : List ℝ → Except PyErr Para
  | [a, b, c] => .ok ⟨a, b, c⟩
  | _ => .error .valueError

/-- Unpacking two coefficients. -/
def Lin.ofList : List ℝ → Except PyErr Lin
  | [a, b] => .ok ⟨a, b⟩
  | _ => .error .valueError

/-- The shifted dots of a line — proc/processing.py:74-75 and 107-108. -/
def shiftLine (xcenter ycenter : ℝ) (line : List Pt) : List Pt :=
  line.map fun p => ⟨p.y - ycenter, p.x - xcenter⟩

/-- Fit of one horizontal line — proc/processing.py:70-73. -/
noncomputable def paraHor (pf : PolyfitFn) (xcenter ycenter : ℝ) (line : List Pt) : Except PyErr Para :=
  if line = [] then .error .indexError
  else Para.ofList (pf (line.map fun p => p.x - xcenter) (line.map fun p => p.y - ycenter) 2)

/-- Fit of one vertical line — proc/processing.py:103-106. -/
noncomputable def paraVer (pf : PolyfitFn) (xcenter ycenter : ℝ) (line : List Pt) : Except PyErr Para :=
  if line = [] then .error .indexError
  else Para.ofList (pf (line.map fun p => p.y - ycenter) (line.map fun p => p.x - xcenter) 2)

/-- `_para_fit_hor` — proc/processing.py:47-77. -/
noncomputable def paraFitHor (pf : PolyfitFn) (lines : List (List Pt)) (xcenter ycenter : ℝ) :
    Except PyErr (List Para × List (List Pt)) := do
  let coefs ← lines.mapM (paraHor pf xcenter ycenter)
  .ok (coefs, lines.map (shiftLine xcenter ycenter))

/-- `_para_fit_ver` — proc/processing.py:80-110. -/
noncomputable def paraFitVer (pf : PolyfitFn) (lines : List (List Pt)) (xcenter ycenter : ℝ) :
    Except PyErr (List Para × List (List Pt)) := do
  let coefs ← lines.mapM (paraVer pf xcenter ycenter)
  .ok (coefs, lines.map (shiftLine xcenter ycenter))

/-- `np.argmax(np.abs(np.diff(np.sign(coefs[:, 0])))) + 1` — proc/processing.py:132-133. -/
noncomputable def signChange (coefs : List Para) : Except PyErr ℕ := do
  let k ← npArgmax ((npDiff (coefs.map fun q => npSign q.a)).map fun t => |t|)
  .ok (k + 1)

/-- `find_cod_coarse` — proc/processing.py:113-145; the result is the centre. -/
noncomputable def findCodCoarse (pf : PolyfitFn) (hor ver : List (List Pt)) : Except PyErr Pt := do
  let (ch, _) ← paraFitHor pf hor 0 0
  let (cv, _) ← paraFitVer pf ver 0 0
  let ph ← signChange ch
  let pv ← signChange cv
  let h0 ← npGet ch (ph - 1)
  let h1 ← npGet ch ph
  let v0 ← npGet cv (pv - 1)
  let v1 ← npGet cv pv
  let yc0 := (h0.c + h1.c) * 0.5
  let xc0 := (v0.c + v1.c) * 0.5
  let sh := (h0.b + h1.b) * 0.5
  let sv := (v0.b + v1.b) * 0.5
  let y ← finDiv (yc0 + xc0 * sh) (1 - sh * sv)
  let x ← finDiv (xc0 + yc0 * sv) (1 - sh * sv)
  .ok ⟨y, x⟩

/-- `_func_dist` — proc/processing.py:148-152. -/
noncomputable def funcDist (q : Para) (x : ℝ) : ℝ := x ^ 2 + (q.a * x ^ 2 + q.b * x + q.c) ^ 2

/-- The point of a parabola nearest to the origin as `(parameter, value)` — proc/processing.py:173-177 and 180-184. -/
noncomputable def nearestPoint (minimize : (ℝ → ℝ) → ℝ → ℝ) (q : Para) : ℝ × ℝ :=
  let xm := minimize (funcDist q) 0
  (xm, q.a * xm ^ 2 + q.b * xm + q.c)

/-- `np.polyfit(points[:, 0], points[:, 1], 1)[-1]`; `TypeError` when there is no point. -/
noncomputable def interceptOf (pf : PolyfitFn) (pts : List (ℝ × ℝ)) : Except PyErr ℝ :=
  if pts = [] then .error .typeError
  else match (pf (pts.map Prod.fst) (pts.map Prod.snd) 1).getLast? with
    | some v => .ok v
    | none => .error .indexError

/-- `_calc_error` — proc/processing.py:155-191. -/
noncomputable def calcError (pf : PolyfitFn) (minimize : (ℝ → ℝ) → ℝ → ℝ) (ch cv : List Para) : Except PyErr ℝ := do
  let eh ← interceptOf pf (ch.map (nearestPoint minimize))
  let ev ← interceptOf pf (cv.map (nearestPoint minimize))
  .ok (|eh| + |ev|)

/-- `max(0, pos - num_use)`, `min(num_line, pos + num_use + 1)` — proc/processing.py:231-234, 389-392. -/
def window (pos num : ℕ) (numUse : ℤ) : ℕ × ℕ :=
  ((max 0 ((pos : ℤ) - numUse)).toNat, (min (num : ℤ) ((pos : ℤ) + numUse + 1)).toNat)

/-- One entry of the metric table — proc/processing.py:237-241. -/
noncomputable def metricEntry (pf : PolyfitFn) (minimize : (ℝ → ℝ) → ℝ → ℝ) (hor ver : List (List Pt))
    (posX posY : ℝ) : Except PyErr ℝ := do
  let (ch, _) ← paraFitHor pf hor posX posY
  let (cv, _) ← paraFitVer pf ver posX posY
  calcError pf minimize ch cv

/-- `_calc_metric` — proc/processing.py:194-246. The table has the shape `(len(list_xshift), len(list_yshift))` but is
indexed `[i(y), j(x)]`; an index outside it raises `IndexError`. `argmin` of the flattened table, first occurrence;
entries never written stay `0`. -/
noncomputable def calcMetric (pf : PolyfitFn) (minimize : (ℝ → ℝ) → ℝ → ℝ) (hor ver : List (List Pt))
    (xcenter ycenter : ℝ) (xs ys : List ℝ) : Except PyErr (ℝ × ℝ) := do
  let (ch, hor) ← paraFitHor pf hor xcenter ycenter
  let (cv, ver) ← paraFitVer pf ver xcenter ycenter
  let ph ← npArgmin (ch.map fun q => |q.c|)
  let pv ← npArgmin (cv.map fun q => |q.c|)
  let numUse : ℤ := min 5 (min ((hor.length / 2 : ℕ) - 1) ((ver.length / 2 : ℕ) - 1))
  let (h1, h2) := window ph hor.length numUse
  let (v1, v2) := window pv ver.length numUse
  -- rows i < len(list_yshift), columns j < len(list_xshift) are written, in the order j, i
  let cols ← (List.range xs.length).mapM fun j => (List.range ys.length).mapM fun i => do
    let x ← npGet xs j
    let y ← npGet ys i
    let e ← metricEntry pf minimize (npSlice hor h1 h2) (npSlice ver v1 v2) x y
    if i < xs.length ∧ j < ys.length then .ok e else .error .indexError
  let table := (List.range xs.length).flatMap fun i => (List.range ys.length).map fun j =>
    ((cols.getD j []).getD i 0)
  let k ← npArgmin table
  let x ← npGet xs (k % ys.length)
  let y ← npGet ys (k / ys.length)
  .ok (x, y)

/-- `np.arange(start, stop, step)` for floats: `ceil((stop - start) / step)` values. -/
noncomputable def arange (start stop step : ℝ) : List ℝ :=
  (List.range ⌈(stop - start) / step⌉.toNat).map fun k : ℕ => start + (k : ℝ) * step

/-- `find_cod_fine` — proc/processing.py:249-291. -/
noncomputable def findCodFine (pf : PolyfitFn) (minimize : (ℝ → ℝ) → ℝ → ℝ) (hor ver : List (List Pt))
    (xcenter ycenter pointDist : ℝ) : Except PyErr Pt := do
  let l0 := arange (-pointDist) (pointDist + 2) 2
  let (xs, ys) ← calcMetric pf minimize hor ver xcenter ycenter l0 l0
  let xc1 := xcenter + xs
  let yc1 := ycenter + ys
  let l1 := arange (-2) (2 + 0.5) 0.5
  let (xs, ys) ← calcMetric pf minimize hor ver xc1 yc1 l1 l1
  .ok ⟨yc1 + ys, xc1 + xs⟩

/-- The line distances with their indices — proc/processing.py:312-315. -/
noncomputable def lineDistances (coefs : List Para) : List (ℝ × ℝ) :=
  ((npDiff (coefs.map Para.c)).map fun t => |t|).mapIdx fun k d => ((k : ℝ), d)

open Classical in
/-- One direction of `_check_missing_lines` — proc/processing.py:312-323: whether the largest relative deviation of the
line distances from their parabolic fit exceeds the threshold. `polyfit` of nothing raises `TypeError`. A `0/0` makes the
maximum `nan`, which exceeds nothing; otherwise a division by zero makes it infinite. -/
noncomputable def missingInDir (pf : PolyfitFn) (coefs : List Para) (threshold : ℝ) : Except PyErr Bool :=
  let dist := lineDistances coefs
  if dist = [] then .error .typeError
  else do
    let f ← Para.ofList (pf (dist.map Prod.fst) (dist.map Prod.snd) 2)
    let fit := fun t : ℝ => f.a * t ^ 2 + f.b * t + f.c
    if ∃ p ∈ dist, fit p.1 = 0 ∧ p.2 = 0 then .ok false
    else if ∃ p ∈ dist, fit p.1 = 0 then .ok true
    else .ok (decide (∃ p ∈ dist, |(p.2 - fit p.1) / fit p.1| > threshold))

/-- `_check_missing_lines` — proc/processing.py:294-326. -/
noncomputable def checkMissingLines (pf : PolyfitFn) (ch cv : List Para) (threshold : ℝ) : Except PyErr Bool := do
  let eh ← missingInDir pf ch threshold
  let ev ← missingInDir pf cv threshold
  .ok (eh || ev)

/-- `_func_opt` — proc/processing.py:329-336. -/
noncomputable def funcOpt (c0 : ℝ) (pos : ℕ) (inter : List ℝ) (d0 : ℝ) : ℝ :=
  (inter.mapIdx fun i c => (npSign c * |(i : ℝ) - pos| * d0 + c0 - c) ^ 2).sum

/-- One direction of `_calc_undistor_intercept` — proc/processing.py:385-411, after the fit. -/
noncomputable def undistorted (minimize : (ℝ → ℝ) → ℝ → ℝ) (inter : List ℝ) (numUse : ℤ) (optimizing : Bool) :
    Except PyErr (List ℝ) := do
  let pos ← npArgmin (inter.map fun c => |c|)
  let (p1, p2) := window pos inter.length numUse
  let d ← npMean ((npDiff (npSlice inter p1 p2)).map fun t => |t|)
  let c0 ← npGet inter pos
  let d := if optimizing then minimize (funcOpt c0 pos inter) d else d
  .ok (inter.mapIdx fun i c => npSign c * (|(i : ℝ) - pos| * d) + c0)

/-- `_calc_undistor_intercept` — proc/processing.py:349-411: the intercepts, and whether the missing-line warning was
issued (the check only warns). -/
noncomputable def calcUndistorIntercept (pf : PolyfitFn) (minimize : (ℝ → ℝ) → ℝ → ℝ) (hor ver : List (List Pt))
    (xcenter ycenter : ℝ) (optimizing : Bool) (threshold : ℝ) : Except PyErr (List ℝ × List ℝ × Bool) := do
  let (ch, _) ← paraFitHor pf hor xcenter ycenter
  let (cv, _) ← paraFitVer pf ver xcenter ycenter
  let warned ← checkMissingLines pf ch cv threshold
  let numUse : ℤ := min 3 (min ((hor.length / 2 : ℕ) - 1) ((ver.length / 2 : ℕ) - 1))
  let uh ← undistorted minimize (ch.map Para.c) numUse optimizing
  let uv ← undistorted minimize (cv.map Para.c) numUse optimizing
  .ok (uh, uv, warned)

/-- `np.int16(np.clip(num_fact, 1, None))` as a number of unknowns — proc/processing.py:442, 506, 577. -/
def numFactors (n : ℤ) : ℕ := (toInt16 (max n 1)).toNat

/-- One dot in `calc_coef_backward` — proc/processing.py:456-461 and 466-471; `t` is the coordinate along the line. For a
single unknown the exponent is `0`, and NumPy has `nan ** 0 = inf ** 0 = 1`. -/
noncomputable def backwardRow (n : ℕ) (q : Para) (uc : ℝ) (t : ℝ) (p : Pt) : Except PyErr (List ℝ × ℝ) := do
  let rd := √(p.x * p.x + p.y * p.y)
  let fb ← finDiv (q.a * t * t + q.c) uc
  if n ≤ 1 then .ok (powers 0 n, fb)
  else do
    let ru ← finDiv rd fb
    .ok (powers ru n, fb)

/-- One dot in `calc_coef_forward` — proc/processing.py:522-528 and 534-540. -/
noncomputable def forwardRow (n : ℕ) (q : Para) (uc : ℝ) (t : ℝ) (p : Pt) : Except PyErr (List (List ℝ × ℝ)) :=
  if uc ≠ 0 then do
    let rd := √(p.x * p.x + p.y * p.y)
    let fb ← finDiv uc (q.a * t * t + q.c)
    if fb ≠ 0 then .ok [(powers rd n, fb)] else .ok []
  else .ok []

/-- Rows of all dots of the lines of one direction; `along` picks the coordinate along the line. -/
noncomputable def rowsOf {ρ : Type} (row : Para → ℝ → ℝ → Pt → Except PyErr ρ) (along : Pt → ℝ) (coefs : List Para)
    (uc : List ℝ) (lines : List (List Pt)) : Except PyErr (List ρ) := do
  let r ← (List.zip (List.zip coefs uc) lines).mapM fun z => z.2.mapM fun p => row z.1.1 z.1.2 (along p) p
  .ok r.flatten

/-- `calc_coef_backward` — proc/processing.py:414-475: coefficients, and whether the missing-line warning was issued. -/
noncomputable def calcCoefBackward (pf : PolyfitFn) (lstsq : LstsqFn) (minimize : (ℝ → ℝ) → ℝ → ℝ)
    (hor ver : List (List Pt)) (xcenter ycenter : ℝ) (numFact : ℤ) (optimizing : Bool) (threshold : ℝ) :
    Except PyErr (List ℝ × Bool) := do
  let n := numFactors numFact
  let (uh, uv, warned) ← calcUndistorIntercept pf minimize hor ver xcenter ycenter optimizing threshold
  let (ch, hor) ← paraFitHor pf hor xcenter ycenter
  let (cv, ver) ← paraFitVer pf ver xcenter ycenter
  let r1 ← rowsOf (backwardRow n) Pt.x ch uh hor
  let r2 ← rowsOf (backwardRow n) Pt.y cv uv ver
  let c ← lstsqChecked lstsq (r1 ++ r2)
  .ok (c, warned)

/-- `calc_coef_forward` — proc/processing.py:478-543. -/
noncomputable def calcCoefForward (pf : PolyfitFn) (lstsq : LstsqFn) (minimize : (ℝ → ℝ) → ℝ → ℝ)
    (hor ver : List (List Pt)) (xcenter ycenter : ℝ) (numFact : ℤ) (optimizing : Bool) (threshold : ℝ) :
    Except PyErr (List ℝ × Bool) := do
  let n := numFactors numFact
  let (uh, uv, warned) ← calcUndistorIntercept pf minimize hor ver xcenter ycenter optimizing threshold
  let (ch, hor) ← paraFitHor pf hor xcenter ycenter
  let (cv, ver) ← paraFitVer pf ver xcenter ycenter
  let r1 ← rowsOf (forwardRow n) Pt.x ch uh hor
  let r2 ← rowsOf (forwardRow n) Pt.y cv uv ver
  let c ← lstsqChecked lstsq (r1.flatten ++ r2.flatten)
  .ok (c, warned)

/-- `calc_coef_backward_from_forward` — proc/processing.py:546-612: forward and backward coefficients. -/
noncomputable def calcCoefBackwardFromForward (pf : PolyfitFn) (lstsq : LstsqFn) (minimize : (ℝ → ℝ) → ℝ → ℝ)
    (hor ver : List (List Pt)) (xcenter ycenter : ℝ) (numFact : ℤ) (optimizing : Bool) (threshold : ℝ) :
    Except PyErr (List ℝ × List ℝ × Bool) := do
  let (ff, warned) ← calcCoefForward pf lstsq minimize hor ver xcenter ycenter numFact optimizing threshold
  let (_, hor) ← paraFitHor pf hor xcenter ycenter
  let (_, ver) ← paraFitVer pf ver xcenter ycenter
  let bf ← lstsqChecked lstsq (hor.flatten.filterMap (inverseRow ff) ++ ver.flatten.filterMap (inverseRow ff))
  .ok (ff, bf, warned)

/-- `update_center` — proc/processing.py:1273-1296. -/
def updateCenter (lines : List (List Pt)) (xcenter ycenter : ℝ) : List (List Pt) :=
  lines.map fun line => line.map fun p => ⟨p.y + ycenter, p.x + xcenter⟩

/-- One Bailey step — proc/processing.py:700-706 and 708-713: the corrected centre. -/
noncomputable def baileyStep (pf : PolyfitFn) (hor ver : List (List Pt)) (c : Pt) : Except PyErr Pt := do
  let (ch, _) ← paraFitHor pf hor c.x c.y
  let (cv, _) ← paraFitVer pf ver c.x c.y
  if ch = [] ∨ cv = [] then .error .typeError
  else do
    let l1 ← Lin.ofList (pf (ch.map Para.c) (ch.map Para.a) 1)
    let l2 ← Lin.ofList (pf (cv.map Para.c) (cv.map Para.a) 1)
    let dx ← finDiv l2.b l2.a
    let dy ← finDiv l1.b l1.a
    .ok ⟨c.y - dy, c.x - dx⟩

/-- `find_cod_bailey` — proc/processing.py:677-713: one step plus `iteration` steps. -/
noncomputable def findCodBailey (pf : PolyfitFn) (hor ver : List (List Pt)) (iteration : ℕ) : Except PyErr Pt := do
  let c ← findCodCoarse pf hor ver
  let c ← baileyStep pf hor ver c
  (List.range iteration).foldlM (fun c _ => baileyStep pf hor ver c) c

end Discorpy
