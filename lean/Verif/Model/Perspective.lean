import Verif.Model.Proc
import Mathlib.Analysis.SpecialFunctions.Trigonometric.Arctan

/-!
# Model of `discorpy/proc/processing.py`, perspective part
-/

namespace Discorpy

/-- `np.polyfit(x - xcenter, y - ycenter, 1)` of a horizontal line — proc/processing.py:874-875. -/
noncomputable def linHor (pf : PolyfitFn) (xcenter ycenter : ℝ) (line : List Pt) : Except PyErr Lin :=
  if line = [] then .error .indexError
  else Lin.ofList (pf (line.map fun p => p.x - xcenter) (line.map fun p => p.y - ycenter) 1)

/-- `np.polyfit(y - ycenter, x - xcenter, 1)` of a vertical line — proc/processing.py:877-878. -/
noncomputable def linVer (pf : PolyfitFn) (xcenter ycenter : ℝ) (line : List Pt) : Except PyErr Lin :=
  if line = [] then .error .indexError
  else Lin.ofList (pf (line.map fun p => p.y - ycenter) (line.map fun p => p.x - xcenter) 1)

/-- `_generate_linear_coef` — proc/processing.py:847-879. -/
noncomputable def generateLinearCoef (pf : PolyfitFn) (hor ver : List (List Pt)) (xcenter ycenter : ℝ) :
    Except PyErr (List Lin × List Lin) := do
  let ch ← hor.mapM (linHor pf xcenter ycenter)
  let cv ← ver.mapM (linVer pf xcenter ycenter)
  .ok (ch, cv)

/-- `_find_cross_point_between_lines` — proc/processing.py:882-902; division by zero (parallel lines) is non-finite. -/
noncomputable def crossPoint (h v : Lin) : Except PyErr Pt := do
  let y ← finDiv (h.a * v.b + h.b) (1 - h.a * v.a)
  .ok ⟨y, v.a * y + v.b⟩

/-- The double loop building the grid — proc/processing.py:1033-1041 and 1089-1096: row `i` of the first result is the
horizontal line `i`, row `j` of the second one is the vertical line `j`. -/
noncomputable def gridPoints (ch cv : List Lin) : Except PyErr (List (List Pt) × List (List Pt)) := do
  let rows ← ch.mapM fun h => cv.mapM fun v => crossPoint h v
  let cols ← cv.mapM fun v => ch.mapM fun h => crossPoint h v
  .ok (rows, cols)

/-- `regenerate_grid_points_linear(..., is_coef=False)` — proc/processing.py:1001-1041. -/
noncomputable def regenerateGridLinear (pf : PolyfitFn) (hor ver : List (List Pt)) :
    Except PyErr (List (List Pt) × List (List Pt)) := do
  let (ch, cv) ← generateLinearCoef pf hor ver 0 0
  gridPoints ch cv

/-- `regenerate_grid_points_linear(..., is_coef=True)` — proc/processing.py:1031-1041. -/
noncomputable def regenerateGridLinearCoef (ch cv : List Lin) : Except PyErr (List (List Pt) × List (List Pt)) :=
  gridPoints ch cv

/-- The `scale` argument. -/
inductive ScaleOpt
  | max | min | median | mean | float (s : ℝ)

/-- `_func_opt_pers` — proc/processing.py:905-912. -/
noncomputable def funcOptPers (c0 : ℝ) (pos : ℕ) (inter : List ℝ) (d0 : ℝ) : ℝ :=
  (inter.mapIdx fun i c => (((i : ℝ) - pos) * d0 + c0 - c) ^ 2).sum

/-- Line distance by `scale` — proc/processing.py:964-979. -/
noncomputable def lineDist (scale : ScaleOpt) (inter : List ℝ) : Except PyErr ℝ :=
  let d := (npDiff inter).map fun t => |t|
  match scale with
  | .max => npMax d
  | .min => npMin d
  | .median => npMedian d
  | .mean => npMean d
  | .float s => do
    let m ← npMean d
    .ok (s * m)

/-- `_optimize_intercept_perspective` — proc/processing.py:915-923. -/
noncomputable def optimizeInterceptPers (minimize : (ℝ → ℝ) → ℝ → ℝ) (d : ℝ) (pos : ℕ) (inter : List ℝ) :
    Except PyErr ℝ := do
  let c0 ← npGet inter pos
  .ok (minimize (funcOptPers c0 pos inter) d)

/-- The optional optimisation — proc/processing.py:980-984. -/
noncomputable def optDistPers (minimize : (ℝ → ℝ) → ℝ → ℝ) (optimizing : Bool) (d : ℝ) (pos : ℕ) (inter : List ℝ) :
    Except PyErr ℝ :=
  if optimizing then optimizeInterceptPers minimize d pos inter else .ok d

/-- Combination of the two distances — proc/processing.py:986-993. -/
noncomputable def combineDist (scale : ScaleOpt) (equalDist : Bool) (dh dv : ℝ) : ℝ × ℝ :=
  if equalDist then
    let d := match scale with
      | .max => Max.max dh dv
      | .min => Min.min dh dv
      | _ => (dh + dv) * 0.5
    (d, d)
  else (dh, dv)

/-- The intercepts of one direction — proc/processing.py:994-999. -/
noncomputable def interceptsPers (inter : List ℝ) (pos : ℕ) (d : ℝ) : Except PyErr (List ℝ) :=
  (List.range inter.length).mapM fun i : ℕ => do
    let c0 ← npGet inter pos
    .ok (((i : ℝ) - (pos : ℝ)) * d + c0)

/-- `_calc_undistor_intercept_perspective` — proc/processing.py:926-998. -/
noncomputable def calcUndistorInterceptPers (pf : PolyfitFn) (minimize : (ℝ → ℝ) → ℝ → ℝ) (hor ver : List (List Pt))
    (equalDist : Bool) (scale : ScaleOpt) (optimizing : Bool) : Except PyErr (List ℝ × List ℝ) := do
  let (ch, cv) ← generateLinearCoef pf hor ver 0 0
  let bh := ch.map Lin.b
  let bv := cv.map Lin.b
  let ph := hor.length / 2
  let pv := ver.length / 2
  let numUse : ℤ := Min.min (Max.max (((hor.length / 2 : ℕ) : ℤ) - 1) 1) (Max.max (((ver.length / 2 : ℕ) : ℤ) - 1) 1)
  let (h1, h2) := window ph hor.length numUse
  let (v1, v2) := window pv ver.length numUse
  let dh ← lineDist scale (npSlice bh h1 h2)
  let dv ← lineDist scale (npSlice bv v1 v2)
  let dh ← optDistPers minimize optimizing dh ph bh
  let dv ← optDistPers minimize optimizing dv pv bv
  let (dh, dv) := combineDist scale equalDist dh dv
  let uh ← interceptsPers bh ph dh
  let uv ← interceptsPers bv pv dv
  .ok (uh, uv)

/-- The common slope — proc/processing.py:1074-1079. -/
noncomputable def commonSlope (pf : PolyfitFn) (ch cv : List Lin) : Except PyErr ℝ :=
  if ch = [] ∨ cv = [] then .error .typeError
  else do
    let l1 ← Lin.ofList (pf (ch.map Lin.b) (ch.map Lin.a) 1)
    let l2 ← Lin.ofList (pf (cv.map Lin.b) (cv.map fun q => -q.a) 1)
    if |l1.a - l2.a| ≥ 0.0001 then .ok ((l1.a * l2.b - l2.a * l1.b) / (l1.a - l2.a))
    else .ok ((l1.b + l2.b) * 0.5)

/-- `generate_undistorted_perspective_lines` — proc/processing.py:1044-1097. -/
noncomputable def generateUndistortedPerspectiveLines (pf : PolyfitFn) (minimize : (ℝ → ℝ) → ℝ → ℝ)
    (hor ver : List (List Pt)) (equalDist : Bool) (scale : ScaleOpt) (optimizing : Bool) :
    Except PyErr (List (List Pt) × List (List Pt)) := do
  let (ch, cv) ← generateLinearCoef pf hor ver 0 0
  let a0 ← commonSlope pf ch cv
  let (uh, uv) ← calcUndistorInterceptPers pf minimize hor ver equalDist scale optimizing
  gridPoints (uh.map fun b => ⟨a0, b⟩) (uv.map fun b => ⟨-a0, b⟩)

/-- `generate_source_target_perspective_points` — proc/processing.py:1100-1136. -/
noncomputable def generateSourceTarget (pf : PolyfitFn) (minimize : (ℝ → ℝ) → ℝ → ℝ)
    (hor ver : List (List Pt)) (equalDist : Bool) (scale : ScaleOpt) (optimizing : Bool) :
    Except PyErr (List Pt × List Pt) := do
  let (hs, vs) ← regenerateGridLinear pf hor ver
  let (ht, _) ← generateUndistortedPerspectiveLines pf minimize hs vs equalDist scale optimizing
  .ok (hs.flatten, ht.flatten)

/-- Euclidean distance — proc/processing.py:1190-1193. -/
noncomputable def dist2 (p q : Pt) : ℝ := √((p.x - q.x) ^ 2 + (p.y - q.y) ^ 2)

/-- The two side lengths — proc/processing.py:1194-1212; `median` falls through to the mean. -/
noncomputable def sideLengths (scale : ScaleOpt) (equalDist : Bool) (d12 d13 d24 d34 : ℝ) : ℝ × ℝ :=
  match scale with
  | .max =>
    let h := Max.max d12 d34
    let v := Max.max d13 d24
    if equalDist then (Max.max v h, Max.max v h) else (h, v)
  | .min =>
    let h := Min.min d12 d34
    let v := Min.min d13 d24
    if equalDist then (Min.min v h, Min.min v h) else (h, v)
  | s =>
    let h := (d12 + d34) * 0.5
    let v := (d13 + d24) * 0.5
    let (h, v) := match s with
      | .float k => (h * k, v * k)
      | _ => (h, v)
    if equalDist then ((v + h) * 0.5, (v + h) * 0.5) else (h, v)

/-- The four target corners — proc/processing.py:1213-1224, given the slope, middle intercepts and side lengths. -/
noncomputable def rectCorners (a0 bh bv distH distV : ℝ) : Pt × Pt × Pt × Pt :=
  let dh := distH * 0.5
  let dv := distV * 0.5
  let b1 := bh - |dv / Real.cos (Real.arctan a0)|
  let b2 := bh + |dv / Real.cos (Real.arctan a0)|
  let b3 := bv - |dh / Real.cos (Real.arctan a0)|
  let b4 := bv + |dh / Real.cos (Real.arctan a0)|
  let y1 := (a0 * b3 + b1) / (1 + a0 ^ 2)
  let y2 := (a0 * b4 + b1) / (1 + a0 ^ 2)
  let y3 := (a0 * b3 + b2) / (1 + a0 ^ 2)
  let y4 := (a0 * b4 + b2) / (1 + a0 ^ 2)
  (⟨y1, -a0 * y1 + b3⟩, ⟨y2, -a0 * y2 + b4⟩, ⟨y3, -a0 * y3 + b3⟩, ⟨y4, -a0 * y4 + b4⟩)

/-- `generate_4_source_target_perspective_points` — proc/processing.py:1139-1225. `points` are given in the stated
input order; `xy = true` is `input_order="xy"`, where `fliplr` exchanges the coordinates. -/
noncomputable def generate4SourceTarget (argsort : List ℝ → List ℕ) (points : List Pt) (xy : Bool) (equalDist : Bool)
    (scale : ScaleOpt) : Except PyErr (List Pt × List Pt) :=
  let points := if xy then points.map fun p => (⟨p.x, p.y⟩ : Pt) else points
  if points.length ≠ 4 then .error .valueError
  else
    let sorted := fancyIndex points (argsort (points.map Pt.y))
    let p12 := sorted.take 2
    let p12 := fancyIndex p12 (argsort (p12.map Pt.x))
    let p34 := sorted.drop 2
    let p34 := fancyIndex p34 (argsort (p34.map Pt.x))
    match p12, p34 with
    | [p1, p2], [p3, p4] => do
      let a12 ← finDiv (p1.y - p2.y) (p1.x - p2.x)
      let b12 := p1.y - a12 * p1.x
      let a34 ← finDiv (p3.y - p4.y) (p3.x - p4.x)
      let b34 := p3.y - a34 * p3.x
      let ah := (a12 + a34) * 0.5
      let bh := (b12 + b34) * 0.5
      let a13 ← finDiv (p1.x - p3.x) (p1.y - p3.y)
      let b13 := p1.x - a13 * p1.y
      let a24 ← finDiv (p2.x - p4.x) (p2.y - p4.y)
      let b24 := p2.x - a24 * p2.y
      let av := (a13 + a24) * 0.5
      let bv := (b13 + b24) * 0.5
      let a0 := npSign ah * (|ah| + |av|) * 0.5
      let (dh, dv) := sideLengths scale equalDist (dist2 p1 p2) (dist2 p1 p3) (dist2 p2 p4) (dist2 p3 p4)
      let (q1, q2, q3, q4) := rectCorners a0 bh bv dh dv
      .ok ([p1, p2, p3, p4], [q1, q2, q3, q4])
    | _, _ => .error .valueError

/-- The two rows of one correspondence — proc/processing.py:1262-1267, in `(x, y)` order. -/
noncomputable def perspectiveRows (s t : Pt) : List (List ℝ) :=
  [[s.x, s.y, 1, 0, 0, 0, -t.x * s.x, -t.x * s.y], [0, 0, 0, s.x, s.y, 1, -t.y * s.x, -t.y * s.y]]

/-- The right-hand side: the flattened `(x, y)` coordinates of the targets — proc/processing.py:1269-1270. -/
noncomputable def perspectiveRhs (ts : List Pt) : List ℝ := ts.flatMap fun t => [t.x, t.y]

/-- `calc_perspective_coefficients` — proc/processing.py:1228-1270. `np.fliplr` of an empty list raises `ValueError`;
`zip` stops at the shorter list while the right-hand side does not, then `lstsq` raises `LinAlgError`. -/
noncomputable def calcPerspectiveCoefs (lstsq : LstsqFn) (source target : List Pt) (mapping : String) :
    Except PyErr (List ℝ) :=
  let (s, t) := if mapping = "forward" then (source, target) else (target, source)
  if s = [] ∨ t = [] then .error .valueError
  else
    let A := (List.zip s t).flatMap fun p => perspectiveRows p.1 p.2
    let b := perspectiveRhs t
    if A.length ≠ b.length then .error .linAlgError
    else .ok (lstsq A b)

end Discorpy
