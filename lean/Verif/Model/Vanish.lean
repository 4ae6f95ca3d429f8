import Verif.Model.Perspective

/-!
# Model of `discorpy/proc/processing.py`, perspective effect and vanishing points

`roots a b c` is `np.roots([a, b, c])`, `none` standing for a complex result.
-/

namespace Discorpy

/-- Type of `np.roots([a, b, c])`; `none` is a complex array. -/
abbrev RootsFn := ℝ → ℝ → ℝ → Option (List ℝ)

/-- Contract of `np.roots` for at most quadratic polynomials: leading zeros are stripped, the roots of a quadratic come in
any order, and a constant has no root. -/
structure RootsSpec (roots : RootsFn) : Prop where
  real : ∀ a b c, a ≠ 0 → 0 ≤ b ^ 2 - 4 * a * c →
    ∃ r s, roots a b c = some [r, s] ∧ ∀ t, a * t ^ 2 + b * t + c = a * (t - r) * (t - s)
  complex : ∀ a b c, a ≠ 0 → b ^ 2 - 4 * a * c < 0 → roots a b c = none
  linear : ∀ b c, b ≠ 0 → roots 0 b c = some [-c / b]
  const : ∀ c, roots 0 0 c = some []

/-- The `method` argument; every other string means the mean. -/
inductive RepMethod
  | median | max | min | mean

open Classical in
/-- The line chosen by the methods `max` and `min` from the curvatures in increasing order — proc/processing.py:1313-1333; `IndexError` when there is no line. -/
noncomputable def extremeLine (largest : Bool) (sorted : List Para) : Except PyErr Lin :=
  match sorted.head?, sorted.getLast? with
  | some first, some last =>
    if first.a > 0 then .ok (if largest then ⟨last.b, last.c⟩ else ⟨first.b, first.c⟩)
    else .ok (if largest then ⟨first.b, first.c⟩ else ⟨last.b, last.c⟩)
  | _, _ => .error .indexError

/-- `__get_representative_linear_coefs` of the selected parabolas — proc/processing.py:1299-1337. -/
noncomputable def representativeLine (argsort : List ℝ → List ℕ) (method : RepMethod) (group : List Para) :
    Except PyErr Lin :=
  match method with
  | .median => do
    let b ← npMedian (group.map Para.b)
    let c ← npMedian (group.map Para.c)
    .ok ⟨b, c⟩
  | .max => extremeLine true (fancyIndex group (argsort (group.map Para.a)))
  | .min => extremeLine false (fancyIndex group (argsort (group.map Para.a)))
  | .mean => do
    let b ← npMean (group.map Para.b)
    let c ← npMean (group.map Para.c)
    .ok ⟨b, c⟩

open Classical in
/-- The parabolas `np.where(coef[:, 0] > 0)` — proc/processing.py:1378, 1390, 1471, 1504. -/
noncomputable def opensUp (coefs : List Para) : List Para := coefs.filter fun q => decide (q.a > 0)

open Classical in
/-- The parabolas `np.where(coef[:, 0] < 0)` — proc/processing.py:1384, 1396, 1481, 1513. -/
noncomputable def opensDown (coefs : List Para) : List Para := coefs.filter fun q => decide (q.a < 0)

/-- The four cross points of the representative lines — proc/processing.py:1378-1406. The tests `len(indices) > 0` are
always true, since `np.where` returns a tuple. -/
noncomputable def representativePoints (argsort : List ℝ → List ℕ) (method : RepMethod) (ch cv : List Para) :
    Except PyErr (List Pt) := do
  let h1 ← representativeLine argsort method (opensUp ch)
  let h2 ← representativeLine argsort method (opensDown ch)
  let v1 ← representativeLine argsort method (opensUp cv)
  let v2 ← representativeLine argsort method (opensDown cv)
  let p1 ← crossPoint h1 v1
  let p2 ← crossPoint h1 v2
  let p3 ← crossPoint h2 v1
  let p4 ← crossPoint h2 v2
  .ok [p1, p2, p3, p4]

/-- `correct_perspective_effect` — proc/processing.py:1340-1418. -/
noncomputable def correctPerspectiveEffect (pf : PolyfitFn) (lstsq : LstsqFn) (argsort : List ℝ → List ℕ)
    (hor ver : List (List Pt)) (xcenter ycenter : ℝ) (method : RepMethod) (scale : ScaleOpt) :
    Except PyErr (List (List Pt) × List (List Pt)) := do
  let (ch, hor) ← paraFitHor pf hor xcenter ycenter
  let (cv, ver) ← paraFitVer pf ver xcenter ycenter
  if ch.length < 2 then .error .valueError
  else if cv.length < 2 then .error .valueError
  else do
    let pts ← representativePoints argsort method ch cv
    let (source, target) ← generate4SourceTarget argsort pts false false scale
    let coef ← calcPerspectiveCoefs lstsq source target "forward"
    let hor ← correctPerspectiveLine hor coef
    let ver ← correctPerspectiveLine ver coef
    .ok (updateCenter hor xcenter ycenter, updateCenter ver xcenter ycenter)

/-- The two cross points of two parabolas of the same direction as (along, across) pairs, none when they do not meet —
proc/processing.py:1421-1445 with 1493-1501; unpacking anything but two roots raises `ValueError`. -/
noncomputable def crossSame (roots : RootsFn) (q1 q2 : Para) : Except PyErr (List (ℝ × ℝ)) :=
  match roots (q1.a - q2.a) (q1.b - q2.b) (q1.c - q2.c) with
  | none => .ok []
  | some [t1, t2] => .ok [(t1, q1.a * t1 ^ 2 + q1.b * t1 + q1.c), (t2, q2.a * t2 ^ 2 + q2.b * t2 + q2.c)]
  | some _ => .error .valueError

/-- Parabolas in the order of increasing curvature — proc/processing.py:1476-1479. -/
noncomputable def sortByCurvature (argsort : List ℝ → List ℕ) (coefs : List Para) : List Para :=
  fancyIndex coefs (argsort (coefs.map fun q => |q.a|))

/-- Cross points of parabolas of opposite curvature, paired by increasing curvature — proc/processing.py:1491-1501 and
1521-1531. -/
noncomputable def oppositeCrossings (roots : RootsFn) (argsort : List ℝ → List ℕ) (coefs : List Para) :
    Except PyErr (List (ℝ × ℝ)) := do
  let up := sortByCurvature argsort (opensUp coefs)
  let down := sortByCurvature argsort (opensDown coefs)
  let r ← (List.zip up down).mapM fun z => crossSame roots z.1 z.2
  .ok r.flatten

/-- Cross points of all parabolas with the first one of smallest curvature — proc/processing.py:1570-1581, 1584-1595. -/
noncomputable def flattestCrossings (roots : RootsFn) (coefs : List Para) : Except PyErr (List (ℝ × ℝ)) := do
  let pos ← npArgmin (coefs.map fun q => |q.a|)
  let q0 ← npGet coefs pos
  let r ← (coefs.eraseIdx pos).mapM fun q => crossSame roots q q0
  .ok r.flatten

/-- The cross point of the lines fitted to the vanishing points — proc/processing.py:1535-1538 and 1599-1602. -/
noncomputable def vanishingCentre (pf : PolyfitFn) (hpts vpts : List (ℝ × ℝ)) : Except PyErr Pt := do
  let l1 ← Lin.ofList (pf (hpts.map Prod.fst) (hpts.map Prod.snd) 1)
  let l2 ← Lin.ofList (pf (vpts.map Prod.fst) (vpts.map Prod.snd) 1)
  let y ← finDiv (l1.a * l2.b + l1.b) (1 - l1.a * l2.a)
  .ok ⟨y, l2.a * y + l2.b⟩

/-- The search with a given way of crossing the parabolas, falling back to Bailey's approach when there are at most two
vanishing points in a direction — proc/processing.py:1502-1543 and 1582-1607. -/
noncomputable def vanishingSearch (cross : List Para → Except PyErr (List (ℝ × ℝ))) (pf : PolyfitFn)
    (hor ver : List (List Pt)) : Except PyErr Pt := do
  let (ch, hor) ← paraFitHor pf hor 0 0
  let (cv, ver) ← paraFitVer pf ver 0 0
  let hpts ← cross ch
  if hpts.length > 2 then do
    let vpts ← cross cv
    if vpts.length > 2 then vanishingCentre pf hpts vpts
    else findCodBailey pf hor ver 2
  else findCodBailey pf hor ver 2

/-- `find_center_based_vanishing_points` — proc/processing.py:1448-1543. -/
noncomputable def findCentreVanishing (pf : PolyfitFn) (roots : RootsFn) (argsort : List ℝ → List ℕ)
    (hor ver : List (List Pt)) : Except PyErr Pt :=
  vanishingSearch (oppositeCrossings roots argsort) pf hor ver

/-- `_find_center_based_vanishing_points_2nd_way` — proc/processing.py:1546-1607. -/
noncomputable def findCentreVanishing2 (pf : PolyfitFn) (roots : RootsFn) (hor ver : List (List Pt)) : Except PyErr Pt :=
  vanishingSearch (flattestCrossings roots) pf hor ver

/-- One round of the iteration — proc/processing.py:1640-1650; the lines are always the input lines. -/
noncomputable def vanishingRound (pf : PolyfitFn) (lstsq : LstsqFn) (roots : RootsFn) (argsort : List ℝ → List ℕ)
    (hor ver : List (List Pt)) (method : RepMethod) (c : Pt) : Except PyErr Pt := do
  let (h1, v1) ← correctPerspectiveEffect pf lstsq argsort hor ver c.x c.y method .mean
  let (_, h1) ← paraFitHor pf h1 c.x c.y
  let (_, v1) ← paraFitVer pf v1 c.x c.y
  let d ← findCentreVanishing2 pf roots h1 v1
  .ok ⟨c.y + d.y, c.x + d.x⟩

/-- `find_center_based_vanishing_points_iteration` — proc/processing.py:1610-1651. -/
noncomputable def findCentreVanishingIter (pf : PolyfitFn) (lstsq : LstsqFn) (roots : RootsFn)
    (argsort : List ℝ → List ℕ) (hor ver : List (List Pt)) (iteration : ℕ) (method : RepMethod) : Except PyErr Pt := do
  let c ← findCentreVanishing2 pf roots hor ver
  (List.range iteration).foldlM (fun c _ => vanishingRound pf lstsq roots argsort hor ver method c) c

end Discorpy
