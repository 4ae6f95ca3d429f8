import Verif.Model.Proc

/-!
# Model of `discorpy/proc/processing.py`, grids from parabolas

`fsolve f x0` is `optimize.fsolve(f, x0)`; it never raises, and gives a root only if it converges.
-/

namespace Discorpy

/-- `_generate_non_perspective_parabola_coef`, the common slope — proc/processing.py:744-749. -/
noncomputable def paraSlope (pf : PolyfitFn) (ch cv : List Para) : Except PyErr ℝ :=
  if ch = [] ∨ cv = [] then .error .typeError
  else do
    let l1 ← Lin.ofList (pf (ch.map Para.c) (ch.map Para.b) 1)
    let l2 ← Lin.ofList (pf (cv.map Para.c) (cv.map fun q => -q.b) 1)
    if |l1.a - l2.a| ≥ 0.001 then .ok ((l1.a * l2.b - l2.a * l1.b) / (l1.a - l2.a))
    else .ok ((l1.b + l2.b) * 0.5)

/-- The mean distance of the lines around the change of curvature — proc/processing.py:752-760. -/
noncomputable def centralDist (coefs : List Para) (numUse : ℤ) : Except PyErr ℝ := do
  let pos ← signChange coefs
  let (p1, p2) := window pos coefs.length numUse
  npMean ((npDiff ((npSlice coefs p1 p2).map Para.c)).map fun t => |t|)

/-- `coef[:, [2, 0]] * num / den` — proc/processing.py:762-763 and 765-766; a division by zero is non-finite. -/
noncomputable def rescalePara (num den : ℝ) (coefs : List Para) : Except PyErr (List Para) :=
  coefs.mapM fun q => do
    let c ← finDiv (q.c * num) den
    let a ← finDiv (q.a * num) den
    .ok ⟨a, q.b, c⟩

open Classical in
/-- The comparison of the two distances — proc/processing.py:761-766. -/
noncomputable def balancePara (ch cv : List Para) (dh dv : ℝ) : Except PyErr (List Para × List Para) :=
  if dh > dv then do
    let cv ← rescalePara dh dv cv
    .ok (ch, cv)
  else do
    let ch ← rescalePara dv dh ch
    .ok (ch, cv)

/-- `_generate_non_perspective_parabola_coef` — proc/processing.py:716-767: coefficients and the centre. -/
noncomputable def nonPerspectiveParaCoef (pf : PolyfitFn) (hor ver : List (List Pt)) :
    Except PyErr (List Para × List Para × Pt) := do
  let c ← findCodBailey pf hor ver 2
  let (ch, _) ← paraFitHor pf hor c.x c.y
  let (cv, _) ← paraFitVer pf ver c.x c.y
  let b0 ← paraSlope pf ch cv
  let ch := ch.map fun q => (⟨q.a, b0, q.c⟩ : Para)
  let cv := cv.map fun q => (⟨q.a, -b0, q.c⟩ : Para)
  let numUse : ℤ := min 3 (min ((hor.length / 2 : ℕ) - 1) ((ver.length / 2 : ℕ) - 1))
  let dh ← centralDist ch numUse
  let dv ← centralDist cv numUse
  let (ch, cv) ← balancePara ch cv dh dv
  .ok (ch, cv, c)

/-- The equations solved by `_find_cross_point_between_parabolas` — proc/processing.py:789-791, as a function of `(x, y)`. -/
noncomputable def crossEquations (h v : Para) (t : ℝ × ℝ) : ℝ × ℝ :=
  (h.a * t.1 ^ 2 + h.b * t.1 + h.c - t.2, v.a * t.2 ^ 2 + v.b * t.2 + v.c - t.1)

/-- `_find_cross_point_between_parabolas` — proc/processing.py:770-794, as `(x, y)`. -/
noncomputable def crossParabolas (fsolve : (ℝ × ℝ → ℝ × ℝ) → ℝ × ℝ → ℝ × ℝ) (h v : Para) : ℝ × ℝ :=
  fsolve (crossEquations h v) (0, 0)

/-- One grid point — proc/processing.py:838-843. -/
noncomputable def paraGridPoint (fsolve : (ℝ × ℝ → ℝ × ℝ) → ℝ × ℝ → ℝ × ℝ) (c : Pt) (h v : Para) : Pt :=
  let t := crossParabolas fsolve h v
  ⟨t.2 + c.y, t.1 + c.x⟩

/-- The centre used without perspective correction — proc/processing.py:829-832. -/
noncomputable def paraGridCentre (pf : PolyfitFn) (hor ver : List (List Pt)) (findCenter : Bool) : Except PyErr Pt :=
  if findCenter then findCodBailey pf hor ver 2 else .ok ⟨0, 0⟩

/-- The coefficients and centre used by `regenerate_grid_points_parabola` — proc/processing.py:824-833. -/
noncomputable def paraGridCoefs (pf : PolyfitFn) (hor ver : List (List Pt)) (perspective findCenter : Bool) :
    Except PyErr (List Para × List Para × Pt) :=
  if perspective then nonPerspectiveParaCoef pf hor ver
  else do
    let c ← paraGridCentre pf hor ver findCenter
    let (ch, _) ← paraFitHor pf hor c.x c.y
    let (cv, _) ← paraFitVer pf ver c.x c.y
    .ok (ch, cv, c)

/-- `regenerate_grid_points_parabola` — proc/processing.py:797-844. -/
noncomputable def regenerateGridParabola (pf : PolyfitFn) (fsolve : (ℝ × ℝ → ℝ × ℝ) → ℝ × ℝ → ℝ × ℝ)
    (hor ver : List (List Pt)) (perspective findCenter : Bool) : Except PyErr (List (List Pt) × List (List Pt)) := do
  let (ch, cv, c) ← paraGridCoefs pf hor ver perspective findCenter
  .ok (ch.map fun h => cv.map fun v => paraGridPoint fsolve c h v,
    cv.map fun v => ch.map fun h => paraGridPoint fsolve c h v)

end Discorpy
