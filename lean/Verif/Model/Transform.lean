import Verif.Model.Post

/-!
# Model of `transform_coef_backward_and_forward` (`discorpy/proc/processing.py`)
-/

namespace Discorpy

/-- `np.power(r, np.arange(n))`. -/
noncomputable def powers (r : ℝ) (n : ℕ) : List ℝ := (List.range n).map fun i => r ^ i

/-- `np.linalg.lstsq(np.asarray(A), np.asarray(b), rcond=1e-64)[0]`; an empty list becomes a 1D array, for which
NumPy raises `LinAlgError`. -/
noncomputable def lstsqChecked (lstsq : List (List ℝ) → List ℝ → List ℝ) (rows : List (List ℝ × ℝ)) :
    Except PyErr (List ℝ) :=
  if rows = [] then .error .linAlgError
  else .ok (lstsq (rows.map Prod.fst) (rows.map Prod.snd))

/-- One pass of the loop over reference points — proc/processing.py:649-658 (and the identical 661-670, 589-597,
600-608): the row `(ru⁰, ru¹, …)`, right-hand side `1/F`, skipped when `F = 0`. -/
noncomputable def inverseRow (fact : List ℝ) (p : Pt) : Option (List ℝ × ℝ) :=
  let rd := √(p.x * p.x + p.y * p.y)
  let factor := polySum fact rd
  if factor ≠ 0 then
    let fb := 1 / factor
    let ru := factor * rd
    some (powers ru fact.length, fb)
  else none

/-- The default reference points — proc/processing.py:637-638. -/
noncomputable def defaultRefPoints : List Pt :=
  (List.range 40).flatMap fun i : ℕ => (List.range 40).map fun j : ℕ =>
    { y := -1000 + 50 * (i : ℝ), x := -1000 + 50 * (j : ℝ) }

/-- `transform_coef_backward_and_forward` — proc/processing.py:615-674. -/
noncomputable def transformCoef (lstsq : List (List ℝ) → List ℝ → List ℝ) (fact : List ℝ)
    (mapping : String) (refPoints : Option (List Pt)) : Except PyErr (List ℝ) := do
  let pts ← match refPoints with
    | none => .ok defaultRefPoints
    | some pts => if pts.length < fact.length then .error .valueError else .ok pts
  if mapping = "forward" then
    lstsqChecked lstsq (pts.filterMap (inverseRow fact))
  else
    lstsqChecked lstsq (pts.filterMap (inverseRow fact))

end Discorpy
