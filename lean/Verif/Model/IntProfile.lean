import Verif.Model.LinePattern

/-!
# Model of `discorpy/prep/linepattern.py`, profiles with integer samples

Profiles of a signed or unsigned integer dtype (`uint64` excepted: numpy promotes it to float), without overflow of the dtype and without
`select_peaks`.
-/

namespace Discorpy

open Classical in
/-- Background normalisation of integer samples — prep/linepattern.py:235-253. The array `mat_comb` made of the positions and the
samples (line 236) has an integer dtype, so the fitted line is truncated when it is written to `list_sort` (lines 244-245). The quotient
(lines 249-251) is a float: `nmean * np.ones_like(list_data)` has the dtype of `nmean`. -/
noncomputable def normBackgroundInt (E : Ext) (l : List ℤ) : Except PyErr (List ℝ) :=
  let n := l.length
  let xs := (List.range n).map fun i : ℕ => (i : ℝ)
  let order := E.argsort (l.map fun v : ℤ => (v : ℝ))
  let sorted := fancyIndex l order
  let ndrop : ℕ := ⌊(0.25 : ℝ) * n⌋₊
  let fx := npSlice xs ndrop (n - ndrop - 1)
  let fy := npSlice (sorted.map fun v : ℤ => (v : ℝ)) ndrop (n - ndrop - 1)
  if fx = [] then .error .typeError
  else if ∀ x ∈ fx, x = 0 then .error .linAlgError
  else
    match E.pf fx fy 1 with
    | [a1, a0] => do
      let fit := xs.map fun x => a1 * x + a0
      let lo := a0
      let hi := a1 * ((n : ℝ) - 1) + a0
      let sorted' := List.zipWith (fun s f => if f ≥ lo ∧ f ≤ hi then truncInt f else s) sorted fit
      let nmean ← npMean (fit.map abs)
      let backgr := fancyIndex sorted' (E.argsort (order.map fun i : ℕ => (i : ℝ)))
      .ok (List.zipWith (fun v b : ℤ => if b ≠ 0 then (v : ℝ) / b else nmean) l backgr)
    | _ => .error .valueError

/-- `np.max(a)` of integers; `ValueError` on an empty array. -/
def npMaxInt (l : List ℤ) : Except PyErr ℤ :=
  match l.max? with
  | some x => .ok x
  | none => .error .valueError

/-- `get_local_extrema_points` for integer samples — prep/linepattern.py:195-274. `smooth` is `gaussian_filter(·, 3)`, whose result has the
dtype of its argument. The loop and the refinement (lines 254-264, 268-274) are the same as for floats: `val` is compared with the
least sample, and the means, the contrasts and the fits are floats. -/
noncomputable def getLocalExtremaPointsInt (E : Ext) (smooth : List ℤ → List ℤ) (l : List ℤ) (option : String) (radius : ℤ) (sensitive : ℝ)
    (denoise norm subpixel : Bool) : Except PyErr (List ℝ) := do
  let l := if denoise then smooth l else l
  let l ← (if option = "max" then do
      let m ← npMaxInt l
      .ok (l.map fun x => m - x)
    else .ok l)
  let l ← (if norm then normBackgroundInt E l else .ok (l.map fun v : ℤ => (v : ℝ)))
  getLocalExtremaPoints E l "min" radius sensitive false false subpixel none

end Discorpy
