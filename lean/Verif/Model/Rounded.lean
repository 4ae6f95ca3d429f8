import Verif.Model.Post

/-!
# Calculations with rounding

The functions of `Model/Post.lean` compute with real numbers. Here three of them are written again with the rounding of every single
operation. Without rounding they are the functions of `Model/Post.lean` (C98_exact).
-/

namespace Discorpy

/-- Floating-point arithmetic: `fl` rounds the exact result of `+`, `-`, `*`, `/` and the square root, `pw r i` is `r ** i`, `sm` is
`np.sum` (which adds in an order of its own). -/
structure Floats where
  fl : ℝ → ℝ
  pw : ℝ → ℕ → ℝ
  sm : List ℝ → ℝ

/-- Arithmetic without rounding. -/
noncomputable def Floats.exact : Floats := ⟨id, fun r i => r ^ i, List.sum⟩

/-- `np.sum([f * r ** i for i, f in enumerate(list_fact)])` with rounding — post/postprocessing.py:60, 142-143. -/
noncomputable def polySumFl (F : Floats) (fact : List ℝ) (r : ℝ) : ℝ := F.sm (fact.mapIdx fun i f => F.fl (f * F.pw r i))

/-- `unwarp_line_forward` with rounding, for lines of floats — post/postprocessing.py:36-64. -/
noncomputable def unwarpLineForwardFl (F : Floats) (lines : List (List Pt)) (xcenter ycenter : ℝ) (fact : List ℝ) : List (List Pt) :=
  lines.map fun line => line.map fun dot =>
    let xd := F.fl (dot.x - xcenter)
    let yd := F.fl (dot.y - ycenter)
    let rd := F.fl √(F.fl (F.fl (xd * xd) + F.fl (yd * yd)))
    let factor := polySumFl F fact rd
    { x := F.fl (xcenter + F.fl (factor * xd)), y := F.fl (ycenter + F.fl (factor * yd)) }

/-- `unwarp_image_backward` with the coordinates computed with rounding; `rnd` is the conversion to `np.float32` at the end, and the
interpolation `S` is exact — post/postprocessing.py:111-148. -/
noncomputable def unwarpImageBackwardFl (F : Floats) (S : Sampler) (rnd : ℝ → ℝ) (mat : Mat ℝ) (xcenter ycenter : ℝ) (fact : List ℝ) : Mat ℝ where
  height := mat.height
  width := mat.width
  get i j :=
    let xu := F.fl ((j : ℝ) - xcenter)
    let yu := F.fl ((i : ℝ) - ycenter)
    let ru := F.fl √(F.fl (F.fl (xu ^ 2) + F.fl (yu ^ 2)))
    let f := polySumFl F fact ru
    let xd := rnd (clip (F.fl (xcenter + F.fl (f * xu))) 0 ((mat.width : ℝ) - 1))
    let yd := rnd (clip (F.fl (ycenter + F.fl (f * yu))) 0 ((mat.height : ℝ) - 1))
    S mat yd xd

/-- `correct_perspective_line` with rounding — post/postprocessing.py:414-441. -/
noncomputable def correctPerspectiveLineFl (F : Floats) (lines : List (List Pt)) (coef : List ℝ) : Except PyErr (List (List Pt)) :=
  match coef with
  | [c1, c2, c3, c4, c5, c6, c7, c8] =>
    if lines.any List.isEmpty then .error .indexError
    else .ok (lines.map fun line => line.map fun p =>
      let den := F.fl (F.fl (F.fl (c7 * p.x) + F.fl (c8 * p.y)) + 1)
      { x := F.fl (F.fl (F.fl (F.fl (c1 * p.x) + F.fl (c2 * p.y)) + c3) / den)
        y := F.fl (F.fl (F.fl (F.fl (c4 * p.x) + F.fl (c5 * p.y)) + c6) / den) })
  | _ => .error .valueError

end Discorpy
