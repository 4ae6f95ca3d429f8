import Verif.Model.Rounded
import Verif.Model.Util

/-!
# More calculations with rounding

The other functions of `Model/Post.lean` that move single pixels, and `find_point_to_point`, with the rounding of every operation on coordinates.
Without rounding they are the functions of the exact model (C114_exact). The interpolation itself is exact.
-/

namespace Discorpy

/-- The row and the column to which the model moves the pixel `(i, j)`, before clipping — post/postprocessing.py:137-145 (also 174-182, 214-221 and
288-309, which compute the same expression). -/
noncomputable def radialRowFl (F : Floats) (xcenter ycenter : ℝ) (fact : List ℝ) (i j : ℝ) : ℝ :=
  let xu := F.fl (j - xcenter)
  let yu := F.fl (i - ycenter)
  F.fl (ycenter + F.fl (polySumFl F fact (F.fl √(F.fl (F.fl (xu ^ 2) + F.fl (yu ^ 2)))) * yu))

/-- The column; see `radialRowFl`. -/
noncomputable def radialColFl (F : Floats) (xcenter ycenter : ℝ) (fact : List ℝ) (i j : ℝ) : ℝ :=
  let xu := F.fl (j - xcenter)
  let yu := F.fl (i - ycenter)
  F.fl (xcenter + F.fl (polySumFl F fact (F.fl √(F.fl (F.fl (xu ^ 2) + F.fl (yu ^ 2)))) * xu))

/-- `find_point_to_point` with rounding — util/utility.py:192-230. -/
noncomputable def findPointToPointFl (F : Floats) (row col : ℝ) (xcenter ycenter : ℝ) (fact : List ℝ) (order : String) : ℝ × ℝ :=
  let xi := F.fl (col - xcenter)
  let yi := F.fl (row - ycenter)
  let ri := F.fl √(F.fl (F.fl (xi * xi) + F.fl (yi * yi)))
  let factor := polySumFl F fact ri
  let xo := F.fl (xcenter + F.fl (factor * xi))
  let yo := F.fl (ycenter + F.fl (factor * yi))
  if order = "xy" then (xo, yo) else (yo, xo)

/-- The array index of a pixel in `unwarp_image_forward` with rounding — post/postprocessing.py:172-182. -/
noncomputable def forwardIndexFl (F : Floats) (h w : ℕ) (xcenter ycenter : ℝ) (fact : List ℝ) (p : ℕ × ℕ) : ℤ × ℤ :=
  (roundHalfEven (clip (radialRowFl F xcenter ycenter fact p.1 p.2) 0 ((h : ℝ) - 1)),
   roundHalfEven (clip (radialColFl F xcenter ycenter fact p.1 p.2) 0 ((w : ℝ) - 1)))

/-- `unwarp_image_forward` with rounding — post/postprocessing.py:151-185. -/
noncomputable def unwarpImageForwardFl (F : Floats) (mat : Mat ℝ) (xcenter ycenter : ℝ) (fact : List ℝ) : Except PyErr (Mat ℝ) :=
  (pixels mat.height mat.width).foldlM
    (fun m p =>
      let q := forwardIndexFl F mat.height mat.width xcenter ycenter fact p
      m.setItem q.1 q.2 (mat.get p.1 p.2))
    { height := mat.height, width := mat.width, get := fun _ _ => 0 }

/-- `unwarp_slice_backward` with rounding: the coordinates stay in double precision, also after the subtraction of the first row of the crop, and the
result is stored (`st`) in single precision — post/postprocessing.py:188-229. -/
noncomputable def unwarpSliceBackwardFl (F : Floats) (st : ℝ → ℝ) (B : Boundary) (mat3D : NdArr ℝ) (xcenter ycenter : ℝ) (fact : List ℝ) (index : ℤ) :
    Except PyErr (Mat ℝ) :=
  match mat3D.shape with
  | [depth, height, width] =>
    if fact = [] then (if depth = 0 then .ok ⟨0, width, fun _ _ => 0⟩ else .error .valueError)
    else
      let xd := fun j : ℕ => clip (radialColFl F xcenter ycenter fact index j) 0 ((width : ℝ) - 1)
      let yd := fun j : ℕ => clip (radialRowFl F xcenter ycenter fact index j) 0 ((height : ℝ) - 1)
      let ydList := (List.range width).map yd
      match ydList.min?, ydList.max? with
      | some ymin, some ymax =>
        let ydMin := toInt16 ⌊ymin⌋
        let ydMax := toInt16 (toInt16 ⌈ymax⌉ + 1)
        .ok { height := depth
              width := width
              get := fun i j => st (linearInterp B ((mat3D.proj height width i).rows ydMin ydMax) (F.fl (yd j - ydMin)) (xd j)) }
      | _, _ => .error .valueError
  | _ => .error .valueError

/-- `unwarp_chunk_slices_backward` with rounding: the coordinates are converted to single precision, and the first row of the crop is subtracted in single
precision — post/postprocessing.py:255-313. -/
noncomputable def unwarpChunkSlicesBackwardFl (F : Floats) (B : Boundary) (rnd : ℝ → ℝ) (mat3D : NdArr ℝ) (xcenter ycenter : ℝ) (fact : List ℝ)
    (startIndex stopIndex : ℤ) : Except PyErr (NdArr ℝ) :=
  match mat3D.shape with
  | [depth, height, width] =>
    let stop := if stopIndex = -1 then (height : ℤ) else stopIndex
    if startIndex ∉ indexList16 height ∨ stop ∉ indexList16 height then .error .valueError
    else
      let yd1 := fun j : ℕ => clip (radialRowFl F xcenter ycenter fact startIndex j) 0 ((height : ℝ) - 1)
      let yd2 := fun j : ℕ => clip (radialRowFl F xcenter ycenter fact stop j) 0 ((height : ℝ) - 1)
      match ((List.range width).map yd1).min?, ((List.range width).map yd2).max? with
      | some ymin, some ymax =>
        let ydMin := toInt16 ⌊ymin⌋
        let ydMax := toInt16 (toInt16 ⌈ymax⌉ + 1)
        let n := (stop + 1 - startIndex).toNat
        let xd := fun k j : ℕ => rnd (clip (radialColFl F xcenter ycenter fact ((startIndex + k : ℤ) : ℝ) j) 0 ((width : ℝ) - 1))
        let yd := fun k j : ℕ => rnd (rnd (clip (radialRowFl F xcenter ycenter fact ((startIndex + k : ℤ) : ℝ) j) 0 ((height : ℝ) - 1)) - ydMin)
        .ok { shape := if depth = 0 then [0] else [depth, n, width]
              get := fun idx =>
                match idx with
                | [i, k, j] =>
                  (mapping B ((mat3D.proj height width i).rows ydMin ydMax) n width xd yd).get k j
                | _ => 0 }
      | _, _ => .error .valueError
  | _ => .error .valueError

/-- `_generate_perspective_map` with rounding — post/postprocessing.py:444-459. -/
noncomputable def generatePerspectiveMapFl (F : Floats) (rnd : ℝ → ℝ) (mat : Mat ℝ) (coef : List ℝ) : Except PyErr (ℕ → ℕ → Pt) :=
  match coef with
  | [c1, c2, c3, c4, c5, c6, c7, c8] =>
    .ok fun i j =>
      let xu : ℝ := j
      let yu : ℝ := i
      let tmp := F.fl (F.fl (F.fl (c7 * xu) + F.fl (c8 * yu)) + 1)
      { x := rnd (clip (F.fl (F.fl (F.fl (F.fl (c1 * xu) + F.fl (c2 * yu)) + c3) / tmp)) 0 ((mat.width : ℝ) - 1))
        y := rnd (clip (F.fl (F.fl (F.fl (F.fl (c4 * xu) + F.fl (c5 * yu)) + c6) / tmp)) 0 ((mat.height : ℝ) - 1)) }
  | _ => .error .valueError

/-- `correct_perspective_image` with rounding — post/postprocessing.py:462-492. -/
noncomputable def correctPerspectiveImageFl (F : Floats) (S : Sampler) (rnd : ℝ → ℝ) (mat : Mat ℝ) (coef : List ℝ) (mapIndex : Option (ℕ → ℕ → Pt)) :
    Except PyErr (Mat ℝ) :=
  if coef.length ≠ 8 then .error .valueError
  else do
    let idx ← match mapIndex with
      | none => generatePerspectiveMapFl F rnd mat coef
      | some m => .ok m
    .ok { height := mat.height, width := mat.width
          get := fun i j => S mat (idx i j).y (idx i j).x }

end Discorpy
