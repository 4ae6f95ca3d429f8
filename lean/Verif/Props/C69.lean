import Verif.Model.Video
import Verif.Lemmas.Except

/-! # C69 — the OpenCV variant of image unwarping -/

namespace Discorpy

/-- **C69.** `unwarp_image_backward_cv2` gives the same image, or the same exception, as `unwarp_color_image_backward` when both
use the same interpolation, for grey and colour images and every kind of padding. -/
theorem C69_same (lstsq : List (List ℝ) → List ℝ → List ℝ) (S : Sampler) (rnd : ℝ → ℝ) (fill : Mat ℝ → ℕ → ℕ → ℝ) (img : Img)
    (xc yc : ℝ) (fact : List ℝ) (pad : PadArg) :
    unwarpImageBackwardCv2 lstsq S rnd fill img xc yc fact pad = unwarpColorImageBackward lstsq S rnd fill img xc yc fact pad := by
  unfold unwarpImageBackwardCv2 unwarpColorImageBackward
  cases img with
  | gray m =>
    simp only [Img.dims]
    cases calcPad lstsq pad m.height m.width xc yc fact with
    | error e => rfl
    | ok p => rfl
  | color h w n get =>
    simp only [Img.dims]
    cases calcPad lstsq pad h w xc yc fact with
    | error e => rfl
    | ok p => rfl

/-- **C69 (identity).** With the model F = 1, no padding and an interpolation that is exact at pixels, the image is returned
unchanged. -/
theorem C69_identity (lstsq : List (List ℝ) → List ℝ → List ℝ) (S : Sampler)
    (hS : ∀ (m : Mat ℝ) (i j : ℕ), i < m.height → j < m.width → S m i j = m.get i j) (fill : Mat ℝ → ℕ → ℕ → ℝ) (m : Mat ℝ) (xc yc : ℝ) :
    ∃ out, unwarpImageBackwardCv2 lstsq S id fill (.gray m) xc yc [1] (.bool false) = .ok (.gray out) ∧
      out.height = m.height ∧ out.width = m.width ∧ ∀ i j, i < m.height → j < m.width → out.get i j = m.get i j := by
  refine ⟨_, rfl, by simp [remapMat, padImg, Img.dims, padMat], by simp [remapMat, padImg, Img.dims, padMat], fun i j hi hj => ?_⟩
  have h1 : (i : ℝ) + 1 ≤ m.height := by exact_mod_cast hi
  have h2 : (j : ℝ) + 1 ≤ m.width := by exact_mod_cast hj
  have c1 : ∀ x hi : ℝ, 0 ≤ x → x ≤ hi → clip x 0 hi = x := fun x hi a b => by unfold clip; rw [max_eq_left a, min_eq_left b]
  simp only [remapMat, padImg, Img.dims, padMat, polySum, List.mapIdx_cons, List.mapIdx_nil, List.sum_cons, List.sum_nil, pow_zero,
    mul_one, add_zero, one_mul, add_sub_cancel, Int.cast_zero, Int.toNat_zero, zero_add, id]
  rw [c1 _ _ (by positivity) (by linarith), c1 _ _ (by positivity) (by linarith), hS _ i j (by simpa using hi) (by simpa using hj)]
  simp [hi, hj]

example (lstsq : List (List ℝ) → List ℝ → List ℝ) (fill : Mat ℝ → ℕ → ℕ → ℝ) :=
  C69_identity lstsq (fun m y x => m.get ⌊y⌋₊ ⌊x⌋₊) (by simp) fill ⟨3, 3, fun i j => i + j⟩ 1 1

/-- A case with padding: both functions return an image. -/
example (S : Sampler) : ∃ out, unwarpImageBackwardCv2 (fun _ _ => []) S id (fun _ _ _ => 0) (.gray ⟨3, 3, fun i j => i + j⟩) 1 1 [1, 0.1] (.int 2) =
    .ok out := ⟨_, rfl⟩

end Discorpy
