import Verif.Spec.Crop
import Verif.Props.C01
import Verif.Props.C52

/-! # C127 — cropped images and regions of interest -/

namespace Discorpy

open Spec

theorem bilinear_crop {t l : ℕ} {m m' : Mat ℝ} (h : IsCrop t l m m') {y x : ℝ} (hf : InFrame m' y x) :
    bilinear m (y + t) (x + l) = bilinear m' y x ∧ InFrame m (y + t) (x + l) := by
  have hh := h.height
  have hw := h.width
  have ch : ((t + m'.height : ℕ) : ℝ) ≤ m.height := by exact_mod_cast hh
  have cw : ((l + m'.width : ℕ) : ℝ) ≤ m.width := by exact_mod_cast hw
  push_cast at ch cw
  obtain ⟨f1, f2, f3, f4⟩ := id hf
  have t0 : (0 : ℝ) ≤ t := by positivity
  have l0 : (0 : ℝ) ≤ l := by positivity
  have inm : InFrame m (y + t) (x + l) := ⟨by linarith, by linarith, by linarith, by linarith⟩
  have same : SameImage m (padMat (fun _ => m.get) m' t (m.height - t - m'.height) l (m.width - l - m'.width)) := by
    refine ⟨?_, ?_, fun i hi j hj => ?_⟩
    · simp only [padMat]; omega
    · simp only [padMat]; omega
    · simp only [padMat]
      split_ifs with hin
      · rw [h.pixel _ (by omega) _ (by omega), show t + (i - t) = i by omega, show l + (j - l) = j by omega]
      · rfl
  exact ⟨by rw [bilinear_congr same inm, bilinear_pad _ _ _ _ _ _ hf], inm⟩

/-- Reading a clipped place of a part of an image. -/
theorem interp_crop (B B' : Boundary) {t l : ℕ} {m m' : Mat ℝ} (h : IsCrop t l m m') {y x : ℝ} (hf : InFrame m' y x) :
    linearInterp B' m' (clip y 0 ((m'.height : ℝ) - 1)) (clip x 0 ((m'.width : ℝ) - 1)) =
      linearInterp B m (clip (y + t) 0 ((m.height : ℝ) - 1)) (clip (x + l) 0 ((m.width : ℝ) - 1)) := by
  obtain ⟨e, hm⟩ := bilinear_crop h hf
  rw [clip_of_mem hf.1 hf.2.1, clip_of_mem hf.2.2.1 hf.2.2.2, clip_of_mem hm.1 hm.2.1, clip_of_mem hm.2.2.1 hm.2.2.2, linearInterp_eq _ _ hf,
    linearInterp_eq _ _ hm, e]

/-- **C127 (image).** Cropping before the correction, with the centre counted from the corner of the part, gives the same pixels as cropping after it,
wherever the place that the model assigns to the pixel is inside the part. -/
theorem C127_image (B B' : Boundary) (t l : ℕ) (m m' : Mat ℝ) (h : IsCrop t l m m') (xc yc : ℝ) (f : List ℝ) (i j : ℕ)
    (hin : InFrame m' (radialMap ⟨yc - t, xc - l⟩ f ⟨i, j⟩).y (radialMap ⟨yc - t, xc - l⟩ f ⟨i, j⟩).x) :
    (unwarpImageBackward (linearInterp B') id m' (xc - l) (yc - t) f).get i j =
      (unwarpImageBackward (linearInterp B) id m xc yc f).get (t + i) (l + j) := by
  have hY : yc - t + polySum f √(((j : ℝ) - (xc - l)) ^ 2 + ((i : ℝ) - (yc - t)) ^ 2) * ((i : ℝ) - (yc - t)) =
      (radialMap ⟨yc - t, xc - l⟩ f ⟨i, j⟩).y := by
    rw [polySum_eq_radial]; rfl
  have hX : xc - l + polySum f √(((j : ℝ) - (xc - l)) ^ 2 + ((i : ℝ) - (yc - t)) ^ 2) * ((j : ℝ) - (xc - l)) =
      (radialMap ⟨yc - t, xc - l⟩ f ⟨i, j⟩).x := by
    rw [polySum_eq_radial]; rfl
  have := interp_crop B B' h hin
  rw [← hY, ← hX] at this
  simp only [unwarpImageBackward, id]
  rw [this, show (((l + j : ℕ) : ℝ) - xc) = j - (xc - l) by push_cast; ring, show (((t + i : ℕ) : ℝ) - yc) = i - (yc - t) by push_cast; ring]
  congr 2 <;> ring

/-- **C127 (slice).** The same for the slices of a stack: a slice of the cropped stack is part of the slice of the stack. -/
theorem C127_slice (B B' : Boundary) (t l d h w h' w' : ℕ) (get get' : List ℕ → ℝ) (hc : ∀ k < d, IsCrop t l ⟨h, w, fun y x => get [k, y, x]⟩
    ⟨h', w', fun y x => get' [k, y, x]⟩) (xc yc : ℝ) (f : List ℝ) (hne : f ≠ []) (hd : 0 < d) (i : ℕ) (hi : i < h') (hh : h ≤ 32767) (hw : 0 < w') :
    ∃ out out', unwarpSliceBackward B ⟨[d, h, w], get⟩ xc yc f (t + i : ℕ) = .ok out ∧
      unwarpSliceBackward B' ⟨[d, h', w'], get'⟩ (xc - l) (yc - t) f i = .ok out' ∧ out'.height = d ∧ out'.width = w' ∧
      ∀ k < d, ∀ j < w', 0 ≤ (radialMap ⟨yc - t, xc - l⟩ f ⟨i, j⟩).y → (radialMap ⟨yc - t, xc - l⟩ f ⟨i, j⟩).y ≤ (h' : ℝ) - 1 →
        0 ≤ (radialMap ⟨yc - t, xc - l⟩ f ⟨i, j⟩).x → (radialMap ⟨yc - t, xc - l⟩ f ⟨i, j⟩).x ≤ (w' : ℝ) - 1 →
        out'.get k j = out.get k (l + j) := by
  have c1 := (hc 0 hd).height
  have c2 := (hc 0 hd).width
  simp only at c1 c2
  obtain ⟨out, e, a1, a2, a3⟩ := C01_slice_eq_image_row B B d h w get xc yc f hne (t + i) (by omega) hh (by omega)
  obtain ⟨out', e', b1, b2, b3⟩ := C01_slice_eq_image_row B' B' d h' w' get' (xc - l) (yc - t) f hne i hi (by omega) hw
  refine ⟨out, out', e, e', b1, b2, fun k hk j hj h1 h2 h3 h4 => ?_⟩
  rw [a3 k hk (l + j) (by omega), b3 k hk j hj]
  exact C127_image B B' t l _ _ (hc k hk) xc yc f i j ⟨h1, h2, h3, h4⟩

/-- **C127 (perspective, lines).** The perspective correction of lines with coordinates counted from another point, with the coefficients changed
accordingly, gives the same lines. -/
theorem C127_perspective_line (t l c1 c2 c3 c4 c5 c6 c7 c8 : ℝ) (hd : c7 * l + c8 * t + 1 ≠ 0) (lines : List (List Pt))
    (hp : ∀ ln ∈ lines, ln ≠ [] ∧ ∀ p ∈ ln, c7 * p.x + c8 * p.y + 1 ≠ 0) :
    ∃ out, correctPerspectiveLine lines [c1, c2, c3, c4, c5, c6, c7, c8] = .ok out ∧
      correctPerspectiveLine (lines.map fun ln => ln.map fun p => ⟨p.y - t, p.x - l⟩) (movedCoefs t l c1 c2 c3 c4 c5 c6 c7 c8) =
        .ok (out.map fun ln => ln.map fun p => ⟨p.y - t, p.x - l⟩) := by
  have e1 : ¬ (lines.any List.isEmpty = true) := by
    simp only [List.any_eq_true, not_exists, not_and, Bool.not_eq_true, List.isEmpty_eq_false_iff]
    exact fun ln hl => (hp ln hl).1
  have e2 : ¬ ((lines.map fun ln => ln.map fun p => (⟨p.y - t, p.x - l⟩ : Pt)).any List.isEmpty = true) := by
    simp only [List.any_map, List.any_eq_true, not_exists, not_and, Bool.not_eq_true, Function.comp_apply, List.isEmpty_eq_false_iff]
    exact fun ln hl => by simpa using (hp ln hl).1
  simp only [correctPerspectiveLine, movedCoefs, if_neg e1, if_neg e2]
  refine ⟨_, rfl, ?_⟩
  congr 1
  simp only [List.map_map, Function.comp_def]
  refine List.map_congr_left fun ln hl => List.map_congr_left fun p hpl => ?_
  have hn := (hp ln hl).2 p hpl
  have key : c7 / (c7 * l + c8 * t + 1) * (p.x - l) + c8 / (c7 * l + c8 * t + 1) * (p.y - t) + 1 =
      (c7 * p.x + c8 * p.y + 1) / (c7 * l + c8 * t + 1) := by
    field_simp
    ring
  have num : ∀ a b k o : ℝ, (a - o * c7) / (c7 * l + c8 * t + 1) * (p.x - l) + (b - o * c8) / (c7 * l + c8 * t + 1) * (p.y - t) +
      (a * l + b * t + k - o * (c7 * l + c8 * t + 1)) / (c7 * l + c8 * t + 1) =
        (a * p.x + b * p.y + k - o * (c7 * p.x + c8 * p.y + 1)) / (c7 * l + c8 * t + 1) := by
    intro a b k o
    field_simp
    ring
  rw [key, num c1 c2 c3 l, num c4 c5 c6 t, div_div_div_cancel_right₀ hd, div_div_div_cancel_right₀ hd, sub_div, sub_div,
    mul_div_assoc, mul_div_assoc, div_self hn, mul_one, mul_one]

/-- **C127 (perspective, image).** Likewise for `correct_perspective_image`: wherever the place that the correction of a dot assigns to the pixel is inside
the part, the pixel of the corrected part is that of the corrected image. -/
theorem C127_perspective (B B' : Boundary) (t l : ℕ) (m m' : Mat ℝ) (h : IsCrop t l m m') (c1 c2 c3 c4 c5 c6 c7 c8 : ℝ)
    (hd : c7 * l + c8 * t + 1 ≠ 0) :
    ∃ out out', correctPerspectiveImage (linearInterp B) id m [c1, c2, c3, c4, c5, c6, c7, c8] none = .ok out ∧
      correctPerspectiveImage (linearInterp B') id m' (movedCoefs t l c1 c2 c3 c4 c5 c6 c7 c8) none = .ok out' ∧
      ∀ (i j : ℕ) (q : Pt), c7 * (l + j : ℕ) + c8 * (t + i : ℕ) + 1 ≠ 0 →
        correctPerspectiveLine [[⟨(t + i : ℕ), (l + j : ℕ)⟩]] [c1, c2, c3, c4, c5, c6, c7, c8] = .ok [[q]] → InFrame m' (q.y - t) (q.x - l) →
        out'.get i j = out.get (t + i) (l + j) := by
  refine ⟨_, _, rfl, rfl, fun i j q hn hq hin => ?_⟩
  obtain ⟨o, e1, e2⟩ := C127_perspective_line t l c1 c2 c3 c4 c5 c6 c7 c8 hd [[⟨(t + i : ℕ), (l + j : ℕ)⟩]] (by
    intro ln hl
    simp only [List.mem_singleton] at hl
    subst hl
    refine ⟨by simp, fun p hp => ?_⟩
    simp only [List.mem_singleton] at hp
    subst hp
    exact hn)
  rw [hq] at e1
  cases e1
  simp [correctPerspectiveLine, movedCoefs] at e2 hq
  have := interp_crop B B' h hin
  rw [sub_add_cancel, sub_add_cancel, ← e2.1, ← e2.2, ← hq] at this
  simpa using this

/-! ## Concrete cases -/

/-- An image of 30 × 40 pixels and its part of 10 × 12 pixels that begins at row 8 and column 9. -/
def cropBefore : Mat ℝ := ⟨30, 40, fun i j => (100 * i + j : ℕ)⟩

def cropAfter : Mat ℝ := ⟨10, 12, fun i j => (100 * (8 + i) + (9 + j) : ℕ)⟩

theorem crop_isCrop : IsCrop 8 9 cropBefore cropAfter := ⟨by norm_num [cropBefore, cropAfter], by norm_num [cropBefore, cropAfter], fun _ _ _ _ => rfl⟩

/-- The pixel (3, 9) of the part, 5 columns from the centre (11, 13), is read from column 13 + 5/2 of the image by the model 1/2. -/
example (B B' : Boundary) : (unwarpImageBackward (linearInterp B') id cropAfter (13 - (9 : ℕ)) (11 - (8 : ℕ)) [1 / 2]).get 3 9 =
    (unwarpImageBackward (linearInterp B) id cropBefore 13 11 [1 / 2]).get (8 + 3) (9 + 9) :=
  C127_image B B' 8 9 _ _ crop_isCrop 13 11 [1 / 2] 3 9 (by norm_num [InFrame, radialMap, radial, cropAfter])

/-- The condition is needed: with the model 3 the pixel (3, 9) would be read from column 28, outside the part (clipped to its last column 20). -/
example (B B' : Boundary) : (unwarpImageBackward (linearInterp B') id cropAfter (13 - (9 : ℕ)) (11 - (8 : ℕ)) [3]).get 3 9 = 1120 ∧
    (unwarpImageBackward (linearInterp B) id cropBefore 13 11 [3]).get (8 + 3) (9 + 9) = 1128 := by
  have r : ∀ (B : Boundary) (m : Mat ℝ) (i j : ℕ), i < m.height → j < m.width → linearInterp B m i j = m.get i j := fun B m i j hi hj => by
    have hi' : ((i + 1 : ℕ) : ℝ) ≤ m.height := by exact_mod_cast hi
    have hj' : ((j + 1 : ℕ) : ℝ) ≤ m.width := by exact_mod_cast hj
    push_cast at hi' hj'
    rw [linearInterp_eq _ _ ⟨by positivity, by linarith, by positivity, by linarith⟩, bilinear_node]
  constructor
  · have := r B' cropAfter 3 11 (by norm_num [cropAfter]) (by norm_num [cropAfter])
    norm_num [unwarpImageBackward, polySum, clip, cropAfter] at this ⊢
    exact this
  · have := r B cropBefore 11 28 (by norm_num [cropBefore]) (by norm_num [cropBefore])
    norm_num [unwarpImageBackward, polySum, clip, cropBefore] at this ⊢
    exact this

/-- A stack of 5 such images. -/
example (B B' : Boundary) := C127_slice B B' 8 9 5 30 40 10 12 (fun q => (q.sum : ℝ)) (fun q => (q.sum : ℝ) + 17) (fun k _ =>
  ⟨by norm_num, by norm_num, fun i _ j _ => by simp; ring⟩) 13 11 [1 / 2] (by simp) (by norm_num) 3 (by norm_num) (by norm_num) (by norm_num)

/-- The pixel (9, 9) of the part is the pixel (17, 18) of the image. The map x ↦ (x + 3/5) / (1 + x / 18), y ↦ y / (1 + x / 18) reads it from row 17/2
and column 93/10, inside the part. -/
example (B B' : Boundary) : ∃ out out', correctPerspectiveImage (linearInterp B) id cropBefore [1, 0, 3 / 5, 0, 1, 0, 1 / 18, 0] none = .ok out ∧
    correctPerspectiveImage (linearInterp B') id cropAfter (movedCoefs (8 : ℕ) (9 : ℕ) 1 0 (3 / 5) 0 1 0 (1 / 18) 0) none = .ok out' ∧
    out'.get 9 9 = out.get (8 + 9) (9 + 9) := by
  obtain ⟨out, out', e, e', H⟩ := C127_perspective B B' 8 9 _ _ crop_isCrop 1 0 (3 / 5) 0 1 0 (1 / 18) 0 (by norm_num)
  refine ⟨out, out', e, e', H 9 9 ⟨17 / 2, 93 / 10⟩ (by norm_num) ?_ ?_⟩
  · norm_num [correctPerspectiveLine]
  · norm_num [InFrame, cropAfter]

/-- A line of two dots. -/
example := C127_perspective_line 8 9 1 0 (3 / 5) 0 1 0 (1 / 18) 0 (by norm_num) [[⟨1, 2⟩, ⟨1, 4⟩]] (by
  intro ln hl
  simp only [List.mem_singleton] at hl
  subst hl
  refine ⟨by simp, fun p hp => ?_⟩
  simp only [List.mem_cons, List.not_mem_nil, or_false] at hp
  rcases hp with rfl | rfl <;> norm_num)

end Discorpy
