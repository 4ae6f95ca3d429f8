import Verif.Lemmas.Homography
import Verif.Lemmas.Scatter
import Verif.Lemmas.Except
import Verif.Model.FourPointScript
import Verif.Spec.Rect

/-! # Helper lemmas: four points and the script `demo_07.py` -/

namespace Discorpy

open Spec Matrix

/-- Four points: no three on a line, from the four triples. -/
theorem genPos_of {p1 p2 p3 p4 : Pt} (h1 : ¬ Collinear3 p1 p2 p3) (h2 : ¬ Collinear3 p1 p2 p4) (h3 : ¬ Collinear3 p1 p3 p4)
    (h4 : ¬ Collinear3 p2 p3 p4) : GeneralPosition ![p1, p2, p3, p4] := by
  have sw : ∀ {a b c : Pt}, ¬ Collinear3 a b c → ¬ Collinear3 b a c := by
    intro a b c h h'
    apply h
    unfold Collinear3 at *
    linear_combination -h'
  have ro : ∀ {a b c : Pt}, ¬ Collinear3 a b c → ¬ Collinear3 b c a := by
    intro a b c h h'
    apply h
    unfold Collinear3 at *
    linear_combination h'
  intro i j k
  fin_cases i <;> fin_cases j <;> fin_cases k <;> intro a b c <;> first
    | exact absurd rfl a
    | exact absurd rfl b
    | exact absurd rfl c
    | exact h1 | exact h2 | exact h3 | exact h4
    | exact ro h1 | exact ro h2 | exact ro h3 | exact ro h4
    | exact ro (ro h1) | exact ro (ro h2) | exact ro (ro h3) | exact ro (ro h4)
    | exact sw h1 | exact sw h2 | exact sw h3 | exact sw h4
    | exact ro (sw h1) | exact ro (sw h2) | exact ro (sw h3) | exact ro (sw h4)
    | exact ro (ro (sw h1)) | exact ro (ro (sw h2)) | exact ro (ro (sw h3)) | exact ro (ro (sw h4))

theorem diagonals_genPos {p1 p2 p3 p4 : Pt} (h : DiagonalsCross p1 p2 p3 p4) : GeneralPosition ![p1, p2, p3, p4] := by
  obtain ⟨hc, l, m, l0, l1, m0, m1, ex, ey⟩ := h
  have hD : (p4.x - p1.x) * (p2.y - p1.y) - (p4.y - p1.y) * (p2.x - p1.x) ≠ 0 := sub_ne_zero.2 hc
  set D := (p4.x - p1.x) * (p2.y - p1.y) - (p4.y - p1.y) * (p2.x - p1.x) with hDdef
  have m1' : (1 - m) ≠ 0 := by linarith
  have l1' : (1 - l) ≠ 0 := by linarith
  have x3 : (1 - m) * p3.x = l * p1.x + (1 - l) * p4.x - m * p2.x := by linarith
  have y3 : (1 - m) * p3.y = l * p1.y + (1 - l) * p4.y - m * p2.y := by linarith
  apply genPos_of
  · intro h
    unfold Collinear3 at h
    have : (1 - l) * D = 0 := by
      simp only [hDdef]
      linear_combination -(1 - m) * h + (p2.x - p1.x) * y3 - (p2.y - p1.y) * x3
    exact (mul_ne_zero l1' hD) this
  · intro h
    unfold Collinear3 at h
    apply hD
    simp only [hDdef]
    linear_combination -h
  · intro h
    unfold Collinear3 at h
    have : m * D = 0 := by
      simp only [hDdef]
      linear_combination (1 - m) * h - (p4.y - p1.y) * x3 + (p4.x - p1.x) * y3
    exact (mul_ne_zero m0.ne' hD) this
  · intro h
    unfold Collinear3 at h
    have : l * D = 0 := by
      simp only [hDdef]
      linear_combination (1 - m) * h - (p4.y - p2.y) * x3 + (p4.x - p2.x) * y3
    exact (mul_ne_zero l0.ne' hD) this

theorem rect_genPos {q1 q2 q3 q4 : Pt} {h v : ℝ} (hr : IsRect q1 q2 q3 q4 h v) (hh : h ≠ 0) (hv : v ≠ 0) :
    GeneralPosition ![q1, q2, q3, q4] := by
  have ht := hr.top
  have hl := hr.left
  unfold ptDist at ht hl
  have t2 : (q1.x - q2.x) ^ 2 + (q1.y - q2.y) ^ 2 = h ^ 2 := by
    rw [← sq_abs h, ← ht, Real.sq_sqrt (by positivity)]
  have l2 : (q1.x - q3.x) ^ 2 + (q1.y - q3.y) ^ 2 = v ^ 2 := by
    rw [← sq_abs v, ← hl, Real.sq_sqrt (by positivity)]
  have e4x : q4.x = q2.x - q1.x + q3.x := by linarith [hr.paraX]
  have e4y : q4.y = q2.y - q1.y + q3.y := by linarith [hr.paraY]
  have hp := hr.perp
  have key : (q2.x - q1.x) * (q3.y - q1.y) - (q2.y - q1.y) * (q3.x - q1.x) ≠ 0 := by
    intro h0
    have : h ^ 2 * v ^ 2 = 0 := by
      rw [← t2, ← l2]
      linear_combination ((q2.x - q1.x) * (q3.y - q1.y) - (q2.y - q1.y) * (q3.x - q1.x)) * h0 +
        ((q2.x - q1.x) * (q3.x - q1.x) + (q2.y - q1.y) * (q3.y - q1.y)) * hp
    exact mul_ne_zero (pow_ne_zero 2 hh) (pow_ne_zero 2 hv) this
  apply genPos_of <;> intro h' <;> unfold Collinear3 at h' <;> apply key <;> rw [e4x, e4y] at * <;> linarith

theorem side_ne {scale : ScaleOpt} (hf : ∀ f, scale = .float f → f ≠ 0) {d d' : ℝ} (h : 0 < d) (h' : 0 < d') : sideFor scale d d' ≠ 0 := by
  cases scale with
  | max => exact (lt_max_of_lt_left h).ne'
  | min => exact (lt_min h h').ne'
  | median => simp only [sideFor]; positivity
  | mean => simp only [sideFor]; positivity
  | float f => exact mul_ne_zero (hf f rfl) (by positivity)

theorem square_ne {scale : ScaleOpt} (hf : ∀ f, scale = .float f → f ≠ 0) {a b c d : ℝ} (ha : 0 < a) (hb : 0 < b) (hc : 0 < c) (hd : 0 < d) :
    squareFor scale (sideFor scale a b) (sideFor scale c d) ≠ 0 := by
  cases scale with
  | max => exact (lt_max_of_lt_left (lt_max_of_lt_left ha)).ne'
  | min => exact (lt_min (lt_min ha hb) (lt_min hc hd)).ne'
  | median => simp only [squareFor, sideFor]; positivity
  | mean => simp only [squareFor, sideFor]; positivity
  | float f =>
    simp only [squareFor, sideFor]
    rw [← mul_add, mul_div_assoc]
    exact mul_ne_zero (hf f rfl) (by positivity)

theorem ptDist_pos_x {p q : Pt} (h : p.x < q.x) : 0 < ptDist p q := by
  unfold ptDist
  apply Real.sqrt_pos.2
  have := sub_ne_zero.2 h.ne
  positivity

theorem ptDist_pos_y {p q : Pt} (h : p.y < q.y) : 0 < ptDist p q := by
  unfold ptDist
  apply Real.sqrt_pos.2
  have := sub_ne_zero.2 h.ne
  positivity

/-- The matrix of turning, scaling and moving. -/
noncomputable def turnMatrix (angle k dx dy : ℝ) : Matrix (Fin 3) (Fin 3) ℝ :=
  !![k * Real.cos (angle * Real.pi / 180), -(k * Real.sin (angle * Real.pi / 180)), dx;
    k * Real.sin (angle * Real.pi / 180), k * Real.cos (angle * Real.pi / 180), dy; 0, 0, 1]

theorem turnMatrix_det (angle k dx dy : ℝ) : (turnMatrix angle k dx dy).det = k ^ 2 := by
  rw [Matrix.det_fin_three]
  simp [turnMatrix]
  linear_combination k ^ 2 * Real.sin_sq_add_cos_sq (angle * Real.pi / 180)

theorem isTurned_iff (angle k dx dy : ℝ) (p q : Pt) :
    IsTurned angle k dx dy p q ↔
      q = ⟨(p.x * Real.sin (angle * Real.pi / 180) + p.y * Real.cos (angle * Real.pi / 180)) * k + dy,
        (p.x * Real.cos (angle * Real.pi / 180) - p.y * Real.sin (angle * Real.pi / 180)) * k + dx⟩ := by
  unfold IsTurned asComplex
  rw [Complex.exp_mul_I, ← Complex.ofReal_cos, ← Complex.ofReal_sin, Complex.ext_iff]
  obtain ⟨y, x⟩ := q
  simp only [Complex.add_re, Complex.add_im, Complex.mul_re, Complex.mul_im, Complex.ofReal_re, Complex.ofReal_im, Complex.I_re, Complex.I_im,
    Pt.mk.injEq]
  constructor
  · rintro ⟨h1, h2⟩
    constructor
    · rw [h2]; ring
    · rw [h1]; ring
  · rintro ⟨h1, h2⟩
    constructor
    · rw [h2]; ring
    · rw [h1]; ring

theorem isTurned_mulVec {angle k dx dy : ℝ} {p q : Pt} (h : IsTurned angle k dx dy p q) : turnMatrix angle k dx dy *ᵥ homog p = homog q := by
  rw [isTurned_iff] at h
  subst h
  ext i
  fin_cases i
  · simp [turnMatrix, homog, Matrix.mulVec, dotProduct, Fin.sum_univ_three]; ring
  · simp [turnMatrix, homog, Matrix.mulVec, dotProduct, Fin.sum_univ_three]; ring
  · simp [turnMatrix, homog, Matrix.mulVec, dotProduct, Fin.sum_univ_three]

theorem isTurned_image {angle k dx dy : ℝ} (hk : k ≠ 0) (H : Matrix (Fin 3) (Fin 3) ℝ) {p p' : Pt} (h : IsTurned angle k dx dy p p') (q : Pt) :
    IsImage (H * (turnMatrix angle k dx dy)⁻¹) p' q ↔ IsImage H p q := by
  have hu : IsUnit (turnMatrix angle k dx dy).det := by rw [turnMatrix_det]; exact isUnit_iff_ne_zero.2 (pow_ne_zero 2 hk)
  have e : (H * (turnMatrix angle k dx dy)⁻¹) *ᵥ homog p' = H *ᵥ homog p := by
    rw [← isTurned_mulVec h, Matrix.mulVec_mulVec, Matrix.mul_assoc, Matrix.nonsing_inv_mul _ hu, Matrix.mul_one]
  unfold IsImage
  rw [e]

theorem turned_genPos {angle k dx dy : ℝ} (hk : k ≠ 0) {p p' : Fin 4 → Pt} (h : ∀ i, IsTurned angle k dx dy (p i) (p' i))
    (hp : GeneralPosition p) : GeneralPosition p' := by
  intro a b c ab bc ac hc
  apply hp a b c ab bc ac
  have ea := (isTurned_iff _ _ _ _ _ _).1 (h a)
  have eb := (isTurned_iff _ _ _ _ _ _).1 (h b)
  have ec := (isTurned_iff _ _ _ _ _ _).1 (h c)
  rw [ea, eb, ec] at hc
  unfold Collinear3 at hc ⊢
  have hs := Real.sin_sq_add_cos_sq (angle * Real.pi / 180)
  set s := Real.sin (angle * Real.pi / 180)
  set d := Real.cos (angle * Real.pi / 180)
  have : k ^ 2 * (((p b).x - (p a).x) * ((p c).y - (p a).y) - ((p b).y - (p a).y) * ((p c).x - (p a).x)) = 0 := by
    linear_combination hc - k ^ 2 * (((p b).x - (p a).x) * ((p c).y - (p a).y) - ((p b).y - (p a).y) * ((p c).x - (p a).x)) * hs
  exact sub_eq_zero.1 ((mul_eq_zero.1 this).resolve_left (pow_ne_zero 2 hk))

theorem correctPerspectiveImage_reads (S : Sampler) (rnd : ℝ → ℝ) (m : Mat ℝ) (c : Fin 8 → ℝ) :
    ∃ out, correctPerspectiveImage S rnd m (List.ofFn c) none = .ok out ∧ ReadsProjective S rnd (coefMatrix c) m out := by
  have e : generatePerspectiveMap rnd m (List.ofFn c) = .ok fun i j =>
      ⟨rnd (clip (projPt c ⟨(i : ℝ), (j : ℝ)⟩).y 0 ((m.height : ℝ) - 1)), rnd (clip (projPt c ⟨(i : ℝ), (j : ℝ)⟩).x 0 ((m.width : ℝ) - 1))⟩ := by
    simp only [generatePerspectiveMap, List.ofFn_succ, List.ofFn_zero]
    rfl
  refine ⟨⟨m.height, m.width, fun i j => S m (rnd (clip (projPt c ⟨(i : ℝ), (j : ℝ)⟩).y 0 ((m.height : ℝ) - 1)))
    (rnd (clip (projPt c ⟨(i : ℝ), (j : ℝ)⟩).x 0 ((m.width : ℝ) - 1)))⟩,
    by rw [correctPerspectiveImage, if_neg (by simp), e]; rfl, rfl, rfl, ?_⟩
  intro i hi j hj q hq
  have hf := ((isImage_iff_solvesAt _ _ _).1 hq).1
  have hy : (1 : ℝ) ≤ m.height := by exact_mod_cast (by omega : 1 ≤ m.height)
  have hx : (1 : ℝ) ≤ m.width := by exact_mod_cast (by omega : 1 ≤ m.width)
  rw [← (isImage_projPt hf).unique hq, ← clip_eq_clampTo (by linarith), ← clip_eq_clampTo (by linarith)]

theorem correctChannels_reads (S : Sampler) (rnd : ℝ → ℝ) (h w n : ℕ) (get : ℕ → ℕ → ℕ → ℝ) (c : Fin 8 → ℝ) :
    ∃ out, correctChannels S rnd (.color h w n get) (List.ofFn c) = .ok out ∧
      ReadsProjectiveColour S rnd (coefMatrix c) (.color h w n get) out := by
  choose f hf hr using fun ch => correctPerspectiveImage_reads S rnd (channel h w get ch) c
  have e : ((List.range n).mapM fun ch => correctPerspectiveImage S rnd (channel h w get ch) (List.ofFn c) none) =
      .ok ((List.range n).map f) := by
    rw [mapM_ok_iff, List.forall₂_map_right_iff, List.forall₂_same]
    exact fun ch _ => hf ch
  refine ⟨.color h w n fun i j c => (((List.range n).map f).getD c ⟨h, w, fun _ _ => 0⟩).get i j,
    by unfold correctChannels; simp only [e, ok_bind], rfl, rfl, rfl, ?_⟩
  intro ch hch
  have e2 : ((List.range n).map f).getD ch ⟨h, w, fun _ _ => 0⟩ = f ch := by
    rw [List.getD_eq_getElem?_getD]
    simp [hch]
  simp only [e2]
  obtain ⟨h1, h2, h3⟩ := hr ch
  exact ⟨rfl, rfl, h3⟩

end Discorpy
