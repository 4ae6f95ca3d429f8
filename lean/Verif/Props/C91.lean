import Verif.Lemmas.Accuracy
import Verif.Props.C01
import Verif.Props.C15

/-! # C91 — accuracy of the unwarped images -/

namespace Discorpy

open Spec

/-- The coordinates at which a pixel is sampled. -/
theorem unwarp_samples (B : Boundary) {rnd : ℝ → ℝ} (hr : CoordRounding rnd) (m : Mat ℝ) (xc yc : ℝ) (coefs : List ℝ)
    (hh : m.height ≤ 2 ^ 24) (hw : m.width ≤ 2 ^ 24) {i j : ℕ} (hi : i < m.height) (hj : j < m.width) :
    ∃ q : Pt, InFrame m q.y q.x ∧ InFrame m (rnd q.y) (rnd q.x) ∧
      (unwarpImageBackward (linearInterp B) rnd m xc yc coefs).get i j = bilinear m (rnd q.y) (rnd q.x) ∧
      (unwarpImageBackward (linearInterp B) id m xc yc coefs).get i j = bilinear m q.y q.x ∧
      (InFrame m (radialMap ⟨yc, xc⟩ coefs ⟨i, j⟩).y (radialMap ⟨yc, xc⟩ coefs ⟨i, j⟩).x → q = radialMap ⟨yc, xc⟩ coefs ⟨i, j⟩) := by
  have hc := inFrame_clip (m := m) (by omega) (by omega) (radialMap ⟨yc, xc⟩ coefs ⟨i, j⟩).y (radialMap ⟨yc, xc⟩ coefs ⟨i, j⟩).x
  have hf := inFrame_rnd hr hc (by omega) (by omega) hh hw
  refine ⟨⟨_, _⟩, hc, hf, ?_, ?_, fun hin => ?_⟩
  · refine Eq.trans ?_ (linearInterp_eq B _ hf)
    simp only [unwarpImageBackward, polySum_eq_radial]
    rfl
  · refine Eq.trans ?_ (linearInterp_eq B _ hc)
    simp only [unwarpImageBackward, polySum_eq_radial]
    rfl
  · obtain ⟨h1, h2, h3, h4⟩ := hin
    ext
    · simp only [clip]
      simp [h1, h2]
    · simp only [clip]
      simp [h3, h4]

theorem roundsBy_frame {δ : ℝ} {rnd : ℝ → ℝ} {m : Mat ℝ} (h : RoundsBy δ rnd m) {y x : ℝ} (hf : InFrame m y x) : |rnd y - y| ≤ δ ∧ |rnd x - x| ≤ δ :=
  ⟨h y hf.1 (hf.2.1.trans (le_max_left _ _)), h x hf.2.2.1 (hf.2.2.2.trans (le_max_right _ _))⟩

theorem ptDist_le {p q : Pt} {d : ℝ} (h1 : |p.y - q.y| ≤ d) (h2 : |p.x - q.x| ≤ d) : ptDist p q ≤ √2 * d := by
  have hd : 0 ≤ d := (abs_nonneg _).trans h1
  unfold ptDist
  rw [← Real.sqrt_sq hd, ← Real.sqrt_mul (by norm_num)]
  apply Real.sqrt_le_sqrt
  have e1 := sq_le_sq' (by linarith [abs_le.1 h1]) (abs_le.1 h1).2
  have e2 := sq_le_sq' (by linarith [abs_le.1 h2]) (abs_le.1 h2).2
  linarith

/-- **C91 (scene).** An image shows a scene through a lens, and the model of the lens is right for a pixel: it leads to a point of the
frame that shows this very point of the scene. Then the unwarped pixel differs from the brightness of the scene there by no more than the
brightness in the image changes over the diagonal of a pixel, enlarged by twice the rounding of the coordinates. -/
theorem C91_scene (B : Boundary) {rnd : ℝ → ℝ} (hr : CoordRounding rnd) {δ : ℝ} (m : Mat ℝ) (hδ : RoundsBy δ rnd m) (g : Pt → ℝ) (T : Pt → Pt)
    (hm : Shows g T m) (L : ℝ) (hL : 0 ≤ L) (hlip : ChangesAtMost L g T m) (xc yc : ℝ) (coefs : List ℝ) (hh : m.height ≤ 2 ^ 24) (hw : m.width ≤ 2 ^ 24)
    (i j : ℕ) (hi : i < m.height) (hj : j < m.width)
    (hin : InFrame m (radialMap ⟨yc, xc⟩ coefs ⟨i, j⟩).y (radialMap ⟨yc, xc⟩ coefs ⟨i, j⟩).x) (hT : T (radialMap ⟨yc, xc⟩ coefs ⟨i, j⟩) = ⟨i, j⟩) :
    |(unwarpImageBackward (linearInterp B) rnd m xc yc coefs).get i j - g ⟨i, j⟩| ≤ L * (√2 * (1 + δ)) := by
  obtain ⟨q, hq, hq', e, _, he⟩ := unwarp_samples B hr m xc yc coefs hh hw hi hj
  obtain ⟨d1, d2⟩ := roundsBy_frame hδ hq
  rw [e, ← hT, ← he hin]
  refine bilinear_near hq' fun a ha b hb h1 h2 => ?_
  rw [hm a ha b hb]
  have hab : InFrame m (a : ℝ) (b : ℝ) := by
    have e1 : ((a + 1 : ℕ) : ℝ) ≤ m.height := by exact_mod_cast ha
    have e2 : ((b + 1 : ℕ) : ℝ) ≤ m.width := by exact_mod_cast hb
    push_cast at e1 e2
    exact ⟨Nat.cast_nonneg _, by linarith, Nat.cast_nonneg _, by linarith⟩
  refine (hlip ⟨a, b⟩ q hab hq).trans (mul_le_mul_of_nonneg_left (ptDist_le ?_ ?_) hL)
  · have := abs_sub_le (a : ℝ) (rnd q.y) q.y
    linarith
  · have := abs_sub_le (b : ℝ) (rnd q.x) q.x
    linarith

/-- **C91 (smooth scene).** If moreover the brightness seen through the lens is smooth, with second derivatives along the columns and the
rows of at most `My` and `Mx`, the difference is at most `(My + Mx) / 8`, and what the rounding adds. -/
theorem C91_smooth (B : Boundary) {rnd : ℝ → ℝ} (hr : CoordRounding rnd) {δ : ℝ} (m : Mat ℝ) (hδ : RoundsBy δ rnd m) (g : Pt → ℝ) (T : Pt → Pt)
    (hm : Shows g T m) (L : ℝ) (hL : 0 ≤ L) (hlip : ChangesAtMost L g T m) (My Mx : ℝ) (hMy : 0 ≤ My) (hMx : 0 ≤ Mx)
    (hy : ∀ x, 0 ≤ x → x ≤ (m.width : ℝ) - 1 → BendsAtMost My (fun t => g (T ⟨t, x⟩)) 0 ((m.height : ℝ) - 1))
    (hx : ∀ y, 0 ≤ y → y ≤ (m.height : ℝ) - 1 → BendsAtMost Mx (fun t => g (T ⟨y, t⟩)) 0 ((m.width : ℝ) - 1))
    (xc yc : ℝ) (coefs : List ℝ) (hh : m.height ≤ 2 ^ 24) (hw : m.width ≤ 2 ^ 24)
    (i j : ℕ) (hi : i < m.height) (hj : j < m.width)
    (hin : InFrame m (radialMap ⟨yc, xc⟩ coefs ⟨i, j⟩).y (radialMap ⟨yc, xc⟩ coefs ⟨i, j⟩).x) (hT : T (radialMap ⟨yc, xc⟩ coefs ⟨i, j⟩) = ⟨i, j⟩) :
    |(unwarpImageBackward (linearInterp B) rnd m xc yc coefs).get i j - g ⟨i, j⟩| ≤ (My + Mx) / 8 + L * (√2 * δ) := by
  obtain ⟨q, hq, hq', e, _, he⟩ := unwarp_samples B hr m xc yc coefs hh hw hi hj
  obtain ⟨d1, d2⟩ := roundsBy_frame hδ hq
  rw [e, ← hT, ← he hin]
  have h1 := bilinear_smooth (m := m) (F := fun y x => g (T ⟨y, x⟩)) hm hMy hMx hy hx hq'
  have h2 := (hlip ⟨rnd q.y, rnd q.x⟩ q hq' hq).trans (mul_le_mul_of_nonneg_left (ptDist_le d1 d2) hL)
  have h3 := abs_sub_le (bilinear m (rnd q.y) (rnd q.x)) (g (T ⟨rnd q.y, rnd q.x⟩)) (g (T q))
  linarith

/-- **C91 (linear scene).** A brightness that is linear in the coordinates of the image is reproduced without error if the coordinates are
not rounded. -/
theorem C91_linear (B : Boundary) (m : Mat ℝ) (g : Pt → ℝ) (T : Pt → Pt) (hm : Shows g T m) (a b c : ℝ) (hg : ∀ p, g (T p) = a * p.y + b * p.x + c)
    (xc yc : ℝ) (coefs : List ℝ) (hh : m.height ≤ 2 ^ 24) (hw : m.width ≤ 2 ^ 24) (i j : ℕ) (hi : i < m.height) (hj : j < m.width)
    (hin : InFrame m (radialMap ⟨yc, xc⟩ coefs ⟨i, j⟩).y (radialMap ⟨yc, xc⟩ coefs ⟨i, j⟩).x) (hT : T (radialMap ⟨yc, xc⟩ coefs ⟨i, j⟩) = ⟨i, j⟩) :
    (unwarpImageBackward (linearInterp B) id m xc yc coefs).get i j = g ⟨i, j⟩ := by
  obtain ⟨q, hq, _, _, e, he⟩ := unwarp_samples B coordRounding_id m xc yc coefs hh hw hi hj
  rw [e, ← hT, ← he hin]
  have hbend : ∀ u v : ℝ, ∀ n : ℝ, BendsAtMost 0 (fun t => u * t + v) 0 n := by
    intro u v n
    refine ⟨by fun_prop, fun _ => u, fun _ => 0, fun t _ _ => ⟨?_, hasDerivAt_const _ _, by simp⟩⟩
    have := ((hasDerivAt_id t).const_mul u).add_const v
    exact this.congr_deriv (by ring)
  have h1 := bilinear_smooth (m := m) (F := fun y x => g (T ⟨y, x⟩)) hm le_rfl le_rfl
    (fun x _ _ => by
      have : (fun t => g (T ⟨t, x⟩)) = fun t => a * t + (b * x + c) := by
        funext t
        rw [hg]
        ring
      simp only [this]
      exact hbend _ _ _)
    (fun y _ _ => by
      have : (fun t => g (T ⟨y, t⟩)) = fun t => b * t + (a * y + c) := by
        funext t
        rw [hg]
        ring
      simp only [this]
      exact hbend _ _ _) hq
  rw [add_zero, zero_div] at h1
  have := abs_nonpos_iff.1 h1
  linarith

/-- **C91 (rounding).** The rounding of the coordinates changes no pixel of the unwarped image by more than `δ` times the largest
differences of neighbouring pixels along columns and rows together. -/
theorem C91_rounding (B : Boundary) {rnd : ℝ → ℝ} (hr : CoordRounding rnd) {δ : ℝ} (m : Mat ℝ) (hδ : RoundsBy δ rnd m) (V U : ℝ) (hV : 0 ≤ V) (hU : 0 ≤ U)
    (hs : StepsAtMost V U m) (xc yc : ℝ) (coefs : List ℝ) (hh : m.height ≤ 2 ^ 24) (hw : m.width ≤ 2 ^ 24) (i j : ℕ) (hi : i < m.height) (hj : j < m.width) :
    |(unwarpImageBackward (linearInterp B) rnd m xc yc coefs).get i j - (unwarpImageBackward (linearInterp B) id m xc yc coefs).get i j| ≤ δ * (V + U) := by
  obtain ⟨q, hq, hq', e1, e2, _⟩ := unwarp_samples B hr m xc yc coefs hh hw hi hj
  obtain ⟨d1, d2⟩ := roundsBy_frame hδ hq
  rw [e1, e2]
  have := bilinear_lipschitz hV hU hs hq hq'
  nlinarith [mul_le_mul_of_nonneg_left d1 hV, mul_le_mul_of_nonneg_left d2 hU]

/-- **C91 (sinogram and image).** `unwarp_slice_backward` does not round coordinates and `unwarp_image_backward` does; row `k` of the
unwarped projection `i` and row `i` of the unwarped slice `k` therefore differ, but by no more than that. -/
theorem C91_slice (B B' : Boundary) {rnd : ℝ → ℝ} (hr : CoordRounding rnd) (d h w : ℕ) (get : List ℕ → ℝ) {δ : ℝ} (V U : ℝ) (hV : 0 ≤ V) (hU : 0 ≤ U)
    (xc yc : ℝ) (coefs : List ℝ) (hne : coefs ≠ []) (k : ℕ) (hk : k < h) (hh : h ≤ 32767) (hw : 0 < w) (hw' : w ≤ 2 ^ 24) :
    ∃ out, unwarpSliceBackward B ⟨[d, h, w], get⟩ xc yc coefs k = .ok out ∧ out.height = d ∧ out.width = w ∧
      ∀ i < d, RoundsBy δ rnd ⟨h, w, fun y x => get [i, y, x]⟩ → StepsAtMost V U ⟨h, w, fun y x => get [i, y, x]⟩ → ∀ j < w,
        |(unwarpImageBackward (linearInterp B') rnd ⟨h, w, fun y x => get [i, y, x]⟩ xc yc coefs).get k j - out.get i j| ≤ δ * (V + U) := by
  obtain ⟨out, e, h1, h2, h3⟩ := C01_slice_eq_image_row B B' d h w get xc yc coefs hne k hk hh hw
  refine ⟨out, e, h1, h2, fun i hi hδ hs j hj => ?_⟩
  rw [h3 i hi j hj]
  exact C91_rounding B' hr _ hδ V U hV hU hs xc yc coefs (by simpa using by omega) (by simpa using hw') k j hk hj

/-- **C91 (perspective).** The same bound for `correct_perspective_image`: an image shows a plane through the perspective map. -/
theorem C91_perspective (B : Boundary) {rnd : ℝ → ℝ} (hr : CoordRounding rnd) {δ : ℝ} (m : Mat ℝ) (hδ : RoundsBy δ rnd m) (g : Pt → ℝ) (T : Pt → Pt)
    (hm : Shows g T m) (L : ℝ) (hL : 0 ≤ L) (hlip : ChangesAtMost L g T m) (c : Fin 8 → ℝ) (hh : m.height ≤ 2 ^ 24) (hw : m.width ≤ 2 ^ 24)
    (hden : ∀ i < m.height, ∀ j < m.width, FiniteAt (coefMatrix c) ⟨(i : ℝ), (j : ℝ)⟩) :
    ∃ out, correctPerspectiveImage (linearInterp B) rnd m (List.ofFn c) none = .ok out ∧
      ∀ i < m.height, ∀ j < m.width, ∀ q, IsImage (coefMatrix c) ⟨(i : ℝ), (j : ℝ)⟩ q → InFrame m q.y q.x → T q = ⟨i, j⟩ →
        |out.get i j - g ⟨i, j⟩| ≤ L * (√2 * (1 + δ)) := by
  obtain ⟨out, e, _, _, hv⟩ := C16_image_samples_map B rnd hr m c hh hw hden
  refine ⟨out, e, fun i hi j hj q hq hin hT => ?_⟩
  have hc : ∀ n v : ℝ, 0 ≤ v → v ≤ n → clampTo n v = v := by
    intro n v h0 h1
    unfold clampTo
    rw [min_eq_right h1, max_eq_right h0]
  rw [hv i hi j hj q hq, hc _ _ hin.1 hin.2.1, hc _ _ hin.2.2.1 hin.2.2.2, ← hT]
  have hq' := inFrame_rnd hr hin (by omega) (by omega) hh hw
  obtain ⟨d1, d2⟩ := roundsBy_frame hδ hin
  refine bilinear_near hq' fun a ha b hb h1 h2 => ?_
  rw [hm a ha b hb]
  have hab : InFrame m (a : ℝ) (b : ℝ) := by
    have e1 : ((a + 1 : ℕ) : ℝ) ≤ m.height := by exact_mod_cast ha
    have e2 : ((b + 1 : ℕ) : ℝ) ≤ m.width := by exact_mod_cast hb
    push_cast at e1 e2
    exact ⟨Nat.cast_nonneg _, by linarith, Nat.cast_nonneg _, by linarith⟩
  refine (hlip ⟨a, b⟩ q hab hin).trans (mul_le_mul_of_nonneg_left (ptDist_le ?_ ?_) hL)
  · have := abs_sub_le (a : ℝ) (rnd q.y) q.y
    linarith
  · have := abs_sub_le (b : ℝ) (rnd q.x) q.x
    linarith

/-! ### A magnified parabola

A 5 × 5 image of the scene whose brightness is the square of the row, seen through a lens that shrinks by two; the coefficient list
`[1/2]` is its model. -/

/-- The image. -/
noncomputable def parabola5 : Mat ℝ := ⟨5, 5, fun i _ => (2 * (i : ℝ)) ^ 2⟩

theorem parabola5_shows : Shows (fun p => p.y ^ 2) (fun p => ⟨2 * p.y, 2 * p.x⟩) parabola5 := fun _ _ _ _ => rfl

theorem parabola5_changes : ChangesAtMost 32 (fun p => p.y ^ 2) (fun p => ⟨2 * p.y, 2 * p.x⟩) parabola5 := by
  rintro p q ⟨p1, p2, _⟩ ⟨q1, q2, _⟩
  have h1 : |p.y - q.y| ≤ ptDist p q := by
    unfold ptDist
    rw [← Real.sqrt_sq_eq_abs]
    exact Real.sqrt_le_sqrt (by nlinarith [sq_nonneg (p.x - q.x)])
  have h2 : |p.y + q.y| ≤ 8 := by
    simp only [parabola5] at p2 q2
    rw [abs_of_nonneg (by linarith)]
    norm_num at p2 q2
    linarith
  have e : (2 * p.y) ^ 2 - (2 * q.y) ^ 2 = 4 * ((p.y - q.y) * (p.y + q.y)) := by ring
  show |(2 * p.y) ^ 2 - (2 * q.y) ^ 2| ≤ _
  rw [e, abs_mul, abs_mul, abs_of_pos (by norm_num : (0 : ℝ) < 4)]
  nlinarith [mul_le_mul h1 h2 (abs_nonneg _) ((abs_nonneg _).trans h1)]

theorem parabola5_bends : (∀ x : ℝ, 0 ≤ x → x ≤ (parabola5.width : ℝ) - 1 →
      BendsAtMost 8 (fun t => (fun p : Pt => p.y ^ 2) ((fun p : Pt => (⟨2 * p.y, 2 * p.x⟩ : Pt)) ⟨t, x⟩)) 0 ((parabola5.height : ℝ) - 1)) ∧
    ∀ y : ℝ, 0 ≤ y → y ≤ (parabola5.height : ℝ) - 1 →
      BendsAtMost 0 (fun t => (fun p : Pt => p.y ^ 2) ((fun p : Pt => (⟨2 * p.y, 2 * p.x⟩ : Pt)) ⟨y, t⟩)) 0 ((parabola5.width : ℝ) - 1) := by
  refine ⟨fun x _ _ => ⟨?_, fun t => 8 * t, fun _ => 8, fun t _ _ => ⟨?_, ?_, by norm_num⟩⟩,
    fun y _ _ => ⟨continuousOn_const (c := (2 * y) ^ 2), fun _ => 0, fun _ => 0, fun t _ _ => ⟨hasDerivAt_const t ((2 * y) ^ 2), hasDerivAt_const t (0 : ℝ), by simp⟩⟩⟩
  · exact Continuous.continuousOn (by fun_prop)
  · have := ((hasDerivAt_id t).const_mul 2).pow 2
    exact this.congr_deriv (by simp; ring)
  · exact ((hasDerivAt_id t).const_mul 8).congr_deriv (by ring)

theorem parabola5_map (i j : ℕ) (hi : i < 5) (hj : j < 5) :
    radialMap ⟨0, 0⟩ [1 / 2] ⟨i, j⟩ = ⟨(i : ℝ) / 2, (j : ℝ) / 2⟩ ∧ InFrame parabola5 ((i : ℝ) / 2) ((j : ℝ) / 2) := by
  have e1 : (i : ℝ) < 5 := by exact_mod_cast hi
  have e2 : (j : ℝ) < 5 := by exact_mod_cast hj
  refine ⟨?_, by positivity, ?_, by positivity, ?_⟩
  · ext <;> simp [radialMap, radial] <;> ring
  · simp only [parabola5]
    norm_num
    linarith
  · simp only [parabola5]
    norm_num
    linarith

/-- The hypotheses of `C91_scene` and `C91_smooth` hold at every pixel; without rounding the second says the error is at most one … -/
example (B : Boundary) (i j : ℕ) (hi : i < 5) (hj : j < 5) :
    |(unwarpImageBackward (linearInterp B) id parabola5 0 0 [1 / 2]).get i j - (i : ℝ) ^ 2| ≤ 1 := by
  obtain ⟨e, hf⟩ := parabola5_map i j hi hj
  have := C91_smooth B coordRounding_id (δ := 0) parabola5 (fun v _ _ => by simp) _ _ parabola5_shows 32 (by norm_num) parabola5_changes 8 0
    (by norm_num) le_rfl parabola5_bends.1 parabola5_bends.2 0 0 [1 / 2] (by norm_num [parabola5]) (by norm_num [parabola5]) i j hi hj
    (by rw [e]; exact hf) (by rw [e]; ext <;> simp <;> ring)
  norm_num at this
  exact this

/-- … and the error is one at the second pixel, halfway between two pixels of the image: the bound cannot be improved. -/
example (B : Boundary) : (unwarpImageBackward (linearInterp B) id parabola5 0 0 [1 / 2]).get 1 0 - (1 : ℝ) ^ 2 = 1 := by
  obtain ⟨e, hf⟩ := parabola5_map 1 0 (by norm_num) (by norm_num)
  obtain ⟨q, _, _, _, e2, he⟩ := unwarp_samples B coordRounding_id parabola5 0 0 [1 / 2] (by norm_num [parabola5]) (by norm_num [parabola5])
    (i := 1) (j := 0) (by norm_num [parabola5]) (by norm_num [parabola5])
  rw [e2, he (by rw [e]; exact hf), e]
  have hfl : ⌊(1 / 2 : ℝ)⌋₊ = 0 := by rw [Nat.floor_eq_zero]; norm_num
  norm_num [bilinear, parabola5, hfl]

/-- Rounding coordinates to multiples of `1/1024` is a rounding with `δ = 1/2048`. -/
example (B : Boundary) (i j : ℕ) (hi : i < 5) (hj : j < 5) :
    |(unwarpImageBackward (linearInterp B) (fun v => ((⌊v * 1024 + 1 / 2⌋ : ℤ) : ℝ) / 1024) parabola5 0 0 [1 / 2]).get i j - (i : ℝ) ^ 2| ≤
      1 + 32 * (√2 * (1 / 2048)) := by
  obtain ⟨e, hf⟩ := parabola5_map i j hi hj
  have hr : CoordRounding fun v : ℝ => ((⌊v * 1024 + 1 / 2⌋ : ℤ) : ℝ) / 1024 := by
    refine ⟨fun a b hab => ?_, fun k _ => ?_⟩
    · have : ⌊a * 1024 + 1 / 2⌋ ≤ ⌊b * 1024 + 1 / 2⌋ := Int.floor_le_floor (by linarith)
      have : ((⌊a * 1024 + 1 / 2⌋ : ℤ) : ℝ) ≤ ((⌊b * 1024 + 1 / 2⌋ : ℤ) : ℝ) := by exact_mod_cast this
      show _ / _ ≤ _ / _
      linarith
    · have : ⌊(k : ℝ) * 1024 + 1 / 2⌋ = (k : ℤ) * 1024 := by
        rw [Int.floor_eq_iff]
        push_cast
        constructor <;> linarith
      show _ / _ = _
      rw [this]
      push_cast
      ring
  have := C91_smooth B hr (δ := 1 / 2048) parabola5 (fun v _ _ => by
      have h1 := Int.floor_le (v * 1024 + 1 / 2)
      have h2 := Int.lt_floor_add_one (v * 1024 + 1 / 2)
      rw [abs_le]
      constructor <;> linarith) _ _ parabola5_shows 32 (by norm_num) parabola5_changes 8 0
    (by norm_num) le_rfl parabola5_bends.1 parabola5_bends.2 0 0 [1 / 2] (by norm_num [parabola5]) (by norm_num [parabola5]) i j hi hj
    (by rw [e]; exact hf) (by rw [e]; ext <;> simp <;> ring)
  norm_num at this ⊢
  exact this

/-- A ramp is unwarped without error (`C91_linear`), and its neighbouring pixels differ by the slopes (`C91_rounding`). -/
example (B : Boundary) (i j : ℕ) (hi : i < 5) (hj : j < 5) :
    (unwarpImageBackward (linearInterp B) id ⟨5, 5, fun i j => 2 * (i : ℝ) + 6 * (j : ℝ) + 1⟩ 0 0 [1 / 2]).get i j = (i : ℝ) + 3 * j + 1 := by
  obtain ⟨e, hf⟩ := parabola5_map i j hi hj
  have := C91_linear B ⟨5, 5, fun i j => 2 * (i : ℝ) + 6 * (j : ℝ) + 1⟩ (fun p => p.y + 3 * p.x + 1) (fun p => ⟨2 * p.y, 2 * p.x⟩)
    (fun i _ j _ => by ring) 2 6 1 (fun p => by ring) 0 0 [1 / 2] (by norm_num) (by norm_num) i j hi hj (by rw [e]; exact hf) (by rw [e]; ext <;> simp <;> ring)
  exact this

theorem ramp_steps : StepsAtMost 2 6 ⟨5, 5, fun i j => 2 * (i : ℝ) + 6 * (j : ℝ) + 1⟩ := by
  constructor
  · intro i _ j _
    have : 2 * ((i + 1 : ℕ) : ℝ) + 6 * (j : ℝ) + 1 - (2 * (i : ℝ) + 6 * (j : ℝ) + 1) = 2 := by
      push_cast
      ring
    show |2 * ((i + 1 : ℕ) : ℝ) + 6 * (j : ℝ) + 1 - (2 * (i : ℝ) + 6 * (j : ℝ) + 1)| ≤ 2
    rw [this]
    norm_num
  · intro i _ j _
    have : 2 * (i : ℝ) + 6 * ((j + 1 : ℕ) : ℝ) + 1 - (2 * (i : ℝ) + 6 * (j : ℝ) + 1) = 6 := by
      push_cast
      ring
    show |2 * (i : ℝ) + 6 * ((j + 1 : ℕ) : ℝ) + 1 - (2 * (i : ℝ) + 6 * (j : ℝ) + 1)| ≤ 6
    rw [this]
    norm_num

/-- A slice of a stack of two ramps, with coordinates rounded in the image. -/
example (B B' : Boundary) {rnd : ℝ → ℝ} (hr : CoordRounding rnd) (δ : ℝ) := C91_slice B B' hr 2 5 4 (fun l => (l.sum : ℝ)) (δ := δ) 1 1 (by norm_num) (by norm_num)
  2 2 [1, 1 / 10] (by simp) 3 (by norm_num) (by norm_num) (by norm_num) (by norm_num)
/-- The same scene with the perspective map that halves coordinates. -/
example (B : Boundary) := C91_perspective B coordRounding_id (δ := 0) parabola5 (fun v _ _ => by simp) _ _ parabola5_shows 32 (by norm_num) parabola5_changes
  ![1 / 2, 0, 0, 0, 1 / 2, 0, 0, 0] (by norm_num [parabola5]) (by norm_num [parabola5]) (by
    intro i _ j _
    simp [FiniteAt, coefMatrix, homog, Matrix.mulVec, dotProduct, Fin.sum_univ_three])

end Discorpy
