import Verif.Lemmas.Sensitivity
import Verif.Props.C91
import Verif.Props.C99
import Verif.Props.C101

/-!
# C119: how much errors of the model matter
-/

namespace Discorpy

open Spec

/-- **C119 (centre).** An error of the centre moves the corrected points by that error times the bend of the model, which is small for the
usual lenses; a model without distortion does not notice it. -/
theorem C119_centre (c c' : Pt) (f : List ℝ) (hne : f ≠ []) (R : ℝ) (p : Pt) (h : ptDist p c ≤ R) (h' : ptDist p c' ≤ R) :
    ptDist (radialMap c f p) (radialMap c' f p) ≤ bendBound f R * ptDist c c' := by
  have e : ptDist (⟨p.y + c.y - c'.y, p.x + c.x - c'.x⟩ : Pt) c = ptDist p c' := by
    unfold ptDist
    congr 1
    simp only
    ring
  have hb := C101_radial c f hne R p ⟨p.y + c.y - c'.y, p.x + c.x - c'.x⟩ h (e.trans_le h')
  have e1 : ptDist (shift (radialMap c f) p) (shift (radialMap c f) ⟨p.y + c.y - c'.y, p.x + c.x - c'.x⟩) =
      ptDist (radialMap c f p) (radialMap c' f p) := by
    simp only [shift, radialMap, e]
    unfold ptDist
    congr 1
    simp only
    ring
  have e2 : ptDist p ⟨p.y + c.y - c'.y, p.x + c.x - c'.x⟩ = ptDist c c' := by
    unfold ptDist
    congr 1
    simp only
    ring
  rwa [e1, e2] at hb

/-- **C119 (coefficients).** -/
theorem C119_coefs (c : Pt) (f f' : List ℝ) (hl : f'.length = f.length) (R : ℝ) (p : Pt) (h : ptDist p c ≤ R) :
    ptDist (radialMap c f p) (radialMap c f' p) ≤ coefError f f' R := by
  have h0 : 0 ≤ ptDist p c := Real.sqrt_nonneg _
  have hd := radial_diff f f' hl (ptDist p c) R h0 h
  have e : ptDist (radialMap c f p) (radialMap c f' p) = ptDist p c * |radial f (ptDist p c) - radial f' (ptDist p c)| := by
    generalize hF : radial f (ptDist p c) = F
    generalize hG : radial f' (ptDist p c) = G
    have : ptDist (radialMap c f p) (radialMap c f' p) = √(((F - G) ^ 2) * ((p.y - c.y) ^ 2 + (p.x - c.x) ^ 2)) := by
      unfold radialMap
      rw [hF, hG]
      unfold ptDist
      congr 1
      simp only
      ring
    rw [this, Real.sqrt_mul (sq_nonneg _), Real.sqrt_sq_eq_abs, mul_comm]
    congr 1
    unfold ptDist
    congr 1
    ring
  rw [e]
  exact mul_le_mul h hd (abs_nonneg _) (h0.trans h)

/-- **C119 (points).** Both together, for `find_point_to_point`: the results for two models are at most `modelError` apart. -/
theorem C119_point (c c' : Pt) (f f' : List ℝ) (hne : f ≠ []) (hl : f'.length = f.length) (R : ℝ) (p : Pt) (h : ptDist p c ≤ R) (h' : ptDist p c' ≤ R)
    (order : String) :
    let a := findPointToPoint p.y p.x c.x c.y f order
    let b := findPointToPoint p.y p.x c'.x c'.y f' order
    ptDist ⟨a.1, a.2⟩ ⟨b.1, b.2⟩ ≤ modelError c c' f f' R := by
  have key : ptDist (radialMap c f p) (radialMap c' f' p) ≤ modelError c c' f f' R := by
    have h1 := C119_centre c c' f hne R p h h'
    have h2 := C119_coefs c' f f' hl R p h'
    rw [ptDist_toC] at h1 h2 ⊢
    have := norm_sub_le_norm_sub_add_norm_sub (toC (radialMap c f p)) (toC (radialMap c' f p)) (toC (radialMap c' f' p))
    unfold modelError
    linarith
  intro a b
  simp only [a, b, findPointToPoint_eq]
  split
  · refine le_of_eq_of_le ?_ key
    unfold ptDist
    congr 1
    simp only
    ring
  · exact key

theorem model_error (c c' : Pt) (f f' : List ℝ) (hne : f ≠ []) (hl : f'.length = f.length) (R : ℝ) (p : Pt) (h : ptDist p c ≤ R) (h' : ptDist p c' ≤ R) :
    ptDist (radialMap c f p) (radialMap c' f' p) ≤ modelError c c' f f' R := by
  have := C119_point c c' f f' hne hl R p h h' "yx"
  simpa [findPointToPoint_eq] using this

/-- **C119 (lines).** The dots unwarped with two models are at most `modelError` apart, one by one. -/
theorem C119_lines (lines : List (List Pt)) (c c' : Pt) (f f' : List ℝ) (hne : f ≠ []) (hl : f'.length = f.length) (R : ℝ)
    (h : ∀ l ∈ lines, ∀ p ∈ l, ptDist p c ≤ R ∧ ptDist p c' ≤ R) :
    MovedBy (modelError c c' f f' R) (unwarpLineForward id lines c.x c.y f) (unwarpLineForward id lines c'.x c'.y f') := by
  rw [unwarpLineForward_eq, unwarpLineForward_eq]
  unfold MovedBy
  rw [List.forall₂_map_left_iff, List.forall₂_map_right_iff, List.forall₂_same]
  intro l hl'
  rw [List.forall₂_map_left_iff, List.forall₂_map_right_iff, List.forall₂_same]
  intro p hp
  exact model_error c c' f f' hne hl R p (h l hl' p hp).1 (h l hl' p hp).2

/-- **C119 (verdict).** If the right model makes the rows (or columns) of dots straight, so does a model near to it, as far as
`check_distortion` can tell. -/
theorem C119_verdict (pf : PolyfitFn) (hpf : PolyfitSpec pf) (argsort : List ℝ → List ℕ) (has : ArgsortSpec argsort) (lines : List (List Pt))
    (hne' : lines ≠ []) (hl' : ∀ l ∈ lines, l ≠ []) (c c' : Pt) (f f' : List ℝ) (hne : f ≠ []) (hl : f'.length = f.length) (R : ℝ)
    (h : ∀ l ∈ lines, ∀ p ∈ l, ptDist p c ≤ R ∧ ptDist p c' ≤ R) (xc yc : ℝ) :
    ((∀ l ∈ lines, ∃ a b, (a ^ 2 + 1) * modelError c c' f f' R ^ 2 ≤ 0.15 ∧ ∀ p ∈ l, onHorLine a b (radialMap c f p)) →
      ∃ out, calcResidualHor pf argsort (unwarpLineForward id lines c'.x c'.y f') xc yc = .ok out ∧ checkDistortion out = .ok false) ∧
    ((∀ l ∈ lines, ∃ a b, (a ^ 2 + 1) * modelError c c' f f' R ^ 2 ≤ 0.15 ∧ ∀ p ∈ l, onVerLine a b (radialMap c f p)) →
      ∃ out, calcResidualVer pf argsort (unwarpLineForward id lines c'.x c'.y f') xc yc = .ok out ∧ checkDistortion out = .ok false) := by
  have hm := C119_lines lines c c' f f' hne hl R h
  have h1 : unwarpLineForward id lines c.x c.y f ≠ [] := by
    rw [unwarpLineForward_eq]
    simpa using hne'
  have h2 : ∀ l ∈ unwarpLineForward id lines c.x c.y f, l ≠ [] := by
    rw [unwarpLineForward_eq]
    intro l hm
    obtain ⟨l', hm', rfl⟩ := List.mem_map.1 hm
    simpa using hl' l' hm'
  have h3 : ∀ P : ℝ → ℝ → Pt → Prop, (∀ l ∈ lines, ∃ a b, (a ^ 2 + 1) * modelError c c' f f' R ^ 2 ≤ 0.15 ∧ ∀ p ∈ l, P a b (radialMap c f p)) →
      ∀ l ∈ unwarpLineForward id lines c.x c.y f, ∃ a b, (a ^ 2 + 1) * modelError c c' f f' R ^ 2 ≤ 0.15 ∧ ∀ p ∈ l, P a b p := by
    intro P hst
    rw [unwarpLineForward_eq]
    intro l hm
    obtain ⟨l', hm', rfl⟩ := List.mem_map.1 hm
    obtain ⟨a, b, h1, h2⟩ := hst l' hm'
    refine ⟨a, b, h1, fun p hp => ?_⟩
    obtain ⟨p', hp', rfl⟩ := List.mem_map.1 hp
    exact h2 p' hp'
  exact ⟨fun hst => C99_moved pf hpf argsort has _ _ _ hm h1 h2 (h3 onHorLine hst) xc yc,
    fun hst => C99_moved_ver pf hpf argsort has _ _ _ hm h1 h2 (h3 onVerLine hst) xc yc⟩

/-- **C119 (images).** A pixel of the unwarped image changes by at most the slope of the brightness times the displacement (and the
roundings of the coordinates). -/
theorem C119_image (B B' : Boundary) {rnd : ℝ → ℝ} (hr : CoordRounding rnd) {δ : ℝ} (m : Mat ℝ) (hδ : RoundsBy δ rnd m) (V U : ℝ) (hV : 0 ≤ V)
    (hU : 0 ≤ U) (hs : StepsAtMost V U m) (c c' : Pt) (f f' : List ℝ) (hne : f ≠ []) (hl : f'.length = f.length) (R : ℝ)
    (hh : m.height ≤ 2 ^ 24) (hw : m.width ≤ 2 ^ 24) (i j : ℕ) (hi : i < m.height) (hj : j < m.width)
    (h : ptDist ⟨i, j⟩ c ≤ R) (h' : ptDist ⟨i, j⟩ c' ≤ R) :
    |(unwarpImageBackward (linearInterp B) rnd m c.x c.y f).get i j - (unwarpImageBackward (linearInterp B') rnd m c'.x c'.y f').get i j| ≤
      √(V ^ 2 + U ^ 2) * modelError c c' f f' R + 2 * (δ * (V + U)) := by
  have k1 := C91_rounding B hr m hδ V U hV hU hs c.x c.y f hh hw i j hi hj
  have k2 := C91_rounding B' hr m hδ V U hV hU hs c'.x c'.y f' hh hw i j hi hj
  have hc := inFrame_clip (m := m) (by omega) (by omega) (radialMap c f ⟨i, j⟩).y (radialMap c f ⟨i, j⟩).x
  have hc' := inFrame_clip (m := m) (by omega) (by omega) (radialMap c' f' ⟨i, j⟩).y (radialMap c' f' ⟨i, j⟩).x
  have e1 : (unwarpImageBackward (linearInterp B) id m c.x c.y f).get i j = bilinear m (clip (radialMap c f ⟨i, j⟩).y 0 ((m.height : ℝ) - 1))
      (clip (radialMap c f ⟨i, j⟩).x 0 ((m.width : ℝ) - 1)) := by
    refine Eq.trans ?_ (linearInterp_eq B _ hc)
    simp only [unwarpImageBackward, polySum_eq_radial]
    rfl
  have e2 : (unwarpImageBackward (linearInterp B') id m c'.x c'.y f').get i j = bilinear m (clip (radialMap c' f' ⟨i, j⟩).y 0 ((m.height : ℝ) - 1))
      (clip (radialMap c' f' ⟨i, j⟩).x 0 ((m.width : ℝ) - 1)) := by
    refine Eq.trans ?_ (linearInterp_eq B' _ hc')
    simp only [unwarpImageBackward, polySum_eq_radial]
    rfl
  have k3 := bilinear_lipschitz hV hU hs hc' hc
  rw [← e1, ← e2] at k3
  have k4 := steps_le_ptDist V U (radialMap c f ⟨i, j⟩) (radialMap c' f' ⟨i, j⟩)
  have k5 := mul_le_mul_of_nonneg_left (model_error c c' f f' hne hl R ⟨i, j⟩ h h') (Real.sqrt_nonneg (V ^ 2 + U ^ 2))
  have k6 := mul_le_mul_of_nonneg_left (clip_dist (radialMap c f ⟨i, j⟩).y (radialMap c' f' ⟨i, j⟩).y 0 ((m.height : ℝ) - 1)) hV
  have k7 := mul_le_mul_of_nonneg_left (clip_dist (radialMap c f ⟨i, j⟩).x (radialMap c' f' ⟨i, j⟩).x 0 ((m.width : ℝ) - 1)) hU
  have t : ∀ a b u v : ℝ, |a - b| ≤ |a - u| + |u - v| + |b - v| := by
    intro a b u v
    rw [abs_sub_comm b v]
    have := abs_add_three (a - u) (u - v) (v - b)
    rwa [show a - u + (u - v) + (v - b) = a - b by ring] at this
  refine (t _ _ _ _).trans (add_le_add (add_le_add k1 k3) k2 |>.trans ?_)
  linarith

/-- **C119 (slices).** The same bound without rounding for `unwarp_slice_backward`. -/
theorem C119_slice (B B' : Boundary) (d h w : ℕ) (get : List ℕ → ℝ) (V U : ℝ) (hV : 0 ≤ V) (hU : 0 ≤ U)
    (hs : ∀ i < d, StepsAtMost V U ⟨h, w, fun y x => get [i, y, x]⟩) (c c' : Pt) (f f' : List ℝ) (hne : f ≠ []) (hl : f'.length = f.length) (R : ℝ)
    (k : ℕ) (hk : k < h) (hh : h ≤ 32767) (hw : 0 < w) (hw' : w ≤ 2 ^ 24) (hR : ∀ j < w, ptDist ⟨k, (j : ℕ)⟩ c ≤ R ∧ ptDist ⟨k, (j : ℕ)⟩ c' ≤ R) :
    ∃ out out', unwarpSliceBackward B ⟨[d, h, w], get⟩ c.x c.y f k = .ok out ∧ unwarpSliceBackward B' ⟨[d, h, w], get⟩ c'.x c'.y f' k = .ok out' ∧
      ∀ i < d, ∀ j < w, |out.get i j - out'.get i j| ≤ √(V ^ 2 + U ^ 2) * modelError c c' f f' R := by
  obtain ⟨o, e, -, -, h3⟩ := C01_slice_eq_image_row B B d h w get c.x c.y f hne k hk hh hw
  obtain ⟨o', e', -, -, h3'⟩ := C01_slice_eq_image_row B' B d h w get c'.x c'.y f' (by rintro rfl; exact hne (List.length_eq_zero_iff.1 hl.symm)) k hk hh hw
  refine ⟨o, o', e, e', fun i hi j hj => ?_⟩
  rw [h3 i hi j hj, h3' i hi j hj]
  have := C119_image B B coordRounding_id (δ := 0) ⟨h, w, fun y x => get [i, y, x]⟩ (fun v _ _ => by simp) V U hV hU (hs i hi) c c' f f' hne hl R
    (by simp only; omega) hw' k j hk hj (hR j hj).1 (hR j hj).2
  simpa using this

/-- **C119 (sharpness).** For a change of scale (one coefficient) the bound for the centre is attained at every point. -/
theorem C119_sharp (c c' : Pt) (k R : ℝ) (p : Pt) : ptDist (radialMap c [k] p) (radialMap c' [k] p) = bendBound [k] R * ptDist c c' := by
  have e : bendBound [k] R = |k - 1| := by
    simp [bendBound]
  have h : ∀ r, radial [k] r = k := by
    intro r
    simp [radial]
  rw [e]
  unfold radialMap
  simp only [h]
  unfold ptDist
  rw [← Real.sqrt_sq_eq_abs, ← Real.sqrt_mul (sq_nonneg _)]
  congr 1
  simp only
  ring

/-- A centre that is off by one pixel and a second coefficient that is off by one percent. -/
theorem error_small : modelError ⟨0, 0⟩ ⟨1, 0⟩ [1, 1 / 1000] [1, 101 / 100000] 20 = 0.044 := by
  have h1 : bendBound [1, 1 / 1000] 20 = 0.04 := (Fin.sum_univ_two _).trans (by norm_num)
  have h2 : ptDist ⟨0, 0⟩ ⟨1, 0⟩ = 1 := by norm_num [ptDist]
  unfold modelError coefError
  rw [h1, h2]
  simp only [List.zipWith_cons_cons, List.zipWith_nil_left, radial_cons, radial_nil]
  norm_num [abs_of_neg, abs_of_nonpos]

/-- The two models move the point `(3, 4)` to places less than `0.044` apart. -/
example (order : String) := C119_point ⟨0, 0⟩ ⟨1, 0⟩ [1, 1 / 1000] [1, 101 / 100000] (by simp) rfl 20 ⟨3, 4⟩
  (by unfold ptDist; rw [Real.sqrt_le_left (by norm_num)]; norm_num) (by unfold ptDist; rw [Real.sqrt_le_left (by norm_num)]; norm_num) order
example := C119_centre ⟨0, 0⟩ ⟨1, 0⟩ [1, 1 / 1000] (by simp) 20 ⟨3, 4⟩
  (by unfold ptDist; rw [Real.sqrt_le_left (by norm_num)]; norm_num) (by unfold ptDist; rw [Real.sqrt_le_left (by norm_num)]; norm_num)
example := C119_coefs ⟨0, 0⟩ [1, 1 / 1000] [1, 101 / 100000] rfl 20 ⟨3, 4⟩ (by unfold ptDist; rw [Real.sqrt_le_left (by norm_num)]; norm_num)

/-- A row of three dots: with the wrong model it still passes the check. -/
example : ∃ out, calcResidualHor refPolyfit refArgsort (unwarpLineForward id [[⟨0, -10⟩, ⟨0, 0⟩, ⟨0, 10⟩]] 0 1 [1, 101 / 100000]) 0 0 = .ok out ∧
    checkDistortion out = .ok false := by
  refine (C119_verdict refPolyfit refPolyfit_spec refArgsort refArgsort_spec [[⟨0, -10⟩, ⟨0, 0⟩, ⟨0, 10⟩]] (by simp) (by simp) ⟨0, 0⟩ ⟨1, 0⟩ [1, 1 / 1000]
    [1, 101 / 100000] (by simp) rfl 20 ?_ 0 0).1 ?_
  · intro l hl p hp
    obtain rfl : l = [⟨0, -10⟩, ⟨0, 0⟩, ⟨0, 10⟩] := by simpa using hl
    unfold ptDist
    simp only [List.mem_cons, List.not_mem_nil, or_false] at hp
    rcases hp with rfl | rfl | rfl <;> constructor <;> rw [Real.sqrt_le_left (by norm_num)] <;> norm_num
  · intro l hl
    obtain rfl : l = [⟨0, -10⟩, ⟨0, 0⟩, ⟨0, 10⟩] := by simpa using hl
    refine ⟨0, 0, by rw [error_small]; norm_num, ?_⟩
    intro p hp
    simp only [List.mem_cons, List.not_mem_nil, or_false] at hp
    rcases hp with rfl | rfl | rfl <;> simp [onHorLine, radialMap]

/-- Steps of the plane `3 i + 2 j`. -/
theorem plane_steps (h w : ℕ) : StepsAtMost 3 2 ⟨h, w, fun i j => 3 * (i : ℝ) + 2 * j⟩ := by
  constructor <;> intros <;> push_cast <;> ring_nf <;> norm_num

theorem near_centres (i j : ℕ) (hi : i < 5) (hj : j < 5) : ptDist ⟨i, j⟩ ⟨0, 0⟩ ≤ 20 ∧ ptDist ⟨i, j⟩ ⟨1, 0⟩ ≤ 20 := by
  have a : (i : ℝ) < 5 := by exact_mod_cast hi
  have b : (j : ℝ) < 5 := by exact_mod_cast hj
  have a' : (0 : ℝ) ≤ i := Nat.cast_nonneg i
  have b' : (0 : ℝ) ≤ j := Nat.cast_nonneg j
  unfold ptDist
  constructor <;> rw [Real.sqrt_le_left (by norm_num)] <;> norm_num <;> nlinarith

/-- An image of a slanted plane. -/
example (B B' : Boundary) (i j : ℕ) (hi : i < 5) (hj : j < 5) := C119_image B B' coordRounding_id (δ := 0) ⟨5, 5, fun i j => 3 * (i : ℝ) + 2 * j⟩
  (fun v _ _ => by simp) 3 2 (by norm_num) (by norm_num) (plane_steps 5 5) ⟨0, 0⟩ ⟨1, 0⟩ [1, 1 / 1000] [1, 101 / 100000] (by simp) rfl 20
  (by norm_num) (by norm_num) i j hi hj (near_centres i j hi hj).1 (near_centres i j hi hj).2

example (B B' : Boundary) := C119_slice B B' 2 5 5 (fun l => 3 * ((l.getD 1 0 : ℕ) : ℝ) + 2 * (l.getD 2 0 : ℕ)) 3 2 (by norm_num) (by norm_num)
  (fun _ _ => plane_steps 5 5) ⟨0, 0⟩ ⟨1, 0⟩ [1, 1 / 1000] [1, 101 / 100000] (by simp) rfl 20 2 (by norm_num) (by norm_num) (by norm_num) (by norm_num)
  (fun j hj => near_centres 2 j (by norm_num) hj)

example (order : String) := C119_point ⟨0, 0⟩ ⟨1, 0⟩ [1, 1 / 1000] [1, 101 / 100000] (by simp) rfl 20 ⟨(2 : ℕ), (3 : ℕ)⟩
  (near_centres 2 3 (by norm_num) (by norm_num)).1 (near_centres 2 3 (by norm_num) (by norm_num)).2 order
example := C119_lines [[⟨(2 : ℕ), (3 : ℕ)⟩, ⟨(2 : ℕ), (4 : ℕ)⟩]] ⟨0, 0⟩ ⟨1, 0⟩ [1, 1 / 1000] [1, 101 / 100000] (by simp) rfl 20 (by
  intro l hl p hp
  simp only [List.mem_singleton] at hl
  subst hl
  simp only [List.mem_cons, List.not_mem_nil, or_false] at hp
  rcases hp with rfl | rfl
  exacts [near_centres 2 3 (by norm_num) (by norm_num), near_centres 2 4 (by norm_num) (by norm_num)])

end Discorpy
