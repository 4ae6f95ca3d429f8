import Verif.Lemmas.FourPointScript
import Verif.Props.C17
import Verif.Props.C21

/-! # C107: correction of the perspective from four points -/

namespace Discorpy

open Spec Matrix

/-- The returned coefficients, given the map of the points. -/
theorem calc_of_homography {lstsq : LstsqFn} (hl : LstsqSpec lstsq) {s t : Fin 4 → Pt} (ht : GeneralPosition t)
    {H : Matrix (Fin 3) (Fin 3) ℝ} (hd : H.det ≠ 0) (hH : ∀ i, IsImage H (t i) (s i)) (h22 : H 2 2 ≠ 0) :
    calcPerspectiveCoefs lstsq (List.ofFn s) (List.ofFn t) "backward" = .ok (List.ofFn (normCoefs H)) := by
  rw [C18_backward_is_swapped_forward lstsq _ _ "backward" (by decide)]
  apply C17_recovers lstsq hl (List.ofFn t) (List.ofFn s) (normCoefs H) _ (det_normCoefs h22 hd) t (fun i => List.mem_ofFn.2 ⟨i, rfl⟩) ht
  rw [List.forall₂_iff_get]
  refine ⟨by simp, fun i h1 h2 => ?_⟩
  rw [isImage_normCoefs h22, List.get_ofFn, List.get_ofFn]
  exact hH _

/-- **C107** (four pairs of points). For four sources and four targets, no three of either on a line, there is exactly one projective map
(up to a factor of the matrix) taking the targets to the sources. If it does not move the corner `(0, 0)` to infinity, the returned
coefficients are this map. If it does, there are no coefficients of this map, and the returned ones fail at one of the points. -/
theorem C107_determined (lstsq : LstsqFn) (hl : LstsqSpec lstsq) (s t : Fin 4 → Pt) (hs : GeneralPosition s) (ht : GeneralPosition t) :
    ∃ H : Matrix (Fin 3) (Fin 3) ℝ, H.det ≠ 0 ∧ (∀ i, IsImage H (t i) (s i)) ∧
      (∀ H', (∀ i, IsImage H' (t i) (s i)) → ∃ k : ℝ, k ≠ 0 ∧ H' = k • H) ∧
      (FiniteAt H ⟨0, 0⟩ → ∃ c : Fin 8 → ℝ, calcPerspectiveCoefs lstsq (List.ofFn s) (List.ofFn t) "backward" = .ok (List.ofFn c) ∧
        ∀ P Q, IsImage (coefMatrix c) P Q ↔ IsImage H P Q) ∧
      (¬ FiniteAt H ⟨0, 0⟩ → ∀ c : Fin 8 → ℝ, ∃ i, ¬ IsImage (coefMatrix c) (t i) (s i)) := by
  obtain ⟨H, hd, hH⟩ := exists_homography ht hs
  refine ⟨H, hd, hH, ?_, ?_, ?_⟩
  · intro H' h'
    obtain ⟨k, rfl⟩ := homography_unique hd ht hH (fun i => ((isImage_iff_solvesAt _ _ _).1 (h' i)).2)
    refine ⟨k, ?_, rfl⟩
    rintro rfl
    have := ((isImage_iff _ _ _).1 (h' 0)).1
    simp at this
  · intro h22
    rw [finiteAt_zero] at h22
    exact ⟨_, calc_of_homography hl ht hd hH h22, isImage_normCoefs h22⟩
  · intro h22 c
    rw [finiteAt_zero, not_not] at h22
    by_contra hc
    push Not at hc
    obtain ⟨k, hk⟩ := homography_unique hd ht hH (fun i => ((isImage_iff_solvesAt _ _ _).1 (hc i)).2)
    have := congrFun (congrFun hk 2) 2
    rw [Matrix.smul_apply, h22] at this
    simp [coefMatrix] at this

/-- What is returned for four points whose order is clear. -/
theorem generate4_eq (argsort : List ℝ → List ℕ) (ha : ArgsortSpec argsort) (points : List Pt) (xy : Bool)
    (p1 p2 p3 p4 : Pt) (hperm : (points.map (if xy then swapPt else id)).Perm [p1, p2, p3, p4])
    (h13 : p1.y < p3.y) (h14 : p1.y < p4.y) (h23 : p2.y < p3.y) (h24 : p2.y < p4.y) (h12 : p1.x < p2.x)
    (h34 : p3.x < p4.x) (equalDist : Bool) (scale : ScaleOpt) :
    generate4SourceTarget argsort points xy equalDist scale =
      let a12 := (p1.y - p2.y) / (p1.x - p2.x)
      let a34 := (p3.y - p4.y) / (p3.x - p4.x)
      let a13 := (p1.x - p3.x) / (p1.y - p3.y)
      let a24 := (p2.x - p4.x) / (p2.y - p4.y)
      let ah := (a12 + a34) * 0.5
      let av := (a13 + a24) * 0.5
      let d := sideLengths scale equalDist (dist2 p1 p2) (dist2 p1 p3) (dist2 p2 p4) (dist2 p3 p4)
      let q := rectCorners (npSign ah * (|ah| + |av|) * 0.5) ((p1.y - a12 * p1.x + (p3.y - a34 * p3.x)) * 0.5)
        ((p1.x - a13 * p1.y + (p2.x - a24 * p2.y)) * 0.5) d.1 d.2
      .ok ([p1, p2, p3, p4], [q.1, q.2.1, q.2.2.1, q.2.2.2]) := by
  set pts := points.map (if xy then swapPt else id) with hpts
  have hs := ha.fancy_sorted pts Pt.y
  have hp := (ha.fancy_perm pts Pt.y).trans hperm
  obtain ⟨ht, hd⟩ := sorted_take_drop Pt.y (A := [p1, p2]) (B := [p3, p4]) hs hp (by simp [h13, h14, h23, h24])
  have e12 := sorted_pair Pt.x (ha.fancy_sorted _ Pt.x) ((ha.fancy_perm _ Pt.x).trans ht) h12
  have e34 := sorted_pair Pt.x (ha.fancy_sorted _ Pt.x) ((ha.fancy_perm _ Pt.x).trans hd) h34
  have hlen : pts.length = 4 := by simpa using hperm.length_eq
  unfold generate4SourceTarget
  simp only [List.length_cons, List.length_nil, Nat.zero_add, Nat.reduceAdd] at e12 e34
  rw [flip_map, ← hpts]
  simp only [hlen, ne_eq, not_true_eq_false, if_false, e12, e34]
  rw [finDiv_ok (sub_ne_zero.2 h12.ne), ok_bind, finDiv_ok (sub_ne_zero.2 h34.ne), ok_bind,
    finDiv_ok (sub_ne_zero.2 h13.ne), ok_bind, finDiv_ok (sub_ne_zero.2 h24.ne), ok_bind]

/-- **C107** (order of the points). The order in which the four points are given does not matter. -/
theorem C107_order (argsort : List ℝ → List ℕ) (ha : ArgsortSpec argsort) (points points' : List Pt) (hpp : points.Perm points') (xy : Bool)
    (p1 p2 p3 p4 : Pt) (hperm : (points.map (if xy then swapPt else id)).Perm [p1, p2, p3, p4])
    (h13 : p1.y < p3.y) (h14 : p1.y < p4.y) (h23 : p2.y < p3.y) (h24 : p2.y < p4.y) (h12 : p1.x < p2.x)
    (h34 : p3.x < p4.x) (equalDist : Bool) (scale : ScaleOpt) :
    generate4SourceTarget argsort points xy equalDist scale = generate4SourceTarget argsort points' xy equalDist scale := by
  rw [generate4_eq argsort ha points xy p1 p2 p3 p4 hperm h13 h14 h23 h24 h12 h34,
    generate4_eq argsort ha points' xy p1 p2 p3 p4 ((hpp.symm.map _).trans hperm) h13 h14 h23 h24 h12 h34]

/-- **C107** (from four points to the map). Let the four given points be the corners of a convex quadrilateral, a top pair and a bottom pair.
The targets are the corners of a parallelogram, no three on a line, and one invertible projective map takes the targets to the points. It takes
the rectangle of the targets onto the quadrilateral: no point of the rectangle comes from infinity or from outside, and every point of the
quadrilateral is shown in the rectangle. -/
theorem C107_rectangle (argsort : List ℝ → List ℕ) (ha : ArgsortSpec argsort) (points : List Pt) (xy : Bool)
    (p1 p2 p3 p4 : Pt) (hperm : (points.map (if xy then swapPt else id)).Perm [p1, p2, p3, p4])
    (h13 : p1.y < p3.y) (h14 : p1.y < p4.y) (h23 : p2.y < p3.y) (h24 : p2.y < p4.y) (h12 : p1.x < p2.x)
    (h34 : p3.x < p4.x) (hconv : DiagonalsCross p1 p2 p3 p4) (equalDist : Bool) (scale : ScaleOpt) (hf : ∀ f, scale = .float f → f ≠ 0) :
    ∃ (q1 q2 q3 q4 : Pt) (H : Matrix (Fin 3) (Fin 3) ℝ),
      generate4SourceTarget argsort points xy equalDist scale = .ok ([p1, p2, p3, p4], [q1, q2, q3, q4]) ∧
      GeneralPosition ![q1, q2, q3, q4] ∧ H.det ≠ 0 ∧ (∀ i, IsImage H (![q1, q2, q3, q4] i) (![p1, p2, p3, p4] i)) ∧
      (∀ P, InHull q1 q2 q3 q4 P → ∃ Q, InHull p1 p2 p3 p4 Q ∧ IsImage H P Q) ∧
      (∀ Q, InHull p1 p2 p3 p4 Q → ∃ P, InHull q1 q2 q3 q4 P ∧ IsImage H P Q) := by
  obtain ⟨q1, q2, q3, q4, e, r1, r2⟩ := C21_rectangle argsort ha points xy p1 p2 p3 p4 hperm h13 h14 h23 h24 h12 h34 equalDist scale
  have hq : ∃ h v, h ≠ 0 ∧ v ≠ 0 ∧ IsRect q1 q2 q3 q4 h v := by
    cases equalDist with
    | false => exact ⟨_, _, side_ne hf (ptDist_pos_x h12) (ptDist_pos_x h34), side_ne hf (ptDist_pos_y h13) (ptDist_pos_y h24), r1 rfl⟩
    | true =>
      have := square_ne hf (ptDist_pos_x h12) (ptDist_pos_x h34) (ptDist_pos_y h13) (ptDist_pos_y h24)
      exact ⟨_, _, this, this, r2 rfl⟩
  obtain ⟨h, v, nh, nv, hr⟩ := hq
  have gq := rect_genPos hr nh nv
  obtain ⟨H, hd, hH⟩ := exists_homography gq (diagonals_genPos hconv)
  refine ⟨q1, q2, q3, q4, H, e, gq, hd, hH, ?_⟩
  obtain ⟨w1, n1, e1⟩ := hH 0
  obtain ⟨w2, n2, e2⟩ := hH 1
  obtain ⟨w3, n3, e3⟩ := hH 2
  obtain ⟨w4, n4, e4⟩ := hH 3
  simp only [Matrix.cons_val_zero, Matrix.cons_val_one, Matrix.cons_val] at e1 e2 e3 e4
  obtain ⟨k, l, m, l0, l1, m0, m1, k1, k4, k2, k3⟩ := weights_sign hconv hr.paraX hr.paraY e1 e2 e3 e4
  have hk : k ≠ 0 := by rintro rfl; exact n1 (by rw [k1, zero_mul])
  rw [k1] at e1
  rw [k2] at e2
  rw [k3] at e3
  rw [k4] at e4
  have l1' : 0 < 1 - l := by linarith
  have m1' : 0 < 1 - m := by linarith
  have comb : ∀ (a b c d : ℝ) (P : Pt), a + b + c + d = 1 → P.x = a * q1.x + b * q2.x + c * q3.x + d * q4.x →
      P.y = a * q1.y + b * q2.y + c * q3.y + d * q4.y →
      H *ᵥ homog P = k • (a * l) • homog p1 + k • (b * m) • homog p2 + k • (c * (1 - m)) • homog p3 + k • (d * (1 - l)) • homog p4 := by
    intro a b c d P hs hx hy
    have : homog P = a • homog q1 + b • homog q2 + c • homog q3 + d • homog q4 := by
      ext i
      fin_cases i
      · simp [homog, hx]
      · simp [homog, hy]
      · simp [homog, hs]
    rw [this, Matrix.mulVec_add, Matrix.mulVec_add, Matrix.mulVec_add, Matrix.mulVec_smul, Matrix.mulVec_smul, Matrix.mulVec_smul,
      Matrix.mulVec_smul, e1, e2, e3, e4]
    simp only [smul_smul]
    congr 1
    · congr 1
      · congr 1
        · congr 1; ring
        · congr 1; ring
      · congr 1; ring
    · congr 1; ring
  constructor
  · rintro P ⟨a, b, c, d, a0, b0, c0, d0, hs, hx, hy⟩
    have hW : 0 < a * l + b * m + c * (1 - m) + d * (1 - l) := by
      have : 0 < a ∨ 0 < b ∨ 0 < c ∨ 0 < d := by
        by_contra hn
        push Not at hn
        linarith [hn.1, hn.2.1, hn.2.2.1, hn.2.2.2]
      rcases this with h | h | h | h <;> positivity
    set W := a * l + b * m + c * (1 - m) + d * (1 - l) with hWd
    refine ⟨⟨(a * l * p1.y + b * m * p2.y + c * (1 - m) * p3.y + d * (1 - l) * p4.y) / W,
        (a * l * p1.x + b * m * p2.x + c * (1 - m) * p3.x + d * (1 - l) * p4.x) / W⟩,
      ⟨a * l / W, b * m / W, c * (1 - m) / W, d * (1 - l) / W, by positivity, by positivity, by positivity, by positivity, ?_, ?_, ?_⟩,
      k * W, mul_ne_zero hk hW.ne', ?_⟩
    · rw [← add_div, ← add_div, ← add_div, ← hWd, div_self hW.ne']
    · simp only; ring
    · simp only; ring
    · rw [comb a b c d P hs hx hy]
      ext i
      fin_cases i
      · simp [homog]
        field_simp
      · simp [homog]
        field_simp
      · simp [homog]
        rw [hWd]
        ring
  · rintro Q ⟨a, b, c, d, a0, b0, c0, d0, hs, hx, hy⟩
    have hW : 0 < a / l + b / m + c / (1 - m) + d / (1 - l) := by
      have : 0 < a ∨ 0 < b ∨ 0 < c ∨ 0 < d := by
        by_contra hn
        push Not at hn
        linarith [hn.1, hn.2.1, hn.2.2.1, hn.2.2.2]
      rcases this with h | h | h | h <;> positivity
    set W := a / l + b / m + c / (1 - m) + d / (1 - l) with hWd
    have hsum : a / l / W + b / m / W + c / (1 - m) / W + d / (1 - l) / W = 1 := by
      rw [← add_div, ← add_div, ← add_div, ← hWd, div_self hW.ne']
    refine ⟨⟨a / l / W * q1.y + b / m / W * q2.y + c / (1 - m) / W * q3.y + d / (1 - l) / W * q4.y,
        a / l / W * q1.x + b / m / W * q2.x + c / (1 - m) / W * q3.x + d / (1 - l) / W * q4.x⟩,
      ⟨a / l / W, b / m / W, c / (1 - m) / W, d / (1 - l) / W, by positivity, by positivity, by positivity, by positivity, hsum, rfl, rfl⟩,
      k / W, div_ne_zero hk hW.ne', ?_⟩
    rw [comb _ _ _ _ _ hsum rfl rfl]
    have f1 : a / l / W * l = a / W := by field_simp
    have f2 : b / m / W * m = b / W := by field_simp
    have f3 : c / (1 - m) / W * (1 - m) = c / W := by field_simp
    have f4 : d / (1 - l) / W * (1 - l) = d / W := by field_simp
    rw [f1, f2, f3, f4]
    ext i
    fin_cases i
    · simp [homog, hx]
      field_simp
    · simp [homog, hy]
      field_simp
    · simp [homog]
      rw [← mul_add, ← mul_add, ← mul_add, ← add_div, ← add_div, ← add_div, hs]
      ring

/-- **C107** (the script `demo_07.py`). For a colour image and four points as in `C107_rectangle`, let `H` be the map of the targets to the
points. If `H` does not move the corner `(0, 0)` to infinity, nor the place that is turned to the corner, the script succeeds. The first
image shows at every pixel what is at the place `H` assigns to it; the second image shows the same, turned by the angle, scaled and moved. -/
theorem C107_script (lstsq : LstsqFn) (hl : LstsqSpec lstsq) (argsort : List ℝ → List ℕ) (ha : ArgsortSpec argsort) (S S3 : Sampler)
    (rnd : ℝ → ℝ) (h w n : ℕ) (get : ℕ → ℕ → ℕ → ℝ) (points : List Pt) (xy : Bool)
    (p1 p2 p3 p4 : Pt) (hperm : (points.map (if xy then swapPt else id)).Perm [p1, p2, p3, p4])
    (h13 : p1.y < p3.y) (h14 : p1.y < p4.y) (h23 : p2.y < p3.y) (h24 : p2.y < p4.y) (h12 : p1.x < p2.x)
    (h34 : p3.x < p4.x) (hconv : DiagonalsCross p1 p2 p3 p4) (equalDist : Bool) (scale : ScaleOpt) (hf : ∀ f, scale = .float f → f ≠ 0)
    (angle k dx dy : ℝ) (hk : k ≠ 0) :
    ∃ (q1 q2 q3 q4 : Pt) (H : Matrix (Fin 3) (Fin 3) ℝ),
      generate4SourceTarget argsort points xy equalDist scale = .ok ([p1, p2, p3, p4], [q1, q2, q3, q4]) ∧ H.det ≠ 0 ∧
      (∀ i, IsImage H (![q1, q2, q3, q4] i) (![p1, p2, p3, p4] i)) ∧
      ∀ o, IsTurned angle k dx dy o ⟨0, 0⟩ → FiniteAt H ⟨0, 0⟩ → FiniteAt H o → ∃ (c c' : Fin 8 → ℝ) (img img' : Img),
        fourPointScript lstsq argsort S S3 rnd (.color h w n get) points xy equalDist scale angle k dx dy =
          .ok ⟨List.ofFn c, img, List.ofFn c', img'⟩ ∧
        (∀ P Q, IsImage (coefMatrix c) P Q ↔ IsImage H P Q) ∧
        (∀ P P', IsTurned angle k dx dy P P' → ∀ Q, IsImage (coefMatrix c') P' Q ↔ IsImage H P Q) ∧
        ReadsProjectiveColour S rnd (coefMatrix c) (.color h w n get) img ∧
        ReadsProjectiveColour S3 rnd (coefMatrix c') (.color h w n get) img' := by
  obtain ⟨q1, q2, q3, q4, H, e, gq, hd, hH, _⟩ := C107_rectangle argsort ha points xy p1 p2 p3 p4 hperm h13 h14 h23 h24 h12 h34 hconv
    equalDist scale hf
  refine ⟨q1, q2, q3, q4, H, e, hd, hH, ?_⟩
  intro o ho f0 fo
  rw [finiteAt_zero] at f0
  have hu : IsUnit (turnMatrix angle k dx dy).det := by rw [turnMatrix_det]; exact isUnit_iff_ne_zero.2 (pow_ne_zero 2 hk)
  set T : Pt → Pt := fun p => ⟨(p.x * Real.sin (angle * Real.pi / 180) + p.y * Real.cos (angle * Real.pi / 180)) * k + dy,
    (p.x * Real.cos (angle * Real.pi / 180) - p.y * Real.sin (angle * Real.pi / 180)) * k + dx⟩ with hT
  have tT : ∀ p, IsTurned angle k dx dy p (T p) := fun p => (isTurned_iff _ _ _ _ _ _).2 rfl
  have tq : ∀ i, IsTurned angle k dx dy (![q1, q2, q3, q4] i) (![T q1, T q2, T q3, T q4] i) := by
    intro i
    fin_cases i
    · exact tT q1
    · exact tT q2
    · exact tT q3
    · exact tT q4
  have et : turnPoints angle k dx dy [q1, q2, q3, q4] = List.ofFn ![T q1, T q2, T q3, T q4] := by
    simp [turnPoints, hT, List.ofFn_succ]
  have c1 := calc_of_homography hl gq hd hH f0
  have d2 : (H * (turnMatrix angle k dx dy)⁻¹).det ≠ 0 := by
    rw [Matrix.det_mul, Matrix.det_nonsing_inv, Ring.inverse_eq_inv', turnMatrix_det]
    exact mul_ne_zero hd (inv_ne_zero (pow_ne_zero 2 hk))
  have f2 : (H * (turnMatrix angle k dx dy)⁻¹) 2 2 ≠ 0 := by
    rw [← finiteAt_zero]
    unfold FiniteAt at fo ⊢
    rw [← isTurned_mulVec ho, Matrix.mulVec_mulVec, Matrix.mul_assoc, Matrix.nonsing_inv_mul _ hu, Matrix.mul_one]
    exact fo
  have c2 := calc_of_homography hl (turned_genPos hk tq gq) d2 (fun i => (isTurned_image hk H (tq i) _).2 (hH i)) f2
  rw [show List.ofFn ![p1, p2, p3, p4] = [p1, p2, p3, p4] by simp [List.ofFn_succ]] at c1 c2
  rw [show List.ofFn ![q1, q2, q3, q4] = [q1, q2, q3, q4] by simp [List.ofFn_succ]] at c1
  rw [← et] at c2
  obtain ⟨i1, a1, r1⟩ := correctChannels_reads S rnd h w n get (normCoefs H)
  obtain ⟨i2, a2, r2⟩ := correctChannels_reads S3 rnd h w n get (normCoefs (H * (turnMatrix angle k dx dy)⁻¹))
  refine ⟨_, _, i1, i2, ?_, isImage_normCoefs f0, ?_, r1, r2⟩
  · unfold fourPointScript
    rw [e, ok_bind]
    simp only
    rw [c1, ok_bind, a1, ok_bind, c2, ok_bind, a2, ok_bind]
  · intro P P' hP Q
    rw [isImage_normCoefs f2, isTurned_image hk H hP]

/-- **C107** (a grey image). The script never succeeds with a grey image; with four points in order it ends with an `IndexError`. -/
theorem C107_grey (lstsq : LstsqFn) (hl : LstsqSpec lstsq) (argsort : List ℝ → List ℕ) (ha : ArgsortSpec argsort) (S S3 : Sampler)
    (rnd : ℝ → ℝ) (m : Mat ℝ) (points : List Pt) (xy equalDist : Bool) (scale : ScaleOpt) (angle k dx dy : ℝ) :
    (∀ out, fourPointScript lstsq argsort S S3 rnd (.gray m) points xy equalDist scale angle k dx dy ≠ .ok out) ∧
    ∀ (p1 p2 p3 p4 : Pt), (points.map (if xy then swapPt else id)).Perm [p1, p2, p3, p4] → p1.y < p3.y → p1.y < p4.y → p2.y < p3.y →
      p2.y < p4.y → p1.x < p2.x → p3.x < p4.x →
      fourPointScript lstsq argsort S S3 rnd (.gray m) points xy equalDist scale angle k dx dy = .error .indexError := by
  constructor
  · intro out h
    unfold fourPointScript at h
    simp only [bind_ok_iff] at h
    obtain ⟨_, _, _, _, _, h, _⟩ := h
    cases h
  · intro p1 p2 p3 p4 hperm h13 h14 h23 h24 h12 h34
    obtain ⟨q1, q2, q3, q4, e, _⟩ := C21_rectangle argsort ha points xy p1 p2 p3 p4 hperm h13 h14 h23 h24 h12 h34 equalDist scale
    have ec : ∃ c, calcPerspectiveCoefs lstsq [p1, p2, p3, p4] [q1, q2, q3, q4] "backward" = .ok c := by
      unfold calcPerspectiveCoefs
      exact ⟨_, rfl⟩
    obtain ⟨c, ec⟩ := ec
    unfold fourPointScript
    rw [e, ok_bind]
    simp only
    rw [ec, ok_bind]
    rfl

/-- **C107** (where there is no correction). Four points of an ordinary convex quadrilateral, for which no coefficients take the targets to
the points: in the corrected image, the top row would be the horizon. Whatever the least-squares solver returns, one of the four points is
missed. -/
theorem C107_horizon (argsort : List ℝ → List ℕ) (ha : ArgsortSpec argsort) :
    DiagonalsCross ⟨11, 8⟩ ⟨11, 32⟩ ⟨19, 14⟩ ⟨19, 26⟩ ∧
    generate4SourceTarget argsort [⟨8, 11⟩, ⟨32, 11⟩, ⟨14, 19⟩, ⟨26, 19⟩] true false .mean =
      .ok ([⟨11, 8⟩, ⟨11, 32⟩, ⟨19, 14⟩, ⟨19, 26⟩], [⟨10, 11⟩, ⟨10, 29⟩, ⟨20, 11⟩, ⟨20, 29⟩]) ∧
    ∀ c : Fin 8 → ℝ, ¬ List.Forall₂ (IsImage (coefMatrix c)) [⟨10, 11⟩, ⟨10, 29⟩, ⟨20, 11⟩, ⟨20, 29⟩]
      [⟨11, 8⟩, ⟨11, 32⟩, ⟨19, 14⟩, ⟨19, 26⟩] := by
  refine ⟨⟨by norm_num [Collinear3], 1 / 3, 1 / 3, by norm_num, by norm_num, by norm_num, by norm_num, by norm_num, by norm_num⟩, ?_, ?_⟩
  · rw [generate4_eq argsort ha _ _ ⟨11, 8⟩ ⟨11, 32⟩ ⟨19, 14⟩ ⟨19, 26⟩ (by simp [swapPt]) (by norm_num) (by norm_num) (by norm_num)
      (by norm_num) (by norm_num) (by norm_num)]
    have d1 : dist2 ⟨11, 8⟩ ⟨11, 32⟩ = 24 := by
      unfold dist2
      rw [show ((8 : ℝ) - 32) ^ 2 + (11 - 11) ^ 2 = 24 ^ 2 by norm_num, Real.sqrt_sq (by norm_num)]
    have d2 : dist2 ⟨11, 8⟩ ⟨19, 14⟩ = 10 := by
      unfold dist2
      rw [show ((8 : ℝ) - 14) ^ 2 + (11 - 19) ^ 2 = 10 ^ 2 by norm_num, Real.sqrt_sq (by norm_num)]
    have d3 : dist2 ⟨11, 32⟩ ⟨19, 26⟩ = 10 := by
      unfold dist2
      rw [show ((32 : ℝ) - 26) ^ 2 + (11 - 19) ^ 2 = 10 ^ 2 by norm_num, Real.sqrt_sq (by norm_num)]
    have d4 : dist2 ⟨19, 14⟩ ⟨19, 26⟩ = 12 := by
      unfold dist2
      rw [show ((14 : ℝ) - 26) ^ 2 + (19 - 19) ^ 2 = 12 ^ 2 by norm_num, Real.sqrt_sq (by norm_num)]
    simp only [d1, d2, d3, d4, sideLengths]
    norm_num [rectCorners, npSign, abs_of_pos]
  · intro c hc
    set p : Fin 4 → Pt := ![⟨10, 11⟩, ⟨10, 29⟩, ⟨20, 11⟩, ⟨20, 29⟩] with hp
    set q : Fin 4 → Pt := ![⟨11, 8⟩, ⟨11, 32⟩, ⟨19, 14⟩, ⟨19, 26⟩] with hq
    have gp : GeneralPosition p := by
      apply genPos_of <;> norm_num [Collinear3]
    set H : Matrix (Fin 3) (Fin 3) ℝ := !![40 / 3, 20, -(800 / 3); 0, 27, -160; 0, 1, 0] with hHd
    have hH : ∀ i, IsImage H (p i) (q i) := by
      intro i
      rw [isImage_iff]
      fin_cases i <;> simp [hHd, hp, hq, homog, Matrix.mulVec, dotProduct, Fin.sum_univ_three] <;> norm_num
    have hd : H.det ≠ 0 := by
      rw [Matrix.det_fin_three]
      simp [hHd]
    have hc' : ∀ i, IsImage (coefMatrix c) (p i) (q i) := by
      simp only [List.forall₂_cons] at hc
      obtain ⟨h1, h2, h3, h4, _⟩ := hc
      intro i
      fin_cases i
      · exact h1
      · exact h2
      · exact h3
      · exact h4
    obtain ⟨k, hk⟩ := homography_unique hd gp hH (fun i => ((isImage_iff_solvesAt _ _ _).1 (hc' i)).2)
    have := congrFun (congrFun hk 2) 2
    simp [coefMatrix, hHd] at this

/-- Non-vacuity of `C107_script`: a trapezoid, its image turned by a right angle, enlarged and moved. -/
example (S S3 : Sampler) (h w n : ℕ) (get : ℕ → ℕ → ℕ → ℝ) : ∃ out,
    fourPointScript refLstsq refArgsort S S3 id (.color h w n get) [⟨14, 29⟩, ⟨32, 21⟩, ⟨8, 21⟩, ⟨26, 29⟩] true false .mean 90 2 60 0 =
      .ok out := by
  have hperm : (([⟨14, 29⟩, ⟨32, 21⟩, ⟨8, 21⟩, ⟨26, 29⟩] : List Pt).map (if true then swapPt else id)).Perm
      [⟨21, 8⟩, ⟨21, 32⟩, ⟨29, 14⟩, ⟨29, 26⟩] := by
    simp only [if_true, List.map_cons, List.map_nil, swapPt]
    refine List.Perm.trans (l₂ := [⟨21, 32⟩, ⟨29, 14⟩, ⟨21, 8⟩, ⟨29, 26⟩]) (.swap _ _ _) ?_
    refine List.Perm.trans (l₂ := [⟨21, 32⟩, ⟨21, 8⟩, ⟨29, 14⟩, ⟨29, 26⟩]) (.cons _ (.swap _ _ _)) ?_
    exact .swap _ _ _
  obtain ⟨q1, q2, q3, q4, H, e, hd, hH, hs⟩ := C107_script refLstsq refLstsq_spec refArgsort refArgsort_spec S S3 id h w n get
    [⟨14, 29⟩, ⟨32, 21⟩, ⟨8, 21⟩, ⟨26, 29⟩] true ⟨21, 8⟩ ⟨21, 32⟩ ⟨29, 14⟩ ⟨29, 26⟩ hperm (by norm_num) (by norm_num) (by norm_num)
    (by norm_num) (by norm_num) (by norm_num)
    ⟨by norm_num [Collinear3], 1 / 3, 1 / 3, by norm_num, by norm_num, by norm_num, by norm_num, by norm_num, by norm_num⟩ false .mean
    (by simp) 90 2 60 0 (by norm_num)
  have et : q1 = ⟨20, 11⟩ ∧ q2 = ⟨20, 29⟩ ∧ q3 = ⟨30, 11⟩ ∧ q4 = ⟨30, 29⟩ := by
    rw [generate4_eq refArgsort refArgsort_spec _ _ ⟨21, 8⟩ ⟨21, 32⟩ ⟨29, 14⟩ ⟨29, 26⟩ hperm (by norm_num) (by norm_num) (by norm_num)
      (by norm_num) (by norm_num) (by norm_num)] at e
    have d1 : dist2 ⟨21, 8⟩ ⟨21, 32⟩ = 24 := by
      unfold dist2
      rw [show ((8 : ℝ) - 32) ^ 2 + (21 - 21) ^ 2 = 24 ^ 2 by norm_num, Real.sqrt_sq (by norm_num)]
    have d2 : dist2 ⟨21, 8⟩ ⟨29, 14⟩ = 10 := by
      unfold dist2
      rw [show ((8 : ℝ) - 14) ^ 2 + (21 - 29) ^ 2 = 10 ^ 2 by norm_num, Real.sqrt_sq (by norm_num)]
    have d3 : dist2 ⟨21, 32⟩ ⟨29, 26⟩ = 10 := by
      unfold dist2
      rw [show ((32 : ℝ) - 26) ^ 2 + (21 - 29) ^ 2 = 10 ^ 2 by norm_num, Real.sqrt_sq (by norm_num)]
    have d4 : dist2 ⟨29, 14⟩ ⟨29, 26⟩ = 12 := by
      unfold dist2
      rw [show ((14 : ℝ) - 26) ^ 2 + (29 - 29) ^ 2 = 12 ^ 2 by norm_num, Real.sqrt_sq (by norm_num)]
    simp only [d1, d2, d3, d4, sideLengths] at e
    norm_num [rectCorners, npSign, abs_of_pos] at e
    obtain ⟨a, b, c, d⟩ := e
    exact ⟨a.symm, b.symm, c.symm, d.symm⟩
  obtain ⟨rfl, rfl, rfl, rfl⟩ := et
  set H0 : Matrix (Fin 3) (Fin 3) ℝ := !![40 / 3, 20, -(1400 / 3); 0, 37, -530; 0, 1, -10] with hH0
  have gp : GeneralPosition ![(⟨20, 11⟩ : Pt), ⟨20, 29⟩, ⟨30, 11⟩, ⟨30, 29⟩] := by
    apply genPos_of <;> norm_num [Collinear3]
  have h0 : ∀ i, IsImage H0 (![(⟨20, 11⟩ : Pt), ⟨20, 29⟩, ⟨30, 11⟩, ⟨30, 29⟩] i) (![(⟨21, 8⟩ : Pt), ⟨21, 32⟩, ⟨29, 14⟩, ⟨29, 26⟩] i) := by
    intro i
    rw [isImage_iff]
    fin_cases i <;> simp [hH0, homog, Matrix.mulVec, dotProduct, Fin.sum_univ_three] <;> norm_num
  obtain ⟨k, hk⟩ := homography_unique hd gp hH (fun i => ((isImage_iff_solvesAt _ _ _).1 (h0 i)).2)
  have fin : ∀ o, FiniteAt H0 o → FiniteAt H o := by
    intro o ho h'
    apply ho
    rw [hk, Matrix.smul_mulVec, Pi.smul_apply, h', smul_zero]
  obtain ⟨_, _, _, _, r, _⟩ := hs ⟨30, 0⟩ (by
      rw [isTurned_iff, show (90 : ℝ) * Real.pi / 180 = Real.pi / 2 by ring, Real.sin_pi_div_two, Real.cos_pi_div_two]
      norm_num)
    (fin _ (by simp [FiniteAt, hH0, homog, Matrix.mulVec, dotProduct, Fin.sum_univ_three]))
    (fin _ (by simp [FiniteAt, hH0, homog, Matrix.mulVec, dotProduct, Fin.sum_univ_three]; norm_num))
  exact ⟨_, r⟩

/-- Non-vacuity of `C107_determined`: a square and a trapezoid. -/
example : GeneralPosition ![⟨0, 0⟩, ⟨0, 9⟩, ⟨9, 0⟩, ⟨9, 9⟩] ∧ GeneralPosition ![⟨11, 8⟩, ⟨11, 32⟩, ⟨19, 14⟩, ⟨19, 26⟩] := by
  constructor <;> apply genPos_of <;> norm_num [Collinear3]

/-- The points of this case in another order. -/
example (equalDist : Bool) (scale : ScaleOpt) := C107_order refArgsort refArgsort_spec [⟨21, 8⟩, ⟨21, 32⟩, ⟨29, 14⟩, ⟨29, 26⟩] [⟨21, 32⟩, ⟨21, 8⟩, ⟨29, 14⟩, ⟨29, 26⟩]
  (.swap _ _ _) false ⟨21, 8⟩ ⟨21, 32⟩ ⟨29, 14⟩ ⟨29, 26⟩ (by simp) (by norm_num) (by norm_num) (by norm_num) (by norm_num) (by norm_num) (by norm_num) equalDist scale

example (equalDist : Bool) := C107_rectangle refArgsort refArgsort_spec [⟨11, 8⟩, ⟨11, 32⟩, ⟨19, 14⟩, ⟨19, 26⟩] false ⟨11, 8⟩ ⟨11, 32⟩ ⟨19, 14⟩ ⟨19, 26⟩
  (by simp) (by norm_num) (by norm_num) (by norm_num) (by norm_num) (by norm_num) (by norm_num) (C107_horizon refArgsort refArgsort_spec).1 equalDist (.float 2)
  (by rintro f h; cases h; norm_num)

example (S S3 : Sampler) (equalDist : Bool) (scale : ScaleOpt) (angle k dx dy : ℝ) :
    fourPointScript refLstsq refArgsort S S3 id (.gray ⟨40, 40, fun i j => i + j⟩) [⟨11, 8⟩, ⟨11, 32⟩, ⟨19, 14⟩, ⟨19, 26⟩] false equalDist scale angle k dx dy =
      .error .indexError :=
  (C107_grey refLstsq refLstsq_spec refArgsort refArgsort_spec S S3 id _ _ false equalDist scale angle k dx dy).2 ⟨11, 8⟩ ⟨11, 32⟩ ⟨19, 14⟩ ⟨19, 26⟩ (by simp)
    (by norm_num) (by norm_num) (by norm_num) (by norm_num) (by norm_num) (by norm_num)

end Discorpy
