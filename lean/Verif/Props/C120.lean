import Verif.Spec.PerspectiveError
import Verif.Lemmas.Sensitivity
import Verif.Props.C15
import Verif.Props.C91
import Verif.Props.C99
import Verif.Props.C114

/-!
# C120: how much errors of the perspective coefficients matter
-/

namespace Discorpy

open Spec

theorem form_change (a b k a' b' k' : ℝ) (p : Pt) : |(a' * p.x + b' * p.y + k') - (a * p.x + b * p.y + k)| ≤ formChange a b k a' b' k' p := by
  have e : (a' * p.x + b' * p.y + k') - (a * p.x + b * p.y + k) = -((a - a') * p.x) + -((b - b') * p.y) + -(k - k') := by ring
  rw [e]
  refine (abs_add_three _ _ _).trans (le_of_eq ?_)
  unfold formChange
  simp only [abs_neg, abs_mul]

theorem formChange_nonneg (a b k a' b' k' : ℝ) (p : Pt) : 0 ≤ formChange a b k a' b' k' p := by
  unfold formChange
  positivity

theorem quotient_change {n d w w' t v v' : ℝ} (hv : v = w * t) (hw : |w' - w| ≤ d) (hn : |v' - v| ≤ n) (hd : d < |w|) :
    w' ≠ 0 ∧ |v' / w' - t| ≤ quotientChange n d w t := by
  have h1 : |w| - d ≤ |w'| := by
    have := abs_sub_abs_le_abs_sub w w'
    rw [abs_sub_comm] at this
    linarith
  have h2 : 0 < |w'| := by linarith
  have h3 : w' ≠ 0 := abs_pos.1 h2
  refine ⟨h3, ?_⟩
  have e : v' / w' - t = ((v' - v) - t * (w' - w)) / w' := by
    rw [hv]
    field_simp
    ring
  unfold quotientChange
  rw [e, abs_div]
  have hnum : |(v' - v) - t * (w' - w)| ≤ n + |t| * d := by
    refine (abs_sub _ _).trans (add_le_add hn ?_)
    rw [abs_mul]
    exact mul_le_mul_of_nonneg_left hw (abs_nonneg _)
  exact div_le_div₀ ((abs_nonneg _).trans hnum) hnum (by linarith) h1

/-- **C120 (points).** If the change of the coefficients is too small to put a point on the horizon, the point has an image for both, and
the images are at most `changeX` and `changeY` apart. -/
theorem C120_point (c c' : Fin 8 → ℝ) (p q : Pt) (hq : IsImage (coefMatrix c) p q) (hs : denomChange c c' p < |denomAt c p|) :
    ∃ q', IsImage (coefMatrix c') p q' ∧ |q'.x - q.x| ≤ changeX c c' p q ∧ |q'.y - q.y| ≤ changeY c c' p q := by
  obtain ⟨_, h1, h2⟩ := (isImage_coef_iff c p q).1 hq
  obtain ⟨a, a'⟩ := quotient_change h1 (form_change _ _ _ (c' 6) (c' 7) 1 p) (form_change _ _ _ (c' 0) (c' 1) (c' 2) p) hs
  obtain ⟨_, b'⟩ := quotient_change h2 (form_change _ _ _ (c' 6) (c' 7) 1 p) (form_change _ _ _ (c' 3) (c' 4) (c' 5) p) hs
  exact ⟨projPt c' p, isImage_projPt ((finite_iff c' p).2 a), a', b'⟩

/-- **C120 (horizon).** The condition is needed: for every point except the origin there are coefficients that reach the bound and have no
image of the point. -/
theorem C120_horizon (c : Fin 8 → ℝ) (p : Pt) (hp : p.x ≠ 0 ∨ p.y ≠ 0) :
    ∃ c' : Fin 8 → ℝ, denomChange c c' p = |denomAt c p| ∧ ¬ ∃ q, IsImage (coefMatrix c') p q := by
  rcases hp with hp | hp
  · refine ⟨![c 0, c 1, c 2, c 3, c 4, c 5, c 6 - denomAt c p / p.x, c 7], ?_, ?_⟩
    · have e : denomChange c ![c 0, c 1, c 2, c 3, c 4, c 5, c 6 - denomAt c p / p.x, c 7] p =
          |c 6 - (c 6 - denomAt c p / p.x)| * |p.x| + |c 7 - c 7| * |p.y| + |(1 : ℝ) - 1| := rfl
      rw [e, sub_sub_cancel, ← abs_mul, div_mul_cancel₀ _ hp]
      simp
    · rintro ⟨q, hq⟩
      refine ((isImage_coef_iff _ p q).1 hq).1 ?_
      change (c 6 - denomAt c p / p.x) * p.x + c 7 * p.y + 1 = 0
      rw [sub_mul, div_mul_cancel₀ _ hp]
      unfold denomAt
      ring
  · refine ⟨![c 0, c 1, c 2, c 3, c 4, c 5, c 6, c 7 - denomAt c p / p.y], ?_, ?_⟩
    · have e : denomChange c ![c 0, c 1, c 2, c 3, c 4, c 5, c 6, c 7 - denomAt c p / p.y] p =
          |c 6 - c 6| * |p.x| + |c 7 - (c 7 - denomAt c p / p.y)| * |p.y| + |(1 : ℝ) - 1| := rfl
      rw [e, sub_sub_cancel, ← abs_mul (denomAt c p / p.y), div_mul_cancel₀ _ hp]
      simp
    · rintro ⟨q, hq⟩
      refine ((isImage_coef_iff _ p q).1 hq).1 ?_
      change c 6 * p.x + (c 7 - denomAt c p / p.y) * p.y + 1 = 0
      rw [sub_mul, div_mul_cancel₀ _ hp]
      unfold denomAt
      ring

/-- **C120 (lines).** `correct_perspective_line` with both sets of coefficients: the dots are at most `d` apart, one by one. -/
theorem C120_lines (c c' : Fin 8 → ℝ) (lines : List (List Pt)) (hne : ∀ l ∈ lines, l ≠ []) (d : ℝ) (hd : 0 ≤ d)
    (h : ∀ l ∈ lines, ∀ p ∈ l, denomChange c c' p < |denomAt c p| ∧ ∀ q, IsImage (coefMatrix c) p q → changeX c c' p q ^ 2 + changeY c c' p q ^ 2 ≤ d ^ 2) :
    ∃ out out', correctPerspectiveLine lines (List.ofFn c) = .ok out ∧ correctPerspectiveLine lines (List.ofFn c') = .ok out' ∧ MovedBy d out out' := by
  refine ⟨_, _, correctPerspectiveLine_eq c lines (fun h => hne _ h rfl), correctPerspectiveLine_eq c' lines (fun h => hne _ h rfl), ?_⟩
  unfold MovedBy
  rw [List.forall₂_map_left_iff, List.forall₂_map_right_iff, List.forall₂_same]
  intro l hl
  rw [List.forall₂_map_left_iff, List.forall₂_map_right_iff, List.forall₂_same]
  intro p hp
  obtain ⟨hs, hb⟩ := h l hl p hp
  have hfin : c 6 * p.x + c 7 * p.y + 1 ≠ 0 := by
    have : 0 < |denomAt c p| := lt_of_le_of_lt (formChange_nonneg _ _ _ _ _ _ _) hs
    exact abs_pos.1 this
  have hq : IsImage (coefMatrix c) p (projPt c p) := isImage_projPt ((finite_iff c p).2 hfin)
  obtain ⟨q', hq', hx, hy⟩ := C120_point c c' p _ hq hs
  have e : q' = projPt c' p := hq'.unique (isImage_projPt ((finite_iff c' p).2 ((isImage_coef_iff c' p q').1 hq').1))
  subst e
  unfold ptDist
  rw [Real.sqrt_le_left hd]
  refine le_trans ?_ (hb _ hq)
  have a := sq_le_sq' (by linarith [neg_abs_le ((projPt c' p).x - (projPt c p).x)]) ((le_abs_self _).trans hx)
  have b := sq_le_sq' (by linarith [neg_abs_le ((projPt c' p).y - (projPt c p).y)]) ((le_abs_self _).trans hy)
  nlinarith [a, b]

theorem image_hor {c : Fin 8 → ℝ} {a b : ℝ} (hs : StaysHor c a b) : ∃ a' b', ∀ p, onHorLine a b p → c 6 * p.x + c 7 * p.y + 1 ≠ 0 → onHorLine a' b' (projPt c p) := by
  have hd : (c 0 + c 1 * a) * (c 7 * b + 1) - (c 1 * b + c 2) * (c 6 + c 7 * a) ≠ 0 := sub_ne_zero.2 hs
  refine ⟨((c 3 + c 4 * a) * (c 7 * b + 1) - (c 4 * b + c 5) * (c 6 + c 7 * a)) / ((c 0 + c 1 * a) * (c 7 * b + 1) - (c 1 * b + c 2) * (c 6 + c 7 * a)),
    ((c 0 + c 1 * a) * (c 4 * b + c 5) - (c 1 * b + c 2) * (c 3 + c 4 * a)) / ((c 0 + c 1 * a) * (c 7 * b + 1) - (c 1 * b + c 2) * (c 6 + c 7 * a)), ?_⟩
  rintro ⟨y, x⟩ hp hf
  unfold onHorLine at hp ⊢
  simp only at hp hf
  unfold projPt
  simp only
  rw [div_mul_div_comm, div_add_div _ _ (mul_ne_zero hd hf) hd, div_eq_div_iff hf (mul_ne_zero (mul_ne_zero hd hf) hd)]
  subst hp
  ring

theorem image_ver {c : Fin 8 → ℝ} {a b : ℝ} (hs : StaysVer c a b) : ∃ a' b', ∀ p, onVerLine a b p → c 6 * p.x + c 7 * p.y + 1 ≠ 0 → onVerLine a' b' (projPt c p) := by
  have hd : (c 3 * a + c 4) * (c 6 * b + 1) - (c 3 * b + c 5) * (c 6 * a + c 7) ≠ 0 := sub_ne_zero.2 hs
  refine ⟨((c 0 * a + c 1) * (c 6 * b + 1) - (c 0 * b + c 2) * (c 6 * a + c 7)) / ((c 3 * a + c 4) * (c 6 * b + 1) - (c 3 * b + c 5) * (c 6 * a + c 7)),
    ((c 3 * a + c 4) * (c 0 * b + c 2) - (c 3 * b + c 5) * (c 0 * a + c 1)) / ((c 3 * a + c 4) * (c 6 * b + 1) - (c 3 * b + c 5) * (c 6 * a + c 7)), ?_⟩
  rintro ⟨y, x⟩ hp hf
  unfold onVerLine at hp ⊢
  simp only at hp hf
  unfold projPt
  simp only
  rw [div_mul_div_comm, div_add_div _ _ (mul_ne_zero hd hf) hd, div_eq_div_iff hf (mul_ne_zero (mul_ne_zero hd hf) hd)]
  subst hp
  ring

theorem check_zero {out : List (ℝ × ℝ)} (hne : out ≠ []) (h : ∀ r ∈ out, r.2 = 0) : checkDistortion out = .ok false := by
  obtain ⟨b, e, hb⟩ := C14_check_iff out hne
  rw [e]
  have : (out.filter fun r => 1 < r.2) = [] := by
    rw [List.filter_eq_nil_iff]
    intro r hr
    rw [h r hr]
    norm_num
  rw [this] at hb
  cases b
  · rfl
  · have h1 := hb.1 rfl
    have h2 : (0 : ℝ) ≤ out.length := Nat.cast_nonneg _
    simp only [List.length_nil, Nat.cast_zero] at h1
    linarith

theorem length_sum {lines : List (List Pt)} (hne : lines ≠ []) (hl : ∀ l ∈ lines, l ≠ []) {n : ℕ} (h : n = (lines.map List.length).sum) : n ≠ 0 := by
  obtain ⟨l, hm⟩ := List.exists_mem_of_ne_nil _ hne
  have := List.single_le_sum (l := lines.map List.length) (fun _ _ => Nat.zero_le _) l.length (List.mem_map_of_mem hm)
  have := List.length_pos_iff.2 (hl l hm)
  omega

/-- **C120 (the check is blind).** Straight lines of dots stay straight for every choice of the coefficients: all the residuals are zero and
`check_distortion` finds no distortion, however wrong the coefficients are, as long as no dot is put on the horizon and no row becomes
vertical (no column horizontal). -/
theorem C120_blind (pf : PolyfitFn) (hpf : PolyfitSpec pf) (argsort : List ℝ → List ℕ) (has : ArgsortSpec argsort) (c : Fin 8 → ℝ)
    (lines : List (List Pt)) (hne : lines ≠ []) (hl : ∀ l ∈ lines, l ≠ []) (hf : ∀ l ∈ lines, ∀ p ∈ l, FiniteAt (coefMatrix c) p) (xc yc : ℝ) :
    ((∀ l ∈ lines, ∃ a b, StaysHor c a b ∧ ∀ p ∈ l, onHorLine a b p) →
      ∃ out r, correctPerspectiveLine lines (List.ofFn c) = .ok out ∧ calcResidualHor pf argsort out xc yc = .ok r ∧ (∀ v ∈ r, v.2 = 0) ∧
        checkDistortion r = .ok false) ∧
    ((∀ l ∈ lines, ∃ a b, StaysVer c a b ∧ ∀ p ∈ l, onVerLine a b p) →
      ∃ out r, correctPerspectiveLine lines (List.ofFn c) = .ok out ∧ calcResidualVer pf argsort out xc yc = .ok r ∧ (∀ v ∈ r, v.2 = 0) ∧
        checkDistortion r = .ok false) := by
  have hne' : (lines.map fun l => l.map (projPt c)) ≠ [] := by simpa using hne
  have hl' : ∀ l ∈ lines.map fun l => l.map (projPt c), l ≠ [] := by
    intro l hm
    obtain ⟨l', hm', rfl⟩ := List.mem_map.1 hm
    simpa using hl l' hm'
  constructor
  · intro hst
    obtain ⟨r, h1, h2, h3, _⟩ := C12_residual_hor pf hpf argsort has _ xc yc hne' hl'
    have hz := C12_straight_line_zero _ _ _ h2 (by
      intro l hm
      obtain ⟨l', hm', rfl⟩ := List.mem_map.1 hm
      obtain ⟨a, b, hs, hab⟩ := hst l' hm'
      obtain ⟨a', b', h⟩ := image_hor hs
      refine ⟨a', b', fun p hp => ?_⟩
      obtain ⟨p', hp', rfl⟩ := List.mem_map.1 hp
      exact h p' (hab p' hp') ((finite_iff c p').1 (hf l' hm' p' hp')))
    exact ⟨_, r, correctPerspectiveLine_eq c lines (fun h => hl _ h rfl), h1, hz,
      check_zero (fun h => length_sum hne' hl' h3 (by rw [h]; rfl)) hz⟩
  · intro hst
    obtain ⟨r, h1, h2, h3, _⟩ := C12_residual_ver pf hpf argsort has _ xc yc hne' hl'
    have hz := C12_straight_line_zero_ver _ _ _ h2 (by
      intro l hm
      obtain ⟨l', hm', rfl⟩ := List.mem_map.1 hm
      obtain ⟨a, b, hs, hab⟩ := hst l' hm'
      obtain ⟨a', b', h⟩ := image_ver hs
      refine ⟨a', b', fun p hp => ?_⟩
      obtain ⟨p', hp', rfl⟩ := List.mem_map.1 hp
      exact h p' (hab p' hp') ((finite_iff c p').1 (hf l' hm' p' hp')))
    exact ⟨_, r, correctPerspectiveLine_eq c lines (fun h => hl _ h rfl), h1, hz,
      check_zero (fun h => length_sum hne' hl' h3 (by rw [h]; rfl)) hz⟩

/-- **C120 (images).** A pixel of the corrected image changes by at most the slopes of the brightness times the displacement of the place it
is read from (and the roundings of the coordinates). -/
theorem C120_image (B B' : Boundary) {rnd : ℝ → ℝ} (hr : CoordRounding rnd) {δ : ℝ} (m : Mat ℝ) (hδ : RoundsBy δ rnd m) (V U : ℝ) (hV : 0 ≤ V)
    (hU : 0 ≤ U) (hs : StepsAtMost V U m) (hh : m.height ≤ 2 ^ 24) (hw : m.width ≤ 2 ^ 24) (c c' : Fin 8 → ℝ) :
    ∃ out out', correctPerspectiveImage (linearInterp B) rnd m (List.ofFn c) none = .ok out ∧
      correctPerspectiveImage (linearInterp B') rnd m (List.ofFn c') none = .ok out' ∧
      ∀ i < m.height, ∀ j < m.width, denomChange c c' ⟨i, j⟩ < |denomAt c ⟨i, j⟩| → ∀ q, IsImage (coefMatrix c) ⟨i, j⟩ q →
        |out'.get i j - out.get i j| ≤ V * (changeY c c' ⟨i, j⟩ q + 2 * δ) + U * (changeX c c' ⟨i, j⟩ q + 2 * δ) := by
  obtain ⟨out, e, _, _, hout⟩ := correctPerspectiveImage_reads (linearInterp B) rnd m c
  obtain ⟨out', e', _, _, hout'⟩ := correctPerspectiveImage_reads (linearInterp B') rnd m c'
  refine ⟨out, out', e, e', fun i hi j hj hsafe q hq => ?_⟩
  obtain ⟨q', hq', hx, hy⟩ := C120_point c c' _ q hq hsafe
  have h1 : (1 : ℝ) ≤ m.height := by exact_mod_cast (by omega : 1 ≤ m.height)
  have h2 : (1 : ℝ) ≤ m.width := by exact_mod_cast (by omega : 1 ≤ m.width)
  rw [hout i hi j hj q hq, hout' i hi j hj q' hq']
  simp only [← clip_eq_clampTo (show (0 : ℝ) ≤ (m.height : ℝ) - 1 by linarith), ← clip_eq_clampTo (show (0 : ℝ) ≤ (m.width : ℝ) - 1 by linarith)]
  have hc := inFrame_clip (m := m) (by omega) (by omega) q.y q.x
  have hc' := inFrame_clip (m := m) (by omega) (by omega) q'.y q'.x
  have hf := inFrame_rnd hr hc (by omega) (by omega) hh hw
  have hf' := inFrame_rnd hr hc' (by omega) (by omega) hh hw
  obtain ⟨d1, d2⟩ := roundsBy_frame hδ hc
  obtain ⟨d1', d2'⟩ := roundsBy_frame hδ hc'
  rw [linearInterp_eq B _ hf, linearInterp_eq B' _ hf']
  have t : ∀ a b u v : ℝ, |a - u| ≤ δ → |b - v| ≤ δ → |a - b| ≤ |u - v| + 2 * δ := by
    intro a b u v ha hb
    have := abs_add_three (a - u) (u - v) (v - b)
    rw [show a - u + (u - v) + (v - b) = a - b by ring, abs_sub_comm v b] at this
    linarith
  refine (bilinear_lipschitz hV hU hs hf hf').trans (add_le_add (mul_le_mul_of_nonneg_left ?_ hV) (mul_le_mul_of_nonneg_left ?_ hU))
  · exact (t _ _ _ _ d1' d1).trans (by linarith [clip_dist q'.y q.y 0 ((m.height : ℝ) - 1)])
  · exact (t _ _ _ _ d2' d2).trans (by linarith [clip_dist q'.x q.x 0 ((m.width : ℝ) - 1)])

/-- **C120 (sharpness).** The bound is attained: by a shift of the image and by a tilt towards the horizon, at every point. -/
theorem C120_sharp (p : Pt) (e : ℝ) (he : 0 ≤ e) :
    (∃ c c' : Fin 8 → ℝ, IsImage (coefMatrix c) p p ∧ IsImage (coefMatrix c') p ⟨p.y, p.x + e⟩ ∧ changeX c c' p p = e ∧ changeY c c' p p = 0) ∧
    (0 ≤ p.x → e * p.x < 1 → ∃ c c' : Fin 8 → ℝ, ∃ q, IsImage (coefMatrix c) p p ∧ IsImage (coefMatrix c') p q ∧
      changeX c c' p p = |q.x - p.x| ∧ changeY c c' p p = |q.y - p.y|) := by
  constructor
  · refine ⟨![1, 0, 0, 0, 1, 0, 0, 0], ![1, 0, e, 0, 1, 0, 0, 0], ?_, ?_, ?_, ?_⟩
    · rw [isImage_coef_iff]
      simp
    · rw [isImage_coef_iff]
      simp
    · simp [changeX, quotientChange, formChange, denomChange, denomAt, abs_of_nonneg he]
    · simp [changeY, quotientChange, formChange, denomChange, denomAt]
  · intro hx h1
    have hp : 0 < 1 - e * p.x := by linarith
    refine ⟨![1, 0, 0, 0, 1, 0, 0, 0], ![1, 0, 0, 0, 1, 0, -e, 0], ⟨p.y / (1 - e * p.x), p.x / (1 - e * p.x)⟩, ?_, ?_, ?_, ?_⟩
    · rw [isImage_coef_iff]
      simp
    · rw [isImage_coef_iff]
      simp
      have : -(e * p.x) + 1 = 1 - e * p.x := by ring
      rw [this, mul_div_cancel₀ _ hp.ne', mul_div_cancel₀ _ hp.ne']
      exact ⟨hp.ne', rfl, rfl⟩
    · simp [changeX, quotientChange, formChange, denomChange, denomAt, abs_of_nonneg he]
      rw [show p.x / (1 - e * p.x) - p.x = p.x * (e * p.x) / (1 - e * p.x) by
        rw [eq_div_iff hp.ne', sub_mul, div_mul_cancel₀ _ hp.ne']; ring, abs_div, abs_of_pos hp, abs_mul, abs_mul, abs_of_nonneg he, abs_of_nonneg hx]
    · simp [changeY, quotientChange, formChange, denomChange, denomAt, abs_of_nonneg he]
      rw [show p.y / (1 - e * p.x) - p.y = p.y * (e * p.x) / (1 - e * p.x) by
        rw [eq_div_iff hp.ne', sub_mul, div_mul_cancel₀ _ hp.ne']; ring, abs_div, abs_of_pos hp, abs_mul, abs_mul, abs_of_nonneg he,
        abs_of_nonneg hx]

/-- Coefficients that are off by a shift of a tenth of a pixel and a small tilt: the point `(100, 200)` still has an image, less than 5 pixels away. -/
example : ∃ q', IsImage (coefMatrix ![1, 0, 1 / 10, 0, 1, 0, 1 / 10000, 0]) ⟨100, 200⟩ q' ∧ |q'.x - 200| ≤ 5 ∧ |q'.y - 100| ≤ 5 := by
  obtain ⟨q, h1, h2, h3⟩ := C120_point ![1, 0, 0, 0, 1, 0, 0, 0] ![1, 0, 1 / 10, 0, 1, 0, 1 / 10000, 0] ⟨100, 200⟩ ⟨100, 200⟩
    (by rw [isImage_coef_iff]; simp) (by simp [denomChange, denomAt, formChange]; norm_num)
  refine ⟨q, h1, h2.trans ?_, h3.trans ?_⟩
  · simp [changeX, quotientChange, formChange, denomChange, denomAt]
    norm_num
  · simp [changeY, quotientChange, formChange, denomChange, denomAt]
    norm_num

example := C120_horizon ![1, 0, 0, 0, 1, 0, 0, 0] ⟨100, 200⟩ (by norm_num)
example := C120_sharp ⟨100, 200⟩ (1 / 1000) (by norm_num)

example : ∃ out out', correctPerspectiveLine [[⟨100, 200⟩]] (List.ofFn ![1, 0, 0, 0, 1, 0, 0, 0]) = .ok out ∧
    correctPerspectiveLine [[⟨100, 200⟩]] (List.ofFn ![1, 0, 1 / 10, 0, 1, 0, 1 / 10000, 0]) = .ok out' ∧ MovedBy 5 out out' := by
  refine C120_lines _ _ _ (by simp) 5 (by norm_num) ?_
  intro l hl p hp
  obtain rfl : l = [⟨100, 200⟩] := by simpa using hl
  obtain rfl : p = ⟨100, 200⟩ := by simpa using hp
  refine ⟨by simp [denomChange, denomAt, formChange]; norm_num, fun q hq => ?_⟩
  have e : q = ⟨100, 200⟩ := hq.unique ((isImage_coef_iff _ _ _).2 (by simp))
  subst e
  simp [changeX, changeY, quotientChange, formChange, denomChange, denomAt]
  norm_num

/-- A row of three dots tilted by quite wrong coefficients. -/
example : ∃ out r, correctPerspectiveLine [[⟨0, 0⟩, ⟨1, 1⟩, ⟨2, 2⟩]] (List.ofFn ![3, 0, 7, 0, 1, 0, 1, 0]) = .ok out ∧
    calcResidualHor refPolyfit refArgsort out 0 0 = .ok r ∧ (∀ v ∈ r, v.2 = 0) ∧ checkDistortion r = .ok false := by
  refine (C120_blind refPolyfit refPolyfit_spec refArgsort refArgsort_spec _ [[⟨0, 0⟩, ⟨1, 1⟩, ⟨2, 2⟩]] (by simp) (by simp) ?_ 0 0).1 ?_
  · intro l hl p hp
    obtain rfl : l = [⟨0, 0⟩, ⟨1, 1⟩, ⟨2, 2⟩] := by simpa using hl
    rw [finite_iff]
    simp only [List.mem_cons, List.not_mem_nil, or_false] at hp
    rcases hp with rfl | rfl | rfl <;> simp <;> norm_num
  · intro l hl
    obtain rfl : l = [⟨0, 0⟩, ⟨1, 1⟩, ⟨2, 2⟩] := by simpa using hl
    exact ⟨1, 0, by simp [StaysHor], by simp [onHorLine]⟩

/-- A slanted plane of brightness. -/
example (B B' : Boundary) := C120_image B B' coordRounding_id (δ := 0) ⟨5, 5, fun i j => 3 * (i : ℝ) + 2 * j⟩ (fun v _ _ => by simp) 3 2 (by norm_num)
  (by norm_num) (by constructor <;> intros <;> push_cast <;> ring_nf <;> norm_num) (by norm_num) (by norm_num) ![1, 0, 0, 0, 1, 0, 0, 0]
  ![1, 0, 1 / 10, 0, 1, 0, 1 / 10000, 0]

end Discorpy
