import Verif.Lemmas.Rounded
import Verif.Lemmas.Scatter
import Verif.Props.C91

/-! # C98 — rounding errors -/

namespace Discorpy

open Spec

/-- **C98 (exact arithmetic).** Without rounding the three functions are those of the exact model. -/
theorem C98_exact (S : Sampler) (rnd : ℝ → ℝ) (mat : Mat ℝ) (lines : List (List Pt)) (xc yc : ℝ) (fact coef : List ℝ) :
    unwarpLineForwardFl Floats.exact lines xc yc fact = unwarpLineForward id lines xc yc fact ∧
      unwarpImageBackwardFl Floats.exact S rnd mat xc yc fact = unwarpImageBackward S rnd mat xc yc fact ∧
      correctPerspectiveLineFl Floats.exact lines coef = correctPerspectiveLine lines coef := ⟨rfl, rfl, rfl⟩

theorem dist_eq (p c : Pt) : √((p.x - c.x) * (p.x - c.x) + (p.y - c.y) * (p.y - c.y)) = ptDist p c := by
  rw [ptDist, sq, sq]

/-- Both coordinates of a dot. -/
theorem within_dot {u : ℝ} {F : Floats} (hF : IsFloat u F) (fact : List ℝ) (p c : Pt) :
    let xd := F.fl (p.x - c.x)
    let yd := F.fl (p.y - c.y)
    let f := polySumFl F fact (F.fl √(F.fl (F.fl (xd * xd) + F.fl (yd * yd))))
    |F.fl (c.x + F.fl (f * xd)) - (radialMap c fact p).x| ≤ roundings u (6 * fact.length + 3) * (|c.x| + absModel fact (ptDist p c) * |p.x - c.x|) ∧
      |F.fl (c.y + F.fl (f * yd)) - (radialMap c fact p).y| ≤ roundings u (6 * fact.length + 3) * (|c.y| + absModel fact (ptDist p c) * |p.y - c.y|) := by
  intro xd yd f
  have hx : Within u 1 |p.x - c.x| (p.x - c.x) xd := (Within.self u _).step hF.nonneg (hF.fl _)
  have hy : Within u 1 |p.y - c.y| (p.y - c.y) yd := (Within.self u _).step hF.nonneg (hF.fl _)
  obtain ⟨n, hr⟩ := within_radius hF hx hy
  rw [dist_eq] at hr
  have hd : 0 ≤ ptDist p c := Real.sqrt_nonneg _
  have h1 := within_coord hF fact (c := c.x) hd n hr hx
  have h2 := within_coord hF fact (c := c.y) hd n hr hy
  rw [polySum_eq_radial] at h1 h2
  exact ⟨h1.2, h2.2⟩

/-- **C98 (lines).** The dots that `unwarp_line_forward` computes with rounding after every operation differ from those of the radial model by at
most the error of `6n + 3` roundings for a model with `n` coefficients, relative to the size of the terms that are added up. -/
theorem C98_line {u : ℝ} {F : Floats} (hF : IsFloat u F) (lines : List (List Pt)) (xc yc : ℝ) (fact : List ℝ) :
    List.Forall₂ (List.Forall₂ fun p q =>
      |q.x - (radialMap ⟨yc, xc⟩ fact p).x| ≤ roundings u (6 * fact.length + 3) * (|xc| + absModel fact (ptDist p ⟨yc, xc⟩) * |p.x - xc|) ∧
      |q.y - (radialMap ⟨yc, xc⟩ fact p).y| ≤ roundings u (6 * fact.length + 3) * (|yc| + absModel fact (ptDist p ⟨yc, xc⟩) * |p.y - yc|))
      lines (unwarpLineForwardFl F lines xc yc fact) := by
  unfold unwarpLineForwardFl
  rw [List.forall₂_map_right_iff, List.forall₂_same]
  intro line _
  rw [List.forall₂_map_right_iff, List.forall₂_same]
  intro p _
  exact within_dot hF fact p ⟨yc, xc⟩

theorem clip_near (x y lo hi : ℝ) : |clip x lo hi - clip y lo hi| ≤ |x - y| := by
  unfold clip
  exact (abs_min_sub_min_le_max _ _ _ _).trans (max_le ((abs_max_sub_max_le_max _ _ _ _).trans (by simp)) (by simp))

/-- **C98 (image).** The pixels of the image unwarped with rounding after every operation, and with the coordinates converted to single precision,
differ from those of the exact model by the errors of the coordinates times the differences between neighbouring pixels. -/
theorem C98_image {u : ℝ} {F : Floats} (hF : IsFloat u F) (B : Boundary) {rnd : ℝ → ℝ} (hr : CoordRounding rnd) {δ : ℝ} (m : Mat ℝ) (hδ : RoundsBy δ rnd m)
    (V U : ℝ) (hV : 0 ≤ V) (hU : 0 ≤ U) (hs : StepsAtMost V U m) (xc yc : ℝ) (fact : List ℝ) (hh : m.height ≤ 2 ^ 24) (hw : m.width ≤ 2 ^ 24)
    (i j : ℕ) (hi : i < m.height) (hj : j < m.width) :
    |(unwarpImageBackwardFl F (linearInterp B) rnd m xc yc fact).get i j - (unwarpImageBackward (linearInterp B) id m xc yc fact).get i j| ≤
      V * (δ + roundings u (6 * fact.length + 3) * (|yc| + absModel fact (ptDist ⟨i, j⟩ ⟨yc, xc⟩) * |(i : ℝ) - yc|)) +
        U * (δ + roundings u (6 * fact.length + 3) * (|xc| + absModel fact (ptDist ⟨i, j⟩ ⟨yc, xc⟩) * |(j : ℝ) - xc|)) := by
  obtain ⟨hx, hy⟩ := within_dot hF fact ⟨i, j⟩ ⟨yc, xc⟩
  simp only [← sq] at hx hy
  set ex := roundings u (6 * fact.length + 3) * (|xc| + absModel fact (ptDist ⟨i, j⟩ ⟨yc, xc⟩) * |(j : ℝ) - xc|)
  set ey := roundings u (6 * fact.length + 3) * (|yc| + absModel fact (ptDist ⟨i, j⟩ ⟨yc, xc⟩) * |(i : ℝ) - yc|)
  have hc := inFrame_clip (m := m) (by omega) (by omega) (radialMap ⟨yc, xc⟩ fact ⟨i, j⟩).y (radialMap ⟨yc, xc⟩ fact ⟨i, j⟩).x
  set qx := F.fl (xc + F.fl (polySumFl F fact (F.fl √(F.fl (F.fl ((F.fl ((j : ℝ) - xc)) ^ 2) + F.fl ((F.fl ((i : ℝ) - yc)) ^ 2)))) * F.fl ((j : ℝ) - xc))) with hqx
  set qy := F.fl (yc + F.fl (polySumFl F fact (F.fl √(F.fl (F.fl ((F.fl ((j : ℝ) - xc)) ^ 2) + F.fl ((F.fl ((i : ℝ) - yc)) ^ 2)))) * F.fl ((i : ℝ) - yc))) with hqy
  have hc' := inFrame_clip (m := m) (by omega) (by omega) qy qx
  have hf := inFrame_rnd hr hc' (by omega) (by omega) hh hw
  obtain ⟨d1, d2⟩ := roundsBy_frame hδ hc'
  have e1 : (unwarpImageBackwardFl F (linearInterp B) rnd m xc yc fact).get i j = bilinear m (rnd (clip qy 0 ((m.height : ℝ) - 1))) (rnd (clip qx 0 ((m.width : ℝ) - 1))) :=
    linearInterp_eq B _ hf
  have e2 : (unwarpImageBackward (linearInterp B) id m xc yc fact).get i j =
      bilinear m (clip (radialMap ⟨yc, xc⟩ fact ⟨i, j⟩).y 0 ((m.height : ℝ) - 1)) (clip (radialMap ⟨yc, xc⟩ fact ⟨i, j⟩).x 0 ((m.width : ℝ) - 1)) := by
    refine Eq.trans ?_ (linearInterp_eq B _ hc)
    simp only [unwarpImageBackward, polySum_eq_radial]
    rfl
  rw [e1, e2]
  refine (bilinear_lipschitz hV hU hs hc hf).trans (add_le_add (mul_le_mul_of_nonneg_left ?_ hV) (mul_le_mul_of_nonneg_left ?_ hU))
  · exact (abs_sub_le _ (clip qy 0 ((m.height : ℝ) - 1)) _).trans (add_le_add d1 ((clip_near _ _ _ _).trans hy))
  · exact (abs_sub_le _ (clip qx 0 ((m.width : ℝ) - 1)) _).trans (add_le_add d2 ((clip_near _ _ _ _).trans hx))

/-! ## Perspective correction -/

theorem within_form {u : ℝ} {F : Floats} (hF : IsFloat u F) (a b c : ℝ) (p : Pt) :
    Within u 3 (formSize a b c p) (a * p.x + b * p.y + c) (F.fl (F.fl (F.fl (a * p.x) + F.fl (b * p.y)) + c)) := by
  have h1 := (Within.self u (a * p.x)).step hF.nonneg (hF.fl _)
  have h2 := (Within.self u (b * p.y)).step hF.nonneg (hF.fl _)
  have h3 := (h1.add h2).step hF.nonneg (hF.fl _)
  exact (h3.add ((Within.self u c).mono hF.nonneg (Nat.zero_le _) le_rfl)).step hF.nonneg (hF.fl _)

theorem within_quotient {u : ℝ} {F : Floats} (hF : IsFloat u F) {k : ℕ} {A B n d n' d' q : ℝ} (hn : Within u k A n n') (hd : Within u k B d d')
    (hq : n = d * q) (hsafe : roundings u k * B < |d|) :
    |F.fl (n' / d') - q| ≤ (1 + u) * quotientError (roundings u k) A B d q + u * |q| := by
  set e := roundings u k with he
  have hn2 : |n' - n| ≤ e * A := hn.2
  have hd2 : |d' - d| ≤ e * B := hd.2
  have hpos : 0 < |d| - e * B := by linarith
  have hd' : |d| - e * B ≤ |d'| := by
    have := abs_sub_abs_le_abs_sub d d'
    rw [abs_sub_comm] at this
    linarith
  have hd0 : d' ≠ 0 := by
    intro h
    rw [h, abs_zero] at hd'
    linarith
  have h1 : |n' / d' - q| ≤ quotientError e A B d q := by
    have e1 : n' / d' - q = ((n' - n) - q * (d' - d)) / d' := by
      rw [hq]; field_simp; ring
    rw [e1, abs_div, quotientError]
    have h2 : |n' - n - q * (d' - d)| ≤ e * (A + |q| * B) := by
      refine (abs_sub _ _).trans ?_
      rw [abs_mul]
      have := mul_le_mul_of_nonneg_left hd2 (abs_nonneg q)
      nlinarith
    exact div_le_div₀ ((abs_nonneg _).trans h2) h2 hpos hd'
  have h3 := hF.fl (n' / d')
  have h4 := abs_sub_le (F.fl (n' / d')) (n' / d') q
  have h5 : |n' / d'| ≤ |q| + quotientError e A B d q := by
    have := abs_sub_abs_le_abs_sub (n' / d') q
    linarith
  have h6 := mul_le_mul_of_nonneg_left h5 hF.nonneg
  linarith

/-- **C98 (perspective).** The dots that `correct_perspective_line` computes with rounding differ from the images under the projective map by a
bound that grows as the denominator becomes small against its terms. -/
theorem C98_perspective {u : ℝ} {F : Floats} (hF : IsFloat u F) (lines : List (List Pt)) (hne : ∀ l ∈ lines, l ≠ []) (c : Fin 8 → ℝ) :
    ∃ out, correctPerspectiveLineFl F lines (List.ofFn c) = .ok out ∧
      List.Forall₂ (List.Forall₂ fun p q => ∀ t, IsImage (coefMatrix c) p t →
        roundings u 3 * formSize (c 6) (c 7) 1 p < |c 6 * p.x + c 7 * p.y + 1| →
        |q.x - t.x| ≤ (1 + u) * quotientError (roundings u 3) (formSize (c 0) (c 1) (c 2) p) (formSize (c 6) (c 7) 1 p) (c 6 * p.x + c 7 * p.y + 1) t.x + u * |t.x| ∧
        |q.y - t.y| ≤ (1 + u) * quotientError (roundings u 3) (formSize (c 3) (c 4) (c 5) p) (formSize (c 6) (c 7) 1 p) (c 6 * p.x + c 7 * p.y + 1) t.y + u * |t.y|)
        lines out := by
  have h0 : lines.any List.isEmpty = false := by
    rw [List.any_eq_false]
    intro l hl
    simpa using hne l hl
  refine ⟨_, by simp only [List.ofFn_succ, List.ofFn_zero, correctPerspectiveLineFl, h0]; rfl, ?_⟩
  rw [List.forall₂_map_right_iff, List.forall₂_same]
  intro line _
  rw [List.forall₂_map_right_iff, List.forall₂_same]
  intro p _ t ht hs
  obtain ⟨_, h1, h2⟩ := (isImage_coef_iff c p t).1 ht
  exact ⟨within_quotient hF (within_form hF _ _ _ p) (within_form hF _ _ _ p) h1 hs, within_quotient hF (within_form hF _ _ _ p) (within_form hF _ _ _ p) h2 hs⟩

/-! ## Arithmetic that meets the contract -/

theorem sumTree_pos (t : SumTree) : 1 ≤ t.leaves.length := by
  induction t with
  | leaf x => simp [SumTree.leaves]
  | node a b ha hb => rw [SumTree.leaves, List.length_append]; omega

/-- **C98 (order of a sum).** In whatever order `n` numbers are added, with rounding after every addition, the error is that of `n − 1`
roundings relative to the sum of the absolute values. -/
theorem C98_order {u : ℝ} (hu : 0 ≤ u) {fl : ℝ → ℝ} (hfl : ∀ x, |fl x - x| ≤ u * |x|) (t : SumTree) :
    |t.eval fl - t.leaves.sum| ≤ roundings u (t.leaves.length - 1) * (t.leaves.map fun x => |x|).sum := by
  suffices h : Within u (t.leaves.length - 1) (t.leaves.map fun x => |x|).sum t.leaves.sum (t.eval fl) from h.2
  induction t with
  | leaf x => simpa [SumTree.leaves, SumTree.eval] using Within.self u x
  | node a b ha hb =>
    have p := sumTree_pos a
    have q := sumTree_pos b
    have h := ((ha.mono hu (l := a.leaves.length + b.leaves.length - 2) (by omega) le_rfl).add
      (hb.mono hu (l := a.leaves.length + b.leaves.length - 2) (by omega) le_rfl)).step hu (hfl _)
    rw [SumTree.leaves, List.map_append, List.sum_append, List.sum_append, List.length_append]
    exact h.mono hu (by omega) le_rfl

/-- Three numbers, the first two added first. -/
example := C98_order (u := 2⁻¹ ^ 53) (by norm_num) (fl := fun x => x) (fun x => by simp) (.node (.node (.leaf 1) (.leaf 2)) (.leaf 3))

theorem inOrder_leaves (l : List ℝ) (t : SumTree) : (SumTree.inOrder t l).leaves = t.leaves ++ l := by
  induction l generalizing t with
  | nil => simp [SumTree.inOrder]
  | cons x l ih => rw [SumTree.inOrder, ih]; simp [SumTree.leaves]

theorem roundHalfEven_near (x : ℝ) : |(roundHalfEven x : ℝ) - x| ≤ 1 / 2 := by
  rw [abs_sub_comm]
  rcases isNearestEven_roundHalfEven x with h | h
  · exact h.le
  · exact h.1.le

theorem roundHalfEven_mono {x y : ℝ} (h : x ≤ y) : roundHalfEven x ≤ roundHalfEven y := by
  by_contra hc
  push Not at hc
  have h1 := abs_le.1 (roundHalfEven_near x)
  have h2 := abs_le.1 (roundHalfEven_near y)
  have h3 : ((roundHalfEven y : ℤ) : ℝ) + 1 ≤ (roundHalfEven x : ℤ) := by exact_mod_cast hc
  have : x = y := by linarith
  rw [this] at hc
  exact lt_irrefl _ hc

theorem roundHalfEven_int (n : ℤ) : roundHalfEven (n : ℝ) = n := by
  rw [roundHalfEven_eq_iff]
  left
  simp

theorem roundHalfEven_neg (x : ℝ) : roundHalfEven (-x) = -roundHalfEven x := by
  rw [roundHalfEven_eq_iff]
  have e : |-x - ((-roundHalfEven x : ℤ) : ℝ)| = |x - (roundHalfEven x : ℤ)| := by
    rw [← abs_neg]
    congr 1
    push_cast
    ring
  rcases isNearestEven_roundHalfEven x with h | h
  · left
    rw [e]
    exact h
  · right
    rw [e]
    exact ⟨h.1, h.2.neg⟩

theorem roundBits_near (bits : ℕ) (x : ℝ) : |roundBits bits x - x| ≤ 2⁻¹ ^ bits * |x| := by
  unfold roundBits
  split_ifs with h
  · simp [h]
  · have hx : 0 < |x| := abs_pos.2 h
    have h1 : (2 : ℝ) ^ Int.log 2 |x| ≤ |x| := by exact_mod_cast Int.zpow_log_le_self (b := 2) (by norm_num) hx
    set e := Int.log 2 |x| with he
    have hs : (0 : ℝ) < 2 ^ (e + 1 - bits) := by positivity
    have h2 := roundHalfEven_near (x / 2 ^ (e + 1 - bits))
    have e1 : ((roundHalfEven (x / 2 ^ (e + 1 - bits)) : ℤ) : ℝ) * 2 ^ (e + 1 - bits) - x =
        (roundHalfEven (x / 2 ^ (e + 1 - bits)) - x / 2 ^ (e + 1 - bits)) * 2 ^ (e + 1 - bits) := by
      field_simp
    rw [e1, abs_mul, abs_of_pos hs]
    refine (mul_le_mul_of_nonneg_right h2 hs.le).trans ?_
    have e2 : (1 : ℝ) / 2 * 2 ^ (e + 1 - bits) = 2⁻¹ ^ bits * 2 ^ e := by
      rw [zpow_sub₀ (by norm_num), zpow_add₀ (by norm_num), zpow_one, zpow_natCast, inv_pow]
      field_simp
    rw [e2]
    exact mul_le_mul_of_nonneg_left h1 (by positivity)

theorem roundBits_neg (bits : ℕ) (x : ℝ) : roundBits bits (-x) = -roundBits bits x := by
  unfold roundBits
  by_cases h : x = 0
  · simp [h]
  · rw [if_neg h, if_neg (neg_ne_zero.2 h), abs_neg, neg_div, roundHalfEven_neg]
    push_cast
    ring

/-- A positive number is rounded between the powers of two around it. -/
theorem roundBits_between {bits : ℕ} (hb : 1 ≤ bits) {x : ℝ} (hx : 0 < x) :
    (2 : ℝ) ^ Int.log 2 x ≤ roundBits bits x ∧ roundBits bits x ≤ 2 ^ (Int.log 2 x + 1) := by
  have h1 : (2 : ℝ) ^ Int.log 2 x ≤ x := by exact_mod_cast Int.zpow_log_le_self (b := 2) (by norm_num) hx
  have h2 : x < (2 : ℝ) ^ (Int.log 2 x + 1) := by exact_mod_cast Int.lt_zpow_succ_log_self (b := 2) (by norm_num) x
  unfold roundBits
  rw [if_neg hx.ne', abs_of_pos hx]
  set e := Int.log 2 x
  have hs : (0 : ℝ) < 2 ^ (e + 1 - bits) := by positivity
  have a1 : (2 : ℝ) ^ e = ((2 ^ (bits - 1) : ℤ) : ℝ) * 2 ^ (e + 1 - bits) := by
    push_cast
    rw [← zpow_natCast, ← zpow_add₀ (by norm_num)]
    congr 1
    omega
  have a2 : (2 : ℝ) ^ (e + 1) = ((2 ^ bits : ℤ) : ℝ) * 2 ^ (e + 1 - bits) := by
    push_cast
    rw [← zpow_natCast, ← zpow_add₀ (by norm_num)]
    congr 1
    omega
  constructor
  · rw [a1]
    refine mul_le_mul_of_nonneg_right ?_ hs.le
    have : (2 ^ (bits - 1) : ℤ) ≤ roundHalfEven (x / 2 ^ (e + 1 - bits)) := by
      rw [← roundHalfEven_int (2 ^ (bits - 1))]
      apply roundHalfEven_mono
      rw [le_div_iff₀ hs, ← a1]
      exact h1
    exact_mod_cast this
  · rw [a2]
    refine mul_le_mul_of_nonneg_right ?_ hs.le
    have : roundHalfEven (x / 2 ^ (e + 1 - bits)) ≤ (2 ^ bits : ℤ) := by
      rw [← roundHalfEven_int (2 ^ bits)]
      apply roundHalfEven_mono
      rw [div_le_iff₀ hs, ← a2]
      exact h2.le
    exact_mod_cast this

theorem roundBits_pos_mono {bits : ℕ} (hb : 1 ≤ bits) {x y : ℝ} (hx : 0 < x) (h : x ≤ y) : roundBits bits x ≤ roundBits bits y := by
  have hy := hx.trans_le h
  have hl : Int.log 2 x ≤ Int.log 2 y := Int.log_mono_right hx h
  rcases hl.eq_or_lt with e | e
  · unfold roundBits
    rw [if_neg hx.ne', if_neg hy.ne', abs_of_pos hx, abs_of_pos hy, ← e]
    refine mul_le_mul_of_nonneg_right ?_ (by positivity)
    have : roundHalfEven (x / 2 ^ (Int.log 2 x + 1 - bits)) ≤ roundHalfEven (y / 2 ^ (Int.log 2 x + 1 - bits)) :=
      roundHalfEven_mono (div_le_div_of_nonneg_right h (by positivity))
    exact_mod_cast this
  · exact ((roundBits_between hb hx).2.trans (zpow_le_zpow_right₀ (by norm_num) (by omega))).trans (roundBits_between hb hy).1

theorem roundBits_nonneg {bits : ℕ} (hb : 1 ≤ bits) {x : ℝ} (hx : 0 ≤ x) : 0 ≤ roundBits bits x := by
  rcases hx.eq_or_lt with e | e
  · rw [← e]; simp [roundBits]
  · exact (by positivity : (0 : ℝ) ≤ 2 ^ Int.log 2 x).trans (roundBits_between hb e).1

theorem roundBits_mono {bits : ℕ} (hb : 1 ≤ bits) : Monotone (roundBits bits) := by
  intro x y h
  rcases lt_or_ge 0 x with hx | hx
  · exact roundBits_pos_mono hb hx h
  · have hx' : roundBits bits x ≤ 0 := by
      have := roundBits_nonneg hb (x := -x) (by linarith)
      rw [roundBits_neg] at this
      linarith
    rcases lt_or_ge y 0 with hy | hy
    · have := roundBits_pos_mono hb (x := -y) (y := -x) (by linarith) (by linarith)
      rw [roundBits_neg, roundBits_neg] at this
      linarith
    · exact hx'.trans (roundBits_nonneg hb hy)

theorem roundBits_nat {bits n : ℕ} (hb : 1 ≤ bits) (hn : n ≤ 2 ^ bits) : roundBits bits (n : ℝ) = n := by
  rcases Nat.eq_zero_or_pos n with rfl | h0
  · simp [roundBits]
  have hx : (0 : ℝ) < n := by exact_mod_cast h0
  unfold roundBits
  rw [if_neg hx.ne', abs_of_pos hx]
  have h1 : (2 : ℝ) ^ Int.log 2 (n : ℝ) ≤ n := by exact_mod_cast Int.zpow_log_le_self (b := 2) (by norm_num) hx
  rw [Int.log_natCast] at h1 ⊢
  have h2 : Nat.log 2 n ≤ bits := (Nat.log_mono_right hn).trans (by rw [Nat.log_pow (by norm_num)])
  obtain ⟨k, hk⟩ : ∃ k : ℤ, (n : ℝ) / 2 ^ ((Nat.log 2 n : ℕ) + 1 - bits : ℤ) = (k : ℝ) := by
    rcases h2.eq_or_lt with e | e
    · have hn2 : n = 2 ^ bits := by
        refine le_antisymm hn ?_
        rw [← e]
        exact Nat.pow_log_le_self 2 h0.ne'
      refine ⟨2 ^ (bits - 1), ?_⟩
      rw [e, hn2, show ((bits : ℕ) + 1 - bits : ℤ) = 1 by ring, zpow_one]
      push_cast
      rw [div_eq_iff (by norm_num), ← pow_succ]
      congr 1
      omega
    · refine ⟨n * 2 ^ (bits - (Nat.log 2 n + 1)), ?_⟩
      rw [show ((Nat.log 2 n : ℕ) + 1 - bits : ℤ) = -((bits - (Nat.log 2 n + 1) : ℕ) : ℤ) by omega, zpow_neg, zpow_natCast]
      push_cast
      rw [div_inv_eq_mul]
  have hk' := hk
  rw [div_eq_iff (by positivity)] at hk'
  rw [hk, roundHalfEven_int]
  exact hk'.symm

/-- **C98 (single precision).** The conversion to single precision, without limits of exponents, is a rounding of coordinates as it is assumed in
this and the other properties: it is monotone and keeps the integers up to `2²⁴`. In an image of at most `2¹⁶` rows and columns it changes
coordinates by at most `2⁻⁸`. -/
theorem C98_single : CoordRounding (roundBits 24) ∧ ∀ m : Mat ℝ, m.height ≤ 2 ^ 16 → m.width ≤ 2 ^ 16 → RoundsBy (2⁻¹ ^ 8) (roundBits 24) m := by
  refine ⟨⟨roundBits_mono (by norm_num), fun n hn => ?_⟩, fun m hh hw v h0 hv => ?_⟩
  · rcases le_total 0 n with h | h
    · obtain ⟨k, rfl⟩ := Int.eq_ofNat_of_zero_le h
      rw [abs_of_nonneg h] at hn
      exact_mod_cast roundBits_nat (bits := 24) (n := k) (by norm_num) (by exact_mod_cast hn)
    · obtain ⟨k, hk⟩ := Int.eq_ofNat_of_zero_le (neg_nonneg.2 h)
      obtain rfl : n = -(k : ℤ) := by omega
      rw [abs_of_nonpos h, neg_neg] at hn
      push_cast
      rw [roundBits_neg, roundBits_nat (by norm_num) (by exact_mod_cast hn)]
  · have h1 : (m.height : ℝ) ≤ 2 ^ 16 := by exact_mod_cast hh
    have h2 : (m.width : ℝ) ≤ 2 ^ 16 := by exact_mod_cast hw
    have h3 : v ≤ 2 ^ 16 := hv.trans (max_le (by linarith) (by linarith))
    refine (roundBits_near 24 v).trans ?_
    rw [abs_of_nonneg h0]
    norm_num at h3 ⊢
    linarith

/-- **C98 (binary floating point).** Arithmetic with a given number of significant bits (and exponents of any size) meets the contract. -/
theorem C98_bits (bits : ℕ) (hb : 1 ≤ bits) : IsFloat (2⁻¹ ^ bits) (bitsArith bits) where
  nonneg := by positivity
  lt_one := pow_lt_one₀ (by norm_num) (by norm_num) (by omega)
  fl := roundBits_near bits
  pw r i hr := by
    have := roundBits_near bits (r ^ i)
    rwa [abs_of_nonneg (pow_nonneg hr i)] at this
  sm l := by
    cases l with
    | nil => simp [bitsArith]
    | cons x l =>
      have hu : (0 : ℝ) ≤ 2⁻¹ ^ bits := by positivity
      have h := C98_order hu (roundBits_near bits) (SumTree.inOrder (.leaf x) l)
      rw [inOrder_leaves, SumTree.leaves, List.singleton_append] at h
      refine h.trans (mul_le_mul_of_nonneg_right ?_ ?_)
      · exact sub_le_sub_right (pow_le_pow_right₀ (by linarith) (by omega)) _
      · exact List.sum_nonneg (by simp)

/-- **C98 (double precision).** For a model with at most 20 coefficients, and as long as the terms add up to no more than `2¹⁶`, the error of
`unwarp_line_forward` in double precision is below `2⁻²⁹` of a pixel. -/
theorem C98_double {F : Floats} (hF : IsFloat (2⁻¹ ^ 53) F) (lines : List (List Pt)) (xc yc : ℝ) (fact : List ℝ) (hn : fact.length ≤ 20)
    (hsize : ∀ line ∈ lines, ∀ p ∈ line, |xc| + absModel fact (ptDist p ⟨yc, xc⟩) * |p.x - xc| ≤ 2 ^ 16 ∧
      |yc| + absModel fact (ptDist p ⟨yc, xc⟩) * |p.y - yc| ≤ 2 ^ 16) :
    List.Forall₂ (List.Forall₂ fun p q => |q.x - (radialMap ⟨yc, xc⟩ fact p).x| < 2⁻¹ ^ 29 ∧ |q.y - (radialMap ⟨yc, xc⟩ fact p).y| < 2⁻¹ ^ 29)
      lines (unwarpLineForwardFl F lines xc yc fact) := by
  have hk : roundings (2⁻¹ ^ 53) (6 * fact.length + 3) * 2 ^ 16 < (2⁻¹ : ℝ) ^ 29 := by
    have h1 : roundings (2⁻¹ ^ 53) (6 * fact.length + 3) ≤ roundings (2⁻¹ ^ 53) 123 :=
      sub_le_sub_right (pow_le_pow_right₀ (by norm_num) (by omega)) _
    have h2 : roundings (2⁻¹ ^ 53) 123 * 2 ^ 16 < (2⁻¹ : ℝ) ^ 29 := by
      unfold roundings
      norm_num
    nlinarith
  have h0 : 0 ≤ roundings (2⁻¹ ^ 53) (6 * fact.length + 3) := pow_sub_nonneg hF.nonneg _
  unfold unwarpLineForwardFl
  rw [List.forall₂_map_right_iff, List.forall₂_same]
  intro line hl
  rw [List.forall₂_map_right_iff, List.forall₂_same]
  intro p hp
  obtain ⟨s1, s2⟩ := hsize line hl p hp
  obtain ⟨h1, h2⟩ := within_dot hF fact p ⟨yc, xc⟩
  exact ⟨(h1.trans (mul_le_mul_of_nonneg_left s1 h0)).trans_lt hk, (h2.trans (mul_le_mul_of_nonneg_left s2 h0)).trans_lt hk⟩

/-- Double precision meets the hypothesis of `C98_double`. -/
example : IsFloat (2⁻¹ ^ 53) (bitsArith 53) := C98_bits 53 (by norm_num)

/-- With two significant bits the number 5 becomes 4. -/
example : roundBits 2 5 = 4 := by
  have hl : Int.log 2 |(5 : ℝ)| = 2 := by
    rw [abs_of_pos (by norm_num), show (5 : ℝ) = ((5 : ℕ) : ℝ) by norm_num, Int.log_natCast]
    rfl
  unfold roundBits
  rw [if_neg (by norm_num), hl]
  have : roundHalfEven ((5 : ℝ) / 2 ^ ((2 : ℤ) + 1 - ((2 : ℕ) : ℤ))) = 2 := by
    rw [roundHalfEven_eq_iff]
    norm_num [IsNearestEven]
  rw [this]
  norm_num

/-- An image in double and single precision: a ramp of 5 × 5 pixels with the model `[1/2]` around the corner. The error is below a tenth. -/
example (B : Boundary) (i j : ℕ) (hi : i < 5) (hj : j < 5) :
    |(unwarpImageBackwardFl (bitsArith 53) (linearInterp B) (roundBits 24) ⟨5, 5, fun i j => 2 * (i : ℝ) + 6 * (j : ℝ) + 1⟩ 0 0 [1 / 2]).get i j -
      (unwarpImageBackward (linearInterp B) id ⟨5, 5, fun i j => 2 * (i : ℝ) + 6 * (j : ℝ) + 1⟩ 0 0 [1 / 2]).get i j| ≤ 1 / 10 := by
  have h := C98_image (C98_bits 53 (by norm_num)) B C98_single.1 (δ := 2⁻¹ ^ 8) ⟨5, 5, fun i j => 2 * (i : ℝ) + 6 * (j : ℝ) + 1⟩
    (C98_single.2 _ (by norm_num) (by norm_num)) 2 6 (by norm_num) (by norm_num) ramp_steps 0 0 [1 / 2] (by norm_num) (by norm_num) i j hi hj
  refine h.trans ?_
  have e1 : (i : ℝ) < 5 := by exact_mod_cast hi
  have e2 : (j : ℝ) < 5 := by exact_mod_cast hj
  have i0 : (0 : ℝ) ≤ i := by positivity
  have j0 : (0 : ℝ) ≤ j := by positivity
  rw [absModel, ← polySum_eq_radial]
  have hk : roundings (2⁻¹ ^ 53) (6 * [(1 : ℝ) / 2].length + 3) ≤ 1 / 10000 := by
    simp only [roundings, List.length_singleton]
    norm_num
  have hk0 : 0 ≤ roundings (2⁻¹ ^ 53) (6 * [(1 : ℝ) / 2].length + 3) := pow_sub_nonneg (by norm_num) _
  generalize roundings (2⁻¹ ^ 53) (6 * [(1 : ℝ) / 2].length + 3) = k at hk hk0
  have hp : polySum (List.map (fun a : ℝ => |a|) [1 / 2]) (ptDist ⟨i, j⟩ ⟨0, 0⟩) = 1 / 2 := by
    simp [polySum, abs_of_pos]
  rw [hp]
  simp only [sub_zero, abs_zero, zero_add, abs_of_nonneg i0, abs_of_nonneg j0]
  nlinarith [mul_le_mul hk e1.le i0 (by norm_num), mul_le_mul hk e2.le j0 (by norm_num)]

/-- A perspective map with dots for which the condition of `C98_perspective` holds. -/
example : roundings (2⁻¹ ^ 53) 3 * formSize (1 / 1000) (-1 / 1000) 1 ⟨100, 200⟩ < |(1 / 1000 : ℝ) * 200 + -1 / 1000 * 100 + 1| := by
  unfold roundings formSize
  rw [abs_of_pos (by norm_num), abs_of_neg (by norm_num), abs_of_pos (by norm_num), abs_of_pos (by norm_num)]
  norm_num

/-- A model and a dot within the size of `C98_double`: the terms at the dot (1000, 1000) add up to about 2000. -/
example : ∀ line ∈ [[(⟨1000, 1000⟩ : Pt)]], ∀ p ∈ line, |(0 : ℝ)| + absModel [1, 1 / 10000] (ptDist p ⟨0, 0⟩) * |p.x - 0| ≤ 2 ^ 16 ∧
    |(0 : ℝ)| + absModel [1, 1 / 10000] (ptDist p ⟨0, 0⟩) * |p.y - 0| ≤ 2 ^ 16 := by
  intro line hl p hp
  obtain rfl : line = [⟨1000, 1000⟩] := by simpa using hl
  obtain rfl : p = ⟨1000, 1000⟩ := by simpa using hp
  have hd : ptDist ⟨1000, 1000⟩ ⟨0, 0⟩ ≤ 2000 := by
    unfold ptDist
    rw [Real.sqrt_le_left (by norm_num)]
    norm_num
  have hr : absModel [1, 1 / 10000] (ptDist ⟨1000, 1000⟩ ⟨0, 0⟩) = 1 + 1 / 10000 * ptDist ⟨1000, 1000⟩ ⟨0, 0⟩ := by
    rw [absModel, ← polySum_eq_radial]
    simp [polySum]
  rw [hr]
  norm_num
  linarith

/-- Double precision, one line of two dots. -/
example := C98_line (C98_bits 53 (by norm_num)) [[⟨1, 3⟩, ⟨-2, 5⟩]] (1 / 2) (1 / 3) [1, 1 / 10]

end Discorpy
