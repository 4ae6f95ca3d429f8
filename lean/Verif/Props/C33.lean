import Verif.Lemmas.Array
import Verif.Lemmas.Num
import Verif.Model.Prep
import Verif.Spec.Prep
import Verif.Lemmas.Scatter

/-! # C33, C34: parabolic mask -/

namespace Discorpy

open Spec

theorem indic_mul4 (p q r s : Prop) :
    (indic p * indic q * indic r * indic s = 1 ↔ p ∧ q ∧ r ∧ s) ∧
    (indic p * indic q * indic r * indic s = 0 ∨ indic p * indic q * indic r * indic s = 1) := by
  unfold indic
  by_cases hp : p <;> by_cases hq : q <;> by_cases hr : r <;> by_cases hs : s <;> simp [hp, hq, hr, hs]

/-- **C33.** Outcome of `make_parabola_mask` without rotation, for margins given as a number or a pair: `ValueError` exactly
when the two margins of a direction exceed the size; otherwise a mask of the requested size with values 0 and 1, which is 1
exactly strictly inside the four parabolas. -/
theorem C33_mask (rot : Mat ℝ → ℝ → Mat ℝ) (height width : ℕ) (hh : 0 < height) (hw : 0 < width)
    (horCurv verCurv : ℝ) (horMargin verMargin : Margin) (top bot left right : ℝ)
    (hv : verMargin.pair = .ok (top, bot)) (hm : horMargin.pair = .ok (left, right)) :
    (makeParabolaMask rot height width horCurv verCurv horMargin verMargin 0 = .error .valueError ↔
      left + right > width ∨ top + bot > height) ∧
    (left + right ≤ width → top + bot ≤ height →
      ∃ mask, makeParabolaMask rot height width horCurv verCurv horMargin verMargin 0 = .ok mask ∧
        mask.height = height ∧ mask.width = width ∧
        ∀ y x : ℕ, (mask.get y x = 0 ∨ mask.get y x = 1) ∧
          (mask.get y x = 1 ↔ InsideParabolas height width horCurv verCurv top bot left right y x)) := by
  unfold makeParabolaMask
  rw [hv, ok_bind]
  simp only
  rw [hm, ok_bind]
  simp only
  by_cases h1 : left + right > width
  · rw [if_pos h1]
    exact ⟨⟨fun _ => Or.inl h1, fun _ => rfl⟩, fun h => absurd h1 (not_lt.2 h)⟩
  · rw [if_neg h1]
    by_cases h2 : top + bot > height
    · rw [if_pos h2]
      exact ⟨⟨fun _ => Or.inr h2, fun _ => rfl⟩, fun _ h => absurd h2 (not_lt.2 h)⟩
    · rw [if_neg h2, if_neg (by omega), if_neg (by simp)]
      refine ⟨⟨fun h => by (cases h), fun h => absurd h (by tauto)⟩, fun _ _ => ⟨_, rfl, rfl, rfl, fun y x => ⟨(indic_mul4 _ _ _ _).2, ?_⟩⟩⟩
      rw [(indic_mul4 _ _ _ _).1]
      constructor
      · rintro ⟨a, b, c, d⟩
        exact ⟨by linarith, by linarith, by linarith, by linarith⟩
      · rintro ⟨a, b, c, d⟩
        exact ⟨by linarith, by linarith, by linarith, by linarith⟩

/-- **C33** (margins): a margin is a number for both sides, or a sequence whose first and last entries count; an empty
sequence is an error. -/
theorem C33_margin (v : ℝ) (l : List ℝ) (a b : ℝ) :
    (Margin.one v).pair = .ok (v, v) ∧ (Margin.seq [a, b]).pair = .ok (a, b) ∧
    (Margin.seq (a :: (l ++ [b]))).pair = .ok (a, b) ∧ (Margin.seq [a]).pair = .ok (a, a) ∧
    (Margin.seq []).pair = .error .indexError := by
  refine ⟨rfl, rfl, ?_, rfl, rfl⟩
  have h : (a :: (l ++ [b])).getLast? = some b := by
    rw [← List.cons_append, List.getLast?_append]; simp
  simp [Margin.pair, h]

/-- **C33** (monotonicity): larger margins and curvinesses never add a pixel. -/
theorem C33_mono (rot : Mat ℝ → ℝ → Mat ℝ) (height width : ℕ) (hh : 0 < height) (hw : 0 < width)
    (hc vc hc' vc' : ℝ) (horM verM horM' verM' : Margin) (t b l r t' b' l' r' : ℝ)
    (hv : verM.pair = .ok (t, b)) (hm : horM.pair = .ok (l, r)) (hv' : verM'.pair = .ok (t', b'))
    (hm' : horM'.pair = .ok (l', r')) (h1 : hc ≤ hc') (h2 : vc ≤ vc') (ht : t ≤ t') (hb : b ≤ b') (hl : l ≤ l')
    (hr : r ≤ r') (mask mask' : Mat ℝ)
    (e : makeParabolaMask rot height width hc vc horM verM 0 = .ok mask)
    (e' : makeParabolaMask rot height width hc' vc' horM' verM' 0 = .ok mask') (y x : ℕ) (hy : mask'.get y x = 1) :
    mask.get y x = 1 := by
  obtain ⟨i, j⟩ := C33_mask rot height width hh hw hc vc horM verM t b l r hv hm
  obtain ⟨i', j'⟩ := C33_mask rot height width hh hw hc' vc' horM' verM' t' b' l' r' hv' hm'
  have n : ¬ (l + r > width ∨ t + b > height) := fun h => by rw [i.2 h] at e; cases e
  have n' : ¬ (l' + r' > width ∨ t' + b' > height) := fun h => by rw [i'.2 h] at e'; cases e'
  push Not at n n'
  obtain ⟨m, em, _, _, hm⟩ := j n.1 n.2
  obtain ⟨m', em', _, _, hm'⟩ := j' n'.1 n'.2
  rw [em] at e
  rw [em'] at e'
  cases e; cases e'
  rw [(hm y x).2]
  obtain ⟨a1, a2, a3, a4⟩ := (hm' y x).2.1 hy
  have hwp : (0 : ℝ) < width := by exact_mod_cast hw
  have hhp : (0 : ℝ) < height := by exact_mod_cast hh
  have q1 : vc / width * ((x : ℝ) - width / 2) ^ 2 ≤ vc' / width * ((x : ℝ) - width / 2) ^ 2 :=
    mul_le_mul_of_nonneg_right (div_le_div_of_nonneg_right h2 hwp.le) (sq_nonneg _)
  have q2 : hc / height * ((y : ℝ) - height / 2) ^ 2 ≤ hc' / height * ((y : ℝ) - height / 2) ^ 2 :=
    mul_le_mul_of_nonneg_right (div_le_div_of_nonneg_right h1 hhp.le) (sq_nonneg _)
  exact ⟨by linarith, by linarith, by linarith, by linarith⟩

/-- A larger margin and a stronger curvature. -/
example (rot : Mat ℝ → ℝ → Mat ℝ) : ∃ mask mask', makeParabolaMask rot 10 10 0.3 0.3 (.one 2) (.one 2) 0 = .ok mask ∧
    makeParabolaMask rot 10 10 0.4 0.3 (.one 3) (.one 2) 0 = .ok mask' ∧ ∀ y x, mask'.get y x = 1 → mask.get y x = 1 := by
  obtain ⟨mask, e, _⟩ := (C33_mask rot 10 10 (by norm_num) (by norm_num) 0.3 0.3 (.one 2) (.one 2) 2 2 2 2 rfl rfl).2 (by norm_num) (by norm_num)
  obtain ⟨mask', e', _⟩ := (C33_mask rot 10 10 (by norm_num) (by norm_num) 0.4 0.3 (.one 3) (.one 2) 2 2 3 3 rfl rfl).2 (by norm_num) (by norm_num)
  exact ⟨mask, mask', e, e', C33_mono rot 10 10 (by norm_num) (by norm_num) 0.3 0.3 0.4 0.3 (.one 2) (.one 2) (.one 3) (.one 2) 2 2 2 2 2 2 3 3 rfl rfl rfl rfl
    (by norm_num) (by norm_num) (by norm_num) (by norm_num) (by norm_num) (by norm_num) mask mask' e e'⟩

/-- **C33** (margins are empty): for non-negative curvinesses every pixel of the mask keeps its distance from the four
sides. -/
theorem C33_margins_empty (rot : Mat ℝ → ℝ → Mat ℝ) (height width : ℕ) (hh : 0 < height) (hw : 0 < width)
    (hc vc : ℝ) (h1 : 0 ≤ hc) (h2 : 0 ≤ vc) (horM verM : Margin) (t b l r : ℝ) (hv : verM.pair = .ok (t, b))
    (hm : horM.pair = .ok (l, r)) (mask : Mat ℝ) (e : makeParabolaMask rot height width hc vc horM verM 0 = .ok mask)
    (y x : ℕ) (hy : mask.get y x = 1) : t < y ∧ y < height - b ∧ l < x ∧ x < width - r := by
  obtain ⟨i, j⟩ := C33_mask rot height width hh hw hc vc horM verM t b l r hv hm
  have n : ¬ (l + r > width ∨ t + b > height) := fun h => by rw [i.2 h] at e; cases e
  push Not at n
  obtain ⟨m, em, _, _, hm⟩ := j n.1 n.2
  rw [em] at e
  cases e
  obtain ⟨a1, a2, a3, a4⟩ := (hm y x).2.1 hy
  have q1 : 0 ≤ vc / width * ((x : ℝ) - width / 2) ^ 2 := by positivity
  have q2 : 0 ≤ hc / height * ((y : ℝ) - height / 2) ^ 2 := by positivity
  exact ⟨by linarith, by linarith, by linarith, by linarith⟩

example (rot : Mat ℝ → ℝ → Mat ℝ) : ∃ mask, makeParabolaMask rot 10 10 0.3 0.3 (.one 2) (.one 2) 0 = .ok mask ∧ ∀ y x : ℕ, mask.get y x = 1 → (2 : ℝ) < y := by
  obtain ⟨mask, e, _⟩ := (C33_mask rot 10 10 (by norm_num) (by norm_num) 0.3 0.3 (.one 2) (.one 2) 2 2 2 2 rfl rfl).2 (by norm_num) (by norm_num)
  exact ⟨mask, e, fun y x hy => (C33_margins_empty rot 10 10 (by norm_num) (by norm_num) 0.3 0.3 (by norm_num) (by norm_num) (.one 2) (.one 2) 2 2 2 2 rfl rfl mask e y x hy).1⟩

/-- Non-vacuity: the middle of a 10 × 10 mask with margin 2 is inside, the pixel `(1, 5)` is not. -/
example (rot : Mat ℝ → ℝ → Mat ℝ) : ∃ mask, makeParabolaMask rot 10 10 0.3 0.3 (.one 2) (.one 2) 0 = .ok mask ∧
    mask.get 5 5 = 1 ∧ mask.get 1 5 = 0 := by
  obtain ⟨_, h⟩ := C33_mask rot 10 10 (by norm_num) (by norm_num) 0.3 0.3 (.one 2) (.one 2) 2 2 2 2 rfl rfl
  obtain ⟨mask, e, _, _, hm⟩ := h (by norm_num) (by norm_num)
  refine ⟨mask, e, (hm 5 5).2.2 ⟨by norm_num, by norm_num, by norm_num, by norm_num⟩, ?_⟩
  refine (hm 1 5).1.resolve_right fun h' => ?_
  have := ((hm 1 5).2.1 h').top
  norm_num at this

/-- **C33** (rotation). With a rotation angle other than zero, the result is the rotated mask of the same arguments, every
value rounded to the nearest integer (ties to even); so it consists of 0 and 1 where the rotation gives values between `-1/2`
and `3/2`. The errors are the same. -/
theorem C33_rotated (rot : Mat ℝ → ℝ → Mat ℝ) (height width : ℕ) (hc vc : ℝ) (horM verM : Margin) (angle : ℝ) (ha : angle ≠ 0) :
    (∀ e, makeParabolaMask rot height width hc vc horM verM angle = .error e ↔
      makeParabolaMask rot height width hc vc horM verM 0 = .error e) ∧
    ∀ mask, makeParabolaMask rot height width hc vc horM verM 0 = .ok mask →
      ∃ out, makeParabolaMask rot height width hc vc horM verM angle = .ok out ∧
        out.height = (rot mask angle).height ∧ out.width = (rot mask angle).width ∧
        ∀ i j : ℕ, (∃ n : ℤ, out.get i j = n ∧ IsNearestEven ((rot mask angle).get i j) n) ∧
          (-(1 / 2) < (rot mask angle).get i j → (rot mask angle).get i j < 3 / 2 → out.get i j = 0 ∨ out.get i j = 1) := by
  unfold makeParabolaMask
  cases hv : verM.pair with
  | error e => exact ⟨fun _ => Iff.rfl, fun _ h => by cases h⟩
  | ok tb =>
    cases hm : horM.pair with
    | error e => exact ⟨fun _ => Iff.rfl, fun _ h => by cases h⟩
    | ok lr =>
      obtain ⟨t, b⟩ := tb
      obtain ⟨l, r⟩ := lr
      simp only [ok_bind]
      split_ifs with h1 h2 h3 h4
      · exact ⟨fun _ => Iff.rfl, fun _ h => by cases h⟩
      · exact ⟨fun _ => Iff.rfl, fun _ h => by cases h⟩
      · exact ⟨fun _ => Iff.rfl, fun _ h => by cases h⟩
      · exact absurd rfl h4
      · refine ⟨fun _ => ⟨fun h => (by cases h), fun h => (by cases h)⟩, fun mask h => ?_⟩
        cases h
        refine ⟨_, rfl, rfl, rfl, fun i j => ⟨⟨_, rfl, isNearestEven_roundHalfEven _⟩, fun g1 g2 => ?_⟩⟩
        simp only
        generalize (rot _ angle).get i j = v at *
        have hn := isNearestEven_roundHalfEven v
        generalize roundHalfEven v = n at *
        have hn : |v - n| ≤ 1 / 2 := hn.elim le_of_lt fun h => h.1.le
        rw [abs_le] at hn
        have k1 : (-1 : ℝ) < n := by linarith [hn.1, hn.2]
        have k2 : (n : ℝ) < 2 := by linarith [hn.1, hn.2]
        have k1' : -1 < n := by exact_mod_cast k1
        have k2' : n < 2 := by exact_mod_cast k2
        have : n = 0 ∨ n = 1 := by omega
        rcases this with rfl | rfl <;> simp

/-- Non-vacuity: a mask of `10 × 10` pixels exists before rotation. -/
example (rot : Mat ℝ → ℝ → Mat ℝ) : ∃ out, makeParabolaMask rot 10 10 0.3 0.3 (.one 2) (.one 2) 30 = .ok out := by
  obtain ⟨_, h⟩ := C33_mask rot 10 10 (by norm_num) (by norm_num) 0.3 0.3 (.one 2) (.one 2) 2 2 2 2 rfl rfl
  obtain ⟨mask, e, _⟩ := h (by norm_num) (by norm_num)
  obtain ⟨out, ho, _⟩ := (C33_rotated rot 10 10 0.3 0.3 (.one 2) (.one 2) 30 (by norm_num)).2 mask e
  exact ⟨out, ho⟩

/-! ## Points -/

theorem truncInt_isTrunc (v : ℝ) : IsTrunc v (truncInt v) := by
  unfold truncInt IsTrunc
  constructor
  · intro h
    rw [if_pos h]
    exact ⟨Int.floor_le v, Int.lt_floor_add_one v⟩
  · intro h
    rw [if_neg (not_le.2 h)]
    have h1 := Int.le_ceil v
    have h2 := Int.ceil_lt_add_one v
    exact ⟨by linarith, h1⟩

theorem isTrunc_unique {v : ℝ} {n m : ℤ} (h : IsTrunc v n) (h' : IsTrunc v m) : n = m := by
  rcases le_or_gt 0 v with hv | hv
  · obtain ⟨a, b⟩ := h.1 hv
    obtain ⟨c, d⟩ := h'.1 hv
    have e1 : n < m + 1 := by exact_mod_cast (lt_of_le_of_lt a d)
    have e2 : m < n + 1 := by exact_mod_cast (lt_of_le_of_lt c b)
    omega
  · obtain ⟨a, b⟩ := h.2 hv
    obtain ⟨c, d⟩ := h'.2 hv
    have e1 : n - 1 < m := by exact_mod_cast (lt_of_lt_of_le a d)
    have e2 : m - 1 < n := by exact_mod_cast (lt_of_lt_of_le c b)
    omega

/-- **C34.** If the truncated coordinates of all points are in `[-size, size)`, the result consists, in order, of exactly the
points whose truncated coordinates are in the frame and on the mask. The mask is any mask with the requested size (all
rotations included). -/
theorem C34_points (rot : Mat ℝ → ℝ → Mat ℝ) (points : List Pt) (height width : ℕ) (hc vc : ℝ) (horM verM : Margin)
    (rotate : ℝ) (mask : Mat ℝ) (hmask : makeParabolaMask rot height width hc vc horM verM rotate = .ok mask)
    (hsh : mask.height = height) (hsw : mask.width = width)
    (hb : ∀ p ∈ points, ∀ n m : ℤ, IsTrunc p.y n → IsTrunc p.x m →
      -(height : ℤ) ≤ n ∧ n < height ∧ -(width : ℤ) ≤ m ∧ m < width) :
    ∃ kept, removePointsMask rot points height width hc vc horM verM rotate = .ok kept ∧ kept.Sublist points ∧
      (∀ p, p ∈ kept ↔ p ∈ points ∧ ∃ i < height, ∃ j < width, IsTrunc p.y i ∧ IsTrunc p.x j ∧ mask.get i j = 1) ∧
      (open Classical in kept = points.filter fun p => decide (p ∈ kept)) := by
  classical
  obtain ⟨f, hf⟩ : ∃ f : Pt → Bool, ∀ p ∈ points, maskTest mask height width p = .ok (f p) ∧
      (f p = true ↔ ∃ i < height, ∃ j < width, IsTrunc p.y i ∧ IsTrunc p.x j ∧ mask.get i j = 1) := by
    have : ∀ p : Pt, p ∈ points → ∃ b : Bool, maskTest mask height width p = .ok b ∧
        (b = true ↔ ∃ i < height, ∃ j < width, IsTrunc p.y i ∧ IsTrunc p.x j ∧ mask.get i j = 1) := by
      intro p hp
      have ty := truncInt_isTrunc p.y
      have tx := truncInt_isTrunc p.x
      obtain ⟨b1, b2, b3, b4⟩ := hb p hp _ _ ty tx
      have hidx : ∀ (n : ℕ) (i : ℤ), -(n : ℤ) ≤ i → i < n → ∃ k, pyIndex n i = .ok k ∧ (0 ≤ i → k = i.toNat) := by
        intro n i h1 h2
        unfold pyIndex
        by_cases h : 0 ≤ i
        · exact ⟨i.toNat, by rw [if_pos ⟨h, h2⟩], fun _ => rfl⟩
        · exact ⟨(i + n).toNat, by rw [if_neg (by omega), if_pos (by omega)], fun h' => absurd h' h⟩
      obtain ⟨i, ei, hi⟩ := hidx height (truncInt p.y) b1 b2
      obtain ⟨j, ej, hj⟩ := hidx width (truncInt p.x) b3 b4
      refine ⟨decide (0 ≤ truncInt p.y ∧ truncInt p.y < height ∧ 0 ≤ truncInt p.x ∧ truncInt p.x < width ∧ mask.get i j = 1), ?_, ?_⟩
      · unfold maskTest
        simp only
        rw [hsh, hsw, ei, ok_bind, ej, ok_bind]
      · rw [decide_eq_true_eq]
        constructor
        · rintro ⟨h1, h2, h3, h4, h5⟩
          refine ⟨i, by rw [hi h1]; omega, j, by rw [hj h3]; omega, ?_, ?_, h5⟩
          · rw [hi h1]; simpa [Int.toNat_of_nonneg h1] using ty
          · rw [hj h3]; simpa [Int.toNat_of_nonneg h3] using tx
        · rintro ⟨i', hi', j', hj', t1, t2, h5⟩
          have e1 := isTrunc_unique t1 ty
          have e2 := isTrunc_unique t2 tx
          have n1 : 0 ≤ truncInt p.y := by rw [← e1]; exact Int.natCast_nonneg _
          have n2 : 0 ≤ truncInt p.x := by rw [← e2]; exact Int.natCast_nonneg _
          refine ⟨n1, by omega, n2, by omega, ?_⟩
          have : i = i' := by rw [hi n1]; omega
          have : j = j' := by rw [hj n2]; omega
          subst i j
          exact h5
    choose! f hf using this
    exact ⟨f, hf⟩
  have hcomp : removePointsMask rot points height width hc vc horM verM rotate = .ok (points.filter f) := by
    unfold removePointsMask
    rw [hmask, ok_bind, mapM_eq_map (g := f) (fun p hp => (hf p hp).1), ok_bind]
    congr 1
    clear hf hb
    induction points with
    | nil => rfl
    | cons p ps ih =>
      simp only [List.map_cons, List.zip_cons_cons]
      by_cases h : f p = true
      · rw [List.filter_cons_of_pos (by simpa using h), List.filter_cons_of_pos h, List.map_cons, ih]
      · rw [List.filter_cons_of_neg (by simpa using h), List.filter_cons_of_neg h, ih]
  have hmem : ∀ p, p ∈ points.filter f ↔ p ∈ points ∧ ∃ i < height, ∃ j < width, IsTrunc p.y i ∧ IsTrunc p.x j ∧ mask.get i j = 1 := by
    intro p
    rw [List.mem_filter]
    constructor
    · rintro ⟨h1, h2⟩; exact ⟨h1, (hf p h1).2.1 h2⟩
    · rintro ⟨h1, h2⟩; exact ⟨h1, (hf p h1).2.2 h2⟩
  refine ⟨_, hcomp, List.filter_sublist, hmem, ?_⟩
  apply List.filter_congr
  intro p hp
  by_cases h : f p = true
  · simp [h, hp]
  · simp [h]

/-- **C34** (points beyond the frame): one point whose truncated row is at or beyond the height (or below `-height`) makes the
call fail with `IndexError`, although the bounds test in the code was meant to drop it. -/
theorem C34_out_of_frame (rot : Mat ℝ → ℝ → Mat ℝ) (points : List Pt) (height width : ℕ) (hc vc : ℝ) (horM verM : Margin)
    (rotate : ℝ) (mask : Mat ℝ) (hmask : makeParabolaMask rot height width hc vc horM verM rotate = .ok mask)
    (hsh : mask.height = height) (hsw : mask.width = width) (p : Pt) (hp : p ∈ points) (n m : ℤ)
    (hn : IsTrunc p.y n) (hm : IsTrunc p.x m)
    (hout : height ≤ n ∨ n < -(height : ℤ) ∨ width ≤ m ∨ m < -(width : ℤ)) :
    removePointsMask rot points height width hc vc horM verM rotate = .error .indexError := by
  have hn' := isTrunc_unique hn (truncInt_isTrunc p.y)
  have hm' := isTrunc_unique hm (truncInt_isTrunc p.x)
  have hcases : ∀ q, maskTest mask height width q = .error .indexError ∨ ∃ b, maskTest mask height width q = .ok b := by
    intro q
    unfold maskTest pyIndex
    simp only
    split
    · rw [ok_bind]
      split
      · exact Or.inr ⟨_, rfl⟩
      · split
        · exact Or.inr ⟨_, rfl⟩
        · exact Or.inl rfl
    · split
      · rw [ok_bind]
        split
        · exact Or.inr ⟨_, rfl⟩
        · split
          · exact Or.inr ⟨_, rfl⟩
          · exact Or.inl rfl
      · exact Or.inl rfl
  have hbad : maskTest mask height width p = .error .indexError := by
    rcases hcases p with h | ⟨b, h⟩
    · exact h
    · exfalso
      unfold maskTest at h
      simp only at h
      rw [hsh, hsw, ← hn', ← hm', bind_ok_iff] at h
      obtain ⟨i, h1, h⟩ := h
      rw [bind_ok_iff] at h
      obtain ⟨j, h2, _⟩ := h
      unfold pyIndex at h1 h2
      split at h1
      · split at h2
        · omega
        · split at h2
          · omega
          · cases h2
      · split at h1
        · split at h2
          · omega
          · split at h2
            · omega
            · cases h2
        · cases h1
  have : points.mapM (maskTest mask height width) = .error .indexError := by
    induction points with
    | nil => cases hp
    | cons q ps ih =>
      rw [List.mapM_cons]
      rcases hcases q with h | ⟨b, h⟩
      · rw [h]; rfl
      · rw [h, ok_bind]
        have : p ∈ ps := by
          rcases List.mem_cons.1 hp with rfl | h'
          · rw [hbad] at h; cases h
          · exact h'
        rw [ih this]; rfl
  unfold removePointsMask
  rw [hmask, ok_bind, this]; rfl

/-- Non-vacuity of `C34_out_of_frame`: the point `(y, x) = (10, 5)` in a 10 × 10 frame. -/
example (rot : Mat ℝ → ℝ → Mat ℝ) :
    removePointsMask rot [⟨5, 5⟩, ⟨10, 5⟩] 10 10 0.3 0.3 (.one 2) (.one 2) 0 = .error .indexError := by
  obtain ⟨_, h⟩ := C33_mask rot 10 10 (by norm_num) (by norm_num) 0.3 0.3 (.one 2) (.one 2) 2 2 2 2 rfl rfl
  obtain ⟨mask, e, h1, h2, _⟩ := h (by norm_num) (by norm_num)
  exact C34_out_of_frame rot _ 10 10 0.3 0.3 (.one 2) (.one 2) 0 mask e h1 h2 ⟨10, 5⟩ (by simp) 10 5
    ⟨fun _ => by norm_num, fun h => by norm_num at h⟩ ⟨fun _ => by norm_num, fun h => by norm_num at h⟩ (Or.inl (by norm_num))

/-- Non-vacuity of `C34_points`: the point `(5.7, 5.2)` is kept, the point `(0.5, 0.5)` is dropped. -/
example (rot : Mat ℝ → ℝ → Mat ℝ) :
    ∃ kept, removePointsMask rot [⟨5.7, 5.2⟩, ⟨0.5, 0.5⟩] 10 10 0.3 0.3 (.one 2) (.one 2) 0 = .ok kept ∧
      (⟨5.7, 5.2⟩ : Pt) ∈ kept ∧ (⟨0.5, 0.5⟩ : Pt) ∉ kept := by
  obtain ⟨_, h⟩ := C33_mask rot 10 10 (by norm_num) (by norm_num) 0.3 0.3 (.one 2) (.one 2) 2 2 2 2 rfl rfl
  obtain ⟨mask, e, h1, h2, hm⟩ := h (by norm_num) (by norm_num)
  have t5 : ∀ v : ℝ, 5 ≤ v → v < 6 → IsTrunc v 5 := fun v h h' =>
    ⟨fun _ => ⟨by simpa using h, by push_cast; linarith⟩, fun h'' => by linarith⟩
  have t0 : ∀ v : ℝ, 0 ≤ v → v < 1 → IsTrunc v 0 := fun v h h' =>
    ⟨fun _ => ⟨by simpa using h, by push_cast; linarith⟩, fun h'' => by linarith⟩
  obtain ⟨kept, hk, _, hmem, _⟩ := C34_points rot [⟨5.7, 5.2⟩, ⟨0.5, 0.5⟩] 10 10 0.3 0.3 (.one 2) (.one 2) 0 mask e h1 h2 (by
    intro p hp n m hn hm'
    simp only [List.mem_cons, List.not_mem_nil, or_false] at hp
    rcases hp with rfl | rfl
    · rw [isTrunc_unique hn (t5 _ (by norm_num) (by norm_num)), isTrunc_unique hm' (t5 _ (by norm_num) (by norm_num))]
      norm_num
    · rw [isTrunc_unique hn (t0 _ (by norm_num) (by norm_num)), isTrunc_unique hm' (t0 _ (by norm_num) (by norm_num))]
      norm_num)
  refine ⟨kept, hk, ?_, ?_⟩
  · rw [hmem]
    refine ⟨by simp, 5, by norm_num, 5, by norm_num, ?_, ?_, ?_⟩
    · exact_mod_cast t5 5.7 (by norm_num) (by norm_num)
    · exact_mod_cast t5 5.2 (by norm_num) (by norm_num)
    · exact (hm 5 5).2.2 ⟨by norm_num, by norm_num, by norm_num, by norm_num⟩
  · rw [hmem]
    rintro ⟨_, i, _, j, _, hi, hj, h'⟩
    have e1 := isTrunc_unique hi (t0 0.5 (by norm_num) (by norm_num))
    have e2 := isTrunc_unique hj (t0 0.5 (by norm_num) (by norm_num))
    have e1 : i = 0 := by omega
    have e2 : j = 0 := by omega
    subst e1 e2
    have := ((hm 0 0).2.1 h').top
    norm_num at this

end Discorpy
