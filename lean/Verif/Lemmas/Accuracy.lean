import Verif.Spec.Accuracy
import Verif.Lemmas.Image
import Mathlib.Analysis.Convex.Deriv
import Mathlib.Analysis.Calculus.Deriv.Pow
import Mathlib.Analysis.Calculus.Deriv.Add
import Mathlib.Analysis.Calculus.Deriv.Mul

/-! # Helper lemmas: accuracy of bilinear interpolation -/

namespace Discorpy

open Spec

/-- The weights of linear interpolation. -/
theorem floor_weights {N : ℕ} {y : ℝ} (h0 : 0 ≤ y) (h1 : y ≤ (N : ℝ) - 1) :
    ⌊y⌋₊ < N ∧ 0 ≤ y - ⌊y⌋₊ ∧ y - ⌊y⌋₊ < 1 ∧ (⌊y⌋₊ + 1 < N ∧ min (⌊y⌋₊ + 1) (N - 1) = ⌊y⌋₊ + 1 ∨ y = ⌊y⌋₊ ∧ min (⌊y⌋₊ + 1) (N - 1) = ⌊y⌋₊) := by
  have a := Nat.floor_le h0
  have b := Nat.lt_floor_add_one y
  have hlt : ⌊y⌋₊ < N := by
    have : (⌊y⌋₊ : ℝ) < N := by linarith
    exact_mod_cast this
  refine ⟨hlt, by linarith, by linarith, ?_⟩
  by_cases hl : ⌊y⌋₊ + 1 < N
  · exact .inl ⟨hl, by omega⟩
  · right
    have e : ⌊y⌋₊ + 1 = N := by omega
    have e' : (⌊y⌋₊ : ℝ) + 1 = N := by exact_mod_cast e
    exact ⟨by linarith, by omega⟩

theorem bilinear_split (m : Mat ℝ) (y x : ℝ) :
    bilinear m y x = (1 - (y - ⌊y⌋₊)) * ((1 - (x - ⌊x⌋₊)) * m.get ⌊y⌋₊ ⌊x⌋₊ + (x - ⌊x⌋₊) * m.get ⌊y⌋₊ (min (⌊x⌋₊ + 1) (m.width - 1))) +
      (y - ⌊y⌋₊) * ((1 - (x - ⌊x⌋₊)) * m.get (min (⌊y⌋₊ + 1) (m.height - 1)) ⌊x⌋₊ +
        (x - ⌊x⌋₊) * m.get (min (⌊y⌋₊ + 1) (m.height - 1)) (min (⌊x⌋₊ + 1) (m.width - 1))) := by
  unfold bilinear
  ring

theorem convex_near {s a b v D : ℝ} (h0 : 0 ≤ s) (h1 : s ≤ 1) (ha : |a - v| ≤ D) (hb : |b - v| ≤ D) : |(1 - s) * a + s * b - v| ≤ D := by
  rw [abs_le] at *
  constructor <;> nlinarith

/-- The interpolated value is close to a number to which the pixels around are close. -/
theorem bilinear_near {m : Mat ℝ} {y x v D : ℝ} (h : InFrame m y x)
    (hn : ∀ i < m.height, ∀ j < m.width, |(i : ℝ) - y| ≤ 1 → |(j : ℝ) - x| ≤ 1 → |m.get i j - v| ≤ D) : |bilinear m y x - v| ≤ D := by
  obtain ⟨y1, y2, y3, y4⟩ := floor_weights h.1 h.2.1
  obtain ⟨x1, x2, x3, x4⟩ := floor_weights h.2.2.1 h.2.2.2
  have dy : |((⌊y⌋₊ : ℕ) : ℝ) - y| ≤ 1 := by rw [abs_le]; constructor <;> linarith
  have dx : |((⌊x⌋₊ : ℕ) : ℝ) - x| ≤ 1 := by rw [abs_le]; constructor <;> linarith
  have hy' : min (⌊y⌋₊ + 1) (m.height - 1) < m.height ∧ |((min (⌊y⌋₊ + 1) (m.height - 1) : ℕ) : ℝ) - y| ≤ 1 := by
    rcases y4 with ⟨a, e⟩ | ⟨a, e⟩ <;> rw [e]
    · refine ⟨a, ?_⟩
      push_cast
      rw [abs_le]
      constructor <;> linarith
    · exact ⟨y1, dy⟩
  have hx' : min (⌊x⌋₊ + 1) (m.width - 1) < m.width ∧ |((min (⌊x⌋₊ + 1) (m.width - 1) : ℕ) : ℝ) - x| ≤ 1 := by
    rcases x4 with ⟨a, e⟩ | ⟨a, e⟩ <;> rw [e]
    · refine ⟨a, ?_⟩
      push_cast
      rw [abs_le]
      constructor <;> linarith
    · exact ⟨x1, dx⟩
  rw [bilinear_split]
  exact convex_near y2 y3.le (convex_near x2 x3.le (hn _ y1 _ x1 dy dx) (hn _ y1 _ hx'.1 dy hx'.2))
    (convex_near x2 x3.le (hn _ hy'.1 _ x1 hy'.2 dx) (hn _ hy'.1 _ hx'.1 hy'.2 hx'.2))

theorem bends_convex {M : ℝ} {f : ℝ → ℝ} {a b : ℝ} (h : BendsAtMost M f a b) : ConvexOn ℝ (Set.Icc a b) fun t => M / 2 * t ^ 2 + f t := by
  obtain ⟨hc, f', f'', hd⟩ := h
  refine convexOn_of_hasDerivWithinAt2_nonneg (f' := fun t => M * t + f' t) (f'' := fun t => M + f'' t) (convex_Icc a b) ?_ ?_ ?_ ?_
  · exact (continuousOn_const.mul (continuousOn_id.pow 2)).add hc
  · intro t ht
    rw [interior_Icc] at ht
    have h1 : HasDerivAt (fun t : ℝ => M / 2 * t ^ 2) (M * t) t := by
      have := (hasDerivAt_pow 2 t).const_mul (M / 2)
      refine this.congr_deriv ?_
      norm_num
      ring
    exact (h1.add (hd t ht.1 ht.2).1).hasDerivWithinAt
  · intro t ht
    rw [interior_Icc] at ht
    have h1 : HasDerivAt (fun t : ℝ => M * t) M t := by
      have := (hasDerivAt_id t).const_mul M
      exact this.congr_deriv (by ring)
    exact (h1.add (hd t ht.1 ht.2).2.1).hasDerivWithinAt
  · intro t ht
    rw [interior_Icc] at ht
    have := (abs_le.1 (hd t ht.1 ht.2).2.2).1
    linarith

theorem bends_neg {M : ℝ} {f : ℝ → ℝ} {a b : ℝ} (h : BendsAtMost M f a b) : BendsAtMost M (fun t => -f t) a b := by
  obtain ⟨hc, f', f'', hd⟩ := h
  refine ⟨hc.neg, fun t => -f' t, fun t => -f'' t, fun t h1 h2 => ?_⟩
  obtain ⟨d1, d2, d3⟩ := hd t h1 h2
  exact ⟨d1.neg, d2.neg, by rwa [abs_neg]⟩

theorem bends_below {M : ℝ} (hM : 0 ≤ M) {f : ℝ → ℝ} {a b : ℝ} (h : BendsAtMost M f a b) {u s : ℝ} (hu : a ≤ u) (hu' : u + 1 ≤ b) (h0 : 0 ≤ s) (h1 : s ≤ 1) :
    f (u + s) ≤ (1 - s) * f u + s * f (u + 1) + M / 8 := by
  have hc := (bends_convex h).2 (⟨hu, by linarith⟩ : u ∈ Set.Icc a b) (⟨by linarith, hu'⟩ : u + 1 ∈ Set.Icc a b) (by linarith : 0 ≤ 1 - s) h0 (by ring)
  simp only [smul_eq_mul] at hc
  rw [show (1 - s) * u + s * (u + 1) = u + s by ring] at hc
  have : M * (s * (1 - s)) ≤ M * (1 / 4) := mul_le_mul_of_nonneg_left (by nlinarith [sq_nonneg (s - 1 / 2)]) hM
  nlinarith

theorem bends_linear {M : ℝ} (hM : 0 ≤ M) {f : ℝ → ℝ} {N : ℕ} (h : BendsAtMost M f 0 ((N : ℝ) - 1)) {y : ℝ} (h0 : 0 ≤ y) (h1 : y ≤ (N : ℝ) - 1) :
    |(1 - (y - ⌊y⌋₊)) * f (⌊y⌋₊ : ℕ) + (y - ⌊y⌋₊) * f (min (⌊y⌋₊ + 1) (N - 1) : ℕ) - f y| ≤ M / 8 := by
  obtain ⟨y1, y2, y3, y4⟩ := floor_weights h0 h1
  rcases y4 with ⟨a, e⟩ | ⟨a, e⟩ <;> rw [e]
  · have hb : ((⌊y⌋₊ : ℕ) : ℝ) + 1 ≤ (N : ℝ) - 1 := by
      have : ((⌊y⌋₊ + 1 + 1 : ℕ) : ℝ) ≤ N := by exact_mod_cast a
      push_cast at this
      linarith
    have p1 := bends_below hM h (u := (⌊y⌋₊ : ℕ)) (s := y - ⌊y⌋₊) (Nat.cast_nonneg _) hb y2 y3.le
    have p2 := bends_below hM (bends_neg h) (u := (⌊y⌋₊ : ℕ)) (s := y - ⌊y⌋₊) (Nat.cast_nonneg _) hb y2 y3.le
    rw [add_sub_cancel] at p1 p2
    push_cast
    rw [abs_le]
    constructor <;> linarith
  · have : (1 - (y - ⌊y⌋₊)) * f (⌊y⌋₊ : ℕ) + (y - ⌊y⌋₊) * f (⌊y⌋₊ : ℕ) - f y = 0 := by
      rw [← a]
      ring
    rw [this, abs_zero]
    positivity

/-- Error of bilinear interpolation of smooth functions. -/
theorem bilinear_smooth {m : Mat ℝ} {F : ℝ → ℝ → ℝ} (hF : ∀ i < m.height, ∀ j < m.width, m.get i j = F i j) {My Mx : ℝ} (hMy : 0 ≤ My) (hMx : 0 ≤ Mx)
    (hy : ∀ x, 0 ≤ x → x ≤ (m.width : ℝ) - 1 → BendsAtMost My (fun t => F t x) 0 ((m.height : ℝ) - 1))
    (hx : ∀ y, 0 ≤ y → y ≤ (m.height : ℝ) - 1 → BendsAtMost Mx (fun t => F y t) 0 ((m.width : ℝ) - 1)) {y x : ℝ} (h : InFrame m y x) :
    |bilinear m y x - F y x| ≤ (My + Mx) / 8 := by
  obtain ⟨y1, y2, y3, y4⟩ := floor_weights h.1 h.2.1
  obtain ⟨x1, x2, x3, x4⟩ := floor_weights h.2.2.1 h.2.2.2
  have hx1 : min (⌊x⌋₊ + 1) (m.width - 1) < m.width := by omega
  have row : ∀ i < m.height, |(1 - (x - ⌊x⌋₊)) * m.get i ⌊x⌋₊ + (x - ⌊x⌋₊) * m.get i (min (⌊x⌋₊ + 1) (m.width - 1)) - F i x| ≤ Mx / 8 := by
    intro i hi
    rw [hF i hi _ x1, hF i hi _ hx1]
    have hi' : (i : ℝ) ≤ (m.height : ℝ) - 1 := by
      have : ((i + 1 : ℕ) : ℝ) ≤ m.height := by exact_mod_cast hi
      push_cast at this
      linarith
    exact bends_linear hMx (hx i (Nat.cast_nonneg _) hi') h.2.2.1 h.2.2.2
  have col := bends_linear hMy (hy x h.2.2.1 h.2.2.2) h.1 h.2.1
  have r0 := row _ y1
  have r1 := row (min (⌊y⌋₊ + 1) (m.height - 1)) (by omega)
  rw [bilinear_split]
  generalize (1 - (x - ⌊x⌋₊)) * m.get ⌊y⌋₊ ⌊x⌋₊ + (x - ⌊x⌋₊) * m.get ⌊y⌋₊ (min (⌊x⌋₊ + 1) (m.width - 1)) = A at *
  generalize (1 - (x - ⌊x⌋₊)) * m.get (min (⌊y⌋₊ + 1) (m.height - 1)) ⌊x⌋₊ +
    (x - ⌊x⌋₊) * m.get (min (⌊y⌋₊ + 1) (m.height - 1)) (min (⌊x⌋₊ + 1) (m.width - 1)) = C at *
  rw [abs_le] at *
  constructor <;> nlinarith

/-! ### steps between pixels -/

theorem steps_sum {V : ℝ} {s : ℕ → ℝ} (hs : ∀ k, |s (k + 1) - s k| ≤ V) (a n : ℕ) : |s (a + n) - s a| ≤ V * n := by
  induction n with
  | zero => simp
  | succ n ih =>
    have h1 := hs (a + n)
    rw [← add_assoc]
    push_cast
    rw [abs_le] at *
    constructor <;> nlinarith

theorem linear_lipschitz {V : ℝ} {s : ℕ → ℝ} (hs : ∀ k, |s (k + 1) - s k| ≤ V) {y y' : ℝ} (h0 : 0 ≤ y) (hle : y ≤ y') :
    |((1 - (y' - ⌊y'⌋₊)) * s ⌊y'⌋₊ + (y' - ⌊y'⌋₊) * s (⌊y'⌋₊ + 1)) - ((1 - (y - ⌊y⌋₊)) * s ⌊y⌋₊ + (y - ⌊y⌋₊) * s (⌊y⌋₊ + 1))| ≤ V * (y' - y) := by
  have hV : 0 ≤ V := (abs_nonneg _).trans (hs 0)
  have a1 := Nat.floor_le h0
  have a2 := Nat.lt_floor_add_one y
  have b1 := Nat.floor_le (h0.trans hle)
  have b2 := Nat.lt_floor_add_one y'
  have hf := Nat.floor_le_floor hle
  have s1 := hs ⌊y⌋₊
  have s2 := hs ⌊y'⌋₊
  rcases hf.lt_or_eq with hl | he
  · obtain ⟨n, hn⟩ : ∃ n, ⌊y'⌋₊ = ⌊y⌋₊ + 1 + n := ⟨⌊y'⌋₊ - ⌊y⌋₊ - 1, by omega⟩
    have s3 := steps_sum hs (⌊y⌋₊ + 1) n
    have en : (⌊y'⌋₊ : ℝ) = ⌊y⌋₊ + 1 + n := by rw [hn]; push_cast; ring
    rw [← hn] at s3
    have e1 : |(y' - ⌊y'⌋₊) * (s (⌊y'⌋₊ + 1) - s ⌊y'⌋₊)| ≤ (y' - ⌊y'⌋₊) * V := by
      rw [abs_mul, abs_of_nonneg (by linarith : 0 ≤ y' - ⌊y'⌋₊)]
      exact mul_le_mul_of_nonneg_left s2 (by linarith)
    have e2 : |(⌊y⌋₊ + 1 - y) * (s (⌊y⌋₊ + 1) - s ⌊y⌋₊)| ≤ (⌊y⌋₊ + 1 - y) * V := by
      rw [abs_mul, abs_of_nonneg (by linarith : 0 ≤ ⌊y⌋₊ + 1 - y)]
      exact mul_le_mul_of_nonneg_left s1 (by linarith)
    have e3 : ((1 - (y' - ⌊y'⌋₊)) * s ⌊y'⌋₊ + (y' - ⌊y'⌋₊) * s (⌊y'⌋₊ + 1)) - ((1 - (y - ⌊y⌋₊)) * s ⌊y⌋₊ + (y - ⌊y⌋₊) * s (⌊y⌋₊ + 1)) =
        (y' - ⌊y'⌋₊) * (s (⌊y'⌋₊ + 1) - s ⌊y'⌋₊) + (s ⌊y'⌋₊ - s (⌊y⌋₊ + 1)) + (⌊y⌋₊ + 1 - y) * (s (⌊y⌋₊ + 1) - s ⌊y⌋₊) := by ring
    rw [e3]
    refine (abs_add_le _ _).trans ?_
    refine (add_le_add (abs_add_le _ _) le_rfl).trans ?_
    have : (y' - ⌊y'⌋₊) * V + V * n + (⌊y⌋₊ + 1 - y) * V = V * (y' - y) := by
      rw [en]; ring
    linarith
  · rw [he]
    have e3 : ((1 - (y' - ⌊y'⌋₊)) * s ⌊y'⌋₊ + (y' - ⌊y'⌋₊) * s (⌊y'⌋₊ + 1)) - ((1 - (y - ⌊y'⌋₊)) * s ⌊y'⌋₊ + (y - ⌊y'⌋₊) * s (⌊y'⌋₊ + 1)) =
        (y' - y) * (s (⌊y'⌋₊ + 1) - s ⌊y'⌋₊) := by ring
    rw [e3, abs_mul, abs_of_nonneg (by linarith : 0 ≤ y' - y), mul_comm]
    exact mul_le_mul_of_nonneg_right s2 (by linarith)

theorem linear_lipschitz' {V : ℝ} {s : ℕ → ℝ} (hs : ∀ k, |s (k + 1) - s k| ≤ V) {y y' : ℝ} (h0 : 0 ≤ y) (h0' : 0 ≤ y') :
    |((1 - (y' - ⌊y'⌋₊)) * s ⌊y'⌋₊ + (y' - ⌊y'⌋₊) * s (⌊y'⌋₊ + 1)) - ((1 - (y - ⌊y⌋₊)) * s ⌊y⌋₊ + (y - ⌊y⌋₊) * s (⌊y⌋₊ + 1))| ≤ V * |y' - y| := by
  rcases le_total y y' with h | h
  · rw [abs_of_nonneg (by linarith : 0 ≤ y' - y)]
    exact linear_lipschitz hs h0 h
  · rw [abs_sub_comm, abs_of_nonpos (by linarith : y' - y ≤ 0), neg_sub]
    exact linear_lipschitz hs h0' h

theorem bilinear_rowwise {m : Mat ℝ} {y x : ℝ} (h : InFrame m y x) (R : ℕ → ℝ)
    (hR : ∀ k, R k = (1 - (x - ⌊x⌋₊)) * m.get (min k (m.height - 1)) ⌊x⌋₊ + (x - ⌊x⌋₊) * m.get (min k (m.height - 1)) (min (⌊x⌋₊ + 1) (m.width - 1))) :
    bilinear m y x = (1 - (y - ⌊y⌋₊)) * R ⌊y⌋₊ + (y - ⌊y⌋₊) * R (⌊y⌋₊ + 1) := by
  have := (h.floor_lt).1
  rw [bilinear_split, hR, hR, min_eq_left (by omega : ⌊y⌋₊ ≤ m.height - 1)]

theorem bilinear_colwise {m : Mat ℝ} {y x : ℝ} (h : InFrame m y x) (C : ℕ → ℝ)
    (hC : ∀ k, C k = (1 - (y - ⌊y⌋₊)) * m.get ⌊y⌋₊ (min k (m.width - 1)) + (y - ⌊y⌋₊) * m.get (min (⌊y⌋₊ + 1) (m.height - 1)) (min k (m.width - 1))) :
    bilinear m y x = (1 - (x - ⌊x⌋₊)) * C ⌊x⌋₊ + (x - ⌊x⌋₊) * C (⌊x⌋₊ + 1) := by
  have := (h.floor_lt).2
  rw [bilinear_split, hC, hC, min_eq_left (by omega : ⌊x⌋₊ ≤ m.width - 1)]
  ring

theorem convex_diff {s a b c d V : ℝ} (h0 : 0 ≤ s) (h1 : s ≤ 1) (ha : |a - c| ≤ V) (hb : |b - d| ≤ V) :
    |((1 - s) * a + s * b) - ((1 - s) * c + s * d)| ≤ V := by
  rw [abs_le] at *
  constructor <;> nlinarith

theorem bilinear_lipschitz {m : Mat ℝ} {V U : ℝ} (hV : 0 ≤ V) (hU : 0 ≤ U) (hs : StepsAtMost V U m) {y x y' x' : ℝ} (h : InFrame m y x) (h' : InFrame m y' x') :
    |bilinear m y' x' - bilinear m y x| ≤ V * |y' - y| + U * |x' - x| := by
  have hm : InFrame m y x' := ⟨h.1, h.2.1, h'.2.2⟩
  have step : ∀ i j, |m.get (min (i + 1) (m.height - 1)) j - m.get (min i (m.height - 1)) j| ≤ V ∨ ¬ j < m.width := by
    intro i j
    by_cases hj : j < m.width
    · left
      by_cases hi : i + 1 < m.height
      · rw [min_eq_left (by omega), min_eq_left (by omega)]
        exact hs.1 i hi j hj
      · rw [min_eq_right (by omega), min_eq_right (by omega), sub_self, abs_zero]
        exact hV
    · exact .inr hj
  have step' : ∀ i j, |m.get i (min (j + 1) (m.width - 1)) - m.get i (min j (m.width - 1))| ≤ U ∨ ¬ i < m.height := by
    intro i j
    by_cases hi : i < m.height
    · left
      by_cases hj : j + 1 < m.width
      · rw [min_eq_left (by omega), min_eq_left (by omega)]
        exact hs.2 i hi j hj
      · rw [min_eq_right (by omega), min_eq_right (by omega), sub_self, abs_zero]
        exact hU
    · exact .inr hi
  have e1 : |bilinear m y' x' - bilinear m y x'| ≤ V * |y' - y| := by
    have fx := h'.floor_lt.2
    obtain ⟨_, w1, w2, _⟩ := floor_weights h'.2.2.1 h'.2.2.2
    rw [bilinear_rowwise h' _ fun k => rfl, bilinear_rowwise hm _ fun k => rfl]
    refine linear_lipschitz' (s := fun k => (1 - (x' - ⌊x'⌋₊)) * m.get (min k (m.height - 1)) ⌊x'⌋₊ +
      (x' - ⌊x'⌋₊) * m.get (min k (m.height - 1)) (min (⌊x'⌋₊ + 1) (m.width - 1))) (fun k => ?_) h.1 h'.1
    exact convex_diff w1 w2.le ((step k _).resolve_right (not_not.2 fx)) ((step k _).resolve_right (not_not.2 (by omega)))
  have e2 : |bilinear m y x' - bilinear m y x| ≤ U * |x' - x| := by
    have fy := h.floor_lt.1
    obtain ⟨_, w1, w2, _⟩ := floor_weights h.1 h.2.1
    rw [bilinear_colwise hm _ fun k => rfl, bilinear_colwise h _ fun k => rfl]
    refine linear_lipschitz' (s := fun k => (1 - (y - ⌊y⌋₊)) * m.get ⌊y⌋₊ (min k (m.width - 1)) +
      (y - ⌊y⌋₊) * m.get (min (⌊y⌋₊ + 1) (m.height - 1)) (min k (m.width - 1))) (fun k => ?_) h.2.2.1 h'.2.2.1
    exact convex_diff w1 w2.le ((step' _ k).resolve_right (not_not.2 fy)) ((step' _ k).resolve_right (not_not.2 (by omega)))
  have : bilinear m y' x' - bilinear m y x = (bilinear m y' x' - bilinear m y x') + (bilinear m y x' - bilinear m y x) := by ring
  rw [this]
  exact (abs_add_le _ _).trans (add_le_add e1 e2)

end Discorpy
