import Verif.Spec.TwoLevels
import Mathlib.Tactic.Linarith
import Mathlib.Tactic.FieldSimp
import Mathlib.Tactic.Ring
import Mathlib.Tactic.Positivity
import Mathlib.Algebra.Order.BigOperators.Group.List
import Mathlib.Data.Real.Basic

/-! # Lemmas about Otsu's criterion for values near two levels -/

namespace Discorpy

open Spec

theorem filter_between (ys : List ℝ) {s t : ℝ} (h : s ≤ t) :
    ((ys.filter fun y => y ≤ t).length = (ys.filter fun y => y ≤ s).length + (ys.filter fun y => s < y ∧ y ≤ t).length ∧
      (ys.filter fun y => y ≤ t).sum = (ys.filter fun y => y ≤ s).sum + (ys.filter fun y => s < y ∧ y ≤ t).sum) ∧
    ((ys.filter fun y => s < y).length = (ys.filter fun y => s < y ∧ y ≤ t).length + (ys.filter fun y => t < y).length ∧
      (ys.filter fun y => s < y).sum = (ys.filter fun y => s < y ∧ y ≤ t).sum + (ys.filter fun y => t < y).sum) := by
  induction ys with
  | nil => simp
  | cons y ys ih =>
    obtain ⟨⟨i1, i2⟩, i3, i4⟩ := ih
    rcases lt_or_ge s y with h1 | h1
    · rcases lt_or_ge t y with h2 | h2
      · simp [List.filter_cons, h1, h2, not_le.2 h1, not_le.2 h2, i1, i2, i3, i4]
        exact ⟨by omega, by ring⟩
      · simp [List.filter_cons, h1, h2, not_le.2 h1, not_lt.2 h2, i1, i2, i3, i4]
        exact ⟨⟨by omega, by ring⟩, by omega, by ring⟩
    · have h2 : y ≤ t := h1.trans h
      simp [List.filter_cons, h1, h2, not_lt.2 h1, not_lt.2 h2, i1, i2, i3, i4]
      exact ⟨by omega, by ring⟩

theorem sum_between {l : List ℝ} {lo hi : ℝ} (h : ∀ y ∈ l, lo ≤ y ∧ y ≤ hi) : lo * l.length ≤ l.sum ∧ l.sum ≤ hi * l.length := by
  induction l with
  | nil => simp
  | cons y l ih =>
    obtain ⟨h1, h2⟩ := ih fun z hz => h z (List.mem_cons_of_mem _ hz)
    obtain ⟨h3, h4⟩ := h y (List.mem_cons_self ..)
    simp only [List.sum_cons, List.length_cons]
    push_cast
    constructor <;> linarith

theorem mean_between {l : List ℝ} {lo hi : ℝ} (h : ∀ y ∈ l, lo ≤ y ∧ y ≤ hi) (hl : 0 < (l.length : ℝ)) :
    lo ≤ l.sum / l.length ∧ l.sum / l.length ≤ hi := by
  obtain ⟨h1, h2⟩ := sum_between h
  exact ⟨(le_div_iff₀ hl).2 h1, (div_le_iff₀ hl).2 h2⟩

theorem three_groups {x y z X Y Z : ℝ} (hx : 0 < x) (hy : 0 < y) (hz : 0 < z) :
    (x + y) * z * ((X + Y) / (x + y) - Z / z) ^ 2 - x * (y + z) * (X / x - (Y + Z) / (y + z)) ^ 2 =
      (x + y + z) * (y * z / (y + z) * (Z / z - Y / y) ^ 2 - x * y / (x + y) * (Y / y - X / x) ^ 2) := by
  obtain ⟨u, rfl⟩ : ∃ u, X = x * u := ⟨X / x, by field_simp⟩
  obtain ⟨v, rfl⟩ : ∃ v, Y = y * v := ⟨Y / y, by field_simp⟩
  obtain ⟨w, rfl⟩ : ∃ w, Z = z * w := ⟨Z / z, by field_simp⟩
  have e1 : x * u / x = u := by field_simp
  have e2 : y * v / y = v := by field_simp
  have e3 : z * w / z = w := by field_simp
  rw [e1, e2, e3]
  have h1 : x + y ≠ 0 := by positivity
  have h2 : y + z ≠ 0 := by positivity
  field_simp
  ring

/-- The comparison of the two gaps. -/
theorem gap_wins {x y z d e g m : ℝ} (hx : 0 < x) (hy : 0 < y) (hz : 0 < z) (he : 0 ≤ e) (hg : 0 < g) (hd : d ^ 2 ≤ (2 * e) ^ 2) (hm : g ^ 2 ≤ m ^ 2)
    (h : (2 * e) ^ 2 * (x + y + z) ≤ g ^ 2 * z) : x * y / (x + y) * d ^ 2 < y * z / (y + z) * m ^ 2 := by
  have hE : 0 ≤ (2 * e) ^ 2 := sq_nonneg _
  have hG : 0 < g ^ 2 := by positivity
  have s1 : x * y / (x + y) * d ^ 2 ≤ x * y / (x + y) * (2 * e) ^ 2 := mul_le_mul_of_nonneg_left hd (by positivity)
  have s3 : y * z / (y + z) * g ^ 2 ≤ y * z / (y + z) * m ^ 2 := mul_le_mul_of_nonneg_left hm (by positivity)
  refine lt_of_le_of_lt s1 (lt_of_lt_of_le ?_ s3)
  generalize (2 * e) ^ 2 = E at hE h
  generalize g ^ 2 = G at hG h
  rw [div_mul_eq_mul_div, div_mul_eq_mul_div, div_lt_div_iff₀ (by positivity) (by positivity)]
  have k1 : E * (x + y + z) * (x + y) ≤ G * z * (x + y) := mul_le_mul_of_nonneg_right h (by positivity)
  have k2 : x * (y + z) * E ≤ E * (x + y + z) * (x + y) := by
    have : 0 ≤ E * ((x + y + z) * (x + y) - x * (y + z)) := mul_nonneg hE (by nlinarith [mul_pos hx hy, mul_pos hy hz, mul_pos hx hx, mul_pos hx hz, mul_pos hy hy])
    linarith
  have k3 : x * (y + z) * E < G * z * (x + y) := by
    rcases hE.lt_or_eq with h0 | h0
    · have : 0 < E * ((x + y + z) * (x + y) - x * (y + z)) := mul_pos h0 (by nlinarith [mul_pos hx hy, mul_pos hy hz, mul_pos hx hx, mul_pos hx hz, mul_pos hy hy])
      linarith
    · rw [← h0, mul_zero]
      positivity
  have := mul_lt_mul_of_pos_left k3 hy
  nlinarith

/-- Otsu's threshold separates two groups of values that are far enough apart. -/
theorem otsu_separates {ys : List ℝ} {a b e t : ℝ} (h : TwoLevels ys a b e) (ht : OtsuThreshold ys t) :
    (∀ y ∈ ys, |y - a| ≤ e → y ≤ t) ∧ ∀ y ∈ ys, |y - b| ≤ e → t < y := by
  obtain ⟨yl, hyl, hyl'⟩ := h.low
  obtain ⟨yh, hyh, hyh'⟩ := h.high
  have he : 0 ≤ e := (abs_nonneg _).trans hyl'
  have hap := h.apart
  have hg : 0 < b - a - 2 * e := by linarith
  have lowiff : ∀ y ∈ ys, |y - a| ≤ e ↔ y ≤ a + e := by
    intro y hy
    refine ⟨fun h' => by linarith [(abs_le.1 h').2], fun h' => ?_⟩
    rcases h.near y hy with h1 | h1
    · exact h1
    · linarith [(abs_le.1 h1).1]
  have highiff : ∀ y ∈ ys, |y - b| ≤ e ↔ a + e < y := by
    intro y hy
    refine ⟨fun h' => by linarith [(abs_le.1 h').1], fun h' => ?_⟩
    rcases h.near y hy with h1 | h1
    · linarith [(abs_le.1 h1).2]
    · exact h1
  have eL : (ys.filter fun y => |y - a| ≤ e) = ys.filter fun y => y ≤ a + e :=
    List.filter_congr fun y hy => by rw [decide_eq_decide]; exact lowiff y hy
  have eH : (ys.filter fun y => |y - b| ≤ e) = ys.filter fun y => a + e < y :=
    List.filter_congr fun y hy => by rw [decide_eq_decide]; exact highiff y hy
  have hdark := h.dark
  have hbright := h.bright
  rw [eL] at hdark
  rw [eH] at hbright
  have hN : (ys.length : ℝ) = (ys.filter fun y => y ≤ a + e).length + (ys.filter fun y => a + e < y).length := by
    have := List.length_eq_length_filter_add (l := ys) fun y => decide (y ≤ a + e)
    have e2 : (ys.filter fun y => !decide (y ≤ a + e)) = ys.filter fun y => a + e < y :=
      List.filter_congr fun y _ => by rw [← decide_not, decide_eq_decide, not_le]
    rw [e2] at this
    exact_mod_cast this
  have pos : ∀ (p : ℝ → Bool) (y : ℝ), y ∈ ys → p y = true → (0 : ℝ) < (ys.filter p).length := by
    intro p y hy hp
    exact_mod_cast List.length_pos_of_mem (List.mem_filter.2 ⟨hy, hp⟩)
  have bounds : ∀ (p : ℝ → Bool) (lo hi : ℝ), (∀ y ∈ ys, p y = true → lo ≤ y ∧ y ≤ hi) → ∀ y ∈ ys.filter p, lo ≤ y ∧ y ≤ hi := by
    intro p lo hi hb y hy
    obtain ⟨h1, h2⟩ := List.mem_filter.1 hy
    exact hb y h1 h2
  have lowb : ∀ y ∈ ys, y ≤ a + e → a - e ≤ y ∧ y ≤ a + e := by
    intro y hy h1
    have := abs_le.1 ((lowiff y hy).2 h1)
    exact ⟨by linarith, h1⟩
  have highb : ∀ y ∈ ys, a + e < y → b - e ≤ y ∧ y ≤ b + e := by
    intro y hy h1
    have := abs_le.1 ((highiff y hy).2 h1)
    exact ⟨by linarith, by linarith⟩
  have hbest := ht.best (a + e)
  constructor
  · intro y0 hy0 hl0
    by_contra hlt
    rw [not_le] at hlt
    have hy0' := (lowiff y0 hy0).1 hl0
    have htp : t ≤ a + e := by linarith
    obtain ⟨⟨f1, f2⟩, f3, f4⟩ := filter_between ys htp
    have px := pos (fun y => y ≤ t) t ht.mem (by simp)
    have py := pos (fun y => t < y ∧ y ≤ a + e) y0 hy0 (by simp [hlt, hy0'])
    have pz := pos (fun y => a + e < y) yh hyh (by simpa using (highiff yh hyh).1 hyh')
    unfold classSpread at hbest
    simp only at hbest
    rw [f1, f2, f3, f4] at hbest
    push_cast at hbest
    have key := three_groups (X := (ys.filter fun y => y ≤ t).sum) (Y := (ys.filter fun y => t < y ∧ y ≤ a + e).sum)
      (Z := (ys.filter fun y => a + e < y).sum) px py pz
    have mx := mean_between (bounds (fun y => y ≤ t) (a - e) (a + e) fun y hy h1 => by
      have h1' : y ≤ t := by simpa using h1
      exact lowb y hy (by linarith)) px
    have my := mean_between (bounds (fun y => t < y ∧ y ≤ a + e) (a - e) (a + e) fun y hy h1 => by
      have h1' : t < y ∧ y ≤ a + e := by simpa using h1
      exact lowb y hy h1'.2) py
    have mz := mean_between (bounds (fun y => a + e < y) (b - e) (b + e) fun y hy h1 => highb y hy (by simpa using h1)) pz
    rw [f1] at hN
    push_cast at hN
    have win := gap_wins (d := (ys.filter fun y => t < y ∧ y ≤ a + e).sum / (ys.filter fun y => t < y ∧ y ≤ a + e).length -
        (ys.filter fun y => y ≤ t).sum / (ys.filter fun y => y ≤ t).length)
      (m := (ys.filter fun y => a + e < y).sum / (ys.filter fun y => a + e < y).length -
        (ys.filter fun y => t < y ∧ y ≤ a + e).sum / (ys.filter fun y => t < y ∧ y ≤ a + e).length) px py pz he hg
      (sq_le_sq' (by linarith) (by linarith)) (pow_le_pow_left₀ hg.le (by linarith) 2) (by rw [← hN]; exact hbright)
    have := mul_pos (add_pos (add_pos px py) pz) (sub_pos.2 win)
    rw [← key] at this
    linarith
  · intro y0 hy0 hh0
    by_contra hlt
    rw [not_lt] at hlt
    have hy0' := (highiff y0 hy0).1 hh0
    have htp : a + e ≤ t := by linarith
    obtain ⟨⟨f1, f2⟩, f3, f4⟩ := filter_between ys htp
    have px := pos (fun y => y ≤ a + e) yl hyl (by simpa using (lowiff yl hyl).1 hyl')
    have py := pos (fun y => a + e < y ∧ y ≤ t) y0 hy0 (by simp [hlt, hy0'])
    have mx := mean_between (bounds (fun y => y ≤ a + e) (a - e) (a + e) fun y hy h1 => lowb y hy (by simpa using h1)) px
    have my := mean_between (bounds (fun y => a + e < y ∧ y ≤ t) (b - e) (b + e) fun y hy h1 => by
      have h1' : a + e < y ∧ y ≤ t := by simpa using h1
      exact highb y hy h1'.1) py
    rcases (Nat.eq_zero_or_pos (ys.filter fun y => t < y).length) with h0 | pz0
    · have pB := pos (fun y => a + e < y) yh hyh (by simpa using (highiff yh hyh).1 hyh')
      have mB := mean_between (bounds (fun y => a + e < y) (b - e) (b + e) fun y hy h1 => highb y hy (by simpa using h1)) pB
      have e0 : classSpread ys t = 0 := by
        unfold classSpread
        simp [h0]
      rw [e0] at hbest
      have : 0 < classSpread ys (a + e) := by
        unfold classSpread
        simp only
        have hne : (ys.filter fun y => y ≤ a + e).sum / (ys.filter fun y => y ≤ a + e).length -
            (ys.filter fun y => a + e < y).sum / (ys.filter fun y => a + e < y).length < 0 := by linarith
        exact mul_pos (mul_pos px pB) (by nlinarith)
      linarith
    · have pz : (0 : ℝ) < (ys.filter fun y => t < y).length := by exact_mod_cast pz0
      unfold classSpread at hbest
      simp only at hbest
      rw [f1, f2, f3, f4] at hbest
      push_cast at hbest
      have key := three_groups (X := (ys.filter fun y => y ≤ a + e).sum) (Y := (ys.filter fun y => a + e < y ∧ y ≤ t).sum)
        (Z := (ys.filter fun y => t < y).sum) px py pz
      have mz := mean_between (bounds (fun y => t < y) (b - e) (b + e) fun y hy h1 => by
        have h1' : t < y := by simpa using h1
        exact highb y hy (by linarith)) pz
      rw [f3] at hN
      push_cast at hN
      have win := gap_wins (d := (ys.filter fun y => t < y).sum / (ys.filter fun y => t < y).length -
          (ys.filter fun y => a + e < y ∧ y ≤ t).sum / (ys.filter fun y => a + e < y ∧ y ≤ t).length)
        (m := (ys.filter fun y => a + e < y ∧ y ≤ t).sum / (ys.filter fun y => a + e < y ∧ y ≤ t).length -
          (ys.filter fun y => y ≤ a + e).sum / (ys.filter fun y => y ≤ a + e).length) pz py px he hg
        (sq_le_sq' (by linarith) (by linarith)) (pow_le_pow_left₀ hg.le (by linarith) 2) (by
          have : ((ys.filter fun y => t < y).length : ℝ) + (ys.filter fun y => a + e < y ∧ y ≤ t).length + (ys.filter fun y => y ≤ a + e).length =
            ys.length := by rw [hN]; ring
          rw [this]; exact hdark)
      set x := ((ys.filter fun y => y ≤ a + e).length : ℝ)
      set y := ((ys.filter fun y => a + e < y ∧ y ≤ t).length : ℝ)
      set z := ((ys.filter fun y => t < y).length : ℝ)
      rw [mul_comm z y, add_comm z y, mul_comm y x, add_comm y x] at win
      have := mul_pos (add_pos (add_pos px py) pz) (sub_pos.2 win)
      linarith

end Discorpy
