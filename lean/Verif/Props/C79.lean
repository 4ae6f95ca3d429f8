import Verif.Lemmas.Cross
import Verif.Props.C43

/-! # C79 — cross points of a line pattern -/

namespace Discorpy

open Spec

theorem scale_bounds {n k : ℕ} (hk : k + 1 < n) {L c co δ : ℝ} (h0 : 0 < co) (h1 : co ≤ 1) (hc : c ≤ L) (hL : L ≤ c + 1 + δ)
    (hn : L * co ≤ n) :
    (k : ℝ) * (c / ((n : ℝ) - 1) * co) ≤ min ((k : ℝ) * L / ((n : ℝ) - 1) * co) ((n : ℝ) - 1) ∧
    min ((k : ℝ) * L / ((n : ℝ) - 1) * co) ((n : ℝ) - 1) ≤ (k : ℝ) * (c / ((n : ℝ) - 1) * co) + (1 + δ) := by
  have hk' : (k : ℝ) + 2 ≤ n := by exact_mod_cast hk
  have hk0 : (0 : ℝ) ≤ k := Nat.cast_nonneg k
  have hn1 : 0 < (n : ℝ) - 1 := by linarith
  have hq0 : 0 ≤ (k : ℝ) / ((n : ℝ) - 1) := div_nonneg hk0 hn1.le
  have hq1 : (k : ℝ) / ((n : ℝ) - 1) ≤ 1 := by rw [div_le_one hn1]; linarith
  have e1 : (k : ℝ) * L / ((n : ℝ) - 1) * co = (k : ℝ) / ((n : ℝ) - 1) * (L * co) := by ring
  have e2 : (k : ℝ) * (c / ((n : ℝ) - 1) * co) = (k : ℝ) / ((n : ℝ) - 1) * (c * co) := by ring
  have hle : (k : ℝ) / ((n : ℝ) - 1) * (L * co) ≤ (n : ℝ) - 1 := by
    calc (k : ℝ) / ((n : ℝ) - 1) * (L * co) ≤ (k : ℝ) / ((n : ℝ) - 1) * n := mul_le_mul_of_nonneg_left hn hq0
      _ = k * n / ((n : ℝ) - 1) := by ring
      _ ≤ (n : ℝ) - 1 := by
        rw [div_le_iff₀ hn1]
        nlinarith
  rw [e1, e2, min_eq_left hle]
  constructor
  · exact mul_le_mul_of_nonneg_left (mul_le_mul_of_nonneg_right hc h0.le) hq0
  · have h3 : (L - c) * co ≤ (1 + δ) := by
      calc (L - c) * co ≤ (L - c) * 1 := mul_le_mul_of_nonneg_left h1 (by linarith)
        _ ≤ 1 + δ := by linarith
    have h4 : (k : ℝ) / ((n : ℝ) - 1) * ((L - c) * co) ≤ 1 * ((L - c) * co) :=
      mul_le_mul_of_nonneg_right hq1 (mul_nonneg (by linarith) h0.le)
    nlinarith

theorem cos_floor_bounds {n : ℕ} (hn : 2 ≤ n) {co : ℝ} (h0 : 0 < co) (h1 : co ≤ 1) :
    (2 : ℝ) ≤ (⌊(n : ℝ) / co⌋ : ℝ) ∧ (⌊(n : ℝ) / co⌋ : ℝ) * co ≤ n := by
  have hn' : (2 : ℝ) ≤ n := by exact_mod_cast hn
  constructor
  · have : (n : ℤ) ≤ ⌊(n : ℝ) / co⌋ := by
      rw [Int.le_floor]
      push_cast
      rw [le_div_iff₀ h0]
      nlinarith
    have : (n : ℝ) ≤ (⌊(n : ℝ) / co⌋ : ℝ) := by exact_mod_cast this
    linarith
  · rw [← le_div_iff₀ h0]
    exact Int.floor_le _

theorem tilted_length {S : Sampler} {m : Mat ℝ} {index d : ℝ} {xs ys ps : List ℝ} :
    (getTiltedProfile S m index d "vertical" = .ok (xs, ys, ps) → xs.length = m.height ∧ ys.length = m.height ∧ 0 ≤ index) ∧
    (getTiltedProfile S m index d "horizontal" = .ok (xs, ys, ps) → xs.length = m.width ∧ ys.length = m.width ∧ 0 ≤ index ∧
      index ≤ (m.height : ℝ) - 1) := by
  constructor
  · intro h
    obtain ⟨lo, hi, hc, hb⟩ := tilted_ok h
    have hbd := range_bounds hc
    have hlo : (0 : ℝ) ≤ lo := by exact_mod_cast hbd.1
    push Not at hb
    rcases tilted_ver (S := S) hc (by push Not; exact hb) with ⟨_, h'⟩ | ⟨ylo, yhi, _, h1, h2, h'⟩
    · rw [h] at h'; cases h'
    · rw [h] at h'
      injection h' with h'
      rw [Prod.mk.injEq, Prod.mk.injEq] at h'
      obtain ⟨hx, hy, _⟩ := h'
      exact ⟨by rw [hx, List.length_map, linspace0_length], by rw [hy, List.length_map, linspace0_length], by linarith [hb.1]⟩
  · intro h
    obtain ⟨lo, hi, hc, hb⟩ := tilted_ok h
    have hbd := range_bounds hc
    have hlo : (0 : ℝ) ≤ lo := by exact_mod_cast hbd.1
    have hhi : (hi : ℝ) ≤ (m.height : ℝ) - 1 := by
      have : hi ≤ (m.height : ℤ) - 1 := by have := (hbd.2.2.1 rfl).2; omega
      exact_mod_cast this
    push Not at hb
    rcases tilted_hor (S := S) hc (by push Not; exact hb) with ⟨_, h'⟩ | ⟨ylo, yhi, _, h1, h2, h'⟩
    · rw [h] at h'; cases h'
    · rw [h] at h'
      injection h' with h'
      rw [Prod.mk.injEq, Prod.mk.injEq] at h'
      obtain ⟨hx, hy, _⟩ := h'
      exact ⟨by rw [hx, List.length_map, linspace0_length], by rw [hy, List.length_map, linspace0_length], by linarith [hb.1],
        by linarith [hb.2]⟩

section lines
variable {E : Ext} {S : Sampler} {store : ℝ → ℝ} {m : Mat ℝ} {i slope : ℝ} {xs ys prof : List ℝ} {chessboard : Bool}
    {radius : ℤ} {sensitive : ℝ} {denoise norm subpixel : Bool} {sel : Option PeakParams} {g : List Pt}

/-- End points of a generated vertical line. -/
theorem ver_ends (hh : 2 ≤ m.height) (hp : getTiltedProfile S m i (Real.arctan slope * 180 / Real.pi) "vertical" = .ok (xs, ys, prof)) :
    ∃ L b', L = (⌊(m.height : ℝ) / Real.cos (Real.arctan slope)⌋ : ℝ) ∧
      xs.head? = some i ∧ ys.head? = some 0 ∧ xs.getLast? = some (i + b') ∧
      ys.getLast? = some (min (L * Real.cos (Real.arctan slope)) ((m.height : ℝ) - 1)) ∧
      (∀ k, k < m.height → ys[k]? = some (min ((k : ℝ) * L / ((m.height : ℝ) - 1) * Real.cos (Real.arctan slope)) ((m.height : ℝ) - 1))) ∧
      |b'| ≤ |L * Real.sin (Real.arctan slope)| ∧
      |L * Real.sin (Real.arctan slope)| - |b'| ≤ if 0 ≤ slope then 0 else 1 := by
  have hh' : (2 : ℝ) ≤ m.height := by exact_mod_cast hh
  have hne : ((m.height : ℝ) - 1) ≠ 0 := by intro h; linarith
  obtain ⟨lx, ly, hi0⟩ := tilted_length.1 hp
  have hd := arctan_deg_lt slope
  have line := fun k hk => C45_line_ver S m i _ hd hh xs ys prof hp k hk
  simp only [arctan_deg] at line
  have hco := Real.cos_arctan_pos slope
  have hco1 : Real.cos (Real.arctan slope) ≤ 1 := Real.cos_le_one _
  obtain ⟨hL2, hLn⟩ := cos_floor_bounds hh hco hco1
  generalize hL : (⌊(m.height : ℝ) / Real.cos (Real.arctan slope)⌋ : ℝ) = L at *
  have hlast : (((m.height - 1 : ℕ) : ℝ)) = (m.height : ℝ) - 1 := by rw [Nat.cast_sub (by omega)]; simp
  have hyk : ∀ k, k < m.height → ys[k]? = some (min ((k : ℝ) * L / ((m.height : ℝ) - 1) * Real.cos (Real.arctan slope))
      ((m.height : ℝ) - 1)) := by
    intro k hk
    obtain ⟨t, rfl, _, h2, _⟩ := line k hk
    exact h2
  have hy0 : ys.head? = some 0 := by
    rw [List.head?_eq_getElem?, hyk 0 (by omega)]
    simp only [Nat.cast_zero, zero_mul, zero_div]
    rw [min_eq_left (by linarith)]
  have hy1 : ys.getLast? = some (min (L * Real.cos (Real.arctan slope)) ((m.height : ℝ) - 1)) := by
    rw [List.getLast?_eq_getElem?, ly, hyk (m.height - 1) (by omega), hlast, mul_div_cancel_left₀ _ hne]
  have hx0 : xs.head? = some i := by
    rw [List.head?_eq_getElem?]
    obtain ⟨t, ht, _, _, h3, h4⟩ := line 0 (by omega)
    simp only [Nat.cast_zero, zero_mul, zero_div] at ht
    subst ht
    by_cases hs : 0 < slope
    · rw [h3 (arctan_deg_pos.2 hs)]; simp
    · rw [(h4 (not_lt.1 (mt arctan_deg_pos.1 hs))).1]; simp [hi0]
  obtain ⟨t, ht, _, _, h3, h4⟩ := line (m.height - 1) (by omega)
  rw [hlast, mul_div_cancel_left₀ _ hne] at ht
  subst ht
  by_cases hs : 0 < slope
  · refine ⟨t, t * Real.sin (Real.arctan slope), rfl, hx0, hy0, ?_, hy1, hyk, le_rfl, ?_⟩
    · rw [List.getLast?_eq_getElem?, lx, h3 (arctan_deg_pos.2 hs)]
    · rw [if_pos hs.le, sub_self]
  · obtain ⟨h5, h6⟩ := h4 (not_lt.1 (mt arctan_deg_pos.1 hs))
    have hsn : Real.sin (Real.arctan slope) ≤ 0 := by
      rw [sin_arctan_eq]
      exact mul_nonpos_of_nonpos_of_nonneg (not_lt.1 hs) hco.le
    have hb0 : t * Real.sin (Real.arctan slope) ≤ 0 := mul_nonpos_of_nonneg_of_nonpos (by linarith) hsn
    refine ⟨t, max (t * Real.sin (Real.arctan slope)) (-i), rfl, hx0, hy0, ?_, hy1, hyk, ?_, ?_⟩
    · rw [List.getLast?_eq_getElem?, lx, h5]
      congr 1
      rw [← max_add_add_left]
      simp
    · rw [abs_of_nonpos hb0, abs_of_nonpos (max_le hb0 (by linarith))]
      linarith [le_max_left (t * Real.sin (Real.arctan slope)) (-i)]
    · rw [abs_of_nonpos hb0, abs_of_nonpos (max_le hb0 (by linarith))]
      split_ifs with h0
      · have : slope = 0 := le_antisymm (not_lt.1 hs) h0
        subst this
        simp [hi0]
      · rcases max_cases (t * Real.sin (Real.arctan slope)) (-i) with ⟨e, _⟩ | ⟨e, _⟩ <;> rw [e] <;> linarith

/-- The points found along one generated vertical line. -/
theorem ver_line (hh : 2 ≤ m.height) (hp : getTiltedProfile S m i (Real.arctan slope * 180 / Real.pi) "vertical" = .ok (xs, ys, prof))
    (h : crossPointsOnLine E store (xs, ys, prof) m.height (Real.sin (Real.arctan slope)) (Real.cos (Real.arctan slope)) chessboard
      radius sensitive denoise norm subpixel sel = .ok g) :
    ∃ prof' rs t, (chessboard = false → prof' = prof) ∧ (chessboard = true → slidingWindowSlope E.pf store prof 3 true = .ok prof') ∧
      getLocalExtremaPoints E prof' "max" radius sensitive (!denoise) (!norm) subpixel sel = .ok rs ∧
      AreOnLine Pt.y Pt.x i slope t rs g ∧ 0 < t ∧ (slope = 0 → t = 1) ∧
      ∀ k v, k + 1 < m.height → ys[k]? = some v →
        k * t ≤ v ∧ (v ≤ k * t + if 0 ≤ slope then 1 else 2) ∧ (slope = 0 → v = k * m.height / ((m.height : ℝ) - 1)) := by
  have hh' : (2 : ℝ) ≤ m.height := by exact_mod_cast hh
  obtain ⟨L, b', eL, hx0, hy0, hx1, hy1, hyk, hb1, hb2⟩ := ver_ends hh hp
  obtain ⟨prof', rs, c1, c2, c3, rfl⟩ := crossPointsOnLine_spec hx0 hx1 hy0 hy1 hh h
  have hco := Real.cos_arctan_pos slope
  have hco1 : Real.cos (Real.arctan slope) ≤ 1 := Real.cos_le_one _
  have hsc : (L * Real.cos (Real.arctan slope)) ^ 2 + (L * Real.sin (Real.arctan slope)) ^ 2 = L ^ 2 := by
    have := Real.sin_sq_add_cos_sq (Real.arctan slope)
    rw [mul_pow, mul_pow, ← mul_add, add_comm, this, mul_one]
  obtain ⟨hL2, hLn⟩ := cos_floor_bounds hh hco hco1
  rw [← eL] at hL2 hLn
  have hLc : 0 < L * Real.cos (Real.arctan slope) := mul_pos (by linarith) hco
  have hm0 : 0 < min (L * Real.cos (Real.arctan slope)) ((m.height : ℝ) - 1) := lt_min hLc (by linarith)
  have hcb := chord_bounds (a := L * Real.cos (Real.arctan slope)) hm0.le (min_le_left _ _) (by
    rcases min_cases (L * Real.cos (Real.arctan slope)) ((m.height : ℝ) - 1) with ⟨e, _⟩ | ⟨e, _⟩ <;> rw [e] <;> linarith) hb1 hb2
  rw [hsc, Real.sqrt_sq (by linarith)] at hcb
  have ec : √((i + b' - i) ^ 2 + (min (L * Real.cos (Real.arctan slope)) ((m.height : ℝ) - 1) - 0) ^ 2) =
      √(min (L * Real.cos (Real.arctan slope)) ((m.height : ℝ) - 1) ^ 2 + b' ^ 2) := by
    congr 1; ring
  rw [ec]
  have hc0 : 0 < √(min (L * Real.cos (Real.arctan slope)) ((m.height : ℝ) - 1) ^ 2 + b' ^ 2) := Real.sqrt_pos.2 (by positivity)
  have hz : slope = 0 → L = m.height ∧ √(min (L * Real.cos (Real.arctan slope)) ((m.height : ℝ) - 1) ^ 2 + b' ^ 2) = (m.height : ℝ) - 1 := by
    rintro rfl
    simp only [Real.arctan_zero, Real.cos_zero, Real.sin_zero, mul_zero, abs_zero, div_one, Int.floor_natCast, Int.cast_natCast,
      mul_one] at eL hb1 ⊢
    rw [abs_nonpos_iff.1 hb1, eL, min_eq_right (by linarith)]
    refine ⟨rfl, ?_⟩
    rw [zero_pow (by norm_num), add_zero, Real.sqrt_sq (by linarith)]
  generalize √(min (L * Real.cos (Real.arctan slope)) ((m.height : ℝ) - 1) ^ 2 + b' ^ 2) = c at *
  refine ⟨prof', rs, c / ((m.height : ℝ) - 1) * Real.cos (Real.arctan slope), c1, c2, c3, ?_, ?_, ?_, ?_⟩
  · unfold AreOnLine
    rw [List.forall₂_map_right_iff, List.forall₂_same]
    intro r _
    simp only
    constructor
    · ring
    · rw [sin_arctan_eq]; ring
  · exact mul_pos (div_pos hc0 (by linarith)) hco
  · intro h0
    rw [(hz h0).2, h0, Real.arctan_zero, Real.cos_zero, div_self (by linarith), mul_one]
  · intro k v hk hv
    rw [hyk k (by omega)] at hv
    injection hv with hv
    rw [← hv]
    have := scale_bounds hk hco hco1 (δ := if 0 ≤ slope then 0 else 1) hcb.1 hcb.2 hLn
    refine ⟨this.1, this.2.trans (le_of_eq ?_), ?_⟩
    · split_ifs <;> norm_num
    · intro h0
      rw [(hz h0).1, h0, Real.arctan_zero, Real.cos_zero, mul_one, min_eq_left]
      have hk' : (k : ℝ) + 2 ≤ m.height := by exact_mod_cast hk
      rw [div_le_iff₀ (by linarith)]
      nlinarith

/-- End points of a generated horizontal line. -/
theorem hor_ends (hh : 2 ≤ m.width) (hp : getTiltedProfile S m i (-(Real.arctan slope * 180 / Real.pi)) "horizontal" = .ok (xs, ys, prof)) :
    ∃ L b', L = (⌊(m.width : ℝ) / Real.cos (Real.arctan slope)⌋ : ℝ) ∧
      ys.head? = some i ∧ xs.head? = some 0 ∧ ys.getLast? = some (i + b') ∧
      xs.getLast? = some (min (L * Real.cos (Real.arctan slope)) ((m.width : ℝ) - 1)) ∧
      (∀ k, k < m.width → xs[k]? = some (min ((k : ℝ) * L / ((m.width : ℝ) - 1) * Real.cos (Real.arctan slope)) ((m.width : ℝ) - 1))) ∧
      |b'| ≤ |L * Real.sin (Real.arctan slope)| ∧
      |L * Real.sin (Real.arctan slope)| - |b'| ≤ if slope ≤ 0 then 0 else 1 := by
  have hh' : (2 : ℝ) ≤ m.width := by exact_mod_cast hh
  have hne : ((m.width : ℝ) - 1) ≠ 0 := by intro h; linarith
  obtain ⟨lx, ly, hi0, hi1⟩ := tilted_length.2 hp
  have hd : |-(Real.arctan slope * 180 / Real.pi)| < 90 := by rw [abs_neg]; exact arctan_deg_lt slope
  have line := fun k hk => C45_line_hor S m i _ hd hh xs ys prof hp k hk
  have ea : -(Real.arctan slope * 180 / Real.pi) * Real.pi / 180 = -Real.arctan slope := by
    rw [neg_mul, neg_div, arctan_deg]
  simp only [ea, Real.cos_neg, Real.sin_neg, mul_neg, sub_neg_eq_add] at line
  have hco := Real.cos_arctan_pos slope
  have hco1 : Real.cos (Real.arctan slope) ≤ 1 := Real.cos_le_one _
  obtain ⟨hL2, hLn⟩ := cos_floor_bounds hh hco hco1
  generalize hL : (⌊(m.width : ℝ) / Real.cos (Real.arctan slope)⌋ : ℝ) = L at *
  have hlast : (((m.width - 1 : ℕ) : ℝ)) = (m.width : ℝ) - 1 := by rw [Nat.cast_sub (by omega)]; simp
  have hpos : 0 < -(Real.arctan slope * 180 / Real.pi) ↔ slope < 0 := by
    rw [show -(Real.arctan slope * 180 / Real.pi) = Real.arctan (-slope) * 180 / Real.pi by rw [Real.arctan_neg]; ring, arctan_deg_pos]
    exact neg_pos
  have hxk : ∀ k, k < m.width → xs[k]? = some (min ((k : ℝ) * L / ((m.width : ℝ) - 1) * Real.cos (Real.arctan slope))
      ((m.width : ℝ) - 1)) := by
    intro k hk
    obtain ⟨t, rfl, _, h2, _⟩ := line k hk
    exact h2
  have hx0 : xs.head? = some 0 := by
    rw [List.head?_eq_getElem?, hxk 0 (by omega)]
    simp only [Nat.cast_zero, zero_mul, zero_div]
    rw [min_eq_left (by linarith)]
  have hx1 : xs.getLast? = some (min (L * Real.cos (Real.arctan slope)) ((m.width : ℝ) - 1)) := by
    rw [List.getLast?_eq_getElem?, lx, hxk (m.width - 1) (by omega), hlast, mul_div_cancel_left₀ _ hne]
  have hy0 : ys.head? = some i := by
    rw [List.head?_eq_getElem?]
    obtain ⟨t, ht, _, _, h3, h4⟩ := line 0 (by omega)
    simp only [Nat.cast_zero, zero_mul, zero_div] at ht
    subst ht
    by_cases hs : slope < 0
    · rw [h3 (hpos.2 hs)]; simp
    · rw [(h4 (not_lt.1 (mt hpos.1 hs))).1]; simp [hi1]
  obtain ⟨t, ht, _, _, h3, h4⟩ := line (m.width - 1) (by omega)
  rw [hlast, mul_div_cancel_left₀ _ hne] at ht
  subst ht
  by_cases hs : slope < 0
  · refine ⟨t, t * Real.sin (Real.arctan slope), rfl, hy0, hx0, ?_, hx1, hxk, le_rfl, ?_⟩
    · rw [List.getLast?_eq_getElem?, ly, h3 (hpos.2 hs)]
    · rw [if_pos hs.le, sub_self]
  · obtain ⟨h5, h6⟩ := h4 (not_lt.1 (mt hpos.1 hs))
    have hsn : 0 ≤ Real.sin (Real.arctan slope) := by
      rw [sin_arctan_eq]
      exact mul_nonneg (not_lt.1 hs) hco.le
    have hb0 : 0 ≤ t * Real.sin (Real.arctan slope) := mul_nonneg (by linarith) hsn
    refine ⟨t, min (t * Real.sin (Real.arctan slope)) ((m.height : ℝ) - 1 - i), rfl, hy0, hx0, ?_, hx1, hxk, ?_, ?_⟩
    · rw [List.getLast?_eq_getElem?, ly, h5]
      congr 1
      rw [← min_add_add_left]
      congr 1
      ring
    · rw [abs_of_nonneg hb0, abs_of_nonneg (le_min hb0 (by linarith))]
      exact min_le_left _ _
    · rw [abs_of_nonneg hb0, abs_of_nonneg (le_min hb0 (by linarith))]
      split_ifs with h0
      · have : slope = 0 := le_antisymm h0 (not_lt.1 hs)
        subst this
        simp [hi1]
      · rcases min_cases (t * Real.sin (Real.arctan slope)) ((m.height : ℝ) - 1 - i) with ⟨e, _⟩ | ⟨e, _⟩ <;> rw [e] <;> linarith

/-- The points found along one generated horizontal line. -/
theorem hor_line (hh : 2 ≤ m.width) (hp : getTiltedProfile S m i (-(Real.arctan slope * 180 / Real.pi)) "horizontal" = .ok (xs, ys, prof))
    (h : crossPointsOnLine E store (xs, ys, prof) m.width (Real.cos (Real.arctan slope)) (Real.sin (Real.arctan slope)) chessboard
      radius sensitive denoise norm subpixel sel = .ok g) :
    ∃ prof' rs t, (chessboard = false → prof' = prof) ∧ (chessboard = true → slidingWindowSlope E.pf store prof 3 true = .ok prof') ∧
      getLocalExtremaPoints E prof' "max" radius sensitive (!denoise) (!norm) subpixel sel = .ok rs ∧
      AreOnLine Pt.x Pt.y i slope t rs g ∧ 0 < t ∧ (slope = 0 → t = 1) ∧
      ∀ k v, k + 1 < m.width → xs[k]? = some v →
        k * t ≤ v ∧ (v ≤ k * t + if slope ≤ 0 then 1 else 2) ∧ (slope = 0 → v = k * m.width / ((m.width : ℝ) - 1)) := by
  have hh' : (2 : ℝ) ≤ m.width := by exact_mod_cast hh
  obtain ⟨L, b', eL, hy0, hx0, hy1, hx1, hxk, hb1, hb2⟩ := hor_ends hh hp
  obtain ⟨prof', rs, c1, c2, c3, rfl⟩ := crossPointsOnLine_spec hx0 hx1 hy0 hy1 hh h
  have hco := Real.cos_arctan_pos slope
  have hco1 : Real.cos (Real.arctan slope) ≤ 1 := Real.cos_le_one _
  have hsc : (L * Real.cos (Real.arctan slope)) ^ 2 + (L * Real.sin (Real.arctan slope)) ^ 2 = L ^ 2 := by
    have := Real.sin_sq_add_cos_sq (Real.arctan slope)
    rw [mul_pow, mul_pow, ← mul_add, add_comm, this, mul_one]
  obtain ⟨hL2, hLn⟩ := cos_floor_bounds hh hco hco1
  rw [← eL] at hL2 hLn
  have hLc : 0 < L * Real.cos (Real.arctan slope) := mul_pos (by linarith) hco
  have hm0 : 0 < min (L * Real.cos (Real.arctan slope)) ((m.width : ℝ) - 1) := lt_min hLc (by linarith)
  have hcb := chord_bounds (a := L * Real.cos (Real.arctan slope)) hm0.le (min_le_left _ _) (by
    rcases min_cases (L * Real.cos (Real.arctan slope)) ((m.width : ℝ) - 1) with ⟨e, _⟩ | ⟨e, _⟩ <;> rw [e] <;> linarith) hb1 hb2
  rw [hsc, Real.sqrt_sq (by linarith)] at hcb
  have ec : √((min (L * Real.cos (Real.arctan slope)) ((m.width : ℝ) - 1) - 0) ^ 2 + (i + b' - i) ^ 2) =
      √(min (L * Real.cos (Real.arctan slope)) ((m.width : ℝ) - 1) ^ 2 + b' ^ 2) := by
    congr 1; ring
  rw [ec]
  have hc0 : 0 < √(min (L * Real.cos (Real.arctan slope)) ((m.width : ℝ) - 1) ^ 2 + b' ^ 2) := Real.sqrt_pos.2 (by positivity)
  have hz : slope = 0 → L = m.width ∧ √(min (L * Real.cos (Real.arctan slope)) ((m.width : ℝ) - 1) ^ 2 + b' ^ 2) = (m.width : ℝ) - 1 := by
    rintro rfl
    simp only [Real.arctan_zero, Real.cos_zero, Real.sin_zero, mul_zero, abs_zero, div_one, Int.floor_natCast, Int.cast_natCast,
      mul_one] at eL hb1 ⊢
    rw [abs_nonpos_iff.1 hb1, eL, min_eq_right (by linarith)]
    refine ⟨rfl, ?_⟩
    rw [zero_pow (by norm_num), add_zero, Real.sqrt_sq (by linarith)]
  generalize √(min (L * Real.cos (Real.arctan slope)) ((m.width : ℝ) - 1) ^ 2 + b' ^ 2) = c at *
  refine ⟨prof', rs, c / ((m.width : ℝ) - 1) * Real.cos (Real.arctan slope), c1, c2, c3, ?_, ?_, ?_, ?_⟩
  · unfold AreOnLine
    rw [List.forall₂_map_right_iff, List.forall₂_same]
    intro r _
    simp only
    constructor
    · ring
    · rw [sin_arctan_eq]; ring
  · exact mul_pos (div_pos hc0 (by linarith)) hco
  · intro h0
    rw [(hz h0).2, h0, Real.arctan_zero, Real.cos_zero, div_self (by linarith), mul_one]
  · intro k v hk hv
    rw [hxk k (by omega)] at hv
    injection hv with hv
    rw [← hv]
    have := scale_bounds hk hco hco1 (δ := if slope ≤ 0 then 0 else 1) hcb.1 hcb.2 hLn
    refine ⟨this.1, this.2.trans (le_of_eq ?_), ?_⟩
    · split_ifs <;> norm_num
    · intro h0
      rw [(hz h0).1, h0, Real.arctan_zero, Real.cos_zero, mul_one, min_eq_left]
      have hk' : (k : ℝ) + 2 ≤ m.width := by exact_mod_cast hk
      rw [div_le_iff₀ (by linarith)]
      nlinarith

end lines

theorem verRange {h w : ℕ} {slope : ℝ} :
    (∃ lo hi, VerLimits h w slope lo hi ∧ 0 ≤ lo ∧ lo < w ∧ 0 ≤ hi ∧ hi < w ∧
      calcIndexRange h w (Real.arctan slope * 180 / Real.pi) "vertical" = .ok (lo, hi)) ∨
    (w ≤ ⌈(h : ℝ) * slope⌉ ∨ w ≤ ⌊(h : ℝ) * -slope⌋) ∧
      calcIndexRange h w (Real.arctan slope * 180 / Real.pi) "vertical" = .error .valueError := by
  have hd := arctan_deg_lt slope
  by_cases hs : 0 < slope
  · rw [ver_pos hd (arctan_deg_pos.2 hs), arctan_deg, Real.tan_arctan]
    have hz : 0 ≤ ⌈(h : ℝ) * slope⌉ := Int.ceil_nonneg (by positivity)
    split_ifs with hc
    · exact Or.inl ⟨0, (w : ℤ) - 1 - ⌈(h : ℝ) * slope⌉, ⟨fun _ => ⟨rfl, rfl⟩, fun h => absurd hs (not_lt.2 h)⟩, by omega, by omega,
        by omega, by omega, rfl⟩
    · exact Or.inr ⟨Or.inl (by omega), rfl⟩
  · have e : -(Real.arctan slope * 180 / Real.pi) * Real.pi / 180 = Real.arctan (-slope) := by
      rw [neg_mul, neg_div, arctan_deg, Real.arctan_neg]
    have hz : 0 ≤ ⌊(h : ℝ) * -slope⌋ := Int.floor_nonneg.2 (mul_nonneg (Nat.cast_nonneg _) (by linarith [not_lt.1 hs]))
    rw [ver_neg hd (mt arctan_deg_pos.1 hs), e, Real.tan_arctan]
    split_ifs with hc
    · exact Or.inl ⟨⌊(h : ℝ) * -slope⌋, (w : ℤ) - 1, ⟨fun h => absurd h hs, fun _ => ⟨rfl, rfl⟩⟩, by omega, by omega,
        by omega, by omega, rfl⟩
    · exact Or.inr ⟨Or.inr (by omega), rfl⟩

theorem horRange {h w : ℕ} {slope : ℝ} :
    (∃ lo hi, HorLimits h w slope lo hi ∧ 0 ≤ lo ∧ lo < h ∧ 0 ≤ hi ∧ hi < h ∧
      calcIndexRange h w (-(Real.arctan slope * 180 / Real.pi)) "horizontal" = .ok (lo, hi)) ∨
    (h ≤ ⌈(w : ℝ) * -slope⌉ ∨ h ≤ ⌊(w : ℝ) * slope⌋) ∧
      calcIndexRange h w (-(Real.arctan slope * 180 / Real.pi)) "horizontal" = .error .valueError := by
  have hd : |-(Real.arctan slope * 180 / Real.pi)| < 90 := by rw [abs_neg]; exact arctan_deg_lt slope
  have hpos : 0 < -(Real.arctan slope * 180 / Real.pi) ↔ slope < 0 := by
    rw [show -(Real.arctan slope * 180 / Real.pi) = Real.arctan (-slope) * 180 / Real.pi by rw [Real.arctan_neg]; ring, arctan_deg_pos]
    exact neg_pos
  by_cases hs : slope < 0
  · have e : -(Real.arctan slope * 180 / Real.pi) * Real.pi / 180 = Real.arctan (-slope) := by
      rw [neg_mul, neg_div, arctan_deg, Real.arctan_neg]
    rw [hor_pos hd (hpos.2 hs), e, Real.tan_arctan]
    have hz : 0 ≤ ⌈(w : ℝ) * -slope⌉ := Int.ceil_nonneg (mul_nonneg (Nat.cast_nonneg _) (by linarith))
    split_ifs with hc
    · exact Or.inl ⟨⌈(w : ℝ) * -slope⌉, (h : ℤ) - 1, ⟨fun _ => ⟨rfl, rfl⟩, fun h => absurd hs (not_lt.2 h)⟩, by omega, by omega,
        by omega, by omega, rfl⟩
    · exact Or.inr ⟨Or.inl (by omega), rfl⟩
  · rw [hor_neg hd (mt hpos.1 hs), neg_neg, arctan_deg, Real.tan_arctan]
    have hz : 0 ≤ ⌊(w : ℝ) * slope⌋ := Int.floor_nonneg.2 (mul_nonneg (Nat.cast_nonneg _) (not_lt.1 hs))
    split_ifs with hc
    · exact Or.inl ⟨0, (h : ℤ) - 1 - ⌊(w : ℝ) * slope⌋, ⟨fun h => absurd h hs, fun _ => ⟨rfl, rfl⟩⟩, by omega, by omega,
        by omega, by omega, rfl⟩
    · exact Or.inr ⟨Or.inr (by omega), rfl⟩

/-- The points `g` on the generated vertical line with abscissa `i` at row 0: the profile along the line is read from `img`; for a
chessboard it is replaced by its local slopes; each extremum point `r` gives the point at `y = r t` on the line, where `t` is,
up to one or two pixels over the whole line, the spacing of the samples of the profile. -/
def VerCrossLine (E : Ext) (S : Sampler) (store : ℝ → ℝ) (img : Mat ℝ) (slope : ℝ) (chessboard : Bool) (radius : ℤ) (sensitive : ℝ)
    (denoise norm subpixel : Bool) (sel : Option PeakParams) (i : ℝ) (g : List Pt) : Prop :=
  ∃ xs ys prof prof' rs t, getTiltedProfile S img i (Real.arctan slope * 180 / Real.pi) "vertical" = .ok (xs, ys, prof) ∧
    (chessboard = false → prof' = prof) ∧ (chessboard = true → slidingWindowSlope E.pf store prof 3 true = .ok prof') ∧
    getLocalExtremaPoints E prof' "max" radius sensitive (!denoise) (!norm) subpixel sel = .ok rs ∧
    AreOnLine Pt.y Pt.x i slope t rs g ∧ 0 < t ∧ (slope = 0 → t = 1) ∧
    ∀ k v, k + 1 < img.height → ys[k]? = some v →
      k * t ≤ v ∧ (v ≤ k * t + if 0 ≤ slope then 1 else 2) ∧ (slope = 0 → v = k * img.height / ((img.height : ℝ) - 1))

/-- The same for a generated horizontal line with ordinate `i` at column 0. -/
def HorCrossLine (E : Ext) (S : Sampler) (store : ℝ → ℝ) (img : Mat ℝ) (slope : ℝ) (chessboard : Bool) (radius : ℤ) (sensitive : ℝ)
    (denoise norm subpixel : Bool) (sel : Option PeakParams) (i : ℝ) (g : List Pt) : Prop :=
  ∃ xs ys prof prof' rs t, getTiltedProfile S img i (-(Real.arctan slope * 180 / Real.pi)) "horizontal" = .ok (xs, ys, prof) ∧
    (chessboard = false → prof' = prof) ∧ (chessboard = true → slidingWindowSlope E.pf store prof 3 true = .ok prof') ∧
    getLocalExtremaPoints E prof' "max" radius sensitive (!denoise) (!norm) subpixel sel = .ok rs ∧
    AreOnLine Pt.x Pt.y i slope t rs g ∧ 0 < t ∧ (slope = 0 → t = 1) ∧
    ∀ k v, k + 1 < img.width → xs[k]? = some v →
      k * t ≤ v ∧ (v ≤ k * t + if slope ≤ 0 then 1 else 2) ∧ (slope = 0 → v = k * img.width / ((img.width : ℝ) - 1))

/-- **C79 (horizontal lines).** The result of `get_cross_points_hor_lines` is the concatenation, over the generated vertical lines in
increasing order, of the points found along each of them. The lines have the given slope, start at row 0 in steps of
`ratio · dist` within the limits reduced by the offset, and every one of them is searched. -/
theorem C79_hor_lines (E : Ext) (S : Sampler) (fft filter2 : Mat ℝ → Mat ℝ) (store : ℝ → ℝ) (mat : Mat ℝ)
    (hf : ∀ m, (fft m).height = m.height ∧ (fft m).width = m.width)
    (hg : ∀ m, (filter2 m).height = m.height ∧ (filter2 m).width = m.width) (hh : 2 ≤ mat.height)
    (slope dist ratio offset : ℝ) (hs : 0 < ratio * dist) (bright norm chessboard denoise subpixel : Bool) (radius : ℤ)
    (sensitive : ℝ) (sel : Option PeakParams) (P : List Pt)
    (h : getCrossPointsHorLines E S fft filter2 store mat slope dist ratio offset bright norm chessboard denoise subpixel radius
      sensitive sel = .ok P) :
    ∃ img lo hi off starts groups, IsCrossImage fft filter2 bright norm denoise mat img ∧
      VerLimits mat.height mat.width slope lo hi ∧ IsOffset offset (min mat.height mat.width / 3) off ∧
      IsStarts lo hi off (ratio * dist) starts ∧ P = groups.flatten ∧
      List.Forall₂ (VerCrossLine E S store img slope chessboard radius sensitive denoise norm subpixel sel) starts groups := by
  unfold getCrossPointsHorLines at h
  simp only at h
  rw [bind_ok_iff] at h
  obtain ⟨img, himg, h⟩ := h
  obtain ⟨eh, ew⟩ := crossImage_shape hf hg himg
  rcases verRange (h := mat.height) (w := mat.width) (slope := slope) with ⟨lo, hi, hl, _, _, _, _, e⟩ | ⟨_, e⟩
  · rw [e, ok_bind] at h
    simp only at h
    rw [if_neg hs.ne', bind_ok_iff] at h
    obtain ⟨groups, h1, h2⟩ := h
    injection h2 with h2
    refine ⟨img, lo, hi, _, _, groups, crossImage_spec himg, hl, offset_spec _ _, starts_spec hs, h2.symm, ?_⟩
    refine (mapM_ok_iff.1 h1).imp ?_
    intro i g hig
    rw [bind_ok_iff] at hig
    obtain ⟨⟨xs, ys, prof⟩, hp, hc⟩ := hig
    rw [← eh] at hc
    obtain ⟨prof', rs, t, h3, h4, h5, h6, h7, h8, h9⟩ := ver_line (by omega) hp hc
    exact ⟨xs, ys, prof, prof', rs, t, hp, h3, h4, h5, h6, h7, h8, h9⟩
  · rw [e] at h; cases h

/-- **C79 (vertical lines).** The same for `get_cross_points_ver_lines` with generated horizontal lines. -/
theorem C79_ver_lines (E : Ext) (S : Sampler) (fft filter2 : Mat ℝ → Mat ℝ) (store : ℝ → ℝ) (mat : Mat ℝ)
    (hf : ∀ m, (fft m).height = m.height ∧ (fft m).width = m.width)
    (hg : ∀ m, (filter2 m).height = m.height ∧ (filter2 m).width = m.width) (hw : 2 ≤ mat.width)
    (slope dist ratio offset : ℝ) (hs : 0 < ratio * dist) (bright norm chessboard denoise subpixel : Bool) (radius : ℤ)
    (sensitive : ℝ) (sel : Option PeakParams) (P : List Pt)
    (h : getCrossPointsVerLines E S fft filter2 store mat slope dist ratio offset bright norm chessboard denoise subpixel radius
      sensitive sel = .ok P) :
    ∃ img lo hi off starts groups, IsCrossImage fft filter2 bright norm denoise mat img ∧
      HorLimits mat.height mat.width slope lo hi ∧ IsOffset offset (min mat.height mat.width / 8) off ∧
      IsStarts lo hi off (ratio * dist) starts ∧ P = groups.flatten ∧
      List.Forall₂ (HorCrossLine E S store img slope chessboard radius sensitive denoise norm subpixel sel) starts groups := by
  unfold getCrossPointsVerLines at h
  simp only at h
  rw [bind_ok_iff] at h
  obtain ⟨img, himg, h⟩ := h
  obtain ⟨eh, ew⟩ := crossImage_shape hf hg himg
  rcases horRange (h := mat.height) (w := mat.width) (slope := slope) with ⟨lo, hi, hl, _, _, _, _, e⟩ | ⟨_, e⟩
  · rw [e, ok_bind] at h
    simp only at h
    rw [if_neg hs.ne', bind_ok_iff] at h
    obtain ⟨groups, h1, h2⟩ := h
    injection h2 with h2
    refine ⟨img, lo, hi, _, _, groups, crossImage_spec himg, hl, offset_spec _ _, starts_spec hs, h2.symm, ?_⟩
    refine (mapM_ok_iff.1 h1).imp ?_
    intro i g hig
    rw [bind_ok_iff] at hig
    obtain ⟨⟨xs, ys, prof⟩, hp, hc⟩ := hig
    rw [← ew] at hc
    obtain ⟨prof', rs, t, h3, h4, h5, h6, h7, h8, h9⟩ := hor_line (by omega) hp hc
    exact ⟨xs, ys, prof, prof', rs, t, hp, h3, h4, h5, h6, h7, h8, h9⟩
  · rw [e] at h; cases h

/-- **C79 (errors).** For an image with pixels: a slope so steep that no generated line crosses the whole image raises
`ValueError`; otherwise a step of zero raises `ZeroDivisionError`. -/
theorem C79_errors (E : Ext) (S : Sampler) (fft filter2 : Mat ℝ → Mat ℝ) (store : ℝ → ℝ) (mat : Mat ℝ) (hh : 0 < mat.height)
    (hw : 0 < mat.width) (slope dist ratio offset : ℝ) (bright norm chessboard denoise subpixel : Bool) (radius : ℤ)
    (sensitive : ℝ) (sel : Option PeakParams) :
    ((slope > 0 ∧ mat.width ≤ ⌈(mat.height : ℝ) * slope⌉ ∨ slope ≤ 0 ∧ mat.width ≤ ⌊(mat.height : ℝ) * -slope⌋) →
      getCrossPointsHorLines E S fft filter2 store mat slope dist ratio offset bright norm chessboard denoise subpixel radius
        sensitive sel = .error .valueError) ∧
    ((slope < 0 ∧ mat.height ≤ ⌈(mat.width : ℝ) * -slope⌉ ∨ 0 ≤ slope ∧ mat.height ≤ ⌊(mat.width : ℝ) * slope⌋) →
      getCrossPointsVerLines E S fft filter2 store mat slope dist ratio offset bright norm chessboard denoise subpixel radius
        sensitive sel = .error .valueError) ∧
    (∀ lo hi, VerLimits mat.height mat.width slope lo hi → 0 ≤ lo → lo < mat.width → 0 ≤ hi → ratio * dist = 0 →
      getCrossPointsHorLines E S fft filter2 store mat slope dist ratio offset bright norm chessboard denoise subpixel radius
        sensitive sel = .error .zeroDivisionError) ∧
    (∀ lo hi, HorLimits mat.height mat.width slope lo hi → 0 ≤ lo → lo < mat.height → 0 ≤ hi → ratio * dist = 0 →
      getCrossPointsVerLines E S fft filter2 store mat slope dist ratio offset bright norm chessboard denoise subpixel radius
        sensitive sel = .error .zeroDivisionError) := by
  obtain ⟨img, himg⟩ := crossImage_ok (fft := fft) (filter2 := filter2) (bright := bright) (norm := norm) (denoise := denoise) hh hw
  refine ⟨?_, ?_, ?_, ?_⟩
  · intro hc
    unfold getCrossPointsHorLines
    simp only [himg, ok_bind]
    rcases verRange (h := mat.height) (w := mat.width) (slope := slope) with ⟨lo, hi, hl, l1, l2, l3, l4, e⟩ | ⟨_, e⟩
    · exfalso
      rcases hc with ⟨h1, h2⟩ | ⟨h1, h2⟩
      · have := hl.1 h1; omega
      · have := hl.2 h1; omega
    · rw [e]; rfl
  · intro hc
    unfold getCrossPointsVerLines
    simp only [himg, ok_bind]
    rcases horRange (h := mat.height) (w := mat.width) (slope := slope) with ⟨lo, hi, hl, l1, l2, l3, l4, e⟩ | ⟨_, e⟩
    · exfalso
      rcases hc with ⟨h1, h2⟩ | ⟨h1, h2⟩
      · have := hl.1 h1; omega
      · have := hl.2 h1; omega
    · rw [e]; rfl
  · intro lo hi hl h1 h2 h3 h0
    unfold getCrossPointsHorLines
    simp only [himg, ok_bind]
    rcases verRange (h := mat.height) (w := mat.width) (slope := slope) with ⟨lo', hi', _, _, _, _, _, e⟩ | ⟨hbad, e⟩
    · rw [e, ok_bind]
      simp only
      rw [if_pos h0]
    · exfalso
      by_cases hs : 0 < slope
      · have hn : ⌊(mat.height : ℝ) * -slope⌋ ≤ 0 := by
          have : (mat.height : ℝ) * -slope ≤ 0 := mul_nonpos_of_nonneg_of_nonpos (Nat.cast_nonneg _) (by linarith)
          have h' : ⌊(mat.height : ℝ) * -slope⌋ ≤ ⌊(0 : ℝ)⌋ := Int.floor_le_floor this
          simpa using h'
        have := hl.1 hs; omega
      · have hn : ⌈(mat.height : ℝ) * slope⌉ ≤ 0 := Int.ceil_le.2 (by
          simpa using mul_nonpos_of_nonneg_of_nonpos (Nat.cast_nonneg _) (not_lt.1 hs))
        have := hl.2 (not_lt.1 hs); omega
  · intro lo hi hl h1 h2 h3 h0
    unfold getCrossPointsVerLines
    simp only [himg, ok_bind]
    rcases horRange (h := mat.height) (w := mat.width) (slope := slope) with ⟨lo', hi', _, _, _, _, _, e⟩ | ⟨hbad, e⟩
    · rw [e, ok_bind]
      simp only
      rw [if_pos h0]
    · exfalso
      by_cases hs : slope < 0
      · have hn : ⌊(mat.width : ℝ) * slope⌋ ≤ 0 := by
          have : (mat.width : ℝ) * slope ≤ 0 := mul_nonpos_of_nonneg_of_nonpos (Nat.cast_nonneg _) hs.le
          have h' : ⌊(mat.width : ℝ) * slope⌋ ≤ ⌊(0 : ℝ)⌋ := Int.floor_le_floor this
          simpa using h'
        have := hl.1 hs; omega
      · have hn : ⌈(mat.width : ℝ) * -slope⌉ ≤ 0 := Int.ceil_le.2 (by
          have h0 := not_lt.1 hs
          push_cast
          exact mul_nonpos_of_nonneg_of_nonpos (Nat.cast_nonneg _) (by linarith))
        have := hl.2 (not_lt.1 hs); omega

theorem extrema_max_ok (E : Ext) {l : List ℝ} (hl : 4 ≤ l.length) (radius : ℤ) (s : ℝ) (sub : Bool)
    (hpf : sub = true → PolyfitSpec E.pf) : ∃ rs, getLocalExtremaPoints E l "max" radius s false false sub none = .ok rs := by
  cases sub with
  | false =>
    obtain ⟨M, _, _, pts, e, _⟩ := C43_max E l radius s hl (usedRadius radius l.length) (by unfold usedRadius; omega)
    exact ⟨_, e⟩
  | true =>
    obtain ⟨M, hM, _, _⟩ := npMax_ok (l := l) (by rw [← List.length_pos_iff]; omega)
    rw [extrema_max E l radius s hM false true none]
    obtain ⟨_, sub, _, e, _⟩ := C43_subpixel E (hpf rfl) (l.map fun x => M - x) radius s (by simpa using hl)
    exact ⟨_, e⟩

theorem onLine_ok {E : Ext} {store : ℝ → ℝ} {xs ys prof : List ℝ} {n : ℕ} {fx fy x0 x1 y0 y1 : ℝ} {radius : ℤ} {sensitive : ℝ}
    {sub : Bool} (hpf : sub = true → PolyfitSpec E.pf)
    (hx0 : xs.head? = some x0) (hx1 : xs.getLast? = some x1) (hy0 : ys.head? = some y0) (hy1 : ys.getLast? = some y1) (hn : 2 ≤ n)
    (hl : 4 ≤ prof.length) :
    ∃ g, crossPointsOnLine E store (xs, ys, prof) n fx fy false radius sensitive true true sub none = .ok g := by
  have hn' : (n : ℝ) - 1 ≠ 0 := by
    have : (2 : ℝ) ≤ n := by exact_mod_cast hn
    intro h0; linarith
  obtain ⟨rs, e⟩ := extrema_max_ok E hl radius sensitive sub hpf
  unfold crossPointsOnLine
  simp only [hx0, hx1, hy0, hy1, Bool.false_eq_true, if_false, Bool.not_true, ok_bind, e, finDiv_ok hn']
  exact ⟨_, rfl⟩

/-- **C79 (success).** With background normalisation and smoothing of the image, and without the selection of peaks, images of at
least four pixels along the generated lines never raise an error if the slope leaves room for a line and the step is positive. -/
theorem C79_success (E : Ext) (S : Sampler) (fft filter2 : Mat ℝ → Mat ℝ) (store : ℝ → ℝ) (mat : Mat ℝ)
    (hf : ∀ m, (fft m).height = m.height ∧ (fft m).width = m.width)
    (hg : ∀ m, (filter2 m).height = m.height ∧ (filter2 m).width = m.width) (hh : 0 < mat.height) (hw : 0 < mat.width)
    (slope dist ratio offset : ℝ) (hs : 0 < ratio * dist) (bright sub : Bool)
    (hpf : sub = true → PolyfitSpec E.pf) (radius : ℤ) (sensitive : ℝ) :
    (4 ≤ mat.height → (0 < slope → ⌈(mat.height : ℝ) * slope⌉ < mat.width) → (slope ≤ 0 → ⌊(mat.height : ℝ) * -slope⌋ < mat.width) →
      ∃ P, getCrossPointsHorLines E S fft filter2 store mat slope dist ratio offset bright true false true sub radius sensitive none =
        .ok P) ∧
    (4 ≤ mat.width → (slope < 0 → ⌈(mat.width : ℝ) * -slope⌉ < mat.height) → (0 ≤ slope → ⌊(mat.width : ℝ) * slope⌋ < mat.height) →
      ∃ P, getCrossPointsVerLines E S fft filter2 store mat slope dist ratio offset bright true false true sub radius sensitive none =
        .ok P) := by
  obtain ⟨img, himg⟩ := crossImage_ok (fft := fft) (filter2 := filter2) (bright := bright) (norm := true) (denoise := true) hh hw
  obtain ⟨eh, ew⟩ := crossImage_shape hf hg himg
  constructor
  · intro h4 hc1 hc2
    unfold getCrossPointsHorLines
    simp only [himg, ok_bind]
    rcases verRange (h := mat.height) (w := mat.width) (slope := slope) with ⟨lo, hi, _, l1, l2, l3, l4, e⟩ | ⟨hbad, e⟩
    · rw [e, ok_bind]
      simp only
      rw [if_neg hs.ne']
      have hoff := (offset_spec offset (min mat.height mat.width / 3)).nonneg
      obtain ⟨groups, hgr⟩ : ∃ groups, (arange ((lo + truncInt (clip offset 0 ((min mat.height mat.width / 3 : ℕ) : ℝ)) : ℤ) : ℝ)
          ((hi - truncInt (clip offset 0 ((min mat.height mat.width / 3 : ℕ) : ℝ)) : ℤ) : ℝ) (ratio * dist)).mapM (fun i => (do
            let prof ← getTiltedProfile S img i (Real.arctan slope * 180 / Real.pi) "vertical"
            crossPointsOnLine E store prof mat.height (Real.sin (Real.arctan slope)) (Real.cos (Real.arctan slope)) false radius
              sensitive true true sub none : Except PyErr (List Pt))) = .ok groups := by
        apply exists_mapM_ok
        intro i hi'
        obtain ⟨k, ei, hlt⟩ := (mem_arange hs).1 hi'
        generalize truncInt (clip offset 0 ((min mat.height mat.width / 3 : ℕ) : ℝ)) = off at hoff ei hlt
        have ho : (0 : ℝ) ≤ off := by exact_mod_cast hoff
        push_cast at ei hlt
        have hk : (0 : ℝ) ≤ k * (ratio * dist) := by positivity
        rcases tilted_ver (S := S) (m := img) (index := i) (by rw [eh, ew]; exact e) (by push Not; constructor <;> linarith) with
          ⟨h0, _⟩ | ⟨xlo, xhi, _, _, _, hp⟩
        · omega
        · rw [hp, ok_bind]
          obtain ⟨L, b', _, hx0, hy0, hx1, hy1, _⟩ := ver_ends (by omega) hp
          exact onLine_ok hpf hx0 hx1 hy0 hy1 (by omega) (by simp [linspace0_length]; omega)
      rw [hgr, ok_bind]
      exact ⟨_, rfl⟩
    · exfalso
      by_cases hs : 0 < slope
      · have hn : ⌊(mat.height : ℝ) * -slope⌋ ≤ 0 := by
          have : (mat.height : ℝ) * -slope ≤ 0 := mul_nonpos_of_nonneg_of_nonpos (Nat.cast_nonneg _) (by linarith)
          have h' : ⌊(mat.height : ℝ) * -slope⌋ ≤ ⌊(0 : ℝ)⌋ := Int.floor_le_floor this
          simpa using h'
        have := hc1 hs; omega
      · have hn : ⌈(mat.height : ℝ) * slope⌉ ≤ 0 := Int.ceil_le.2 (by
          simpa using mul_nonpos_of_nonneg_of_nonpos (Nat.cast_nonneg _) (not_lt.1 hs))
        have := hc2 (not_lt.1 hs); omega
  · intro h4 hc1 hc2
    unfold getCrossPointsVerLines
    simp only [himg, ok_bind]
    rcases horRange (h := mat.height) (w := mat.width) (slope := slope) with ⟨lo, hi, _, l1, l2, l3, l4, e⟩ | ⟨hbad, e⟩
    · rw [e, ok_bind]
      simp only
      rw [if_neg hs.ne']
      have hoff := (offset_spec offset (min mat.height mat.width / 8)).nonneg
      obtain ⟨groups, hgr⟩ : ∃ groups, (arange ((lo + truncInt (clip offset 0 ((min mat.height mat.width / 8 : ℕ) : ℝ)) : ℤ) : ℝ)
          ((hi - truncInt (clip offset 0 ((min mat.height mat.width / 8 : ℕ) : ℝ)) : ℤ) : ℝ) (ratio * dist)).mapM (fun i => (do
            let prof ← getTiltedProfile S img i (-(Real.arctan slope * 180 / Real.pi)) "horizontal"
            crossPointsOnLine E store prof mat.width (Real.cos (Real.arctan slope)) (Real.sin (Real.arctan slope)) false radius
              sensitive true true sub none : Except PyErr (List Pt))) = .ok groups := by
        apply exists_mapM_ok
        intro i hi'
        obtain ⟨k, ei, hlt⟩ := (mem_arange hs).1 hi'
        generalize truncInt (clip offset 0 ((min mat.height mat.width / 8 : ℕ) : ℝ)) = off at hoff ei hlt
        have ho : (0 : ℝ) ≤ off := by exact_mod_cast hoff
        push_cast at ei hlt
        have hk : (0 : ℝ) ≤ k * (ratio * dist) := by positivity
        rcases tilted_hor (S := S) (m := img) (index := i) (by rw [eh, ew]; exact e) (by push Not; constructor <;> linarith) with
          ⟨h0, _⟩ | ⟨xlo, xhi, _, _, _, hp⟩
        · omega
        · rw [hp, ok_bind]
          obtain ⟨L, b', _, hy0, hx0, hy1, hx1, _⟩ := hor_ends (by omega) hp
          exact onLine_ok hpf hx0 hx1 hy0 hy1 (by omega) (by simp [linspace0_length]; omega)
      rw [hgr, ok_bind]
      exact ⟨_, rfl⟩
    · exfalso
      by_cases hs : slope < 0
      · have hn : ⌊(mat.width : ℝ) * slope⌋ ≤ 0 := by
          have : (mat.width : ℝ) * slope ≤ 0 := mul_nonpos_of_nonneg_of_nonpos (Nat.cast_nonneg _) hs.le
          have h' : ⌊(mat.width : ℝ) * slope⌋ ≤ ⌊(0 : ℝ)⌋ := Int.floor_le_floor this
          simpa using h'
        have := hc1 hs; omega
      · have hn : ⌈(mat.width : ℝ) * -slope⌉ ≤ 0 := Int.ceil_le.2 (by
          have h0 := not_lt.1 hs
          push_cast
          exact mul_nonpos_of_nonneg_of_nonpos (Nat.cast_nonneg _) (by linarith))
        have := hc2 (not_lt.1 hs); omega

/-- The hypotheses can be met: lines with a slope of 1/10 on an image of 100 by 100 pixels, a new line every 6 pixels. -/
example (E : Ext) (S : Sampler) (store : ℝ → ℝ) (f : ℕ → ℕ → ℝ) : ∃ P img starts groups,
    getCrossPointsHorLines E S id id store ⟨100, 100, f⟩ 0.1 20 0.3 5 true true false true false 11 0.1 none = .ok P ∧
    (5 : ℝ) ∈ starts ∧ P = groups.flatten ∧
    List.Forall₂ (VerCrossLine E S store img 0.1 false 11 0.1 true true false none) starts groups := by
  have hc : ⌈((100 : ℕ) : ℝ) * 0.1⌉ = 10 := by
    rw [Int.ceil_eq_iff]; norm_num
  obtain ⟨P, hP⟩ := (C79_success E S id id store ⟨100, 100, f⟩ (fun _ => ⟨rfl, rfl⟩) (fun _ => ⟨rfl, rfl⟩) (by norm_num) (by norm_num)
    0.1 20 0.3 5 (by norm_num) true false (by simp) 11 0.1).1 (by norm_num) (fun _ => by rw [hc]; norm_num) (fun h => by norm_num at h)
  obtain ⟨img, lo, hi, off, starts, groups, _, h2, h3, h4, h5, h6⟩ := C79_hor_lines E S id id store ⟨100, 100, f⟩
    (fun _ => ⟨rfl, rfl⟩) (fun _ => ⟨rfl, rfl⟩) (by norm_num) 0.1 20 0.3 5 (by norm_num) true true false true false 11 0.1 none P hP
  refine ⟨P, img, starts, groups, hP, (h4.2 5).2 ⟨0, ?_, ?_⟩, h5, h6⟩ <;>
  · obtain ⟨rfl, rfl⟩ := h2.1 (by norm_num)
    have : off = 5 := by
      rw [h3, Int.floor_eq_iff]
      norm_num
    subst this
    first
      | (simp only [hc]; norm_num)
      | norm_num

/-- Vertical lines on the same image. -/
example (E : Ext) (S : Sampler) (store : ℝ → ℝ) (f : ℕ → ℕ → ℝ) : ∃ (P : List Pt) (starts : List ℝ) (groups : List (List Pt)),
    getCrossPointsVerLines E S id id store ⟨100, 100, f⟩ 0 20 0.3 5 true true false true false 11 0.1 none = .ok P ∧ P = groups.flatten ∧ starts.length = groups.length := by
  obtain ⟨P, hP⟩ := (C79_success E S id id store ⟨100, 100, f⟩ (fun _ => ⟨rfl, rfl⟩) (fun _ => ⟨rfl, rfl⟩) (by norm_num) (by norm_num)
    0 20 0.3 5 (by norm_num) true false (by simp) 11 0.1).2 (by norm_num) (fun h => by norm_num at h) (fun _ => by norm_num)
  obtain ⟨_, _, _, _, starts, groups, _, _, _, _, h5, h6⟩ := C79_ver_lines E S id id store ⟨100, 100, f⟩
    (fun _ => ⟨rfl, rfl⟩) (fun _ => ⟨rfl, rfl⟩) (by norm_num) 0 20 0.3 5 (by norm_num) true true false true false 11 0.1 none P hP
  exact ⟨P, starts, groups, hP, h5, h6.length_eq⟩

example (E : Ext) (S : Sampler) (fft filter2 : Mat ℝ → Mat ℝ) (store : ℝ → ℝ) (f : ℕ → ℕ → ℝ) :
    getCrossPointsHorLines E S fft filter2 store ⟨100, 100, f⟩ 1 20 0.3 5 true true false true false 11 0.1 none = .error .valueError :=
  (C79_errors E S fft filter2 store ⟨100, 100, f⟩ (by norm_num) (by norm_num) 1 20 0.3 5 true true false true false 11 0.1 none).1 (.inl (by norm_num))

end Discorpy
