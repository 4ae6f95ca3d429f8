import Verif.Props.C98
import Verif.Spec.RoundedMore

/-! # Numbers with few bits; coordinates with rounding -/

namespace Discorpy

open Spec

theorem hasBits_fixed {bits : ℕ} (hb : 1 ≤ bits) {x : ℝ} (h : HasBits bits x) : roundBits bits x = x := by
  obtain ⟨M, e, rfl, hM⟩ := h
  by_cases h0 : M = 0
  · subst h0
    simp [roundBits]
  have hx : (M : ℝ) * 2 ^ e ≠ 0 := mul_ne_zero (by exact_mod_cast h0) (by positivity)
  unfold roundBits
  rw [if_neg hx]
  set g := Int.log 2 |(M : ℝ) * 2 ^ e| with hg
  have hle : (2 : ℝ) ^ g ≤ |(M : ℝ) * 2 ^ e| := by exact_mod_cast Int.zpow_log_le_self (b := 2) (by norm_num) (abs_pos.2 hx)
  obtain ⟨k, hk⟩ : ∃ k : ℤ, (M : ℝ) * 2 ^ e / 2 ^ (g + 1 - bits) = (k : ℝ) := by
    rw [abs_mul, abs_of_pos (by positivity : (0 : ℝ) < 2 ^ e)] at hle
    have hMr : |(M : ℝ)| ≤ 2 ^ bits := by exact_mod_cast hM
    have hge : g ≤ bits + e := by
      have : (2 : ℝ) ^ g ≤ 2 ^ ((bits : ℤ) + e) := by
        rw [zpow_add₀ (by norm_num), zpow_natCast]
        exact hle.trans (mul_le_mul_of_nonneg_right hMr (by positivity))
      exact (zpow_le_zpow_iff_right₀ (by norm_num : (1 : ℝ) < 2)).1 this
    rcases hge.lt_or_eq with hl | he
    · refine ⟨M * 2 ^ (e - (g + 1 - bits)).toNat, ?_⟩
      push_cast
      rw [← zpow_natCast (2 : ℝ), Int.toNat_of_nonneg (by omega), mul_div_assoc, ← zpow_sub₀ (by norm_num)]
    · have hMe : |(M : ℝ)| = 2 ^ bits := by
        refine le_antisymm hMr ?_
        rw [he, zpow_add₀ (by norm_num), zpow_natCast] at hle
        exact le_of_mul_le_mul_right hle (by positivity)
      have e1 : g + 1 - bits = e + 1 := by omega
      have e2 : (2 : ℝ) ^ bits = 2 ^ (bits - 1) * 2 := by rw [← pow_succ]; congr 1; omega
      rw [e1, zpow_add₀ (by norm_num), zpow_one]
      have hp : (0 : ℝ) < 2 ^ e := by positivity
      rcases abs_cases (M : ℝ) with ⟨a, _⟩ | ⟨a, _⟩
      · refine ⟨2 ^ (bits - 1), ?_⟩
        rw [a] at hMe
        rw [hMe, e2]
        push_cast
        field_simp
      · refine ⟨-2 ^ (bits - 1), ?_⟩
        rw [a] at hMe
        rw [show (M : ℝ) = -(2 ^ bits) by linarith, e2]
        push_cast
        field_simp
  rw [hk, roundHalfEven_int, ← hk]
  field_simp

theorem hasBits_int {bits : ℕ} {n : ℤ} (h : |n| ≤ 2 ^ bits) : HasBits bits (n : ℝ) := ⟨n, 0, by simp, h⟩

theorem hasBits_neg {bits : ℕ} {x : ℝ} (h : HasBits bits x) : HasBits bits (-x) := by
  obtain ⟨M, e, rfl, hM⟩ := h
  exact ⟨-M, e, by push_cast; ring, by rwa [abs_neg]⟩

theorem hasBits_round {bits : ℕ} (hb : 1 ≤ bits) (x : ℝ) : HasBits bits (roundBits bits x) := by
  have pos : ∀ x : ℝ, 0 < x → HasBits bits (roundBits bits x) := by
    intro x hx
    have hbt := (roundBits_between hb hx).2
    have hn := roundBits_nonneg hb hx.le
    unfold roundBits at hbt hn ⊢
    rw [if_neg hx.ne', abs_of_pos hx] at hbt hn ⊢
    set e := Int.log 2 x + 1 - bits with he
    refine ⟨_, e, rfl, ?_⟩
    have hp : (0 : ℝ) < 2 ^ e := by positivity
    rw [show Int.log 2 x + 1 = (bits : ℤ) + e by omega, zpow_add₀ (by norm_num), zpow_natCast] at hbt
    have h1 := le_of_mul_le_mul_right hbt hp
    have h2 := nonneg_of_mul_nonneg_left hn hp
    rw [abs_of_nonneg (by exact_mod_cast h2)]
    exact_mod_cast h1
  rcases lt_trichotomy x 0 with h | rfl | h
  · have := hasBits_neg (pos (-x) (by linarith))
    rwa [roundBits_neg, neg_neg] at this
  · simpa [roundBits] using hasBits_int (bits := bits) (n := 0) (by simp)
  · exact pos x h

/-- Taking off a smaller integer needs no further bits. -/
theorem hasBits_sub {bits : ℕ} {x : ℝ} (h : HasBits bits x) {n : ℤ} (h0 : 0 ≤ n) (hn : (n : ℝ) ≤ x) (hx : x ≤ 2 ^ bits) : HasBits bits (x - n) := by
  obtain ⟨M, e, rfl, hM⟩ := h
  have hp : (0 : ℝ) < 2 ^ e := by positivity
  rcases le_total 0 e with he | he
  · obtain ⟨k, rfl⟩ := Int.eq_ofNat_of_zero_le he
    have e1 : (M : ℝ) * 2 ^ (k : ℤ) - n = ((M * 2 ^ k - n : ℤ) : ℝ) := by push_cast; rw [zpow_natCast]
    rw [e1]
    refine hasBits_int ?_
    have a1 : n ≤ M * 2 ^ k := by
      have : (n : ℝ) ≤ ((M * 2 ^ k : ℤ) : ℝ) := by push_cast; rwa [zpow_natCast] at hn
      exact_mod_cast this
    have a2 : M * 2 ^ k ≤ 2 ^ bits := by
      have : ((M * 2 ^ k : ℤ) : ℝ) ≤ ((2 ^ bits : ℤ) : ℝ) := by push_cast; rwa [zpow_natCast] at hx
      exact_mod_cast this
    rw [abs_of_nonneg (by omega)]
    omega
  · obtain ⟨k, hk⟩ := Int.eq_ofNat_of_zero_le (neg_nonneg.2 he)
    obtain rfl : e = -(k : ℤ) := by omega
    refine ⟨M - n * 2 ^ k, -(k : ℤ), ?_, ?_⟩
    · push_cast
      rw [sub_mul, mul_assoc, zpow_neg, zpow_natCast, mul_inv_cancel₀ (by positivity), mul_one]
    · have hk2 : (0 : ℝ) < 2 ^ k := by positivity
      have a1 : n * 2 ^ k ≤ M := by
        rw [zpow_neg, zpow_natCast, ← div_eq_mul_inv, le_div_iff₀ hk2] at hn
        exact_mod_cast hn
      have a2 : 0 ≤ n * 2 ^ k := by positivity
      rw [abs_of_nonneg (by omega)]
      rw [abs_of_nonneg (by omega)] at hM
      omega

theorem hasBits_clip {bits h : ℕ} (hb : 1 ≤ bits) (h1 : 1 ≤ h) (hh : h ≤ 2 ^ bits) (x : ℝ) : HasBits bits (clip (roundBits bits x) 0 ((h : ℝ) - 1)) := by
  unfold clip
  rcases min_choice (max (roundBits bits x) 0) ((h : ℝ) - 1) with e | e
  · rw [e]
    rcases max_choice (roundBits bits x) 0 with e | e
    · rw [e]
      exact hasBits_round hb x
    · rw [e]
      simpa using hasBits_int (bits := bits) (n := 0) (by simp)
  · rw [e]
    have := hasBits_int (bits := bits) (n := (h : ℤ) - 1) (by
      rw [abs_of_nonneg (by omega)]
      have : (h : ℤ) ≤ 2 ^ bits := by exact_mod_cast hh
      omega)
    push_cast at this
    exact this

/-- Coordinates with rounding are near the exact ones. -/
theorem radialFl_near {u : ℝ} {F : Floats} (hF : IsFloat u F) (xc yc : ℝ) (fact : List ℝ) (i j : ℝ) :
    |radialRowFl F xc yc fact i j - (radialMap ⟨yc, xc⟩ fact ⟨i, j⟩).y| ≤ coordError u fact (ptDist ⟨i, j⟩ ⟨yc, xc⟩) yc i ∧
      |radialColFl F xc yc fact i j - (radialMap ⟨yc, xc⟩ fact ⟨i, j⟩).x| ≤ coordError u fact (ptDist ⟨i, j⟩ ⟨yc, xc⟩) xc j := by
  obtain ⟨hx, hy⟩ := within_dot hF fact ⟨i, j⟩ ⟨yc, xc⟩
  simp only [← sq] at hx hy
  exact ⟨hy, hx⟩

end Discorpy
