import Verif.Spec.IntImages
import Mathlib.Tactic.Linarith
import Mathlib.Algebra.Order.Floor.Ring

/-! # Lemmas: conversion to integer pixels -/

namespace Discorpy

open Spec

/-- Without the limits: the nearest integer. -/
noncomputable def nearInt (t : ℝ) : ℤ := if t > 0 then ⌊t + 1 / 2⌋ else ⌈t - 1 / 2⌉

theorem nearInt_dist (t : ℝ) : |(nearInt t : ℝ) - t| ≤ 1 / 2 := by
  unfold nearInt
  split
  · have := Int.floor_le (t + 1 / 2); have := Int.lt_floor_add_one (t + 1 / 2)
    rw [abs_le]; constructor <;> linarith
  · have := Int.le_ceil (t - 1 / 2); have := Int.ceil_lt_add_one (t - 1 / 2)
    rw [abs_le]; constructor <;> linarith

theorem nearInt_int (n : ℤ) : nearInt n = n := by
  have h := nearInt_dist (n : ℝ)
  rw [abs_le] at h
  have h1 : (nearInt n : ℝ) < n + 1 := by linarith
  have h2 : (n : ℝ) < nearInt n + 1 := by linarith
  have h3 : nearInt n < n + 1 := by exact_mod_cast h1
  have h4 : n < nearInt n + 1 := by exact_mod_cast h2
  omega

theorem nearInt_mono {s t : ℝ} (h : s ≤ t) : nearInt s ≤ nearInt t := by
  unfold nearInt
  split_ifs with h1 h2 h2
  · exact Int.floor_le_floor (by linarith)
  · linarith
  · have a : ⌈s - 1 / 2⌉ ≤ 0 := Int.ceil_le.2 (by push_cast; linarith)
    have b : 0 ≤ ⌊t + 1 / 2⌋ := Int.floor_nonneg.2 (by linarith)
    omega
  · exact Int.ceil_le_ceil (by linarith)

theorem cast_eq (T : IntType) (h0 : T.lo ≤ 0) (h1 : 0 ≤ T.hi) (t : ℝ) : T.cast t = max T.lo (min (nearInt t) T.hi) := by
  have a0 : (T.lo : ℝ) ≤ 0 := by exact_mod_cast h0
  have a1 : (0 : ℝ) ≤ T.hi := by exact_mod_cast h1
  unfold IntType.cast nearInt
  by_cases h : t > 0
  · simp only [h, if_true]
    by_cases h2 : t + 1 / 2 > T.hi
    · have h3 : T.hi ≤ ⌊t + 1 / 2⌋ := Int.le_floor.2 h2.le
      simp only [h2, if_true, show ¬ ((T.hi : ℝ) < T.lo) by linarith, if_false, truncInt, a1, Int.floor_intCast]
      omega
    · have h3 : ⌊t + 1 / 2⌋ ≤ T.hi := by
        have := Int.floor_le (t + 1 / 2)
        exact_mod_cast (this.trans (not_lt.1 h2))
      have h4 : 0 ≤ ⌊t + 1 / 2⌋ := Int.floor_nonneg.2 (by linarith)
      simp only [h2, if_false, show ¬ (t + 1 / 2 < T.lo) by linarith, truncInt, show (0 : ℝ) ≤ t + 1 / 2 by linarith, if_true]
      omega
  · have h' := not_lt.1 h
    have h4 : ⌈t - 1 / 2⌉ ≤ 0 := Int.ceil_le.2 (by push_cast; linarith)
    simp only [h, if_false, show ¬ (t - 1 / 2 > T.hi) by linarith]
    by_cases h2 : t - 1 / 2 < T.lo
    · have h3 : ⌈t - 1 / 2⌉ ≤ T.lo := Int.ceil_le.2 h2.le
      simp only [h2, if_true]
      have : truncInt (T.lo : ℝ) = T.lo := by
        unfold truncInt
        split <;> simp
      omega
    · have h3 : T.lo ≤ ⌈t - 1 / 2⌉ := by
        have := Int.le_ceil (t - 1 / 2)
        exact_mod_cast ((not_lt.1 h2).trans this)
      simp only [h2, if_false, truncInt, show ¬ (0 : ℝ) ≤ t - 1 / 2 by linarith]
      omega

theorem cast_fits (T : IntType) (h0 : T.lo ≤ 0) (h1 : 0 ≤ T.hi) (t : ℝ) : Fits T (T.cast t) := by
  rw [cast_eq T h0 h1]
  exact ⟨le_max_left _ _, max_le (by omega) (min_le_right _ _)⟩

theorem cast_int (T : IntType) (h0 : T.lo ≤ 0) (h1 : 0 ≤ T.hi) {n : ℤ} (h : Fits T n) : T.cast n = n := by
  rw [cast_eq T h0 h1, nearInt_int]
  have := h.1; have := h.2
  omega

theorem cast_mono (T : IntType) (h0 : T.lo ≤ 0) (h1 : 0 ≤ T.hi) {s t : ℝ} (h : s ≤ t) : T.cast s ≤ T.cast t := by
  rw [cast_eq T h0 h1, cast_eq T h0 h1]
  have := nearInt_mono h
  omega

/-- The rounding error inside the range. -/
theorem cast_dist (T : IntType) (h0 : T.lo ≤ 0) (h1 : 0 ≤ T.hi) {t : ℝ} (h : (T.lo : ℝ) ≤ t) (h' : t ≤ T.hi) : |(T.cast t : ℝ) - t| ≤ 1 / 2 := by
  have e : T.cast t = nearInt t := by
    have a := nearInt_mono h
    have b := nearInt_mono h'
    rw [nearInt_int] at a b
    rw [cast_eq T h0 h1]
    omega
  rw [e]
  exact nearInt_dist t

theorem nearInt_abs {t : ℝ} {k : ℤ} (h : |(k : ℝ) - t| ≤ 1 / 2) : |k| ≤ |nearInt t| := by
  rw [abs_le] at h
  unfold nearInt
  split
  · rename_i ht
    have hk : (k : ℝ) ≤ t + 1 / 2 := by linarith
    have a : k ≤ ⌊t + 1 / 2⌋ := Int.le_floor.2 hk
    have b : -1 < k := by
      have : (-1 : ℝ) < k := by linarith
      exact_mod_cast this
    rw [abs_of_nonneg (by omega : 0 ≤ k), abs_of_nonneg (by omega)]
    exact a
  · rename_i ht
    have hk : t - 1 / 2 ≤ (k : ℝ) := by linarith
    have a : ⌈t - 1 / 2⌉ ≤ k := Int.ceil_le.2 hk
    have b : k < 1 := by
      have : (k : ℝ) < 1 := by linarith [not_lt.1 ht]
      exact_mod_cast this
    rw [abs_of_nonpos (by omega : k ≤ 0), abs_of_nonpos (by omega)]
    omega

theorem cast_nearest (T : IntType) (h0 : T.lo ≤ 0) (h1 : 0 ≤ T.hi) (t : ℝ) : IsNearest T t (T.cast t) := by
  have hd := abs_le.1 (nearInt_dist t)
  have key : ∀ k, Fits T k → |(T.cast t : ℝ) - t| ≤ |(k : ℝ) - t| ∧ (|(T.cast t : ℝ) - t| = |(k : ℝ) - t| → |k| ≤ |T.cast t|) := by
    intro k hk
    rcases lt_or_ge T.hi (nearInt t) with g | g
    · have e : T.cast t = T.hi := by rw [cast_eq T h0 h1]; omega
      rw [e]
      have a : (T.hi : ℝ) + 1 ≤ nearInt t := by exact_mod_cast g
      have b : (k : ℝ) ≤ T.hi := by exact_mod_cast hk.2
      rw [abs_of_neg (by linarith : (T.hi : ℝ) - t < 0), abs_of_neg (by linarith : (k : ℝ) - t < 0)]
      refine ⟨by linarith, fun h => ?_⟩
      have : (k : ℝ) = T.hi := by linarith
      rw [show k = T.hi by exact_mod_cast this]
    rcases lt_or_ge (nearInt t) T.lo with g' | g'
    · have e : T.cast t = T.lo := by rw [cast_eq T h0 h1]; omega
      rw [e]
      have a : (nearInt t : ℝ) + 1 ≤ T.lo := by exact_mod_cast g'
      have b : (T.lo : ℝ) ≤ k := by exact_mod_cast hk.1
      rw [abs_of_pos (by linarith : (T.lo : ℝ) - t > 0), abs_of_pos (by linarith : (k : ℝ) - t > 0)]
      refine ⟨by linarith, fun h => ?_⟩
      have : (k : ℝ) = T.lo := by linarith
      rw [show k = T.lo by exact_mod_cast this]
    have e : T.cast t = nearInt t := by rw [cast_eq T h0 h1]; omega
    rw [e]
    have hn : |(nearInt t : ℝ) - t| ≤ |(k : ℝ) - t| := by
      by_contra hc
      have hlt := not_le.1 hc
      have := nearInt_dist t
      have h2 := abs_lt.1 (hlt.trans_le this)
      have a : (k : ℝ) < nearInt t + 1 := by linarith
      have b : (nearInt t : ℝ) < k + 1 := by linarith
      have a' : k < nearInt t + 1 := by exact_mod_cast a
      have b' : nearInt t < k + 1 := by exact_mod_cast b
      rw [show k = nearInt t by omega] at hlt
      exact lt_irrefl _ hlt
    exact ⟨hn, fun h => nearInt_abs (h ▸ nearInt_dist t)⟩
  exact ⟨cast_fits T h0 h1 t, fun k hk => (key k hk).1, fun k hk => (key k hk).2⟩

/-- There is only one nearest value. -/
theorem nearest_unique {T : IntType} (h0 : T.lo ≤ 0) (h1 : 0 ≤ T.hi) {t : ℝ} {n k : ℤ} (hn : IsNearest T t n) (hk : IsNearest T t k) : n = k := by
  have e := le_antisymm (hn.near k hk.fits) (hk.near n hn.fits)
  have ea : |n| = |k| := le_antisymm (hk.tie n hn.fits e.symm) (hn.tie k hk.fits e)
  rcases abs_eq_abs.1 ea with h | h
  · exact h
  · subst h
    have z := hk.near 0 ⟨h0, h1⟩
    have z' := hn.near 0 ⟨h0, h1⟩
    rw [← sq_le_sq] at z z'
    push_cast at z z'
    have : (k : ℝ) ^ 2 ≤ 0 := by nlinarith
    have : (k : ℝ) = 0 := by nlinarith [sq_nonneg (k : ℝ)]
    have : k = 0 := by exact_mod_cast this
    omega

end Discorpy
