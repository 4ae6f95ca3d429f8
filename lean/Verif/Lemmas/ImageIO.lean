import Verif.Spec.ImageIO
import Verif.Lemmas.Tilted
import Verif.Lemmas.Except
import Mathlib.Algebra.BigOperators.Group.Finset.Basic
import Mathlib.Data.Real.Basic

/-! # Lemmas about image files -/

namespace Discorpy

open Spec

theorem sum_map_range (f : ℕ → ℝ) (n : ℕ) : ((List.range n).map f).sum = ∑ k ∈ Finset.range n, f k := by
  induction n with
  | zero => simp
  | succ n ih => rw [List.range_succ, List.map_append, List.sum_append, ih, Finset.sum_range_succ]; simp

theorem npMin_extremes {l : List ℝ} {lo hi : ℝ} (h : Extremes l lo hi) : npMin l = .ok lo ∧ npMax l = .ok hi := by
  obtain ⟨h1, h2, h3⟩ := h
  have hne : l ≠ [] := by rintro rfl; cases h1
  obtain ⟨m, hm, hmem, hle⟩ := npMin_ok hne
  obtain ⟨M, hM, hmem', hle'⟩ := npMax_ok hne
  refine ⟨?_, ?_⟩
  · rw [hm, le_antisymm (hle lo h1) (h3 m hmem).1]
  · rw [hM, le_antisymm (h3 M hmem').2 (hle' hi h2)]

theorem pixelSub_eq {t : PixelType} {lo hi x : ℝ} (hx : PixelOf t x) (hlo : PixelOf t lo) (hfit : DifferencesFit t lo hi) (h1 : lo ≤ x)
    (h2 : x ≤ hi) : pixelSub t x lo = x - lo := by
  cases t with
  | uint8 => rfl
  | bool => rfl
  | float => rfl
  | int bits =>
    obtain ⟨n, rfl, hn1, hn2⟩ := hx
    obtain ⟨m, rfl, hm1, hm2⟩ := hlo
    obtain ⟨hb, hfit⟩ := hfit
    have hc : (n : ℝ) - m = ((n - m : ℤ) : ℝ) := by push_cast; ring
    have h3 : n - m < 2 ^ (bits - 1) := by
      have : ((n - m : ℤ) : ℝ) < ((2 ^ (bits - 1) : ℤ) : ℝ) := by push_cast; linarith
      exact_mod_cast this
    have h4 : m ≤ n := by exact_mod_cast h1
    have h5 : (2 : ℤ) ^ bits = 2 * 2 ^ (bits - 1) := by
      conv_lhs => rw [show bits = (bits - 1) + 1 by omega]
      rw [pow_succ]; ring
    unfold pixelSub
    simp only
    rw [hc, Int.floor_intCast]
    congr 1
    have h6 : ((2 ^ bits : ℕ) : ℤ) = 2 * 2 ^ (bits - 1) := by push_cast; exact h5
    rw [Int.bmod_eq_of_le_mul_two] <;> omega
  | uint bits =>
    obtain ⟨n, rfl, hn1, hn2⟩ := hx
    obtain ⟨m, rfl, hm1, hm2⟩ := hlo
    have hc : (n : ℝ) - m = ((n - m : ℤ) : ℝ) := by push_cast; ring
    have h4 : m ≤ n := by exact_mod_cast h1
    unfold pixelSub
    simp only
    rw [hc, Int.floor_intCast]
    congr 1
    exact Int.emod_eq_of_lt (by omega) (by omega)

end Discorpy
