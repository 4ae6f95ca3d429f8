import Verif.Spec.Interp
import Mathlib.Algebra.BigOperators.Fin
import Mathlib.Tactic.LinearCombination
import Mathlib.Tactic.FieldSimp

/-! # Helper lemmas about the numeric primitives -/

namespace Discorpy

open Spec

theorem clip_ge {x lo hi : ℝ} (h : lo ≤ hi) : lo ≤ clip x lo hi :=
  le_min (le_max_right _ _) h

theorem clip_le {x lo hi : ℝ} : clip x lo hi ≤ hi := min_le_right _ _

theorem clip_of_mem {x lo hi : ℝ} (h1 : lo ≤ x) (h2 : x ≤ hi) : clip x lo hi = x := by
  simp [clip, h1, h2]

theorem clip_mono {x y lo hi : ℝ} (h : x ≤ y) : clip x lo hi ≤ clip y lo hi :=
  min_le_min_right _ (max_le_max_right _ h)

theorem toInt16_of_mem {n : ℤ} (h1 : -32768 ≤ n) (h2 : n ≤ 32767) : toInt16 n = n := by
  unfold toInt16; rw [Int.bmod_def]; split <;> omega

theorem toInt16_range (n : ℤ) : -32768 ≤ toInt16 n ∧ toInt16 n ≤ 32767 := by
  unfold toInt16; rw [Int.bmod_def]; split <;> omega

theorem sliceBound_nat {len a : ℕ} (h : a ≤ len) : sliceBound len (a : ℤ) = a := by
  unfold sliceBound
  rw [if_neg (by omega)]
  omega

@[simp] theorem polySum_nil (r : ℝ) : polySum [] r = 0 := rfl

theorem polySum_cons (f : ℝ) (c : List ℝ) (r : ℝ) : polySum (f :: c) r = f + r * polySum c r := by
  have : ∀ c : List ℝ, (c.mapIdx fun i f => f * r ^ (i + 1)).sum
      = r * (c.mapIdx fun i f => f * r ^ i).sum := by
    intro c
    have h := List.sum_map_mul_left (c.mapIdx fun i f => f * r ^ i) (fun x => x) r
    simp only [List.map_id'] at h
    rw [← h]
    congr 1
    apply List.ext_getElem <;> simp
    intro i _; ring
  simp [polySum, List.mapIdx_cons, this]

theorem polySum_eq_radial (c : List ℝ) (r : ℝ) : polySum c r = radial c r := by
  unfold polySum radial
  rw [← List.sum_ofFn]
  congr 1
  apply List.ext_getElem <;> simp

theorem polySum_replicate_zero (n : ℕ) (r : ℝ) : polySum (List.replicate n 0) r = 0 := by
  induction n with
  | zero => simp
  | succ n ih => simp [List.replicate_succ, polySum_cons, ih]

theorem polySum_one (n : ℕ) (r : ℝ) : polySum (1 :: List.replicate n 0) r = 1 := by
  simp [polySum_cons, polySum_replicate_zero]

/-- Inside the frame linear interpolation is `bilinear`, whatever the boundary mode. -/
theorem linearInterp_eq (B : Boundary) (m : Mat ℝ) {y x : ℝ} (h : InFrame m y x) :
    linearInterp B m y x = bilinear m y x := by
  obtain ⟨hy0, hy1, hx0, hx1⟩ := h
  have hh : 0 < m.height := by
    rcases Nat.eq_zero_or_pos m.height with h | h
    · simp [h] at hy1; linarith
    · exact h
  have hw : 0 < m.width := by
    rcases Nat.eq_zero_or_pos m.width with h | h
    · simp [h] at hx1; linarith
    · exact h
  unfold linearInterp bilinear
  rw [if_pos ⟨hy0, hy1, hx0, hx1⟩]
  have ey : ⌊y⌋ = ((⌊y⌋₊ : ℕ) : ℤ) := (Int.natCast_floor_eq_floor hy0).symm
  have ex : ⌊x⌋ = ((⌊x⌋₊ : ℕ) : ℤ) := (Int.natCast_floor_eq_floor hx0).symm
  have ly : (⌊y⌋₊ : ℝ) ≤ y := Nat.floor_le hy0
  have lx : (⌊x⌋₊ : ℝ) ≤ x := Nat.floor_le hx0
  rw [ey, ex]
  generalize ⌊y⌋₊ = a at *
  generalize ⌊x⌋₊ = b at *
  have ha : a < m.height := by
    have : (a : ℝ) < m.height := by linarith
    exact_mod_cast this
  have hb : b < m.width := by
    have : (b : ℝ) < m.width := by linarith
    exact_mod_cast this
  have t00 : tap B m (a : ℤ) (b : ℤ) = m.get a b := by
    simp [tap, ha, hb]
  have tx : (x - b) * tap B m (a : ℤ) ((b : ℤ) + 1)
      = (x - b) * m.get a (min (b + 1) (m.width - 1)) := by
    by_cases hb1 : b + 1 < m.width
    · have : min (b + 1) (m.width - 1) = b + 1 := by omega
      rw [this]; congr 1; unfold tap; rw [if_pos (by omega)]; congr 1
    · have e1 : (m.width : ℝ) = b + 1 := by
        have : m.width = b + 1 := by omega
        rw [this]; push_cast; ring
      have : x - b = 0 := by linarith
      rw [this]; ring
  have ty : (y - a) * tap B m ((a : ℤ) + 1) (b : ℤ)
      = (y - a) * m.get (min (a + 1) (m.height - 1)) b := by
    by_cases ha1 : a + 1 < m.height
    · have : min (a + 1) (m.height - 1) = a + 1 := by omega
      rw [this]; congr 1; unfold tap; rw [if_pos (by omega)]; congr 1
    · have e1 : (m.height : ℝ) = a + 1 := by
        have : m.height = a + 1 := by omega
        rw [this]; push_cast; ring
      have : y - a = 0 := by linarith
      rw [this]; ring
  have txy : (y - a) * ((x - b) * tap B m ((a : ℤ) + 1) ((b : ℤ) + 1))
      = (y - a) * ((x - b) * m.get (min (a + 1) (m.height - 1)) (min (b + 1) (m.width - 1))) := by
    by_cases ha1 : a + 1 < m.height
    · by_cases hb1 : b + 1 < m.width
      · have e1 : min (b + 1) (m.width - 1) = b + 1 := by omega
        have e2 : min (a + 1) (m.height - 1) = a + 1 := by omega
        rw [e1, e2]; congr 2; unfold tap; rw [if_pos (by omega)]; congr 1
      · have e1 : (m.width : ℝ) = b + 1 := by
          have : m.width = b + 1 := by omega
          rw [this]; push_cast; ring
        have : x - b = 0 := by linarith
        rw [this]; ring
    · have e1 : (m.height : ℝ) = a + 1 := by
        have : m.height = a + 1 := by omega
        rw [this]; push_cast; ring
      have : y - a = 0 := by linarith
      rw [this]; ring
  simp only [Int.cast_natCast]
  rw [t00]
  linear_combination (1 - (y - a)) * tx + (1 - (x - b)) * ty + txy

/-- Interpolating in a row band that contains the coordinate is the same as interpolating in the image. -/
theorem bilinear_rows (m : Mat ℝ) (a b : ℕ) {y x : ℝ} (hb : b ≤ m.height) (hay : (a : ℝ) ≤ y)
    (hyb : y ≤ (b : ℝ) - 1) : bilinear (m.rows a b) (y - a) x = bilinear m y x := by
  have hy0 : 0 ≤ y := le_trans (Nat.cast_nonneg a) hay
  have hab : a < b := by
    have : (a : ℝ) < b := by linarith
    exact_mod_cast this
  have sa : sliceBound m.height (a : ℤ) = a := sliceBound_nat (by omega)
  have sb : sliceBound m.height (b : ℤ) = b := sliceBound_nat hb
  have hf : ⌊y - a⌋₊ = ⌊y⌋₊ - a := Nat.floor_sub_natCast y a
  have hfa : a ≤ ⌊y⌋₊ := Nat.le_floor hay
  have ly : (⌊y⌋₊ : ℝ) ≤ y := Nat.floor_le hy0
  have hfb : ⌊y⌋₊ < b := by
    have : (⌊y⌋₊ : ℝ) < b := by linarith
    exact_mod_cast this
  unfold bilinear
  simp only [Mat.rows, sa, sb, hf]
  generalize hk : ⌊y⌋₊ = k at *
  have e0 : k - a + a = k := by omega
  have ec : ((k - a : ℕ) : ℝ) = (k : ℝ) - a := by push_cast [hfa]; ring
  rw [e0, ec]
  have e2 : y - ↑a - (↑k - ↑a) = y - k := by ring
  rw [e2]
  by_cases h1 : k + 1 < b
  · have e1 : min (k - a + 1) (b - a - 1) + a = min (k + 1) (m.height - 1) := by omega
    rw [e1]
  · have hkb : (b : ℝ) = k + 1 := by
      have : b = k + 1 := by omega
      rw [this]; push_cast; ring
    have : y - k = 0 := by linarith
    simp [this]

end Discorpy
