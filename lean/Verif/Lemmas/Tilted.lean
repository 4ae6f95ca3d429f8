import Verif.Model.LinePattern
import Verif.Lemmas.Array
import Verif.Lemmas.Except
import Verif.Lemmas.Num

/-! # Helper lemmas: tilted profiles -/

namespace Discorpy
open Spec

theorem npMin_ok {l : List ℝ} (hne : l ≠ []) : ∃ m, npMin l = .ok m ∧ m ∈ l ∧ ∀ y ∈ l, m ≤ y := by
  obtain ⟨m, hm⟩ := Option.ne_none_iff_exists'.1 (mt List.min?_eq_none_iff.1 hne)
  unfold npMin
  rw [hm]
  rw [List.min?_eq_some_iff] at hm
  exact ⟨m, rfl, hm.1, hm.2⟩

theorem npMin_nil : npMin [] = .error .valueError := rfl

theorem linspace0_length (s : ℝ) (n : ℕ) : (linspace0 s n).length = n := by simp [linspace0]

theorem linspace0_getElem? {s : ℝ} {n k : ℕ} (hk : k < n) (hn : 2 ≤ n) :
    (linspace0 s n)[k]? = some ((k : ℝ) * s / ((n : ℝ) - 1)) := by
  unfold linspace0
  rw [List.getElem?_map, List.getElem?_range hk, Option.map_some, if_neg (by omega)]

/-- Band of a crop around clipped coordinates. -/
theorem band {l : List ℝ} {N : ℕ} (hN : N ≤ 32767) (h0 : 0 < N) (hl : ∀ v ∈ l, 0 ≤ v ∧ v ≤ (N : ℝ) - 1) {lo hi : ℝ}
    (hlo : npMin l = .ok lo) (hhi : npMax l = .ok hi) :
    ∃ a b : ℕ, toInt16 ⌊lo⌋ = a ∧ toInt16 (toInt16 ⌈hi⌉ + 1) = b ∧ a < b ∧ b ≤ N ∧ ∀ v ∈ l, (a : ℝ) ≤ v ∧ v ≤ (b : ℝ) - 1 := by
  have hne : l ≠ [] := by rintro rfl; cases hlo
  obtain ⟨lo', e1, hm1, hmin⟩ := npMin_ok hne
  obtain ⟨hi', e2, hm2, hmax⟩ := npMax_ok hne
  rw [hlo] at e1; injection e1 with e1; subst e1
  rw [hhi] at e2; injection e2 with e2; subst e2
  obtain ⟨p1, p2⟩ := hl lo hm1
  obtain ⟨q1, q2⟩ := hl hi hm2
  have f1 : 0 ≤ ⌊lo⌋ := Int.floor_nonneg.2 p1
  have f2 : ⌊lo⌋ ≤ (N : ℤ) - 1 := by
    have : (⌊lo⌋ : ℝ) ≤ ((N : ℤ) - 1 : ℤ) := by push_cast; exact (Int.floor_le lo).trans p2
    exact_mod_cast this
  have c1 : 0 ≤ ⌈hi⌉ := Int.ceil_nonneg q1
  have c2 : ⌈hi⌉ ≤ (N : ℤ) - 1 := Int.ceil_le.2 (by push_cast; exact q2)
  have hle : ⌊lo⌋ ≤ ⌈hi⌉ := by
    have : (⌊lo⌋ : ℝ) ≤ ⌈hi⌉ := (Int.floor_le lo).trans ((hmin hi hm2).trans (Int.le_ceil hi))
    exact_mod_cast this
  rw [toInt16_of_mem (by omega) (by omega : ⌊lo⌋ ≤ 32767), toInt16_of_mem (by omega) (by omega : ⌈hi⌉ ≤ 32767),
    toInt16_of_mem (by omega) (by omega : ⌈hi⌉ + 1 ≤ 32767)]
  refine ⟨⌊lo⌋.toNat, (⌈hi⌉ + 1).toNat, by omega, by omega, by omega, by omega, fun v hv => ?_⟩
  have g1 : ((⌊lo⌋.toNat : ℕ) : ℝ) = (⌊lo⌋ : ℝ) := by
    have : ((⌊lo⌋.toNat : ℕ) : ℤ) = ⌊lo⌋ := by omega
    exact_mod_cast this
  have g2 : (((⌈hi⌉ + 1).toNat : ℕ) : ℝ) = (⌈hi⌉ : ℝ) + 1 := by
    have : (((⌈hi⌉ + 1).toNat : ℕ) : ℤ) = ⌈hi⌉ + 1 := by omega
    exact_mod_cast this
  rw [g1, g2]
  constructor
  · exact (Int.floor_le lo).trans (hmin v hv)
  · have := (hmax v hv).trans (Int.le_ceil hi)
    linarith

/-- Parameter of the `k`-th sample of a line of `n` samples. -/
theorem line_param {a : ℝ} (h0 : 0 ≤ a) (h1 : a < Real.pi / 2) {n k : ℕ} (hn : 2 ≤ n) (hk : k < n) :
    let r := (k : ℝ) * (⌊(n : ℝ) / Real.cos a⌋ : ℝ) / ((n : ℝ) - 1)
    0 ≤ r ∧ r * Real.cos a ≤ n ∧ r * Real.sin a ≤ n * Real.tan a := by
  intro r
  have hc : 0 < Real.cos a := Real.cos_pos_of_mem_Ioo ⟨by linarith [Real.pi_pos], h1⟩
  have hs : 0 ≤ Real.sin a := Real.sin_nonneg_of_nonneg_of_le_pi h0 (by linarith [Real.pi_pos])
  have hn' : (2 : ℝ) ≤ n := by exact_mod_cast hn
  have hf0 : (0 : ℝ) ≤ (⌊(n : ℝ) / Real.cos a⌋ : ℝ) := by
    exact_mod_cast Int.floor_nonneg.2 (div_nonneg (by linarith) hc.le)
  have hk' : (k : ℝ) ≤ (n : ℝ) - 1 := by
    have : (k : ℝ) + 1 ≤ n := by exact_mod_cast hk
    linarith
  have hr0 : 0 ≤ r := div_nonneg (mul_nonneg (Nat.cast_nonneg k) hf0) (by linarith)
  have hr1 : r ≤ n / Real.cos a := by
    have : r ≤ (⌊(n : ℝ) / Real.cos a⌋ : ℝ) := by
      rw [div_le_iff₀ (by linarith), mul_comm]
      exact mul_le_mul_of_nonneg_left hk' hf0
    exact this.trans (Int.floor_le _)
  refine ⟨hr0, ?_, ?_⟩
  · calc r * Real.cos a ≤ n / Real.cos a * Real.cos a := mul_le_mul_of_nonneg_right hr1 hc.le
      _ = n := div_mul_cancel₀ _ hc.ne'
  · calc r * Real.sin a ≤ n / Real.cos a * Real.sin a := mul_le_mul_of_nonneg_right hr1 hs
      _ = n * Real.tan a := by rw [Real.tan_eq_sin_div_cos]; ring

theorem deg_lt {d : ℝ} (h : |d| < 90) : |d * Real.pi / 180| < Real.pi / 2 := by
  rw [abs_div, abs_mul, abs_of_pos Real.pi_pos, abs_of_pos (by norm_num : (0 : ℝ) < 180), div_lt_iff₀ (by norm_num)]
  nlinarith [Real.pi_pos]

theorem deg_cos {d : ℝ} (h : |d| < 90) : 0 < Real.cos (d * Real.pi / 180) := by
  have := abs_lt.1 (deg_lt h)
  exact Real.cos_pos_of_mem_Ioo ⟨by linarith, this.2⟩

theorem deg_tan_nonneg {d : ℝ} (h : |d| < 90) (h0 : 0 ≤ d) : 0 ≤ Real.tan (d * Real.pi / 180) := by
  apply Real.tan_nonneg_of_nonneg_of_le_pi_div_two
  · have := Real.pi_pos; positivity
  · exact (abs_lt.1 (deg_lt h)).2.le

end Discorpy
