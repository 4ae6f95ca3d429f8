import Verif.Lemmas.Image

/-! # Monotonicity of `y ↦ F(√(x²+y²))·y` for a model that does not fold -/

namespace Discorpy

open Spec

theorem ratio_mono {x y1 y2 : ℝ} (h0 : 0 ≤ y1) (h : y1 ≤ y2) :
    y1 * √(x ^ 2 + y2 ^ 2) ≤ y2 * √(x ^ 2 + y1 ^ 2) := by
  rw [← Real.sqrt_sq h0, ← Real.sqrt_sq (le_trans h0 h), ← Real.sqrt_mul (by positivity),
    ← Real.sqrt_mul (by positivity)]
  apply Real.sqrt_le_sqrt
  have : y1 ^ 2 ≤ y2 ^ 2 := by nlinarith
  rw [Real.sq_sqrt (by positivity), Real.sq_sqrt (by positivity)]
  nlinarith [sq_nonneg x]

theorem sqrt_mono_abs {x y1 y2 : ℝ} (h0 : 0 ≤ y1) (h : y1 ≤ y2) :
    √(x ^ 2 + y1 ^ 2) ≤ √(x ^ 2 + y2 ^ 2) := by
  apply Real.sqrt_le_sqrt; nlinarith

theorem radial_mono_pos {c : List ℝ} {R x y1 y2 : ℝ} (hc : NoFold c R) (h0 : 0 ≤ y1) (h : y1 ≤ y2)
    (hR : √(x ^ 2 + y2 ^ 2) ≤ R) :
    radial c (√(x ^ 2 + y1 ^ 2)) * y1 ≤ radial c (√(x ^ 2 + y2 ^ 2)) * y2 := by
  have hr := sqrt_mono_abs (x := x) h0 h
  have hrat := ratio_mono (x := x) h0 h
  have p1 := Real.sqrt_nonneg (x ^ 2 + y1 ^ 2)
  have p2 := Real.sqrt_nonneg (x ^ 2 + y2 ^ 2)
  have hm := hc.mono _ _ p1 hr hR
  have n2 := hc.nonneg _ p2 hR
  have n1 := hc.nonneg _ p1 (le_trans hr hR)
  rcases eq_or_lt_of_le h0 with h0 | h0
  · rw [← h0]; simp only [mul_zero]; exact mul_nonneg n2 (by linarith)
  · have q1 : 0 < √(x ^ 2 + y1 ^ 2) := Real.sqrt_pos.2 (by positivity)
    have q2 : 0 < √(x ^ 2 + y2 ^ 2) := lt_of_lt_of_le q1 hr
    generalize √(x ^ 2 + y1 ^ 2) = r1 at *
    generalize √(x ^ 2 + y2 ^ 2) = r2 at *
    -- r1 r2 F1 y1 ≤ r2 r2 F2 y1 ≤ r1 r2 F2 y2
    have s1 : r1 * radial c r1 * (y1 * r2) ≤ r2 * radial c r2 * (y1 * r2) :=
      mul_le_mul_of_nonneg_right hm (by positivity)
    have s2 : r2 * radial c r2 * (y1 * r2) ≤ r2 * radial c r2 * (y2 * r1) :=
      mul_le_mul_of_nonneg_left hrat (by positivity)
    have s3 : (r1 * r2) * (radial c r1 * y1) ≤ (r1 * r2) * (radial c r2 * y2) := by nlinarith
    exact le_of_mul_le_mul_left s3 (by positivity)

/-- Monotone in `y` over the whole line, as long as both ends are within the no-fold radius. -/
theorem radial_mono {c : List ℝ} {R x y1 y2 : ℝ} (hc : NoFold c R) (h : y1 ≤ y2)
    (hR1 : √(x ^ 2 + y1 ^ 2) ≤ R) (hR2 : √(x ^ 2 + y2 ^ 2) ≤ R) :
    radial c (√(x ^ 2 + y1 ^ 2)) * y1 ≤ radial c (√(x ^ 2 + y2 ^ 2)) * y2 := by
  have n1 := hc.nonneg _ (Real.sqrt_nonneg (x ^ 2 + y1 ^ 2)) hR1
  have n2 := hc.nonneg _ (Real.sqrt_nonneg (x ^ 2 + y2 ^ 2)) hR2
  rcases le_total 0 y1 with h1 | h1
  · exact radial_mono_pos hc h1 h hR2
  · rcases le_total 0 y2 with h2 | h2
    · have := mul_nonneg n2 h2
      have := mul_nonneg n1 (neg_nonneg.2 h1)
      linarith
    · have e1 : √(x ^ 2 + (-y1) ^ 2) = √(x ^ 2 + y1 ^ 2) := by rw [neg_sq]
      have := radial_mono_pos (x := x) (y1 := -y2) (y2 := -y1) hc (by linarith) (by linarith)
        (by rw [e1]; exact hR1)
      rw [neg_sq, neg_sq] at this
      linarith

end Discorpy
