import Verif.Lemmas.RadialFit
import Verif.Spec.ModelDifference

/-! # Lemmas: least-squares models form a right-angled triangle with any other model -/

namespace Discorpy

open Spec

/-- The point at `s` on the way from `k` to `k'`. -/
noncomputable def between (s : ℝ) (k k' : List ℝ) : List ℝ := List.zipWith (fun a b => a + s * (b - a)) k k'

theorem between_length {s : ℝ} {k k' : List ℝ} (h : k'.length = k.length) : (between s k k').length = k.length := by
  simp [between, h]

theorem radial_between {s : ℝ} {k k' : List ℝ} (h : k'.length = k.length) (r : ℝ) :
    radial (between s k k') r = radial k r + s * (radial k' r - radial k r) := by
  have aux : ∀ (l : List ℝ), radial l r = ∑ i ∈ Finset.range l.length, l.getD i 0 * r ^ i := by
    intro l
    rw [radial, Finset.sum_range]
    exact Finset.sum_congr rfl fun i _ => by simp
  rw [aux, aux, aux, between_length h, h, ← Finset.sum_sub_distrib, Finset.mul_sum, ← Finset.sum_add_distrib]
  refine Finset.sum_congr rfl fun i hi => ?_
  have h1 := Finset.mem_range.1 hi
  have h2 : i < k'.length := by omega
  have h3 : i < (between s k k').length := by rw [between_length h]; exact h1
  simp only [List.getD_eq_getElem?_getD, List.getElem?_eq_getElem h1, List.getElem?_eq_getElem h2, List.getElem?_eq_getElem h3, Option.getD_some]
  simp only [between, List.getElem_zipWith]
  ring

theorem sumDots_quadratic {paras : List Para} {us : List ℝ} {lines : List (List Pt)} {f e x d : Para → ℝ → Pt → ℝ} {s : ℝ}
    (h : ∀ q u p, f q u p = e q u p + s * x q u p + s ^ 2 * d q u p) :
    sumDots paras us lines f = sumDots paras us lines e + s * sumDots paras us lines x + s ^ 2 * sumDots paras us lines d := by
  unfold sumDots
  induction List.zip (List.zip paras us) lines with
  | nil => simp
  | cons z L ih =>
    simp only [List.map_cons, List.sum_cons]
    have : (z.2.map fun p => f z.1.1 z.1.2 p).sum = (z.2.map fun p => e z.1.1 z.1.2 p).sum + s * (z.2.map fun p => x z.1.1 z.1.2 p).sum +
        s ^ 2 * (z.2.map fun p => d z.1.1 z.1.2 p).sum := by
      induction z.2 with
      | nil => simp
      | cons p l ih2 =>
        simp only [List.map_cons, List.sum_cons]
        rw [ih2, h]
        ring
    rw [this, ih]
    ring

/-- A quadratic polynomial that is nowhere below its value at 0 has no linear term. -/
theorem linear_term_zero {X D : ℝ} (h : ∀ s : ℝ, 0 ≤ s * X + s ^ 2 * D) : X = 0 := by
  by_contra hx
  have h1 : 0 < X ^ 2 := by positivity
  have h2 : 0 < 1 + |D| := by positivity
  have := h (-X / (2 * (1 + |D|)))
  have e : -X / (2 * (1 + |D|)) * X + (-X / (2 * (1 + |D|))) ^ 2 * D = X ^ 2 / (2 * (1 + |D|)) * (D / (2 * (1 + |D|)) - 1) := by
    field_simp
    ring
  rw [e] at this
  have h3 : D / (2 * (1 + |D|)) - 1 < 0 := by
    rw [sub_neg, div_lt_one (by positivity)]
    have := le_abs_self D
    have := abs_nonneg D
    linarith
  nlinarith [mul_pos (by positivity : 0 < X ^ 2 / (2 * (1 + |D|))) (neg_pos.2 h3)]

/-- Sums over horizontal and vertical lines of deviations that depend on a model quadratically. -/
theorem lsq_triangle {ch cv : List Para} {uh uv : List ℝ} {hor ver : List (List Pt)} {E1 E2 : List ℝ → Para → ℝ → Pt → ℝ}
    {D1 D2 X1 X2 : List ℝ → List ℝ → Para → ℝ → Pt → ℝ}
    (h1 : ∀ k k' s, k'.length = k.length → ∀ q u p, E1 (between s k k') q u p = E1 k q u p + s * X1 k k' q u p + s ^ 2 * D1 k k' q u p)
    (h2 : ∀ k k' s, k'.length = k.length → ∀ q u p, E2 (between s k k') q u p = E2 k q u p + s * X2 k k' q u p + s ^ 2 * D2 k k' q u p)
    {k : List ℝ} (hmin : ∀ k', k'.length = k.length → sumDots ch uh hor (E1 k) + sumDots cv uv ver (E2 k) ≤ sumDots ch uh hor (E1 k') + sumDots cv uv ver (E2 k'))
    (k' : List ℝ) (hk : k'.length = k.length) :
    sumDots ch uh hor (E1 k') + sumDots cv uv ver (E2 k') =
      sumDots ch uh hor (E1 k) + sumDots cv uv ver (E2 k) + (sumDots ch uh hor (D1 k k') + sumDots cv uv ver (D2 k k')) := by
  have key : ∀ s : ℝ, sumDots ch uh hor (E1 (between s k k')) + sumDots cv uv ver (E2 (between s k k')) =
      sumDots ch uh hor (E1 k) + sumDots cv uv ver (E2 k) + (s * (sumDots ch uh hor (X1 k k') + sumDots cv uv ver (X2 k k')) +
        s ^ 2 * (sumDots ch uh hor (D1 k k') + sumDots cv uv ver (D2 k k'))) := by
    intro s
    rw [sumDots_quadratic (h1 k k' s hk), sumDots_quadratic (h2 k k' s hk)]
    ring
  have hz := linear_term_zero (X := sumDots ch uh hor (X1 k k') + sumDots cv uv ver (X2 k k'))
    (D := sumDots ch uh hor (D1 k k') + sumDots cv uv ver (D2 k k')) fun s => by
      have := hmin (between s k k') (between_length hk)
      rw [key] at this
      linarith
  have h := key 1
  rw [hz] at h
  have hb : between 1 k k' = k' := by
    refine List.ext_getElem (by rw [between_length hk, hk]) fun i _ _ => ?_
    simp [between]
  rw [hb] at h
  linarith

end Discorpy
