import Verif.Lemmas.Slopes
import Verif.Props.C83

/-! # Lemmas: the slope found for dots in rows and columns parallel to the axes -/

namespace Discorpy

open Spec

/-- A least-squares line of points in complete rows and columns is parallel to the rows. -/
theorem lsq_product {pts : List Pt} {X Y : Set ℝ} (hnd : pts.Nodup) (hmem : ∀ c : Pt, c ∈ pts ↔ c.y ∈ Y ∧ c.x ∈ X)
    (hX : ∃ x ∈ X, ∃ x' ∈ X, x ≠ x') (hY : Y.Nonempty) {s b : ℝ} (h : IsLsqHorLine pts s b) : s = 0 := by
  classical
  obtain ⟨x1, hx1, x2, hx2, hne⟩ := hX
  obtain ⟨y1, hy1⟩ := hY
  set R := (pts.map Pt.y).toFinset with hR
  set C := (pts.map Pt.x).toFinset with hC
  have mR : ∀ y, y ∈ R ↔ y ∈ Y := by
    intro y
    rw [hR, List.mem_toFinset, List.mem_map]
    constructor
    · rintro ⟨c, hc, rfl⟩
      exact ((hmem c).1 hc).1
    · intro hy
      exact ⟨⟨y, x1⟩, (hmem _).2 ⟨hy, hx1⟩, rfl⟩
  have mC : ∀ x, x ∈ C ↔ x ∈ X := by
    intro x
    rw [hC, List.mem_toFinset, List.mem_map]
    constructor
    · rintro ⟨c, hc, rfl⟩
      exact ((hmem c).1 hc).2
    · intro hx
      exact ⟨⟨y1, x⟩, (hmem _).2 ⟨hy1, hx⟩, rfl⟩
  have hsum : ∀ f : Pt → ℝ, (pts.map f).sum = ∑ y ∈ R, ∑ x ∈ C, f ⟨y, x⟩ := by
    intro f
    rw [← List.sum_toFinset f hnd, ← Finset.sum_product']
    refine Finset.sum_nbij' (fun c => (c.y, c.x)) (fun q => ⟨q.1, q.2⟩) ?_ ?_ ?_ ?_ ?_
    · intro c hc
      rw [List.mem_toFinset] at hc
      rw [Finset.mem_product, mR, mC]
      exact (hmem c).1 hc
    · intro q hq
      rw [Finset.mem_product, mR, mC] at hq
      rw [List.mem_toFinset, hmem]
      exact hq
    · intro c _
      rfl
    · intro q _
      rfl
    · intro c _
      rfl
  have hRpos : (0 : ℝ) < R.card := by
    have : y1 ∈ R := (mR _).2 hy1
    exact_mod_cast Finset.card_pos.2 ⟨_, this⟩
  set m := (∑ y ∈ R, y) / R.card with hm
  have hmean : ∑ y ∈ R, (m - y) = 0 := by
    rw [Finset.sum_sub_distrib, Finset.sum_const, nsmul_eq_mul, hm]
    field_simp
    ring
  have hle := h 0 m
  rw [hsum, hsum] at hle
  have hsplit : ∑ y ∈ R, ∑ x ∈ C, (s * x + b - y) ^ 2 =
      ∑ y ∈ R, ∑ x ∈ C, (m - y) ^ 2 + R.card * ∑ x ∈ C, (s * x + b - m) ^ 2 := by
    have : ∀ y ∈ R, ∑ x ∈ C, (s * x + b - y) ^ 2 =
        ∑ x ∈ C, (m - y) ^ 2 + (m - y) * (2 * ∑ x ∈ C, (s * x + b - m)) + ∑ x ∈ C, (s * x + b - m) ^ 2 := by
      intro y _
      rw [Finset.mul_sum, Finset.mul_sum, ← Finset.sum_add_distrib, ← Finset.sum_add_distrib]
      refine Finset.sum_congr rfl fun x _ => ?_
      ring
    rw [Finset.sum_congr rfl this, Finset.sum_add_distrib, Finset.sum_add_distrib, ← Finset.sum_mul, hmean, zero_mul, add_zero,
      Finset.sum_const, nsmul_eq_mul]
  simp only [zero_mul, zero_add] at hle
  rw [hsplit] at hle
  have hzero : ∑ x ∈ C, (s * x + b - m) ^ 2 = 0 := by
    have h0 : 0 ≤ ∑ x ∈ C, (s * x + b - m) ^ 2 := Finset.sum_nonneg fun _ _ => sq_nonneg _
    have : (R.card : ℝ) * ∑ x ∈ C, (s * x + b - m) ^ 2 ≤ 0 := by linarith
    nlinarith
  rw [Finset.sum_eq_zero_iff_of_nonneg fun _ _ => sq_nonneg _] at hzero
  have e1 := pow_eq_zero_iff (two_ne_zero) |>.1 (hzero x1 ((mC _).2 hx1))
  have e2 := pow_eq_zero_iff (two_ne_zero) |>.1 (hzero x2 ((mC _).2 hx2))
  have : s * (x1 - x2) = 0 := by linarith
  rcases mul_eq_zero.1 this with h | h
  · exact h
  · exact absurd (by linarith) hne

/-- With the first guess 0, complete rows and columns parallel to the axes have slope 0, whatever the tolerance. -/
theorem gridSlope_product {pts : List Pt} {X Y : Set ℝ} (hnd : pts.Nodup) (hmem : ∀ c : Pt, c ∈ pts ↔ c.y ∈ Y ∧ c.x ∈ X)
    (hX : ∃ x ∈ X, ∃ x' ∈ X, x ≠ x') {tol s : ℝ} (h : IsGridSlope horThrough IsLsqHorLine pts 0 tol s) : s = 0 := by
  obtain ⟨g, mid, _, hmid, _, h1, h2⟩ := h
  by_cases hl : (closerThan pts (horThrough 0 mid) tol).length < 2
  · exact h2 hl
  · obtain ⟨b, hb⟩ := h1 (by omega)
    have hin : ∀ q, q ∈ closerThan pts (horThrough 0 mid) tol ↔ q.y ∈ {y ∈ Y | |mid.y - y| < tol} ∧ q.x ∈ X := by
      intro q
      rw [← slopeDots_eq]
      unfold slopeDots slopeDist
      rw [List.mem_filter, decide_eq_true_iff, hmem]
      simp only [zero_mul, zero_sub, sub_zero, Set.mem_ofPred_eq]
      rw [show (0 : ℝ) ^ 2 + 1 = 1 by norm_num, Real.sqrt_one, div_one, show -q.y + mid.y = mid.y - q.y by ring]
      tauto
    have hnd' : (closerThan pts (horThrough 0 mid) tol).Nodup := by
      unfold closerThan
      exact hnd.filter _
    refine lsq_product hnd' hin hX ?_ hb
    have : closerThan pts (horThrough 0 mid) tol ≠ [] := by
      intro e
      rw [e] at hl
      simp at hl
    obtain ⟨q, hq⟩ := List.exists_mem_of_ne_nil _ this
    exact ⟨q.y, ((hin q).1 hq).1⟩

/-- The same for the vertical direction. -/
theorem gridSlope_product_ver {pts : List Pt} {X Y : Set ℝ} (hnd : pts.Nodup) (hmem : ∀ c : Pt, c ∈ pts ↔ c.y ∈ Y ∧ c.x ∈ X)
    (hY : ∃ y ∈ Y, ∃ y' ∈ Y, y ≠ y') {tol s : ℝ} (h : IsGridSlope verThrough IsLsqVerLine pts 0 tol s) : s = 0 := by
  have h' : IsGridSlope horThrough IsLsqHorLine (pts.map fun c => (⟨c.x, c.y⟩ : Pt)) 0 tol s := by
    have h2 : IsGridSlope verThrough IsLsqVerLine ((pts.map fun c => (⟨c.x, c.y⟩ : Pt)).map fun c => (⟨c.x, c.y⟩ : Pt)) 0 tol s := by
      rw [List.map_map]
      simpa [Function.comp_def] using h
    refine gridSlope_map (φ := fun c => ⟨c.x, c.y⟩) (fun p => rfl) (fun p q => ?_) (fun t p q => ?_) (fun l s b hl => ?_)
      (fun l g hg => ?_) h2
    · unfold ptDist
      congr 1
      ring
    · exact Iff.rfl
    · refine ⟨b, fun a' b' => ?_⟩
      have := hl a' b'
      simp only [List.map_map, Function.comp_def] at this
      exact this
    · obtain ⟨h0, h1, h2⟩ := hg
      refine ⟨by simpa using h0, ?_, ?_⟩
      · rw [List.map_map, List.length_map] at h2; exact h2
      · rw [List.map_map, List.length_map] at h1; exact h1
  refine gridSlope_product (X := Y) (Y := X) (hnd.map ?_) ?_ hY h'
  · intro a c e
    cases a
    cases c
    simp only [Pt.mk.injEq] at e
    rw [e.1, e.2]
  · intro c
    rw [List.mem_map]
    constructor
    · rintro ⟨a, ha, rfl⟩
      obtain ⟨h1, h2⟩ := (hmem a).1 ha
      exact ⟨h2, h1⟩
    · rintro ⟨h1, h2⟩
      exact ⟨⟨c.x, c.y⟩, (hmem _).2 ⟨h2, h1⟩, rfl⟩

end Discorpy
