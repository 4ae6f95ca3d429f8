import Verif.Lemmas.Transform
import Verif.Lemmas.LeastSquares

/-! # C24: conversion between forward and backward coefficients -/

namespace Discorpy

open Spec

/-- **C24.** If some polynomial `G` of the same length inverts the model at all reference points where `F ≠ 0` (and there is
one), the returned coefficients do: `F(r)·G(F(r)·r) = 1`. -/
theorem C24_exact (lstsq : LstsqFn) (h : LstsqSpec lstsq) (fact : List ℝ) (mapping : String) (pts : List Pt)
    (hlen : fact.length ≤ pts.length) (hne : ∃ p ∈ pts, radial fact (ptDist p ⟨0, 0⟩) ≠ 0) (g : List ℝ)
    (hg : g.length = fact.length)
    (hex : ∀ p ∈ pts, radial fact (ptDist p ⟨0, 0⟩) ≠ 0 →
      radial fact (ptDist p ⟨0, 0⟩) * radial g (radial fact (ptDist p ⟨0, 0⟩) * ptDist p ⟨0, 0⟩) = 1) :
    ∃ g', transformCoef lstsq fact mapping (some pts) = .ok g' ∧ g'.length = fact.length ∧
      ∀ p ∈ pts, radial fact (ptDist p ⟨0, 0⟩) ≠ 0 →
        radial fact (ptDist p ⟨0, 0⟩) * radial g' (radial fact (ptDist p ⟨0, 0⟩) * ptDist p ⟨0, 0⟩) = 1 := by
  have hd : ∀ p : Pt, ptDist p ⟨0, 0⟩ = √(p.x * p.x + p.y * p.y) := by
    intro p; unfold ptDist; simp [sq]
  simp only [hd] at *
  obtain ⟨g', e, h1, h2⟩ := lstsq_inverse h fact pts hne g hg hex
  refine ⟨g', ?_, h1, h2⟩
  unfold transformCoef
  simp only [if_neg (not_lt.2 hlen)]
  show (if mapping = "forward" then _ else _) = _
  rw [ite_self, e]

/-- **C24** (on points): such coefficients move the forward image of every reference point with `F > 0` back onto it. -/
theorem C24_undoes (fact g : List ℝ) (p : Pt) (hF : 0 < radial fact (ptDist p ⟨0, 0⟩))
    (h : radial fact (ptDist p ⟨0, 0⟩) * radial g (radial fact (ptDist p ⟨0, 0⟩) * ptDist p ⟨0, 0⟩) = 1) :
    radialMap ⟨0, 0⟩ g (radialMap ⟨0, 0⟩ fact p) = p := by
  have e : ∀ (c : List ℝ) (q : Pt), radialMap ⟨0, 0⟩ c q =
      ⟨radial c (ptDist q ⟨0, 0⟩) * q.y, radial c (ptDist q ⟨0, 0⟩) * q.x⟩ := by
    intro c q; simp [radialMap]
  have hd : ∀ k : ℝ, 0 < k → ptDist ⟨k * p.y, k * p.x⟩ ⟨0, 0⟩ = k * ptDist p ⟨0, 0⟩ := by
    intro k hk
    unfold ptDist
    simp only [sub_zero]
    rw [show (k * p.x) ^ 2 + (k * p.y) ^ 2 = k ^ 2 * (p.x ^ 2 + p.y ^ 2) by ring, Real.sqrt_mul (by positivity),
      Real.sqrt_sq hk.le]
  rw [e fact, e g, hd _ hF]
  generalize radial fact (ptDist p ⟨0, 0⟩) = k at *
  generalize radial g (k * ptDist p ⟨0, 0⟩) = l at *
  rw [mul_comm] at h
  cases p
  simp only [← mul_assoc, h, one_mul]

/-- **C24** (errors): `ValueError` exactly when there are fewer reference points than coefficients. -/
theorem C24_valueError_iff (lstsq : LstsqFn) (fact : List ℝ) (mapping : String) (pts : List Pt) :
    transformCoef lstsq fact mapping (some pts) = .error .valueError ↔ pts.length < fact.length := by
  unfold transformCoef
  by_cases hl : pts.length < fact.length
  · simp only [hl, if_true, iff_true]
    rfl
  · simp only [hl, if_false, iff_false]
    show ¬ (if mapping = "forward" then _ else _) = _
    rw [ite_self]
    unfold lstsqChecked
    split <;> simp

/-- **C24** (errors): when `F` vanishes at all reference points (enough of them), `LinAlgError`. -/
theorem C24_all_zero (lstsq : LstsqFn) (fact : List ℝ) (mapping : String) (pts : List Pt)
    (hl : fact.length ≤ pts.length) (h0 : ∀ p ∈ pts, radial fact (ptDist p ⟨0, 0⟩) = 0) :
    transformCoef lstsq fact mapping (some pts) = .error .linAlgError := by
  have hd : ∀ p : Pt, ptDist p ⟨0, 0⟩ = √(p.x * p.x + p.y * p.y) := by
    intro p; unfold ptDist; simp [sq]
  simp only [hd] at h0
  unfold transformCoef
  simp only [if_neg (not_lt.2 hl)]
  show (if mapping = "forward" then _ else _) = _
  rw [ite_self, lstsqChecked, if_pos]
  rw [List.filterMap_eq_nil_iff]
  intro p hp
  rw [inverseRow_eq, if_neg (by simpa using h0 p hp)]

/-- The model `F(r) = 1 - r` is zero at distance one. -/
example := C24_all_zero refLstsq [1, -1] "forward" [⟨0, 1⟩, ⟨1, 0⟩] (by simp) (by intro p hp; simp at hp; rcases hp with rfl | rfl <;> simp [radial, ptDist, Fin.sum_univ_succ])

/-- **C24** (direction): both mapping options compute the same numbers. -/
theorem C24_mapping_irrelevant (lstsq : LstsqFn) (fact : List ℝ) (m m' : String) (pts : Option (List Pt)) :
    transformCoef lstsq fact m pts = transformCoef lstsq fact m' pts := by
  unfold transformCoef
  simp only [ite_self]

/-- **C24** (zeros): adding a reference point with `F(r) = 0` anywhere does not change the result. -/
theorem C24_zero_points_ignored (lstsq : LstsqFn) (fact : List ℝ) (m : String) (l₁ l₂ : List Pt) (q : Pt)
    (hl : fact.length ≤ (l₁ ++ l₂).length) (h0 : radial fact (ptDist q ⟨0, 0⟩) = 0) :
    transformCoef lstsq fact m (some (l₁ ++ q :: l₂)) = transformCoef lstsq fact m (some (l₁ ++ l₂)) := by
  have hd : ptDist q ⟨0, 0⟩ = √(q.x * q.x + q.y * q.y) := by unfold ptDist; simp [sq]
  rw [hd] at h0
  have hf : (l₁ ++ q :: l₂).filterMap (inverseRow fact) = (l₁ ++ l₂).filterMap (inverseRow fact) := by
    rw [List.filterMap_append, List.filterMap_append,
      List.filterMap_cons_none (by rw [inverseRow_eq, if_neg (by simpa using h0)])]
  have hl' : fact.length ≤ (l₁ ++ q :: l₂).length := by simp at hl ⊢; omega
  unfold transformCoef
  simp only [if_neg (not_lt.2 hl), if_neg (not_lt.2 hl')]
  show (if m = "forward" then _ else _) = (if m = "forward" then _ else _)
  rw [hf]

example := C24_zero_points_ignored refLstsq [1, -1] "forward" [⟨0, 2⟩] [⟨3, 0⟩] ⟨1, 0⟩ (by simp) (by simp [radial, ptDist, Fin.sum_univ_succ])

/-- **C24 (least squares).** In general the result minimises the sum over the reference points with `F(r) ≠ 0` of
`(G(F(r)·r) - 1/F(r))²` among the polynomials with as many coefficients. -/
theorem C24_least_squares (lstsq : LstsqFn) (h : LstsqSpec lstsq) (fact : List ℝ) (mapping : String) (pts : List Pt)
    (hlen : fact.length ≤ pts.length) (hne : ∃ p ∈ pts, radial fact (ptDist p ⟨0, 0⟩) ≠ 0) :
    ∃ g, transformCoef lstsq fact mapping (some pts) = .ok g ∧ g.length = fact.length ∧
      ∀ g' : List ℝ, g'.length = g.length →
        (pts.map (inverseDeviation ⟨0, 0⟩ fact g)).sum ≤ (pts.map (inverseDeviation ⟨0, 0⟩ fact g')).sum := by
  obtain ⟨g, e, h1, h2⟩ := lstsq_inverse_min h fact pts hne
  refine ⟨g, ?_, h1, h2⟩
  unfold transformCoef
  simp only [if_neg (not_lt.2 hlen)]
  show (if mapping = "forward" then _ else _) = _
  rw [ite_self, e]

/-- **C24 (default points).** Without reference points the grid `-1000, -950, …, 950` in both directions is used. -/
theorem C24_default (lstsq : LstsqFn) (fact : List ℝ) (mapping : String) (hlen : fact.length ≤ 1600) :
    transformCoef lstsq fact mapping none =
      transformCoef lstsq fact mapping (some (grid40 (fun i => -1000 + 50 * i) fun j => -1000 + 50 * j)) := by
  have e : defaultRefPoints = grid40 (fun i => -1000 + 50 * i) fun j => -1000 + 50 * j := grid40_eq _ _
  have hl : ¬ (grid40 (fun i => -1000 + 50 * i) fun j => -1000 + 50 * j).length < fact.length := by
    unfold grid40
    simpa using hlen
  unfold transformCoef
  simp only [if_neg hl, e]

/-- Non-vacuity: a quadratic model over the default grid has a least-squares inverse. -/
example : ∃ g, transformCoef refLstsq [1, 0, 0.000001] "forward" none = .ok g ∧ g.length = 3 := by
  rw [C24_default _ _ _ (by simp)]
  obtain ⟨g, e, h, _⟩ := C24_least_squares refLstsq refLstsq_spec [1, 0, 0.000001] "forward"
    (grid40 (fun i => -1000 + 50 * i) fun j => -1000 + 50 * j) (by simp [grid40])
    ⟨⟨-1000 + 50 * (0 / 40 : ℕ), -1000 + 50 * (0 % 40 : ℕ)⟩, List.mem_map.2 ⟨0, by simp, rfl⟩, by
      have hr : ∀ r : ℝ, radial [1, 0, 0.000001] r = 1 + 0.000001 * r ^ 2 := by
        intro r; simp [radial, Fin.sum_univ_succ]
      rw [hr]
      positivity⟩
  exact ⟨g, e, h⟩

/-- Non-vacuity: the model `F = 2` is inverted by `G = 1/2`. -/
example : ∃ g', transformCoef refLstsq [2] "backward" (some [⟨3, 4⟩]) = .ok g' ∧
    radialMap ⟨0, 0⟩ g' (radialMap ⟨0, 0⟩ [2] ⟨3, 4⟩) = ⟨3, 4⟩ := by
  have hr : ∀ k r : ℝ, radial [k] r = k := by intro k r; simp [radial]
  obtain ⟨g', e, _, h⟩ := C24_exact refLstsq refLstsq_spec [2] "backward" [⟨3, 4⟩] (by simp)
    ⟨⟨3, 4⟩, by simp, by rw [hr]; norm_num⟩ [1 / 2] rfl (by intro p _ _; rw [hr, hr]; norm_num)
  refine ⟨g', e, C24_undoes _ _ _ (by rw [hr]; norm_num) (h _ (by simp) (by rw [hr]; norm_num))⟩

end Discorpy
