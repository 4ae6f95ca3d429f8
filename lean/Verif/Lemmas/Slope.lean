import Verif.Lemmas.FitUnique
import Verif.Lemmas.Profile

/-! # Helper lemmas: slopes of linear fits -/

namespace Discorpy

theorem polyval_pair (a b x : ℝ) : polyval [a, b] x = a * x + b := by simp [polyval]

/-- Least-squares lines follow an affine change of the data. -/
theorem linear_fit_affine {pf : PolyfitFn} (hpf : PolyfitSpec pf) {n : ℕ} (hn : 2 ≤ n) {ys : List ℝ} (hl : ys.length = n) {a b : ℝ}
    (hf : pf ((List.range n).map fun i : ℕ => (i : ℝ)) ys 1 = [a, b]) (c d : ℝ) :
    pf ((List.range n).map fun i : ℕ => (i : ℝ)) (ys.map fun y => c * y + d) 1 = [c * a, c * b + d] := by
  set xs := (List.range n).map fun i : ℕ => (i : ℝ) with hxs
  have hxl : xs.length = n := by simp [hxs]
  have hne : xs ≠ [] := by rw [← List.length_pos_iff]; omega
  have hmin := fun q hq => hpf.minimal xs ys 1 (by omega) hne q hq
  rw [hf] at hmin
  have e : ∀ p q : ℝ, fitError xs (ys.map fun y => c * y + d) [c * p, c * q + d] = c ^ 2 * fitError xs ys [p, q] := by
    intro p q
    unfold fitError
    rw [List.zip_map_right, List.map_map, ← List.sum_map_mul_left]
    congr 1
    apply List.map_congr_left
    intro r _
    simp only [Function.comp, Prod.map, id, polyval_pair]
    ring
  have hu := hpf.unique (xs := xs) (ys := ys.map fun y => c * y + d) (deg := 1) (by simp; omega) hne (q := [c * a, c * b + d]) rfl (by
    intro r hr
    obtain ⟨u, v, rfl⟩ := List.length_eq_two.1 hr
    rw [e]
    by_cases hc : c = 0
    · subst hc
      rw [zero_pow two_ne_zero, zero_mul]
      unfold fitError
      apply List.sum_nonneg
      simp only [List.mem_map]
      rintro _ ⟨q, _, rfl⟩
      positivity
    · have : [u, v] = [c * (u / c), c * ((v - d) / c) + d] := by
        simp only [List.cons.injEq, and_true]
        constructor <;> field_simp
        ring
      rw [this, e]
      exact mul_le_mul_of_nonneg_left (hmin _ rfl) (by positivity))
  refine linear_coefs_eq (hpf.length _ _ _ (by simp; omega) hne) rfl ?_ ?_
  · exact_mod_cast hu ((0 : ℕ) : ℝ) (natCast_mem_range (by omega))
  · exact_mod_cast hu ((1 : ℕ) : ℝ) (natCast_mem_range (by omega))

/-- Least squares recovers an exact line. -/
theorem linear_fit_exact {pf : PolyfitFn} (hpf : PolyfitSpec pf) {n : ℕ} (hn : 2 ≤ n) (a b : ℝ) :
    pf ((List.range n).map fun i : ℕ => (i : ℝ)) ((List.range n).map fun i : ℕ => a * (i : ℝ) + b) 1 = [a, b] := by
  have hne : ((List.range n).map fun i : ℕ => (i : ℝ)) ≠ [] := by rw [← List.length_pos_iff]; simp; omega
  have hex : ∀ r ∈ ((List.range n).map fun i : ℕ => (i : ℝ)).zip ((List.range n).map fun i : ℕ => a * (i : ℝ) + b),
      polyval [a, b] r.1 = r.2 := by
    intro r hr
    rw [List.zip_map', List.mem_map] at hr
    obtain ⟨i, _, rfl⟩ := hr
    exact polyval_pair _ _ _
  have h := hpf.exact (deg := 1) (by simp) hne (q := [a, b]) rfl hex
  have key : ∀ i : ℕ, i < n → polyval (pf ((List.range n).map fun i : ℕ => (i : ℝ))
      ((List.range n).map fun i : ℕ => a * (i : ℝ) + b) 1) i = polyval [a, b] i := by
    intro i hi
    have hmem : ((i : ℝ), a * (i : ℝ) + b) ∈
        ((List.range n).map fun i : ℕ => (i : ℝ)).zip ((List.range n).map fun i : ℕ => a * (i : ℝ) + b) := by
      rw [List.zip_map', List.mem_map]
      exact ⟨i, List.mem_range.2 hi, rfl⟩
    exact (h _ hmem).trans (hex _ hmem).symm
  refine linear_coefs_eq (hpf.length _ _ _ (by simp) hne) rfl ?_ ?_
  · exact_mod_cast key 0 (by omega)
  · exact_mod_cast key 1 (by omega)

/-- The line through three equidistant samples has half the difference of the outer ones as slope. -/
theorem linear_fit_three {pf : PolyfitFn} (hpf : PolyfitSpec pf) (u v w : ℝ) :
    ∃ b, pf ((List.range 3).map fun i : ℕ => (i : ℝ)) [u, v, w] 1 = [(w - u) / 2, b] := by
  set xs := (List.range 3).map fun i : ℕ => (i : ℝ) with hxs
  have hxe : xs = [0, 1, 2] := by simp [hxs, List.range_succ]
  have hne : xs ≠ [] := by rw [hxe]; simp
  refine ⟨(5 * u + 2 * v - w) / 6, ?_⟩
  have hu := hpf.unique (xs := xs) (ys := [u, v, w]) (deg := 1) (by simp [hxe]) hne
    (q := [(w - u) / 2, (5 * u + 2 * v - w) / 6]) rfl (by
    intro r hr
    obtain ⟨p, q, rfl⟩ := List.length_eq_two.1 hr
    rw [hxe]
    simp only [fitError, List.zip_cons_cons, List.zip_nil_right, List.map_cons, List.map_nil, List.sum_cons, List.sum_nil, polyval_pair]
    nlinarith [sq_nonneg ((p - (w - u) / 2) * 0 + (q - (5 * u + 2 * v - w) / 6)), sq_nonneg ((p - (w - u) / 2) * 1 + (q - (5 * u + 2 * v - w) / 6)),
      sq_nonneg ((p - (w - u) / 2) * 2 + (q - (5 * u + 2 * v - w) / 6))])
  refine linear_coefs_eq (hpf.length _ _ _ (by simp [hxe]) hne) rfl ?_ ?_
  · exact hu 0 (by simp [hxe])
  · exact hu 1 (by simp [hxe])

theorem padEdge_length {l : List ℝ} (h : l ≠ []) (r : ℕ) : (padEdge l r).length = l.length + 2 * r := by
  cases l with
  | nil => exact absurd rfl h
  | cons x t => simp [padEdge]; omega

/-- Edge padding repeats the end samples. -/
theorem padEdge_getElem? {l : List ℝ} (h : l ≠ []) (r k : ℕ) (hk : k < l.length + 2 * r) :
    (padEdge l r)[k]? = some (l.getD (min (k - r) (l.length - 1)) 0) := by
  cases l with
  | nil => exact absurd rfl h
  | cons x t =>
    simp only [padEdge]
    simp only [List.length_cons] at hk
    rcases Nat.lt_or_ge k r with h1 | h1
    · rw [List.append_assoc, List.getElem?_append_left (by simpa using h1), List.getElem?_replicate, if_pos h1]
      have : min (k - r) ((x :: t).length - 1) = 0 := by omega
      rw [this]; simp
    · rcases Nat.lt_or_ge k (r + (x :: t).length) with h2 | h2
      · rw [List.getElem?_append_left (by simp at h2 ⊢; omega), List.getElem?_append_right (by simpa using h1)]
        simp only [List.length_replicate]
        have : min (k - r) ((x :: t).length - 1) = k - r := by simp at h2 ⊢; omega
        rw [this, List.getD_eq_getElem?_getD, List.getElem?_eq_getElem (by omega), Option.getD_some]
      · rw [List.getElem?_append_right (by simp at h2 ⊢; omega), List.getElem?_replicate, if_pos (by simp at h2 ⊢; omega)]
        have : min (k - r) ((x :: t).length - 1) = (x :: t).length - 1 := by simp at h2 ⊢; omega
        rw [this, List.getD_eq_getElem?_getD, List.getElem?_eq_getElem (by simp), Option.getD_some, List.getLast_eq_getElem]

/-- The window of edge-padded data around sample `i`. -/
theorem window_eq {l : List ℝ} (h : l ≠ []) {r i : ℕ} (hi : i < l.length) :
    npSlice (padEdge l r) i (i + (2 * r + 1)) =
      (List.range (2 * r + 1)).map fun k : ℕ => l.getD (min (i + k - r) (l.length - 1)) 0 := by
  apply List.ext_getElem?
  intro k
  unfold npSlice
  rw [List.getElem?_drop, List.getElem?_take, List.getElem?_map]
  by_cases hk : k < 2 * r + 1
  · rw [if_pos (by omega), padEdge_getElem? h r _ (by omega), List.getElem?_range hk]
    rfl
  · rw [if_neg (by omega), List.getElem?_eq_none (by simpa using hk)]
    rfl

end Discorpy
