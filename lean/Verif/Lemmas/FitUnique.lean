import Verif.Lemmas.Search
import Mathlib.Tactic.LinearCombination

/-! # Helper lemmas: least-squares polynomials are unique -/

namespace Discorpy

theorem polyval_mid {p q : List ℝ} (h : p.length = q.length) (x : ℝ) :
    polyval (List.zipWith (fun a b => (a + b) / 2) p q) x = (polyval p x + polyval q x) / 2 := by
  induction p generalizing q with
  | nil =>
    cases q with
    | nil => simp
    | cons => simp at h
  | cons a p ih =>
    cases q with
    | nil => simp at h
    | cons b q =>
      have h' : p.length = q.length := by simpa using h
      rw [List.zipWith_cons_cons, polyval_cons, polyval_cons, polyval_cons, ih h', List.length_zipWith, h', min_self]
      ring

/-- Two polynomials that both minimise the sum of squares agree on the abscissae. -/
theorem PolyfitSpec.unique {pf : PolyfitFn} (hpf : PolyfitSpec pf) {xs ys : List ℝ} {deg : ℕ}
    (hl : xs.length = ys.length) (hne : xs ≠ []) {q : List ℝ} (hq : q.length = deg + 1)
    (hmin : ∀ r : List ℝ, r.length = deg + 1 → fitError xs ys q ≤ fitError xs ys r) :
    ∀ x ∈ xs, polyval (pf xs ys deg) x = polyval q x := by
  have hp := hpf.length xs ys deg hl hne
  set p := pf xs ys deg with hpd
  have hpm : ∀ r : List ℝ, r.length = deg + 1 → fitError xs ys p ≤ fitError xs ys r := fun r hr => hpf.minimal xs ys deg hl hne r hr
  have hlen : p.length = q.length := by rw [hp, hq]
  set m := List.zipWith (fun a b => (a + b) / 2) p q with hm
  have hml : m.length = deg + 1 := by rw [hm, List.length_zipWith, hlen, min_self, hq]
  have e1 : fitError xs ys m = (fitError xs ys p + fitError xs ys q) / 2 -
      ((xs.zip ys).map fun r => (polyval p r.1 - polyval q r.1) ^ 2).sum / 4 := by
    unfold fitError
    generalize xs.zip ys = z
    induction z with
    | nil => simp
    | cons r z ih =>
      simp only [List.map_cons, List.sum_cons]
      rw [ih, hm, polyval_mid hlen]
      ring
  have h1 := hpm m hml
  have h2 := hmin m hml
  have h3 := hpm q hq
  have h4 := hmin p hp
  have hz : ((xs.zip ys).map fun r => (polyval p r.1 - polyval q r.1) ^ 2).sum ≤ 0 := by linarith
  have := sum_sq_eq_zero hz
  intro x hx
  obtain ⟨i, hi, rfl⟩ := List.getElem_of_mem hx
  have hmem : (xs[i], ys[i]'(hl ▸ hi)) ∈ xs.zip ys := by
    rw [← List.getElem_zip (h := by simp; omega)]
    exact List.getElem_mem _
  have := this _ hmem
  simp only at this
  linarith

/-- The abscissae `0, …, n - 1` as floats. -/
theorem natCast_mem_range {n i : ℕ} (h : i < n) : (i : ℝ) ∈ (List.range n).map fun i : ℕ => (i : ℝ) :=
  List.mem_map.2 ⟨i, List.mem_range.2 h, rfl⟩

theorem linear_coefs_eq {p q : List ℝ} (hp : p.length = 2) (hq : q.length = 2) (h0 : polyval p 0 = polyval q 0)
    (h1 : polyval p 1 = polyval q 1) : p = q := by
  obtain ⟨a, b, rfl⟩ := List.length_eq_two.1 hp
  obtain ⟨c, d, rfl⟩ := List.length_eq_two.1 hq
  simp [polyval] at h0 h1
  simp only [List.cons.injEq, and_true]
  constructor <;> linarith

theorem quadratic_coefs_eq {p q : List ℝ} (hp : p.length = 3) (hq : q.length = 3) (h0 : polyval p 0 = polyval q 0)
    (h1 : polyval p 1 = polyval q 1) (h2 : polyval p 2 = polyval q 2) : p = q := by
  obtain ⟨a, b, c, rfl⟩ := List.length_eq_three.1 hp
  obtain ⟨d, e, f, rfl⟩ := List.length_eq_three.1 hq
  simp [polyval] at h0 h1 h2
  simp only [List.cons.injEq, and_true]
  refine ⟨?_, ?_, ?_⟩ <;> linarith

end Discorpy
