import Verif.Py.Fit
import Mathlib.Analysis.InnerProductSpace.PiL2
import Mathlib.Topology.MetricSpace.HausdorffDistance
import Mathlib.Topology.Algebra.Module.FiniteDimension

/-!
# The contracts of `argsort`, `lstsq` and `polyfit` are satisfiable; consequences of the contracts
-/

namespace Discorpy

open Classical in
/-- A stable argsort. -/
noncomputable def refArgsort (l : List ℝ) : List ℕ :=
  (List.range l.length).mergeSort fun i j => decide (l.getD i 0 ≤ l.getD j 0)

theorem refArgsort_spec : ArgsortSpec refArgsort where
  perm l := List.mergeSort_perm _ _
  sorted l := by
    have h := List.pairwise_mergeSort (le := fun i j => decide (l.getD i 0 ≤ l.getD j 0))
      (fun a b c hab hbc => by simp only [decide_eq_true_eq] at *; exact le_trans hab hbc)
      (fun a b => by simp only [Bool.or_eq_true, decide_eq_true_eq]; exact le_total _ _)
      (List.range l.length)
    rw [List.pairwise_map]
    exact h.imp (by intro a b hab; simpa using hab)

theorem systemError_nonneg (A : List (List ℝ)) (b v : List ℝ) : 0 ≤ systemError A b v := by
  unfold systemError
  apply List.sum_nonneg
  simp only [List.mem_map]
  rintro _ ⟨q, _, rfl⟩
  positivity

theorem sum_sq_eq_zero {α : Type*} {l : List α} {f : α → ℝ} (h : (l.map fun q => f q ^ 2).sum ≤ 0) :
    ∀ q ∈ l, f q = 0 := by
  induction l with
  | nil => simp
  | cons x xs ih =>
    simp only [List.map_cons, List.sum_cons] at h
    have hn : 0 ≤ (xs.map fun q => f q ^ 2).sum := by
      apply List.sum_nonneg
      simp only [List.mem_map]
      rintro _ ⟨q, _, rfl⟩
      positivity
    have h1 : f x ^ 2 = 0 := le_antisymm (by linarith) (by positivity)
    intro q hq
    rcases List.mem_cons.1 hq with rfl | hq
    · simpa using h1
    · exact ih (by nlinarith [sq_nonneg (f x)]) q hq

/-- A least-squares solution of a consistent system solves every equation. -/
theorem LstsqSpec.solves {lstsq : List (List ℝ) → List ℝ → List ℝ} (h : LstsqSpec lstsq)
    {A : List (List ℝ)} {b v : List ℝ} {n : ℕ} (hA : A ≠ []) (hl : A.length = b.length)
    (hr : ∀ r ∈ A, r.length = n) (hv : v.length = n) (hsol : ∀ q ∈ A.zip b, rowDot q.1 v = q.2) :
    ∀ q ∈ A.zip b, rowDot q.1 (lstsq A b) = q.2 := by
  have h0 : systemError A b v = 0 := by
    unfold systemError
    rw [List.sum_eq_zero]
    simp only [List.mem_map]
    rintro _ ⟨q, hq, rfl⟩
    rw [hsol q hq]; ring
  have h1 := h.minimal A b n hA hl hr v hv
  rw [h0] at h1
  intro q hq
  have := sum_sq_eq_zero (f := fun q : List ℝ × ℝ => rowDot q.1 (lstsq A b) - q.2) h1 q hq
  linarith

/-- `rowDot` on vectors of the same length as a sum over `Fin n`. -/
theorem rowDot_ofFn {n : ℕ} (r : List ℝ) (hr : r.length = n) (v : Fin n → ℝ) :
    rowDot r (List.ofFn v) = ∑ i : Fin n, r.getD i 0 * v i := by
  subst hr
  unfold rowDot
  rw [← List.sum_ofFn]
  congr 1
  apply List.ext_getElem
  · simp
  · intro i h1 h2
    simp at h1 ⊢

/-- Least-squares minimisers exist. -/
theorem exists_lsq (A : List (List ℝ)) (b : List ℝ) (n : ℕ) (hl : A.length = b.length)
    (hr : ∀ r ∈ A, r.length = n) :
    ∃ v : List ℝ, v.length = n ∧ ∀ w : List ℝ, w.length = n → systemError A b v ≤ systemError A b w := by
  let f : (Fin n → ℝ) →ₗ[ℝ] EuclideanSpace ℝ (Fin A.length) :=
    { toFun := fun v => WithLp.toLp 2 fun i => ∑ j : Fin n, (A.getD i []).getD j 0 * v j
      map_add' := by
        intro x y
        ext i
        simp [mul_add, Finset.sum_add_distrib]
      map_smul' := by
        intro c x
        ext i
        simp [Finset.mul_sum, mul_left_comm] }
  let y : EuclideanSpace ℝ (Fin A.length) := WithLp.toLp 2 fun i => b.getD i 0
  have hclosed : IsClosed (LinearMap.range f : Set (EuclideanSpace ℝ (Fin A.length))) :=
    Submodule.closed_of_finiteDimensional _
  obtain ⟨z, ⟨v, rfl⟩, hz⟩ := hclosed.exists_infDist_eq_dist ⟨f 0, ⟨0, rfl⟩⟩ y
  have herr : ∀ u : Fin n → ℝ, systemError A b (List.ofFn u) = dist y (f u) ^ 2 := by
    intro u
    rw [EuclideanSpace.dist_eq, Real.sq_sqrt (Finset.sum_nonneg fun i _ => sq_nonneg _)]
    unfold systemError
    rw [← List.sum_ofFn]
    congr 1
    apply List.ext_getElem
    · simp [hl]
    · intro i h1 h2
      have hi : i < A.length := by simpa using h2
      have hib : i < b.length := by omega
      simp only [List.getElem_map, List.getElem_zip, List.getElem_ofFn]
      rw [rowDot_ofFn _ (hr _ (List.getElem_mem hi))]
      simp only [f, y, LinearMap.coe_mk, AddHom.coe_mk, Real.dist_eq, sq_abs]
      simp only [List.getD_eq_getElem?_getD, List.getElem?_eq_getElem hi, List.getElem?_eq_getElem hib,
        Option.getD_some]
      ring
  refine ⟨List.ofFn v, by simp, ?_⟩
  intro w hw
  obtain ⟨u, rfl⟩ : ∃ u : Fin n → ℝ, w = List.ofFn u := by
    subst hw
    exact ⟨fun i => w[i], by simp⟩
  rw [herr, herr]
  have : dist y (f v) ≤ dist y (f u) := by
    rw [← hz]; exact Metric.infDist_le_dist_of_mem ⟨u, rfl⟩
  exact pow_le_pow_left₀ dist_nonneg this 2

open Classical in
/-- A function meeting the `lstsq` contract. -/
noncomputable def refLstsq (A : List (List ℝ)) (b : List ℝ) : List ℝ :=
  if h : ∃ n, A.length = b.length ∧ ∀ r ∈ A, r.length = n then
    (exists_lsq A b h.choose h.choose_spec.1 h.choose_spec.2).choose
  else []

theorem refLstsq_spec : LstsqSpec refLstsq := by
  have key : ∀ A b n, A ≠ [] → A.length = b.length → (∀ r ∈ A, r.length = n) →
      (refLstsq A b).length = n ∧
      ∀ v : List ℝ, v.length = n → systemError A b (refLstsq A b) ≤ systemError A b v := by
    intro A b n hA hl hr
    have h : ∃ n, A.length = b.length ∧ ∀ r ∈ A, r.length = n := ⟨n, hl, hr⟩
    have hn : h.choose = n := by
      obtain ⟨r, hrA⟩ := List.exists_mem_of_ne_nil A hA
      rw [← h.choose_spec.2 r hrA, hr r hrA]
    obtain ⟨h1, h2⟩ := (exists_lsq A b h.choose h.choose_spec.1 h.choose_spec.2).choose_spec
    unfold refLstsq
    rw [dif_pos h]
    exact ⟨h1.trans hn, fun v hv => h2 v (hv.trans hn.symm)⟩
  exact ⟨fun A b n hA hl hr => (key A b n hA hl hr).1, fun A b n hA hl hr => (key A b n hA hl hr).2⟩

/-- Descending powers `x^(n-1), …, x, 1`. -/
noncomputable def descPowers (x : ℝ) : ℕ → List ℝ
  | 0 => []
  | n + 1 => x ^ n :: descPowers x n

theorem descPowers_length (x : ℝ) (n : ℕ) : (descPowers x n).length = n := by
  induction n with
  | zero => rfl
  | succ n ih => simp [descPowers, ih]

theorem polyval_foldl (p : List ℝ) (x acc : ℝ) :
    p.foldl (fun acc c => acc * x + c) acc = acc * x ^ p.length + polyval p x := by
  induction p generalizing acc with
  | nil => simp [polyval]
  | cons c p ih =>
    unfold polyval
    simp only [List.foldl_cons, List.length_cons]
    rw [ih, ih (0 * x + c)]
    ring

theorem polyval_cons (c : ℝ) (p : List ℝ) (x : ℝ) : polyval (c :: p) x = c * x ^ p.length + polyval p x := by
  conv_lhs => unfold polyval
  simp only [List.foldl_cons]
  rw [polyval_foldl]; ring

@[simp] theorem polyval_nil (x : ℝ) : polyval [] x = 0 := rfl

theorem polyval_eq_rowDot (p : List ℝ) (x : ℝ) : polyval p x = rowDot (descPowers x p.length) p := by
  induction p with
  | nil => simp [rowDot, descPowers]
  | cons c p ih =>
    rw [polyval_cons, ih]
    simp [rowDot, descPowers, mul_comm]

theorem fitError_eq_systemError (xs ys p : List ℝ) :
    fitError xs ys p = systemError (xs.map fun x => descPowers x p.length) ys p := by
  unfold fitError systemError
  rw [List.zip_map_left, List.map_map]
  congr 1
  apply List.map_congr_left
  intro q _
  simp [polyval_eq_rowDot]

/-- A function meeting the `polyfit` contract. -/
noncomputable def refPolyfit (xs ys : List ℝ) (deg : ℕ) : List ℝ :=
  refLstsq (xs.map fun x => descPowers x (deg + 1)) ys

theorem refPolyfit_spec : PolyfitSpec refPolyfit where
  length xs ys deg hl hne := by
    apply refLstsq_spec.length
    · simpa using hne
    · simpa using hl
    · simp only [List.mem_map]
      rintro _ ⟨x, _, rfl⟩
      exact descPowers_length _ _
  minimal xs ys deg hl hne q hq := by
    have hA : (xs.map fun x => descPowers x (deg + 1)) ≠ [] := by simpa using hne
    have hl' : (xs.map fun x => descPowers x (deg + 1)).length = ys.length := by simpa using hl
    have hr : ∀ r ∈ xs.map fun x => descPowers x (deg + 1), r.length = deg + 1 := by
      simp only [List.mem_map]
      rintro _ ⟨x, _, rfl⟩
      exact descPowers_length _ _
    have h1 := refLstsq_spec.length _ _ _ hA hl' hr
    have h2 := refLstsq_spec.minimal _ _ _ hA hl' hr q hq
    rw [fitError_eq_systemError, fitError_eq_systemError, hq]
    unfold refPolyfit
    rw [h1]
    exact h2

/-- If the data lie exactly on a polynomial of the fitted degree, the fit passes through all data points. -/
theorem PolyfitSpec.exact {pf : List ℝ → List ℝ → ℕ → List ℝ} (h : PolyfitSpec pf) {xs ys : List ℝ} {deg : ℕ}
    (hl : xs.length = ys.length) (hne : xs ≠ []) {q : List ℝ} (hq : q.length = deg + 1)
    (hex : ∀ r ∈ xs.zip ys, polyval q r.1 = r.2) : ∀ r ∈ xs.zip ys, polyval (pf xs ys deg) r.1 = r.2 := by
  have h0 : fitError xs ys q = 0 := by
    unfold fitError
    rw [List.sum_eq_zero]
    simp only [List.mem_map]
    rintro _ ⟨r, hr, rfl⟩
    rw [hex r hr]; ring
  have h1 := h.minimal xs ys deg hl hne q hq
  rw [h0] at h1
  intro r hr
  have := sum_sq_eq_zero (f := fun r : ℝ × ℝ => polyval (pf xs ys deg) r.1 - r.2) h1 r hr
  linarith

/-- `fancyIndex` with an argsort is a permutation sorted by the key. -/
theorem fancyIndex_range {α : Type*} (l : List α) : fancyIndex l (List.range l.length) = l := by
  unfold fancyIndex
  induction l using List.reverseRecOn with
  | nil => rfl
  | append_singleton xs x ih =>
    rw [List.length_append, List.length_singleton, List.range_succ, List.filterMap_append]
    have : (List.range xs.length).filterMap (fun i => (xs ++ [x])[i]?) =
        (List.range xs.length).filterMap (fun i => xs[i]?) := by
      apply List.filterMap_congr
      intro i hi
      rw [List.getElem?_append_left (by simpa using hi)]
    rw [this, ih]
    simp

theorem ArgsortSpec.fancy_perm {argsort : List ℝ → List ℕ} (h : ArgsortSpec argsort) {α : Type*} (l : List α)
    (key : α → ℝ) : (fancyIndex l (argsort (l.map key))).Perm l := by
  have := h.perm (l.map key)
  rw [List.length_map] at this
  have h2 : (fancyIndex l (argsort (l.map key))).Perm (fancyIndex l (List.range l.length)) := this.filterMap _
  rwa [fancyIndex_range] at h2

theorem ArgsortSpec.fancy_sorted {argsort : List ℝ → List ℕ} (h : ArgsortSpec argsort) {α : Type*} (l : List α)
    (key : α → ℝ) : (fancyIndex l (argsort (l.map key))).Pairwise fun a b => key a ≤ key b := by
  have hs := h.sorted (l.map key)
  have hp := h.perm (l.map key)
  rw [List.pairwise_map] at hs
  unfold fancyIndex
  rw [List.pairwise_filterMap]
  refine hs.imp ?_
  intro i j hij a ha b hb
  rw [List.getD_eq_getElem?_getD, List.getD_eq_getElem?_getD, List.getElem?_map, List.getElem?_map, ha, hb] at hij
  simpa using hij

end Discorpy
