import Verif.Py.Num

/-!
# External numerics with a contract: `argsort`, `np.polyfit`, `np.linalg.lstsq`

The functions themselves are parameters of the model; the contracts are hypotheses of the theorems.
`Verif/Lemmas/Fit.lean` shows that functions meeting the contracts exist.
-/

namespace Discorpy

/-- Type of `np.polyfit(x, y, deg)`. -/
abbrev PolyfitFn := List ℝ → List ℝ → ℕ → List ℝ

/-- Type of `np.linalg.lstsq(A, b)[0]`. -/
abbrev LstsqFn := List (List ℝ) → List ℝ → List ℝ

/-- Contract of `np.argsort` (default, unstable `quicksort`): the result is a permutation of the indices and the
values taken in that order are non-decreasing. Nothing is said about ties. -/
structure ArgsortSpec (argsort : List ℝ → List ℕ) : Prop where
  perm : ∀ l, (argsort l).Perm (List.range l.length)
  sorted : ∀ l, ((argsort l).map fun i => l.getD i 0).Pairwise (· ≤ ·)

/-- `a[idx]` for a list of valid indices. -/
def fancyIndex {α : Type*} (l : List α) (idx : List ℕ) : List α := idx.filterMap fun i => l[i]?

/-- `np.polyval(p, x)`, highest power first (Horner, as NumPy). -/
noncomputable def polyval (p : List ℝ) (x : ℝ) : ℝ := p.foldl (fun acc c => acc * x + c) 0

/-- Sum of squared deviations of the polynomial `p` from the data. -/
noncomputable def fitError (xs ys p : List ℝ) : ℝ :=
  ((xs.zip ys).map fun q => (polyval p q.1 - q.2) ^ 2).sum

/-- Contract of `np.polyfit(x, y, deg)` for non-empty data: `deg + 1` coefficients that minimise the sum of squares. -/
structure PolyfitSpec (pf : List ℝ → List ℝ → ℕ → List ℝ) : Prop where
  length : ∀ xs ys deg, xs.length = ys.length → xs ≠ [] → (pf xs ys deg).length = deg + 1
  minimal : ∀ xs ys deg, xs.length = ys.length → xs ≠ [] → ∀ q : List ℝ, q.length = deg + 1 →
    fitError xs ys (pf xs ys deg) ≤ fitError xs ys q

/-- Dot product of a row of the design matrix with the unknowns. -/
noncomputable def rowDot (row v : List ℝ) : ℝ := (List.zipWith (· * ·) row v).sum

/-- Sum of squared residuals of the linear system `A v = b`. -/
noncomputable def systemError (A : List (List ℝ)) (b v : List ℝ) : ℝ :=
  ((A.zip b).map fun q => (rowDot q.1 v - q.2) ^ 2).sum

/-- Contract of `np.linalg.lstsq(A, b)[0]` for a non-empty `m × n` matrix: a vector of length `n` that minimises the sum
of squared residuals. -/
structure LstsqSpec (lstsq : List (List ℝ) → List ℝ → List ℝ) : Prop where
  length : ∀ A b n, A ≠ [] → A.length = b.length → (∀ r ∈ A, r.length = n) → (lstsq A b).length = n
  minimal : ∀ A b n, A ≠ [] → A.length = b.length → (∀ r ∈ A, r.length = n) →
    ∀ v : List ℝ, v.length = n → systemError A b (lstsq A b) ≤ systemError A b v

end Discorpy
