import Verif.Spec.Geometry
import Verif.Spec.Grouping
import Verif.Spec.Ridge

/-!
# Specification of curves seen along parallel scan lines
-/

namespace Discorpy.Spec
open Classical

/-- The scan lines of `starts` on which the curve `k` is seen. -/
noncomputable def seenAt (starts : List ℝ) (seen : ℕ → ℝ → Prop) (k : ℕ) : List ℝ := starts.filter fun i => decide (seen k i)

/-- Two different curves seen on scan lines less than `reach` apart differ by at least `gap`, or the first one is seen in between. -/
def CurvesApart (starts : List ℝ) (K : ℕ) (curve : ℕ → ℝ → ℝ) (seen : ℕ → ℝ → Prop) (reach gap : ℝ) : Prop :=
  ∀ k < K, ∀ k' < K, k ≠ k' → ∀ i ∈ starts, ∀ i' ∈ starts, seen k i → seen k' i' → i ≤ i' → i' - i < reach →
    gap ≤ |curve k i - curve k' i'| ∨ ∃ j ∈ starts, i < j ∧ j < i' ∧ seen k j

/-- From one scan line on which a curve is seen to the next one it is less than `reach`, and the curve changes by at most `step`. -/
def CurvesContinue (starts : List ℝ) (K : ℕ) (curve : ℕ → ℝ → ℝ) (seen : ℕ → ℝ → Prop) (reach step : ℝ) : Prop :=
  ∀ k < K, ∀ i ∈ starts, ∀ i' ∈ starts, seen k i → seen k i' → i < i' → (∀ j ∈ starts, seen k j → ¬ (i < j ∧ j < i')) →
    i' - i < reach ∧ |curve k i' - curve k i| ≤ step

/-- The point `p` is on the scan line `i` and is found at the place of the curve `k` to less than half a sample: at the sample nearest to the
curve, or the vertex of the parabola through it and its neighbours. A unit of `v` is `q` units of the curve, `prof i` is the brightness along
the scan line. -/
def IsPointOf (u v : Pt → ℝ) (q : ℝ) (sub : Bool) (prof : ℝ → ℝ → ℝ) (curve : ℕ → ℝ → ℝ) (k : ℕ) (i : ℝ) (p : Pt) : Prop :=
  u p = i ∧ |v p * q - curve k i| < q / 2 ∧ ∃ n : ℕ, |q * n - curve k i| < q / 2 ∧ v p = foundAt sub (fun t => prof i (q * t)) n

/-- The points `l` are, in order, one for each scan line on which the curve `k` is seen. -/
def IsFound (u v : Pt → ℝ) (q : ℝ) (sub : Bool) (prof : ℝ → ℝ → ℝ) (starts : List ℝ) (curve : ℕ → ℝ → ℝ) (seen : ℕ → ℝ → Prop) (k : ℕ)
    (l : List Pt) : Prop :=
  List.Forall₂ (IsPointOf u v q sub prof curve k) (seenAt starts seen k) l

/-- A family of `K` straight parallel lines at the places `cs k`: all scan lines of `starts` show the same profile `h`, of which the lines are
ridges that a search with the radius `r` finds in `n` samples `q` pixels apart. None is halfway between two samples. -/
structure StraightLines (prof : ℝ → ℝ → ℝ) (starts : List ℝ) (n : ℕ) (q : ℝ) (r : ℕ) (sensitive top : ℝ) (K : ℕ) (cs : ℕ → ℝ) (h : ℝ → ℝ) (φ : ℝ → ℝ → ℝ)
    (w : ℝ) : Prop where
  same : ∀ i ∈ starts, prof i = h
  ridges : Ridges ((List.range K).map cs) φ w h
  search : SearchableBy q ((List.range K).map cs) φ w sensitive top r
  tie : ∀ k < K, ∀ m : ℤ, cs k ≠ q * (m + 1 / 2)
  seen : ∀ k < K, q * ((r : ℝ) - 1 / 2) < cs k ∧ cs k < q * ((n : ℝ) - r - 3 / 2)

/-- Neighbouring lines are further apart than the tolerance of the grouping, `tol` samples, which is at least one sample. -/
def LinesApart (q tol : ℝ) (K : ℕ) (cs : ℕ → ℝ) : Prop := 1 ≤ tol ∧ ∀ k k', k < k' → k' < K → cs k + q * (tol + 1) ≤ cs k'

end Discorpy.Spec
