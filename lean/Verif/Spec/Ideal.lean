import Verif.Spec.Undistorted

/-! # Specification of bent line patterns: parabolas whose bending grows with the distance to the centre -/

namespace Discorpy.Spec

open Discorpy

/-- A line of dots that passes at the signed distance `u` from the centre `c` and is bent by `k·u`: the dots have
`across = across c + u·(1 + k·t²)` with `t = along - along c`, at three or more different positions. -/
structure IsBentLine (along across : Pt → ℝ) (c : Pt) (k u : ℝ) (line : List Pt) : Prop where
  on : ∀ p ∈ line, across p = across c + u * (1 + k * (along p - along c) ^ 2)
  three : ∃ p ∈ line, ∃ q ∈ line, ∃ r ∈ line, along p ≠ along q ∧ along p ≠ along r ∧ along q ≠ along r

/-- Horizontal lines at the signed distances `us` and vertical lines at the signed distances `vs` from the centre `c`,
bent in proportion to the distance (factors `kh`, `kv`). -/
structure IsBentPattern (c : Pt) (kh kv : ℝ) (us vs : List ℝ) (hor ver : List (List Pt)) : Prop where
  hor : List.Forall₂ (IsBentLine Pt.x Pt.y c kh) us hor
  ver : List.Forall₂ (IsBentLine Pt.y Pt.x c kv) vs ver

/-- At least two different values. -/
def TwoValues (l : List ℝ) : Prop := ∃ u ∈ l, ∃ v ∈ l, u ≠ v

/-- The dot `p` is on the parabola `a·t² + b·t + e`, `t` and the value being relative to `c`. -/
def onPara (along across : Pt → ℝ) (c : Pt) (a b e : ℝ) (p : Pt) : Prop :=
  across p - across c = a * (along p - along c) ^ 2 + b * (along p - along c) + e

/-- The solver found a common zero of the two equations. -/
def FoundRoot (fsolve : (ℝ × ℝ → ℝ × ℝ) → ℝ × ℝ → ℝ × ℝ) (f : ℝ × ℝ → ℝ × ℝ) : Prop := f (fsolve f (0, 0)) = (0, 0)

/-- The two equations of a horizontal parabola `(a, b, e)` and a vertical one `(a', b', e')` in the unknowns `(x, y)`. -/
noncomputable def paraEquations (a b e a' b' e' : ℝ) (t : ℝ × ℝ) : ℝ × ℝ :=
  (a * t.1 ^ 2 + b * t.1 + e - t.2, a' * t.2 ^ 2 + b' * t.2 + e' - t.1)

/-- The mean of the distances of neighbours. -/
noncomputable def meanSpacing (l : List ℝ) : ℝ :=
  ((List.range (l.length - 1)).map fun i : ℕ => |l.getD (i + 1) 0 - l.getD i 0|).sum / ((l.length - 1 : ℕ) : ℝ)

end Discorpy.Spec
