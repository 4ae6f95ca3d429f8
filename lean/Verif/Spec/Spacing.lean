import Verif.Spec.Vanish
import Verif.Spec.Grid
import Verif.Model.Perspective

/-! # Specification of line spacings -/

namespace Discorpy.Spec

open Discorpy

/-- The distances of neighbours. -/
noncomputable def gaps (l : List ℝ) : List ℝ := (List.range (l.length - 1)).map fun i : ℕ => |l.getD (i + 1) 0 - l.getD i 0|

/-- `d` is the line distance of the intercepts `l` by the scale option. -/
def IsSpacing (l : List ℝ) (d : ℝ) : ScaleOpt → Prop
  | .max => d ∈ gaps l ∧ ∀ g ∈ gaps l, g ≤ d
  | .min => d ∈ gaps l ∧ ∀ g ∈ gaps l, d ≤ g
  | .median => IsMedian id (gaps l) d
  | .mean => d * (gaps l).length = (gaps l).sum
  | .float s => ∃ m, m * (gaps l).length = (gaps l).sum ∧ d = s * m

/-- The elements from `n` places before to `n` places after `pos`. -/
def central {α : Type} (l : List α) (pos n : ℕ) : List α := (l.take (pos + n + 1)).drop (pos - n)

/-- The squared deviations of the intercepts from equidistant ones that agree at `pos`. -/
noncomputable def spacingError (l : List ℝ) (pos : ℕ) (d : ℝ) : ℝ :=
  ((List.range l.length).map fun i : ℕ => (l.getD pos 0 + ((i : ℝ) - pos) * d - l.getD i 0) ^ 2).sum

/-- The distances used for the two directions, from the separate ones: with `equal_dist` the larger, the smaller or the
mean of both. -/
noncomputable def commonSpacing (equalDist : Bool) (eh ev : ℝ) : ScaleOpt → ℝ × ℝ
  | .max => if equalDist then (max eh ev, max eh ev) else (eh, ev)
  | .min => if equalDist then (min eh ev, min eh ev) else (eh, ev)
  | _ => if equalDist then ((eh + ev) / 2, (eh + ev) / 2) else (eh, ev)

/-- `a0` is a common slope of two families: with the slopes of the horizontal lines, and the negative slopes of the vertical
lines, fitted as linear functions of the intercept, the value where both functions agree, or, if these are almost parallel,
the mean of their values at intercept `0`. -/
def IsCommonSlope (hor ver : List Lin) (a0 : ℝ) : Prop :=
  ∃ k m k' m', IsLsqHorLine (hor.map fun q => ⟨q.a, q.b⟩) k m ∧ IsLsqHorLine (ver.map fun q => ⟨-q.a, q.b⟩) k' m' ∧
    (0.0001 ≤ |k - k'| → ∃ t, a0 = k * t + m ∧ a0 = k' * t + m') ∧ (|k - k'| < 0.0001 → a0 = (m + m') / 2)

/-- Line `i` is straight with slope `s` and intercept `c0 + i·δ`, and has two different positions. -/
def IsParallelFamily (along across : Pt → ℝ) (lines : List (List Pt)) (s c0 δ : ℝ) : Prop :=
  ∀ (i : ℕ) (line : List Pt), lines[i]? = some line →
    (∀ p ∈ line, across p = s * along p + (c0 + i * δ)) ∧ ∃ p ∈ line, ∃ q ∈ line, along p ≠ along q

end Discorpy.Spec
