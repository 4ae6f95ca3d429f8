import Verif.Spec.Lines

/-! # Specifications about grouping dots into lines -/

namespace Discorpy.Spec

open Discorpy

/-- Two dots less than `miss·dist` apart in `x` whose connection deviates by less than `ratio·dist` from the direction of
the given slope (distance of `q` to the line with this slope through `p`). -/
def OnLine (slope dist ratio miss : ℝ) (p q : Pt) : Prop :=
  |q.x - p.x| < miss * dist ∧ |slope * (q.x - p.x) - (q.y - p.y)| / √(1 + slope ^ 2) < ratio * dist

/-- Mean ordinate of a line of dots. -/
noncomputable def meanY (line : List Pt) : ℝ := (line.map Pt.y).sum / line.length

/-- `n` is the largest number of dots of a line. -/
def IsLongest (lines : List (List Pt)) (n : ℕ) : Prop := (∃ l ∈ lines, l.length = n) ∧ ∀ l ∈ lines, l.length ≤ n

/-- All dots of all lines with swapped coordinates. -/
def swapLines (lines : List (List Pt)) : List (List Pt) := lines.map fun l => l.map swapPt

end Discorpy.Spec
