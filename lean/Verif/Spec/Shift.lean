import Verif.Spec.Reorder
import Verif.Spec.Grid

/-! # Specification: the pattern at another place in the image -/

namespace Discorpy.Spec

open Discorpy

/-- A dot moved by `(dx, dy)`. -/
def movePt (dx dy : ℝ) (p : Pt) : Pt := ⟨p.y + dy, p.x + dx⟩

/-- `w` is the part of `m` that begins at row `t` and column `l`. -/
structure IsWindow (t l : ℕ) (m w : Mat ℝ) : Prop where
  rows : t + w.height ≤ m.height
  cols : l + w.width ≤ m.width
  get : ∀ i j, i < w.height → j < w.width → w.get i j = m.get (t + i) (l + j)

/-- The dots of each line lie on a straight line; `along` and `across` are the coordinates along and across the lines. -/
def OnStraightLines (along across : Pt → ℝ) (lines : List (List Pt)) : Prop :=
  ∀ l ∈ lines, ∃ a b : ℝ, ∀ p ∈ l, across p = a * along p + b

end Discorpy.Spec
