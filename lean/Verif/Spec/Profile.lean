import Verif.Py.Num
import Mathlib.Data.List.Perm.Basic

/-!
# Specification of features of a 1D profile
-/

namespace Discorpy.Spec

/-- `m` is the mean of the `r` largest entries of `w`. -/
def TopMean (w : List ℝ) (r : ℕ) (m : ℝ) : Prop :=
  ∃ rest top : List ℝ, w.Perm (rest ++ top) ∧ top.length = r ∧ (∀ a ∈ rest, ∀ b ∈ top, a ≤ b) ∧ m = top.sum / r

/-- The values of `f` at the `2r + 1` indices around `i`. -/
def around (f : ℕ → ℝ) (r i : ℕ) : List ℝ := (List.range (2 * r + 1)).map fun k => f (i - r + k)

/-- Relative distance of `v` from the level `m`; `0` for a zero level. -/
noncomputable def contrast (v m : ℝ) : ℝ := if m = 0 then 0 else |v - m| / |m|

/-- `i` is a local minimum of `f` over a neighbourhood of radius `r`, and stands out from the `r` largest neighbours by more than
`s`. -/
def Minimum (f : ℕ → ℝ) (r : ℕ) (s : ℝ) (i : ℕ) : Prop :=
  (∀ j, i ≤ j + r → j ≤ i + r → f i ≤ f j) ∧ ∃ m, TopMean (around f r i) r m ∧ s < contrast (f i) m

end Discorpy.Spec
