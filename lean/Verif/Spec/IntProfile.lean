import Verif.Spec.Ranking
import Verif.Spec.Prep

/-! # Specification: a profile of integers divided by a truncated background -/

namespace Discorpy.Spec

open Discorpy

/-- `out` is `l` divided by the whole part of the line `a * rank + b`; where the whole part is 0, which is where the line is between -1 and 1, the
mean magnitude of the line is taken instead. -/
structure IsFlattenedInt (l : List ℤ) (rank : ℕ → ℕ) (a b : ℝ) (out : List ℝ) : Prop where
  length : out.length = l.length
  ratio : ∀ (i : ℕ) (v z : ℤ), l[i]? = some v → IsTrunc (a * rank i + b) z → z ≠ 0 → out[i]? = some (v / z : ℝ)
  zero : ∀ i < l.length, |a * rank i + b| < 1 → out[i]? = some ((∑ k ∈ Finset.range l.length, |a * k + b|) / l.length)

end Discorpy.Spec
