import Verif.Spec.Threshold

/-! # Specification of the ranks of samples and of the background they define -/

namespace Discorpy.Spec

open Discorpy

/-- `rank` numbers the samples of `l` from 0 in the order of their values (equal values in any order). -/
structure IsRanking (l : List ℝ) (rank : ℕ → ℕ) : Prop where
  range : ∀ i < l.length, rank i < l.length
  inj : ∀ i < l.length, ∀ j < l.length, rank i = rank j → i = j
  mono : ∀ i < l.length, ∀ j < l.length, l.getD i 0 < l.getD j 0 → rank i < rank j

/-- `out` is `l` divided by the line `a * rank + b`; where the line vanishes the mean magnitude of the line is taken instead. -/
structure IsFlattened (l : List ℝ) (rank : ℕ → ℕ) (a b : ℝ) (out : List ℝ) : Prop where
  length : out.length = l.length
  ratio : ∀ i < l.length, a * rank i + b ≠ 0 → out.getD i 0 = l.getD i 0 / (a * rank i + b)
  zero : ∀ i < l.length, a * rank i + b = 0 → out.getD i 0 = (∑ k ∈ Finset.range l.length, |a * k + b|) / l.length

end Discorpy.Spec
