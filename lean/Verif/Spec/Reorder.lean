import Verif.Spec.Symmetry

/-! # Specification: the same dots in another order -/

namespace Discorpy.Spec

open Discorpy

/-- The same lines, the dots of each line in any order. -/
def Reordered (lines lines' : List (List Pt)) : Prop := List.Forall₂ List.Perm lines lines'

/-- Each line has dots at two different places along it. -/
def TwoPlaces (along : Pt → ℝ) (lines : List (List Pt)) : Prop := ∀ l ∈ lines, ∃ p ∈ l, ∃ q ∈ l, along p ≠ along q

/-- Each line has dots at three different places along it. -/
def ThreePlaces (along : Pt → ℝ) (lines : List (List Pt)) : Prop := ∀ l ∈ lines, ThreeAlong along l

end Discorpy.Spec
