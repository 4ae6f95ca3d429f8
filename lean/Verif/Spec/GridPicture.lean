import Verif.Spec.BentGrid
import Verif.Spec.Dots

/-! # Specifications about the image of a grid of dots seen through a lens -/

namespace Discorpy.Spec

open Discorpy

/-- Every pixel of the set is within `ρ` of the point. -/
def DotWithin (ρ : ℝ) (D : Set (ℕ × ℕ)) (P : Pt) : Prop := ∀ q ∈ D, ptDist ⟨q.1, q.2⟩ P ≤ ρ

/-- The image shows the grid through the lens `T`: each cell is shown by exactly one dot within `ρ` of the place to which the lens moves
its node, and there are no other dots. -/
structure PicturesGrid (m : Mat ℤ) (ρ : ℝ) (T : Pt → Pt) (o : Pt) (s d : ℝ) (cells : List (ℤ × ℤ)) : Prop where
  shown : ∀ c ∈ cells, ∃! D, IsDot m D ∧ DotWithin ρ D (T (gridNode o s d c))
  only : ∀ D, IsDot m D → ∃ c ∈ cells, DotWithin ρ D (T (gridNode o s d c))

/-- The point is the centre of mass of the dot that shows the cell. -/
def IsShownAt (m : Mat ℤ) (ρ : ℝ) (P p : Pt) : Prop := ∃ D, IsDot m D ∧ DotWithin ρ D P ∧ IsCentre m D p

end Discorpy.Spec
