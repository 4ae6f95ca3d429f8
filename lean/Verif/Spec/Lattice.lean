import Verif.Spec.Grid

/-! # Specification of the lines of a regular grid -/

namespace Discorpy.Spec

open Discorpy

/-- The rows of the grid of `K × L` points with distance `d` and first point `(y0, x0)`, from top to bottom and left to right. -/
noncomputable def latticeRows (y0 x0 d : ℝ) (K L : ℕ) : List (List Pt) :=
  (List.range K).map fun k : ℕ => (List.range L).map fun l : ℕ => ⟨y0 + k * d, x0 + l * d⟩

/-- The columns of the same grid, from left to right and top to bottom. -/
noncomputable def latticeCols (y0 x0 d : ℝ) (K L : ℕ) : List (List Pt) :=
  (List.range L).map fun l : ℕ => (List.range K).map fun k : ℕ => ⟨y0 + k * d, x0 + l * d⟩

end Discorpy.Spec
