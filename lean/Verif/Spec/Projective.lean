import Verif.Spec.Lines
import Mathlib.LinearAlgebra.Matrix.Notation
import Mathlib.LinearAlgebra.Matrix.Defs

/-! # Specification of projective maps, in homogeneous coordinates -/

namespace Discorpy.Spec

open Discorpy Matrix

/-- Homogeneous coordinates of a dot. -/
def homog (p : Pt) : Fin 3 → ℝ := ![p.x, p.y, 1]

/-- The dot `q` is the image of the dot `p` under the projective map of the matrix `H`. -/
def IsImage (H : Matrix (Fin 3) (Fin 3) ℝ) (p q : Pt) : Prop :=
  ∃ w : ℝ, w ≠ 0 ∧ H *ᵥ homog p = w • homog q

/-- The matrix with eight coefficients given row by row and `1` as last entry. -/
def coefMatrix (c : Fin 8 → ℝ) : Matrix (Fin 3) (Fin 3) ℝ :=
  !![c 0, c 1, c 2; c 3, c 4, c 5; c 6, c 7, 1]

/-- The eight leading entries of a matrix after division by the last entry. -/
noncomputable def normCoefs (H : Matrix (Fin 3) (Fin 3) ℝ) : Fin 8 → ℝ :=
  ![H 0 0 / H 2 2, H 0 1 / H 2 2, H 0 2 / H 2 2, H 1 0 / H 2 2, H 1 1 / H 2 2, H 1 2 / H 2 2, H 2 0 / H 2 2, H 2 1 / H 2 2]

/-- The point `p` is not sent to infinity by `H`. -/
def FiniteAt (H : Matrix (Fin 3) (Fin 3) ℝ) (p : Pt) : Prop := (H *ᵥ homog p) 2 ≠ 0

end Discorpy.Spec
