import Verif.Spec.Projective
import Verif.Spec.Grid
import Mathlib.LinearAlgebra.Matrix.Determinant.Basic

/-! # Specification of the photograph of a flat regular grid -/

namespace Discorpy.Spec

open Discorpy

/-- The point with the coordinates `(a, b)` in the grid with first point `o`, steps `w` from row to row and `u` from column to column. -/
def gridPoint (o w u : Pt) (a b : ℝ) : Pt := ⟨o.y + a * w.y + b * u.y, o.x + a * w.x + b * u.x⟩

/-- Dots seen by a camera (the invertible projective map of `M`) looking at a grid: every dot of line `i` of `hor` is the image of a point on
row `i` of the grid, every dot of line `j` of `ver` that of a point on column `j`. Each line has two dots which are not above (beside) each other, and
all crossings of the grid are at finite places. -/
structure IsGridPhoto (M : Matrix (Fin 3) (Fin 3) ℝ) (o w u : Pt) (hor ver : List (List Pt)) : Prop where
  camera : M.det ≠ 0
  steps : w.x * u.y ≠ w.y * u.x
  crossings : ∀ i < hor.length, ∀ j < ver.length, FiniteAt M (gridPoint o w u i j)
  rows : ∀ (i : ℕ) (l : List Pt), hor[i]? = some l → (∀ p ∈ l, ∃ t : ℝ, IsImage M (gridPoint o w u i t) p) ∧ ∃ p ∈ l, ∃ q ∈ l, p.x ≠ q.x
  cols : ∀ (j : ℕ) (l : List Pt), ver[j]? = some l → (∀ p ∈ l, ∃ t : ℝ, IsImage M (gridPoint o w u t j) p) ∧ ∃ p ∈ l, ∃ q ∈ l, p.y ≠ q.y

/-- The straight lines through the rows cross the left edge `x = 0` from top to bottom. -/
def RowsInOrder (hor : List (List Pt)) : Prop :=
  ∀ i l l', hor[i]? = some l → hor[i + 1]? = some l' → ∀ a b a' b', (∀ p ∈ l, onHorLine a b p) → (∀ p ∈ l', onHorLine a' b' p) → b < b'

/-- The straight lines through the columns cross the top edge `y = 0` from left to right. -/
def ColsInOrder (ver : List (List Pt)) : Prop :=
  ∀ i l l', ver[i]? = some l → ver[i + 1]? = some l' → ∀ a b a' b', (∀ p ∈ l, onVerLine a b p) → (∀ p ∈ l', onVerLine a' b' p) → b < b'

end Discorpy.Spec
