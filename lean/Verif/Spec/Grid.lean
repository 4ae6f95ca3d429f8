import Verif.Spec.Lines

/-! # Specifications about grids of points -/

namespace Discorpy.Spec

open Discorpy

/-- Entry `(i, j)` of a list of rows. -/
def entry (rows : List (List Pt)) (i j : ℕ) : Option Pt := rows[i]? >>= fun r => r[j]?

/-- `rows` is an `h × w` grid and `cols` its transpose. -/
structure IsGridPair (h w : ℕ) (rows cols : List (List Pt)) : Prop where
  nrows : rows.length = h
  ncols : cols.length = w
  rowLen : ∀ r ∈ rows, r.length = w
  colLen : ∀ c ∈ cols, c.length = h
  transpose : ∀ i j : ℕ, entry rows i j = entry cols j i

/-- Entry `(i, j)` is `o + i·w + j·u`. -/
def IsLattice (rows : List (List Pt)) (o w u : Pt) : Prop :=
  ∀ (i j : ℕ) (p : Pt), entry rows i j = some p →
    p = ⟨o.y + i * w.y + j * u.y, o.x + i * w.x + j * u.x⟩

/-- All dots moved by `(dx, dy)`. -/
def moveDots (lines : List (List Pt)) (dx dy : ℝ) : List (List Pt) :=
  lines.map fun l => l.map fun p => ⟨p.y + dy, p.x + dx⟩

/-- The dot opposite to `p` with respect to `c`. -/
def oppositePt (c p : Pt) : Pt := ⟨2 * c.y - p.y, 2 * c.x - p.x⟩

end Discorpy.Spec
