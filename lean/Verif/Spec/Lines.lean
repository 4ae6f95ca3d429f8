import Verif.Spec.Geometry

/-! # Specifications about straight lines -/

namespace Discorpy.Spec

open Discorpy

/-- The dots of the line `y = a·x + b`. -/
def onHorLine (a b : ℝ) (q : Pt) : Prop := q.y = a * q.x + b

/-- The dots of the line `x = a·y + b`. -/
def onVerLine (a b : ℝ) (q : Pt) : Prop := q.x = a * q.y + b

/-- `d` is the distance of `p` to the set of points `L`: attained by a point of `L`, and no point of `L` is closer. -/
def IsDistTo (L : Pt → Prop) (p : Pt) (d : ℝ) : Prop :=
  (∃ q, L q ∧ ptDist p q = d) ∧ ∀ q, L q → d ≤ ptDist p q

/-- `y = a·x + b` is a least-squares (vertical offsets) line of the dots. -/
def IsLsqHorLine (dots : List Pt) (a b : ℝ) : Prop :=
  ∀ a' b', (dots.map fun p => (a * p.x + b - p.y) ^ 2).sum ≤ (dots.map fun p => (a' * p.x + b' - p.y) ^ 2).sum

/-- `x = a·y + b` is a least-squares (horizontal offsets) line of the dots. -/
def IsLsqVerLine (dots : List Pt) (a b : ℝ) : Prop :=
  ∀ a' b', (dots.map fun p => (a * p.y + b - p.x) ^ 2).sum ≤ (dots.map fun p => (a' * p.y + b' - p.x) ^ 2).sum

/-- Three dots are on one straight line. -/
def Collinear3 (p q r : Pt) : Prop := (q.x - p.x) * (r.y - p.y) = (q.y - p.y) * (r.x - p.x)

/-- The dot with its coordinates exchanged. -/
def swapPt (p : Pt) : Pt := ⟨p.x, p.y⟩

/-- What `calc_residual_*` must return, as a relation: there is a least-squares line per line of dots such that the rows
are, in some order, the pairs (distance to the centre, distance to the line) of all dots, sorted by the first column. -/
def IsResidualTable (lsq : List Pt → ℝ → ℝ → Prop) (on : ℝ → ℝ → Pt → Prop) (lines : List (List Pt)) (c : Pt)
    (out : List (ℝ × ℝ)) : Prop :=
  ∃ table : List (List (Pt × ℝ × ℝ)),
    table.map (fun l => l.map Prod.fst) = lines ∧
    (∀ l ∈ table, ∃ a b, lsq (l.map Prod.fst) a b ∧
      ∀ e ∈ l, e.2.1 = ptDist e.1 c ∧ IsDistTo (on a b) e.1 e.2.2) ∧
    out.Perm (table.flatten.map Prod.snd) ∧
    out.Pairwise fun r s => r.1 ≤ s.1

end Discorpy.Spec
