import Verif.Model.Vanish
import Verif.Spec.Projective
import Verif.Spec.Ideal

/-! # Specification of representative lines and of perspective maps about a centre -/

namespace Discorpy.Spec

open Discorpy

open Classical in
/-- `v` is a median of `f` over the list: at least half of the values are not above it and at least half are not below. -/
def IsMedian {α : Type} (f : α → ℝ) (l : List α) (v : ℝ) : Prop :=
  l.length ≤ 2 * (l.filter fun x => decide (f x ≤ v)).length ∧ l.length ≤ 2 * (l.filter fun x => decide (v ≤ f x)).length

/-- The straight line `l` (slope, intercept) represents the parabolas of a group: mean or median of slopes and
intercepts at the centre, or the tangent at the centre of one with the largest or smallest curvature. -/
def IsRepresentative (group : List Para) (l : Lin) : RepMethod → Prop
  | .mean => l.a * group.length = (group.map Para.b).sum ∧ l.b * group.length = (group.map Para.c).sum
  | .median => IsMedian Para.b group l.a ∧ IsMedian Para.c group l.b
  | .max => ∃ q ∈ group, l = ⟨q.b, q.c⟩ ∧ ∀ r ∈ group, |r.a| ≤ |q.a|
  | .min => ∃ q ∈ group, l = ⟨q.b, q.c⟩ ∧ ∀ r ∈ group, |q.a| ≤ |r.a|

/-- Position relative to a centre. -/
def relTo (c p : Pt) : Pt := ⟨p.y - c.y, p.x - c.x⟩

/-- `q` is the image of `p` under the perspective map of the matrix `H` about the centre `c`. -/
def IsImageAbout (c : Pt) (H : Matrix (Fin 3) (Fin 3) ℝ) (p q : Pt) : Prop := IsImage H (relTo c p) (relTo c q)

end Discorpy.Spec
