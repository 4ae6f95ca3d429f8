import Verif.Spec.Geometry

/-! # Specification: how much a radial model stretches -/

namespace Discorpy.Spec

open Discorpy

/-- Up to the radius `R` the model enlarges neither circles nor the distances between circles by more than `K`. -/
def StretchesAtMost (K R : ℝ) (g : List ℝ) : Prop :=
  (∀ r, 0 ≤ r → r ≤ R → |radial g r| ≤ K) ∧
    ∀ r s, 0 ≤ r → r ≤ R → 0 ≤ s → s ≤ R → |r * radial g r - s * radial g s| ≤ K * |r - s|

end Discorpy.Spec
