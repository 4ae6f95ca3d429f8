import Verif.Spec.RadialModel
import Verif.Spec.Geometry

/-! # Specification: a model that straightens the lines of dots -/

namespace Discorpy.Spec

open Discorpy

/-- The model `k` moves the dots of each line to within `η` of a straight line `across = a·along + b`. The dots themselves are at most `R` away
from the parallel of this line through the centre `c`, and on it if the undistorted intercept `u` of the line is 0. -/
def Straightens (along across : Pt → ℝ) (c : Pt) (k : List ℝ) (R η : ℝ) (us : List ℝ) (lines : List (List Pt)) : Prop :=
  ∀ (i : ℕ) (u : ℝ) (line : List Pt), us[i]? = some u → lines[i]? = some line → ∃ a b : ℝ, ∀ p ∈ line,
    |a * along (radialMap c k p) + b - across (radialMap c k p)| ≤ η ∧
    |across p - across c - a * (along p - along c)| ≤ R ∧ (u = 0 → across p - across c = a * (along p - along c))

end Discorpy.Spec
