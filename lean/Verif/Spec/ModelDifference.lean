import Verif.Spec.RadialModel

/-! # Specification: difference of two models of a distortion -/

namespace Discorpy.Spec

open Discorpy

/-- Squared difference of two forward models at a dot; dots of lines through the centre do not count. -/
noncomputable def forwardDifference (c : Pt) (k k' : List ℝ) (u : ℝ) (p : Pt) : ℝ :=
  if u = 0 then 0 else (radial k (ptDist p c) - radial k' (ptDist p c)) ^ 2

/-- Squared difference of two backward models at the undistorted radius of a dot. -/
noncomputable def backwardDifference (along : Pt → ℝ) (c : Pt) (k k' : List ℝ) (q : Para) (u : ℝ) (p : Pt) : ℝ :=
  (radial k (ptDist p c / (bent q (along p - along c) / u)) - radial k' (ptDist p c / (bent q (along p - along c) / u))) ^ 2

end Discorpy.Spec
