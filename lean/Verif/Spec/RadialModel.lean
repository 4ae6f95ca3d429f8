import Verif.Spec.Undistorted
import Verif.Spec.Interp
import Verif.Model.Proc

/-! # Specifications about the polynomial radial model fitted to curved lines -/

namespace Discorpy.Spec

open Discorpy

/-- `Σ e q u p` over the dots `p` of all lines; `q` is the parabola and `u` the undistorted intercept of the line. -/
noncomputable def sumDots (paras : List Para) (us : List ℝ) (lines : List (List Pt)) (e : Para → ℝ → Pt → ℝ) : ℝ :=
  ((List.zip (List.zip paras us) lines).map fun z => (z.2.map fun p => e z.1.1 z.1.2 p).sum).sum

/-- The ordinate of the parabola, without its tilt, at position `t` along the line: the distorted counterpart of the
undistorted intercept. -/
noncomputable def bent (q : Para) (t : ℝ) : ℝ := q.a * t ^ 2 + q.c

/-- Squared deviation of the forward model `k` at one dot: the polynomial of the distorted radius against the ratio
"undistorted / distorted"; lines whose undistorted intercept is 0 do not count. -/
noncomputable def forwardDeviation (along : Pt → ℝ) (c : Pt) (k : List ℝ) (q : Para) (u : ℝ) (p : Pt) : ℝ :=
  if u = 0 then 0 else (radial k (ptDist p c) - u / bent q (along p - along c)) ^ 2

/-- Squared deviation of the backward model `k` at one dot: the polynomial of the undistorted radius against the ratio
"distorted / undistorted". -/
noncomputable def backwardDeviation (along : Pt → ℝ) (c : Pt) (k : List ℝ) (q : Para) (u : ℝ) (p : Pt) : ℝ :=
  let f := bent q (along p - along c) / u
  (radial k (ptDist p c / f) - f) ^ 2

/-- Squared deviation of the model `g` from the inverse of the model `f` at one dot; dots with `f = 0` do not count. -/
noncomputable def inverseDeviation (c : Pt) (f g : List ℝ) (p : Pt) : ℝ :=
  if radial f (ptDist p c) = 0 then 0
  else (radial g (radial f (ptDist p c) * ptDist p c) - 1 / radial f (ptDist p c)) ^ 2

/-- `P q u p` for the dots `p` of all lines. -/
def ForDots (paras : List Para) (us : List ℝ) (lines : List (List Pt)) (P : Para → ℝ → Pt → Prop) : Prop :=
  ∀ (i : ℕ) (q : Para) (u : ℝ) (line : List Pt), paras[i]? = some q → us[i]? = some u → lines[i]? = some line →
    ∀ p ∈ line, P q u p

/-- The 40 × 40 grid of points with ordinates `y 0, …, y 39` and abscissae `x 0, …, x 39`, row by row. -/
noncomputable def grid40 (y x : ℕ → ℝ) : List Pt := (List.range 1600).map fun n => ⟨y (n / 40), x (n % 40)⟩

end Discorpy.Spec
