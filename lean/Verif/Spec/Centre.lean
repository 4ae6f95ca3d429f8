import Verif.Py.Fit
import Verif.Spec.Undistorted

/-! # Specification of the search for the centre of distortion -/

namespace Discorpy.Spec

open Discorpy

/-- The fitted parabola (highest power first) of a line of dots in coordinates relative to the centre `c`. -/
noncomputable def relFit (pf : PolyfitFn) (along across : Pt → ℝ) (c : Pt) (line : List Pt) : List ℝ :=
  pf (line.map fun p => along p - along c) (line.map fun p => across p - across c) 2

/-- The position along a line where its parabola is nearest to the centre, as found by the minimiser started at `0`. -/
noncomputable def nearestAlong (pf : PolyfitFn) (minimize : (ℝ → ℝ) → ℝ → ℝ) (along across : Pt → ℝ) (c : Pt)
    (line : List Pt) : ℝ :=
  minimize (fun t => t ^ 2 + polyval (relFit pf along across c line) t ^ 2) 0

/-- How far from the centre the straight line through the nearest points of all lines passes, along the lines' normal. -/
noncomputable def missDistance (pf : PolyfitFn) (minimize : (ℝ → ℝ) → ℝ → ℝ) (along across : Pt → ℝ) (c : Pt)
    (lines : List (List Pt)) : ℝ :=
  |polyval (pf (lines.map (nearestAlong pf minimize along across c))
    (lines.map fun l => polyval (relFit pf along across c l) (nearestAlong pf minimize along across c l)) 1) 0|

/-- The metric of a candidate centre. -/
noncomputable def centreMetric (pf : PolyfitFn) (minimize : (ℝ → ℝ) → ℝ → ℝ) (hor ver : List (List Pt)) (c : Pt) : ℝ :=
  missDistance pf minimize Pt.x Pt.y c hor + missDistance pf minimize Pt.y Pt.x c ver

/-- `w` consists of at most eleven consecutive lines, among them one with the smallest intercept relative to `c`. -/
def IsCentralWindow (pf : PolyfitFn) (along across : Pt → ℝ) (c : Pt) (lines w : List (List Pt)) : Prop :=
  w <:+: lines ∧ w.length ≤ 11 ∧ ∃ l ∈ w, ∀ l' ∈ lines,
    |polyval (relFit pf along across c l) 0| ≤ |polyval (relFit pf along across c l') 0|

/-- `c` is the best of the centres `c0 + (sx, sy)`, `sx, sy ∈ S`. -/
def IsBestShift (S : Set ℝ) (f : Pt → ℝ) (c0 c : Pt) : Prop :=
  (∃ sx ∈ S, ∃ sy ∈ S, c = ⟨c0.y + sy, c0.x + sx⟩) ∧ ∀ sx ∈ S, ∀ sy ∈ S, f c ≤ f ⟨c0.y + sy, c0.x + sx⟩

/-- Shifts `-d, -d + 2, …` below `d + 2`. -/
def coarseShifts (d : ℝ) : Set ℝ := {s | ∃ k : ℕ, s = -d + 2 * k ∧ s < d + 2}

/-- Shifts `-2, -1.5, …, 2`. -/
def fineShifts : Set ℝ := {s | ∃ k : ℕ, s = -2 + k / 2 ∧ s ≤ 2}

end Discorpy.Spec
