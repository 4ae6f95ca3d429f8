import Verif.Spec.Pattern
import Verif.Spec.InnerMask
import Verif.Spec.LineDir
import Verif.Spec.Image
import Verif.Model.Pattern

/-! # Specification of the calibration with a drawn dot pattern -/

namespace Discorpy.Spec

open Discorpy

/-- A drawn dot pattern with dots of the odd size `s` of at least 5 (`ds` limited to `[1, min(height, width) / 8]`), which is at most 0.6 of
their distance `d`, in `K` rows and `L` columns. -/
structure DrawnPattern (height width : ℕ) (d ds s : ℤ) (margin : MarginArg) (mv mh : ℤ) (K L : ℕ) : Prop where
  margin : margin = .int mv ∧ mh = mv ∨ ∃ rest, margin = .seq (mv :: mh :: rest)
  ver : 0 ≤ mv
  hor : 0 ≤ mh
  size : s = min (max ds 1) ((min height width / 8 : ℕ) : ℤ)
  large : 5 ≤ s
  odd : s % 2 = 1
  apart : 5 * s ≤ 3 * d
  rows : ∀ k : ℕ, k < K ↔ mv + (s / 2 + 1) + k * d < height - (mv + (s / 2 + 1))
  cols : ∀ l : ℕ, l < L ↔ mh + (s / 2 + 1) + l * d < width - (mh + (s / 2 + 1))

/-- The dots at `p0 + k·d` and `p0 + (k + 1)·d` with the radius `s // 2` are both, with two pixels to spare after them, inside the middle part
of size `t·n` of an axis with `n` pixels. -/
def TwoInMiddle (n : ℕ) (t : ℝ) (p0 d s : ℤ) (k : ℕ) : Prop :=
  (n : ℝ) - t * n ≤ 2 * ((p0 + k * d - s / 2 : ℤ) : ℝ) ∧ 2 * ((p0 + (k + 1) * d + s / 2 + 2 : ℤ) : ℝ) ≤ n + t * n

/-- In the Radon transforms of the middle part of the image the column of the angle 0 (number 30 of the 61 angles) is the only one with the
largest value: along the rows (angles from 60° to 120°) and along the columns (angles from -30° to 30°). -/
def Upright (radon : Mat ℝ → List ℝ → Mat ℝ) (m : Mat ℝ) (ratio : ℝ) : Prop :=
  ∀ m' roi mask, SameImage m' m → IsMiddlePart m' ratio roi → IsInnerMask roi mask → ∀ k,
    (IsSharpest (radon ⟨mask.height, mask.width, fun i j => (mask.get i j : ℝ)⟩ ((List.range 61).map fun k : ℕ => 60 + (k : ℝ))) k → k = 30) ∧
    (IsSharpest (radon ⟨mask.height, mask.width, fun i j => (mask.get i j : ℝ)⟩ ((List.range 61).map fun k : ℕ => (k : ℝ) - 30)) k → k = 30)

end Discorpy.Spec
