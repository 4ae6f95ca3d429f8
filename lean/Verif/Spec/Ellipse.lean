import Verif.Spec.Dots
import Mathlib.Analysis.SpecialFunctions.Pow.NNReal

/-! # Specification: extent of a set of pixels in a direction -/

namespace Discorpy.Spec

open Discorpy

/-- Mean of a quantity over a set of pixels. -/
noncomputable def pixelMean (F : Finset (ℕ × ℕ)) (f : ℕ × ℕ → ℝ) : ℝ := (∑ q ∈ F, f q) / F.card

/-- The standard deviation of the positions of the pixels in the direction `(u, v)`. -/
noncomputable def spread (F : Finset (ℕ × ℕ)) (u v : ℝ) : ℝ :=
  √(pixelMean F fun q => (u * (q.1 - pixelMean F fun r => (r.1 : ℝ)) + v * (q.2 - pixelMean F fun r => (r.2 : ℝ))) ^ 2)

/-- The spreads in all directions. -/
def spreads (F : Finset (ℕ × ℕ)) : Set ℝ := {s | ∃ u v : ℝ, u ^ 2 + v ^ 2 = 1 ∧ s = spread F u v}

open Classical in
/-- The non-zero pixels in the bounding box of the dot (in general with parts of other dots). -/
noncomputable def boxPixels (m : Mat ℤ) (D : Set (ℕ × ℕ)) : Finset (ℕ × ℕ) :=
  (Finset.range m.height ×ˢ Finset.range m.width).filter fun q => InBox D q.1 q.2 ∧ m.get q.1 q.2 ≠ 0

open Classical in
/-- The pixels in the bounding box of the dot with the least positive value there. -/
noncomputable def leastPixels (m : Mat ℤ) (D : Set (ℕ × ℕ)) : Finset (ℕ × ℕ) :=
  (Finset.range m.height ×ˢ Finset.range m.width).filter fun q => InBox D q.1 q.2 ∧ 0 < m.get q.1 q.2 ∧
    ∀ r : ℕ × ℕ, InBox D r.1 r.2 → 0 < m.get r.1 r.2 → m.get q.1 q.2 ≤ m.get r.1 r.2

/-- The dot has pixels in at least two rows and in at least two columns. -/
def IsWide (D : Set (ℕ × ℕ)) : Prop := (∃ p ∈ D, ∃ q ∈ D, p.1 < q.1) ∧ ∃ p ∈ D, ∃ q ∈ D, p.2 < q.2

/-- No direction in which the pixels spread `1 + ratio` times as far as in another direction. -/
def NearlyRound (ratio : ℝ) (F : Finset (ℕ × ℕ)) : Prop := ∀ s ∈ spreads F, ∀ t ∈ spreads F, s < (1 + ratio) * t

/-- A quarter turn (about some point) takes the set to itself. -/
def QuarterTurn (F : Finset (ℕ × ℕ)) : Prop :=
  ∃ a b : ℤ, ∀ q ∈ F, ∃ r ∈ F, (r.1 : ℤ) = q.2 + a ∧ (r.2 : ℤ) = b - q.1

/-- The rectangle of `h` rows and `w` columns with the upper left pixel `(i, j)`. -/
def rectangle (i j h w : ℕ) : Set (ℕ × ℕ) := {q | (i ≤ q.1 ∧ q.1 < i + h) ∧ j ≤ q.2 ∧ q.2 < j + w}

end Discorpy.Spec
