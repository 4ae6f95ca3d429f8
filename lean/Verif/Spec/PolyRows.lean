import Verif.Spec.Prep
import Verif.Spec.Grouping
import Verif.Spec.Vanish
import Mathlib.Analysis.SpecialFunctions.Trigonometric.Basic

/-! # Spec: curved rows of dots -/

namespace Discorpy.Spec

/-- A point turned around the origin by an angle. -/
noncomputable def turn (angle : ℝ) (p : Pt) : Pt :=
  ⟨p.x * Real.sin angle + p.y * Real.cos angle, p.x * Real.cos angle - p.y * Real.sin angle⟩

/-- The dots with the label `r`. -/
def ofRow {ι : Type} [DecidableEq ι] (row : Pt → ι) (dots : List Pt) (r : ι) : List Pt := dots.filter fun p => decide (row p = r)

/-- The dots whose coordinate `t` is at most `D` away from `c`. -/
noncomputable def midBand (t : Pt → ℝ) (c D : ℝ) (dots : List Pt) : List Pt := open Classical in dots.filter fun p => decide (|t p - c| ≤ D)

/-- Labelled dots on curves `u = f_r(t)`, polynomials of the given order: a dot is farther than `R` from the curves of the other
rows, the dots of a row have different coordinates `t`, and neighbours in a row are at most `D` apart. -/
structure CurvedRows {ι : Type} (t u : Pt → ℝ) (row : Pt → ι) (f : ι → List ℝ) (order : ℕ) (R D : ℝ) (dots : List Pt) : Prop where
  len : ∀ p ∈ dots, (f (row p)).length = order + 1
  on : ∀ p ∈ dots, u p = polyval (f (row p)) (t p)
  off : ∀ p ∈ dots, ∀ q ∈ dots, row q ≠ row p → R < |u q - polyval (f (row p)) (t q)|
  apart : dots.Pairwise fun p q => row p = row q → t p ≠ t q
  gaps : ∀ p ∈ dots, ∀ q ∈ dots, row p = row q → t p < t q → (∀ e ∈ dots, row e = row p → ¬ (t p < t e ∧ t e < t q)) →
    t q - t p ≤ D

/-- Rows that are nearly straight along `t`: a dot that continues the line through a dot of another row comes after the next dot
of that row, and the next dot of a row continues its line. -/
structure StraightRows {ι : Type} (t u : Pt → ℝ) (row : Pt → ι) (dist ratio miss : ℝ) (dots : List Pt) : Prop where
  sep : ∀ p ∈ dots, ∀ q ∈ dots, t p ≤ t q → OnLine 0 dist ratio miss ⟨u p, t p⟩ ⟨u q, t q⟩ →
    row p = row q ∨ ∃ r ∈ dots, row r = row p ∧ t p < t r ∧ t r < t q
  next : ∀ p ∈ dots, ∀ q ∈ dots, row p = row q → t p < t q → (∀ r ∈ dots, row r = row p → ¬ (t p < t r ∧ t r < t q)) →
    OnLine 0 dist ratio miss ⟨u p, t p⟩ ⟨u q, t q⟩

end Discorpy.Spec
