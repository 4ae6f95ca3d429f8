import Verif.Spec.Geometry
import Verif.Spec.Grouping

/-! # Specifications about the dots of a grid seen through a lens -/

namespace Discorpy.Spec

open Discorpy

/-- Node of the regular grid with distance `d` whose rows have the given slope: column `c.2` of row `c.1`; node `(0, 0)` is `o`. -/
noncomputable def gridNode (o : Pt) (slope d : ℝ) (c : ℤ × ℤ) : Pt where
  y := o.y + d * (c.2 * slope + c.1) / √(1 + slope ^ 2)
  x := o.x + d * (c.2 - c.1 * slope) / √(1 + slope ^ 2)

/-- `1/√(1 + s²)`, the cosine of the angle with slope `s`. -/
noncomputable def cosOf (s : ℝ) : ℝ := 1 / √(1 + s ^ 2)

/-- The bend is small enough to tell rows from each other within `reach` columns. -/
def RowsApart (s ε ratio reach : ℝ) : Prop := ε * (1 + cosOf s + reach + |s| * cosOf s - ratio) ≤ cosOf s * (1 - ratio)

/-- How far the lens moves a point. -/
def shift (T : Pt → Pt) (p : Pt) : Pt := ⟨(T p).y - p.y, (T p).x - p.x⟩

/-- Among the given points the lens moves two points alike up to `ε` times their distance. -/
def BendsBy (ε : ℝ) (T : Pt → Pt) (P : Pt → Prop) : Prop :=
  ∀ p q, P p → P q → ptDist (shift T p) (shift T q) ≤ ε * ptDist p q

/-- The table of points row by row. -/
def tableRows (f : ℕ → ℕ → Pt) (K L : ℕ) : List (List Pt) := (List.range K).map fun k => (List.range L).map fun l => f k l

/-- `|k₀ - 1| + 2·|k₁|·R + 3·|k₂|·R² + …`. -/
noncomputable def bendBound (coefs : List ℝ) (R : ℝ) : ℝ :=
  ∑ i : Fin coefs.length, ((i : ℕ) + 1) * |coefs[i] - if (i : ℕ) = 0 then 1 else 0| * R ^ (i : ℕ)

/-- Any two neighbouring dots of a row are at most `gap` columns apart. -/
def GapsAtMost (gap : ℕ) (cells : List (ℤ × ℤ)) : Prop :=
  ∀ a ∈ cells, ∀ b ∈ cells, a.1 = b.1 → a.2 < b.2 → (∀ e ∈ cells, e.1 = a.1 → ¬ (a.2 < e.2 ∧ e.2 < b.2)) → b.2 - a.2 ≤ gap

/-- No row ends more than `gap` columns before another one. -/
def EndsWithin (gap : ℕ) (cells : List (ℤ × ℤ)) : Prop :=
  ∀ a ∈ cells, (∀ e ∈ cells, e.1 = a.1 → e.2 ≤ a.2) → ∀ b ∈ cells, b.2 ≤ a.2 + gap

end Discorpy.Spec
