import Verif.Spec.Dots

/-! # Specification of repeated selections of dots -/

namespace Discorpy.Spec

open Discorpy

/-- The two images are the same. -/
def SamePixels (m m' : Mat ℤ) : Prop :=
  m'.height = m.height ∧ m'.width = m.width ∧ ∀ i < m.height, ∀ j < m.width, m'.get i j = m.get i j

/-- The result of a selection as the input of another function. -/
noncomputable def again (m : Mat ℤ) : Mat ℝ := ⟨m.height, m.width, fun i j => m.get i j⟩

/-- All pixels of the image are integers of the 16-bit range. -/
def Is16Bit (m : Mat ℝ) : Prop := ∀ i < m.height, ∀ j < m.width, ∃ n : ℤ, m.get i j = n ∧ -32768 ≤ n ∧ n ≤ 32767

/-- No dot reaches into the bounding box of another dot. -/
def Apart (m : Mat ℤ) : Prop := ∀ D E, IsDot m D → IsDot m E → D ≠ E → ∀ p ∈ E, ¬ InBox D p.1 p.2

/-- No two pixels that are not zero share an edge. -/
def SinglePixels (m : Mat ℤ) : Prop := ∀ p q, Lit m p → Lit m q → ¬ ShareEdge p q

end Discorpy.Spec
