import Verif.Spec.Interp
import Mathlib.Analysis.Convex.Hull

/-! # Specifications about images -/

namespace Discorpy.Spec

open Discorpy

/-- The set of pixel values of an image. -/
def pixelValues (m : Mat ℝ) : Set ℝ := {v | ∃ i < m.height, ∃ j < m.width, v = m.get i j}

/-- Two images have the same shape and the same pixels. -/
def SameImage (m m' : Mat ℝ) : Prop :=
  m.height = m'.height ∧ m.width = m'.width ∧
    ∀ i < m.height, ∀ j < m.width, m.get i j = m'.get i j

/-- A boundary treatment that only looks at the pixels of the image (as every `mode` of SciPy does). -/
def LocalBoundary (B : Boundary) : Prop :=
  ∀ m m', SameImage m m' → B.out m = B.out m' ∧ B.far m = B.far m'

/-- What is assumed of the `float32` rounding of coordinates: monotone, exact on integers of magnitude
up to `2^24`. -/
structure CoordRounding (rnd : ℝ → ℝ) : Prop where
  mono : Monotone rnd
  exact : ∀ n : ℤ, |n| ≤ 2 ^ 24 → rnd n = n

/-- The radial model `r ↦ r·F(r)` does not fold on `[0, R]` and `F` is non-negative there. -/
structure NoFold (c : List ℝ) (R : ℝ) : Prop where
  mono : ∀ r s, 0 ≤ r → r ≤ s → s ≤ R → r * radial c r ≤ s * radial c s
  nonneg : ∀ r, 0 ≤ r → r ≤ R → 0 ≤ radial c r

theorem coordRounding_id : CoordRounding id := ⟨monotone_id, fun _ _ => rfl⟩

end Discorpy.Spec
