import Verif.Spec.Geometry
import Mathlib.Analysis.Calculus.Deriv.Basic

/-! # Specification: images of scenes -/

namespace Discorpy.Spec

open Discorpy

/-- The image shows the scene `g` through the lens `T`: the pixel at `(i, j)` has the brightness of the point `T (i, j)` of the scene. -/
def Shows (g : Pt → ℝ) (T : Pt → Pt) (m : Mat ℝ) : Prop := ∀ i < m.height, ∀ j < m.width, m.get i j = g (T ⟨i, j⟩)

/-- Inside the frame of the image the brightness seen through the lens changes by at most `L` per pixel of distance. -/
def ChangesAtMost (L : ℝ) (g : Pt → ℝ) (T : Pt → Pt) (m : Mat ℝ) : Prop :=
  ∀ p q : Pt, InFrame m p.y p.x → InFrame m q.y q.x → |g (T p) - g (T q)| ≤ L * ptDist p q

/-- The second derivative of the function is at most `M` (in absolute value) between `a` and `b`. -/
def BendsAtMost (M : ℝ) (f : ℝ → ℝ) (a b : ℝ) : Prop :=
  ContinuousOn f (Set.Icc a b) ∧
    ∃ f' f'' : ℝ → ℝ, ∀ t, a < t → t < b → HasDerivAt f (f' t) t ∧ HasDerivAt f' (f'' t) t ∧ |f'' t| ≤ M

/-- The rounding of coordinates changes those of the image by at most `δ`. -/
def RoundsBy (δ : ℝ) (rnd : ℝ → ℝ) (m : Mat ℝ) : Prop :=
  ∀ v, 0 ≤ v → v ≤ max ((m.height : ℝ) - 1) ((m.width : ℝ) - 1) → |rnd v - v| ≤ δ

/-- Neighbouring pixels differ by at most `V` in the same column and by at most `U` in the same row. -/
def StepsAtMost (V U : ℝ) (m : Mat ℝ) : Prop :=
  (∀ i, i + 1 < m.height → ∀ j < m.width, |m.get (i + 1) j - m.get i j| ≤ V) ∧
    ∀ i < m.height, ∀ j, j + 1 < m.width → |m.get i (j + 1) - m.get i j| ≤ U

end Discorpy.Spec
