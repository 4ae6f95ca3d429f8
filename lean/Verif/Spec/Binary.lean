import Mathlib.Data.Set.Card
import Mathlib.Data.Real.Basic

/-!
# Specification of the extraction of dots from the set of foreground pixels

Sets of pixels `(y, x)` of an image with `h` rows and `w` columns.
-/

namespace Discorpy.Spec

/-- All pixels of the image. -/
def frame (h w : ℕ) : Set (ℕ × ℕ) := {p | p.1 < h ∧ p.2 < w}

/-- The pixels of the first and last row and column. -/
def rim (h w : ℕ) : Set (ℕ × ℕ) := {p ∈ frame h w | p.1 = 0 ∨ p.2 = 0 ∨ p.1 = h - 1 ∨ p.2 = w - 1}

/-- The pixels share an edge. -/
def EdgeTouch (p q : ℕ × ℕ) : Prop := |(p.1 : ℤ) - q.1| + |(p.2 : ℤ) - q.2| = 1

/-- The pixels share an edge or a corner. -/
def CornerTouch (p q : ℕ × ℕ) : Prop := max |(p.1 : ℤ) - q.1| |(p.2 : ℤ) - q.2| = 1

/-- One can walk from `p` to `q` inside `A` with steps between touching pixels: `q` is in every set that contains `p` and
cannot be left by such a step. -/
def Joined (touch : ℕ × ℕ → ℕ × ℕ → Prop) (A : Set (ℕ × ℕ)) (p q : ℕ × ℕ) : Prop :=
  p ∈ A ∧ ∀ D : Set (ℕ × ℕ), p ∈ D → (∀ a ∈ D, ∀ b ∈ A, touch a b → b ∈ D) → q ∈ D

/-- The part of `A` made of the objects that do not reach the rim of the image. -/
def awayFromRim (h w : ℕ) (A : Set (ℕ × ℕ)) : Set (ℕ × ℕ) := {p ∈ A | ∀ q ∈ rim h w, ¬ Joined CornerTouch A p q}

/-- The five pixels of the plus sign around `c`. -/
def plus (c : ℕ × ℕ) : Set (ℕ × ℕ) := {p | p = c ∨ EdgeTouch c p}

/-- The union of all plus signs inside `A`. -/
def pluses (A : Set (ℕ × ℕ)) : Set (ℕ × ℕ) := {p | ∃ c, p ∈ plus c ∧ plus c ⊆ A}

/-- `A` together with its holes: the pixels from which one cannot walk to the rim of the image outside of `A`. -/
def withHoles (h w : ℕ) (A : Set (ℕ × ℕ)) : Set (ℕ × ℕ) := {p ∈ frame h w | ∀ q ∈ rim h w, ¬ Joined EdgeTouch (frame h w \ A) p q}

/-- The dots of the foreground `A`. -/
def dotMask (h w : ℕ) (A : Set (ℕ × ℕ)) : Set (ℕ × ℕ) := withHoles h w (pluses (awayFromRim h w A))

open Classical in
/-- The foreground: the pixels above the threshold, or the other ones if more than half of the pixels are above it. -/
noncomputable def foreground (h w : ℕ) (f : ℕ → ℕ → ℝ) (t : ℝ) : Set (ℕ × ℕ) :=
  if 2 * {p ∈ frame h w | t < f p.1 p.2}.ncard ≤ h * w then {p ∈ frame h w | t < f p.1 p.2}
  else {p ∈ frame h w | f p.1 p.2 ≤ t}

/-- `v` has rank `k` in the list: it is one of its entries, at most `k` are smaller, and more than `k` are not larger. -/
def IsRank (l : List ℝ) (k : ℕ) (v : ℝ) : Prop :=
  v ∈ l ∧ (open Classical in l.countP fun x => decide (x < v)) ≤ k ∧ k < (open Classical in l.countP fun x => decide (x ≤ v))

end Discorpy.Spec
