import Verif.Py.Num

/-! # Vocabulary for the scripts which correct a stack of images -/

namespace Discorpy.Spec

open Discorpy

/-- The shifts tried by a search from `-range` in steps of `step`: those below `range + step`. -/
def IsShift (range step x : ℤ) : Prop := ∃ k : ℕ, x = -range + k * step ∧ x < range + step

/-- The slice of a stack of `depth` images made of copies of row `i` of an image. -/
def ShowsRow (depth : ℕ) (img : Mat ℝ) (i : ℕ) (slice : Mat ℝ) : Prop :=
  slice.height = depth ∧ slice.width = img.width ∧ ∀ d < depth, ∀ j < img.width, slice.get d j = img.get i j

end Discorpy.Spec
