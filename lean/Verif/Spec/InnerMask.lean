import Verif.Spec.Prep
import Verif.Spec.Binary
import Verif.Spec.Dots

/-! # Specification of the dots used to measure a pattern -/

namespace Discorpy.Spec

open Discorpy

/-- `roi` is the part in the middle of `m`: as many rows above as below and as many columns on the left as on the right, with
sides of `ratio` (limited to `[0.05, 1]`) times the sides of `m`, rounded up by less than two pixels. -/
def IsMiddlePart {α : Type} (m : Mat α) (ratio : ℝ) (roi : Mat α) : Prop :=
  ∃ a b : ℕ, IsPart m roi a b ∧ 2 * a + roi.height = m.height ∧ 2 * b + roi.width = m.width ∧
    ∀ r, r = max 0.05 (min ratio 1) →
      r * m.height ≤ roi.height ∧ roi.height < r * m.height + 2 ∧ r * m.width ≤ roi.width ∧ roi.width < r * m.width + 2

/-- `mask` shows the objects of the ones of `roi` that do not reach the border of `roi`. -/
def IsInnerMask (roi : Mat ℝ) (mask : Mat ℤ) : Prop :=
  mask.height = roi.height ∧ mask.width = roi.width ∧
  ∀ p ∈ frame roi.height roi.width,
    (p ∈ awayFromRim roi.height roi.width {q ∈ frame roi.height roi.width | roi.get q.1 q.2 = 1} → mask.get p.1 p.2 = 1) ∧
    (p ∉ awayFromRim roi.height roi.width {q ∈ frame roi.height roi.width | roi.get q.1 q.2 = 1} → mask.get p.1 p.2 = 0)

end Discorpy.Spec
