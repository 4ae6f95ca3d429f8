import Verif.Py.Num

/-!
# Specification of edge strength in an image
-/

namespace Discorpy.Spec

open Discorpy

/-- Mean magnitude of the central differences along both axes at an inner pixel. -/
noncomputable def edgeStrength (m : Mat ℝ) (i j : ℕ) : ℝ :=
  (|m.get (i + 1) j - m.get (i - 1) j| / 2 + |m.get i (j + 1) - m.get i (j - 1)| / 2) / 2

/-- The nearest index at least two away from both ends of an axis of length `n > 4`. -/
def inner (n i : ℕ) : ℕ := max 2 (min i (n - 3))

end Discorpy.Spec
