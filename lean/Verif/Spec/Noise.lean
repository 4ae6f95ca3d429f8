import Verif.Py.Num

/-! # Spec: images that differ by a bounded amount -/

namespace Discorpy.Spec

/-- The images have the same size and no pixel of the second is more than `e` above the pixel of the first. -/
structure ExceedsBy (e : ℝ) (m m' : Mat ℝ) : Prop where
  height : m'.height = m.height
  width : m'.width = m.width
  pixel : ∀ i < m.height, ∀ j < m.width, m'.get i j ≤ m.get i j + e

/-- The images have the same size and no two pixels differ by more than `e`. -/
structure DiffersBy (e : ℝ) (m m' : Mat ℝ) : Prop where
  height : m'.height = m.height
  width : m'.width = m.width
  pixel : ∀ i < m.height, ∀ j < m.width, |m'.get i j - m.get i j| ≤ e

end Discorpy.Spec
