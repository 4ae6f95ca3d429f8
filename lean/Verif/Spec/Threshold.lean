import Verif.Spec.Lines

/-! # Specification of the threshold of an image -/

namespace Discorpy.Spec

open Discorpy

/-- The samples of the middle part of the curve `v`, as points (position, value): without the first quarter and without the last
quarter and one more. -/
def middleSamples (v : List ℝ) : List Pt :=
  (v.zipIdx.filter fun q => decide (v.length / 4 ≤ q.2 ∧ q.2 + v.length / 4 + 1 < v.length)).map fun q => ⟨q.1, q.2⟩

/-- `s` lists the values of the image in increasing order. -/
def IsSortedOf (m : Mat ℝ) (s : List ℝ) : Prop := 
  s.Perm ((List.range m.height).flatMap fun i => (List.range m.width).map fun j => m.get i j) ∧ s.Pairwise (· ≤ ·)

/-- The threshold belonging to the line with slope `a` and start `b` of a curve of `n` samples: beyond the end of the line on the
side of the features, by `snr / 2` times the rise of the line. -/
noncomputable def lineThreshold (n : ℕ) (a b snr : ℝ) (bright : Bool) : ℝ :=
  if bright then b - |a * (n - 1)| * (snr / 2) else b + a * (n - 1) + |a * (n - 1)| * (snr / 2)

/-- Contract of the resampling: `n` values, which follow a change of brightness and contrast. -/
structure IsResampling (zoom : List ℝ → ℕ → List ℝ) : Prop where
  length : ∀ l n, (zoom l n).length = n
  affine : ∀ l n, l ≠ [] → ∀ a b : ℝ, zoom (l.map fun x => a * x + b) n = (zoom l n).map fun x => a * x + b

end Discorpy.Spec
