import Verif.Model.Post
import Verif.Spec.BentGrid
import Verif.Spec.Prep
import Verif.Spec.Script
import Verif.Model.Util

/-! # Spec: bent patterns of a fisheye camera -/

namespace Discorpy.Spec

open Discorpy

/-- Dot `i` of row `k`. Without distortion, row `k` is at the distance `o + k·d` from the centre `c`; the rows are bent in proportion to this
distance with the factor `κ` (negative: barrel). Neighbours are `s` apart in `x`, and dot `N` is above the centre. -/
noncomputable def bentRowDot (c : Pt) (κ o d s : ℝ) (N k i : ℕ) : Pt :=
  ⟨c.y + (o + k * d) * (1 + κ * ((i - N) * s) ^ 2), c.x + (i - N) * s⟩

/-- The same for columns. -/
noncomputable def bentColDot (c : Pt) (κ o d s : ℝ) (N k i : ℕ) : Pt :=
  ⟨c.y + (i - N) * s, c.x + (o + k * d) * (1 + κ * ((i - N) * s) ^ 2)⟩

/-- A family of `K` bent lines, `2N + 1` dots each: lines on both sides of the centre and none through it, the dots of a line not farther apart
than the lines, lines bent by at most 80 % of their distance at the ends and nearly straight in the middle. -/
structure IsFisheyeFamily (κ o d s : ℝ) (K N : ℕ) : Prop where
  lines : 4 ≤ K
  dots : 1 ≤ N
  step : 0 < s
  close : s ≤ d
  small : K * (2 * N + 1) ≤ 50000
  bend : |κ| * (N * s) ^ 2 ≤ 0.8
  middle : ∀ k < K, 70 * |κ| * |o + k * d| * s < 1
  below : o < 0
  above : 0 < o + ((K : ℝ) - 1) * d
  clear : ∀ k < K, o + k * d ≠ 0

/-- The pixel of the point `p` is in an image of the given size and strictly inside the four parabolas with the given margins and the curvatures
0.4 (left and right) and 0.3 (top and bottom). -/
def InsideMask (height width : ℕ) (top bot left right : ℝ) (p : Pt) : Prop :=
  ∃ i < height, ∃ j < width, IsTrunc p.y (i : ℕ) ∧ IsTrunc p.x (j : ℕ) ∧ InsideParabolas height width 0.4 0.3 top bot left right i j

/-- `mp` is `m` with `n` rows or columns of zeros added on each side. -/
def IsPadded (n : ℕ) (m mp : Mat ℝ) : Prop :=
  mp.height = n + m.height + n ∧ mp.width = n + m.width + n ∧
    (∀ i < m.height, ∀ j < m.width, mp.get (n + i) (n + j) = m.get i j) ∧
    ∀ i j, i < n ∨ n + m.height ≤ i ∨ j < n ∨ n + m.width ≤ j → mp.get i j = 0

/-- `out` is the corrected image of `m` with `n` more pixels on each side. -/
def IsCorrected (sample : Mat ℝ → ℝ → ℝ → ℝ) (rnd : ℝ → ℝ) (n : ℕ) (c : Pt) (coefs : List ℝ) (m out : Mat ℝ) : Prop :=
  ∃ mp, IsPadded n m mp ∧ ReadsBackward sample rnd mp ⟨c.y + n, c.x + n⟩ coefs out

/-- The same for an image which may have colours. -/
def IsCorrectedImg (sample : Mat ℝ → ℝ → ℝ → ℝ) (rnd : ℝ → ℝ) (n : ℕ) (c : Pt) (coefs : List ℝ) : Img → Img → Prop
  | .gray m, .gray out => IsCorrected sample rnd n c coefs m out
  | .color h w k g, .color h' w' k' g' => h' = n + h + n ∧ w' = n + w + n ∧ k' = k ∧
      ∀ ch < k, IsCorrected sample rnd n c coefs ⟨h, w, fun i j => g i j ch⟩ ⟨h', w', fun i j => g' i j ch⟩
  | _, _ => False

/-- The deviation of the model from the bending of a row at the dot `p`: the model should move the dot's place in the straight pattern,
`r/(1 + κ·x²)` away from the centre, to the dot. -/
noncomputable def bendError (along : Pt → ℝ) (c : Pt) (κ : ℝ) (coefs : List ℝ) (p : Pt) : ℝ :=
  (radial coefs (ptDist p c / (1 + κ * (along p - along c) ^ 2)) - (1 + κ * (along p - along c) ^ 2)) ^ 2

end Discorpy.Spec
