import Verif.Spec.Binary
import Verif.Spec.Lines
import Mathlib.Analysis.SpecialFunctions.Trigonometric.Basic

/-! # Specification of the correction of the background -/

namespace Discorpy.Spec

/-- Position `k` of an axis of `n` pixels continued by mirror images on both sides shows pixel `i`. -/
def IsMirror (n : ℕ) (k : ℤ) (i : ℕ) : Prop := i < n ∧ ∃ z : ℤ, k = 2 * n * z + i ∨ k = 2 * n * z - 1 - i

/-- The values of the `size × size` neighbours of pixel `(i, j)`; `rowOf` and `colOf` continue the rows and columns. -/
def neighbourhood (f : ℕ → ℕ → ℝ) (rowOf colOf : ℤ → ℕ) (size i j : ℕ) : List ℝ :=
  (List.range size).flatMap fun a : ℕ => (List.range size).map fun b : ℕ =>
    f (rowOf ((i : ℤ) - (size / 2 : ℕ) + a)) (colOf ((j : ℤ) - (size / 2 : ℕ) + b))

/-- Mean value of an image. -/
noncomputable def meanOver (h w : ℕ) (f : ℕ → ℕ → ℝ) : ℝ := (∑ i ∈ Finset.range h, ∑ j ∈ Finset.range w, f i j) / (h * w)

/-- A plane wave with `u` vertical and `v` horizontal periods in an image of `h` rows and `w` columns. -/
noncomputable def ripple (h w : ℕ) (u v : ℤ) (phase : ℝ) (i j : ℕ) : ℝ :=
  Real.cos (2 * Real.pi * (u * i / h + v * j / w) + phase)

/-- The part of a wave that is left by a Gaussian window in the frequency plane, centred at `(-1/2, -1/2)`, relative to the part of
a constant that is left. -/
noncomputable def attenuation (sigma : ℝ) (u v : ℤ) : ℝ :=
  (Real.exp (-((u : ℝ) ^ 2 + v ^ 2 + u + v) / (2 * sigma ^ 2)) + Real.exp (-((u : ℝ) ^ 2 + v ^ 2 - u - v) / (2 * sigma ^ 2))) / 2

/-- A way to continue the rows and columns of an image: pixels inside stay where they are, other positions repeat some pixel. -/
structure IsPadding (padIdx : ℕ → ℤ → ℕ) : Prop where
  inside : ∀ (n k : ℕ), k < n → padIdx n k = k
  range : ∀ (n : ℕ) (k : ℤ), 0 < n → padIdx n k < n

/-- Position `k` of an axis of `n` pixels, continued by mirror images about its first and last pixel, shows pixel `i`. -/
def IsFold (n : ℕ) (k : ℤ) (i : ℕ) : Prop := i < n ∧ ∃ z : ℤ, k = 2 * (n - 1) * z + i ∨ k = 2 * (n - 1) * z - i

/-- The weight, at a distance of `(dy, dx)`, of a filter with a Gaussian window over the frequencies `u - H/2`, `v - W/2`, where the
window is centred half a unit too low. -/
noncomputable def gaussWeight (H W : ℕ) (sigma : ℝ) (dy dx : ℤ) : ℝ :=
  meanOver H W fun u v => Real.exp (-(((u : ℝ) - H / 2 + 1 / 2) ^ 2 + (v - W / 2 + 1 / 2) ^ 2) / (2 * sigma ^ 2)) *
    Real.cos (2 * Real.pi * ((u - H / 2) * dy / H + (v - W / 2) * dx / W))

/-- The filtered image. -/
noncomputable def gaussBackground (m : Mat ℝ) (padIdx : ℕ → ℤ → ℕ) (sigma : ℝ) (pad i j : ℕ) : ℝ :=
  ∑ y ∈ Finset.range (m.height + 2 * pad), ∑ x ∈ Finset.range (m.width + 2 * pad),
    gaussWeight (m.height + 2 * pad) (m.width + 2 * pad) sigma ((i : ℤ) + pad - y) ((j : ℤ) + pad - x) *
      m.get (padIdx m.height ((y : ℤ) - pad)) (padIdx m.width ((x : ℤ) - pad))

/-- The result of dividing the image by the background `bck` and multiplying by the mean of the background. -/
def IsNormalized (m : Mat ℝ) (bck : ℕ → ℕ → ℝ) (r : Except PyErr (Mat ℝ)) : Prop :=
  ((∃ i < m.height, ∃ j < m.width, bck i j = 0) → r = .error .nonFinite) ∧
  ((∀ i < m.height, ∀ j < m.width, bck i j ≠ 0) → ∃ out, r = .ok out ∧ out.height = m.height ∧ out.width = m.width ∧
    ∀ i < m.height, ∀ j < m.width, out.get i j = meanOver m.height m.width bck * m.get i j / bck i j)

/-- A constant `B` with waves `(u, v, amplitude, phase)` on it; the amplitudes are multiplied by `rho u v`. -/
noncomputable def waveImage (h w : ℕ) (B : ℝ) (rho : ℤ → ℤ → ℝ) (waves : List (ℤ × ℤ × ℝ × ℝ)) (i j : ℕ) : ℝ :=
  B + (waves.map fun q => rho q.1 q.2.1 * q.2.2.1 * ripple h w q.1 q.2.1 q.2.2.2 i j).sum

end Discorpy.Spec
