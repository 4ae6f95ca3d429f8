import Verif.Spec.Geometry
import Verif.Spec.Script
import Verif.Model.Util
import Verif.Model.Path
import Verif.Spec.RadialModel

/-! # Specification: the ruled sheet laid over a photograph -/

namespace Discorpy.Spec

open Discorpy

/-- A line of the sheet for an image of the given height: rows 50, 90, 130, … above the last 50 rows. -/
def IsRule (height : ℕ) (c : ℤ) : Prop := (∃ k : ℕ, c = 50 + 40 * k) ∧ c < (height : ℤ) - 50

/-- `v` is the brightness of the sheet at row coordinate `y`: one on the lines, which reach `b` pixels to both sides, zero a pixel further away, and
in between proportional to the distance. -/
def RuledBrightness (height : ℕ) (b : ℤ) (y v : ℝ) : Prop :=
  (∃ c, IsRule height c ∧ |y - c| ≤ b ∧ v = 1) ∨
  (∃ c, IsRule height c ∧ (b : ℝ) < |y - c| ∧ |y - c| < b + 1 ∧ v = b + 1 - |y - c|) ∨
  ((∀ c, IsRule height c → (b : ℝ) + 1 ≤ |y - c|) ∧ v = 0)

/-- `t` is the largest value of the image. -/
def IsTop (m : Mat ℝ) (t : ℝ) : Prop :=
  (∃ i < m.height, ∃ j < m.width, m.get i j = t) ∧ ∀ i < m.height, ∀ j < m.width, m.get i j ≤ t

/-- The folder of a scan: `stem_ntime_n` with the first number `n` from `first` on for which it does not exist. -/
def IsNewFolder (isdir : PyStr → Bool) (stem : PyStr) (first : ℕ) (folder : PyStr) : Prop :=
  ∃ n, first ≤ n ∧ folder = stem ++ "_ntime_".toList ++ Nat.toDigits 10 n ∧ isdir folder = false ∧
    ∀ k, first ≤ k → k < n → isdir (stem ++ "_ntime_".toList ++ Nat.toDigits 10 k) = true

/-- `N` is the number of values `start, start + step, …` below `stop + step`. -/
def IsScanLength (start stop step : ℝ) (N : ℕ) : Prop := ∀ k : ℕ, k < N ↔ start + k * step < stop + step

/-- The coefficients with the one at position `idx` increased by `d`, times the powers of ten. -/
def IsTried (coef power : List ℝ) (idx : ℕ) (d : ℝ) (f : List ℝ) : Prop :=
  f.length = coef.length ∧ ∀ i < coef.length, f.getD i 0 = power.getD i 0 * (coef.getD i 0 + if i = idx then d else 0)

/-- `g` has as many coefficients as `f` and is, among these models, the best inverse of `f` at the points, in the sense of least squares. -/
def IsInverseFit (c : Pt) (pts : List Pt) (f g : List ℝ) : Prop :=
  g.length = f.length ∧ ∀ g' : List ℝ, g'.length = f.length →
    (pts.map (inverseDeviation c f g)).sum ≤ (pts.map (inverseDeviation c f g')).sum

/-- 40 × 50 pixels spread over an image from its first to beyond its last row and column. -/
noncomputable def spreadPoints (height width : ℕ) : List Pt :=
  (List.range 40).flatMap fun i => (List.range 50).map fun j => ⟨((i * height / 39 : ℕ) : ℝ), ((j * width / 49 : ℕ) : ℝ)⟩

/-- Every fiftieth row and column from `a` on, down to and without `a` from the end. -/
noncomputable def everyFifty (a height width : ℕ) : List Pt :=
  (List.range ((height - 2 * a + 49) / 50)).flatMap fun i =>
    (List.range ((width - 2 * a + 49) / 50)).map fun j => ⟨((a + 50 * i : ℕ) : ℝ), ((a + 50 * j : ℕ) : ℝ)⟩

/-- Each channel of the corrected photograph is read in the same channel of the photograph, at the place to which the model moves the pixel. -/
def CorrectsChannels (sample : Mat ℝ → ℝ → ℝ → ℝ) (rnd : ℝ → ℝ) (c : Pt) (g : List ℝ) (img out : Img) : Prop :=
  ∃ h w n get get', img = .color h w n get ∧ out = .color h w n get' ∧
    ∀ k < n, ReadsBackward sample rnd ⟨h, w, fun i j => get i j k⟩ c g ⟨h, w, fun i j => get' i j k⟩

end Discorpy.Spec
