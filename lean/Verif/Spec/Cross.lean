import Verif.Py.Array
import Mathlib.Data.List.Forall2

/-! # Specification of cross points -/

namespace Discorpy.Spec

open Discorpy

/-- The image that is searched: contrast inverted against the brightest pixel, background normalised, smoothed, each if asked
for. -/
def IsCrossImage (fft filter2 : Mat ℝ → Mat ℝ) (bright norm denoise : Bool) (mat img : Mat ℝ) : Prop :=
  ∃ base : Mat ℝ, (bright = false → base = mat) ∧
    (bright = true → base.height = mat.height ∧ base.width = mat.width ∧
      ∃ M, (∃ i j, i < mat.height ∧ j < mat.width ∧ M = mat.get i j) ∧
      (∀ i j, i < mat.height → j < mat.width → mat.get i j ≤ M) ∧ ∀ i j, base.get i j = M - mat.get i j) ∧
    ∃ normed, normed = (if norm then fft base else base) ∧ img = (if denoise then filter2 normed else normed)

/-- The positions of the generated lines: from `lo + off` in steps of `step`, below `hi - off`. -/
def IsStarts (lo hi off : ℤ) (step : ℝ) (l : List ℝ) : Prop :=
  l.Pairwise (· < ·) ∧ ∀ a, a ∈ l ↔ ∃ k : ℕ, a = lo + off + k * step ∧ a < hi - off

/-- The points of `g` are on the line `across = start + slope · along`, in multiples of `t` along it. -/
def AreOnLine (along across : Pt → ℝ) (start slope t : ℝ) (rs : List ℝ) (g : List Pt) : Prop :=
  List.Forall₂ (fun r p => along p = r * t ∧ across p = start + slope * along p) rs g

/-- The offset is limited to `[0, top]` and rounded down. -/
def IsOffset (offset : ℝ) (top : ℕ) (off : ℤ) : Prop := off = ⌊max 0 (min offset top)⌋

/-- Limits of the positions of vertical lines with the given slope. -/
def VerLimits (h w : ℕ) (slope : ℝ) (lo hi : ℤ) : Prop :=
  (0 < slope → lo = 0 ∧ hi = (w : ℤ) - 1 - ⌈(h : ℝ) * slope⌉) ∧ (slope ≤ 0 → lo = ⌊(h : ℝ) * -slope⌋ ∧ hi = (w : ℤ) - 1)

/-- Limits of the positions of horizontal lines with the given slope. -/
def HorLimits (h w : ℕ) (slope : ℝ) (lo hi : ℤ) : Prop :=
  (slope < 0 → lo = ⌈(w : ℝ) * -slope⌉ ∧ hi = (h : ℤ) - 1) ∧ (0 ≤ slope → lo = 0 ∧ hi = (h : ℤ) - 1 - ⌊(w : ℝ) * slope⌋)

end Discorpy.Spec
