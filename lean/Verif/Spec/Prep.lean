import Verif.Py.Fit
import Verif.Spec.Grouping
import Verif.Spec.Undistorted

/-! # Specifications about masks, residual filters and regions of interest -/

namespace Discorpy.Spec

open Discorpy

/-- The dot is closer than `residual` to the parabola, measured perpendicular to the direction of the slope. -/
def CloseTo (slope residual a b c : ℝ) (p : Pt) : Prop :=
  |a * p.x ^ 2 + b * p.x + c - p.y| / √(1 + slope ^ 2) < residual

/-- Position `(y, x)` is strictly inside the four parabolas. -/
structure InsideParabolas (height width horCurv verCurv top bot left right y x : ℝ) : Prop where
  top : top + verCurv / width * (x - width / 2) ^ 2 < y
  bot : y < height - bot - verCurv / width * (x - width / 2) ^ 2
  left : left + horCurv / height * (y - height / 2) ^ 2 < x
  right : x < width - right - horCurv / height * (y - height / 2) ^ 2

/-- `n` is `v` without its fractional part. -/
def IsTrunc (v : ℝ) (n : ℤ) : Prop := (0 ≤ v → (n : ℝ) ≤ v ∧ v < n + 1) ∧ (v < 0 → (n : ℝ) - 1 < v ∧ v ≤ n)

/-- `roi` is the part of `m` starting at row `a`, column `b`. -/
structure IsPart {α : Type} (m roi : Mat α) (a b : ℕ) : Prop where
  rows : a + roi.height ≤ m.height
  cols : b + roi.width ≤ m.width
  get : ∀ i j, roi.get i j = m.get (a + i) (b + j)

/-- Number of pixels of `m` with value `v`. -/
noncomputable def pixelCount (m : Mat ℝ) (v : ℝ) : ℕ :=
  open Classical in
  ((Finset.range m.height ×ˢ Finset.range m.width).filter fun q => m.get q.1 q.2 = v).card

/-- All pixels are 0 or 1. -/
def IsBinary (m : Mat ℝ) : Prop := ∀ i < m.height, ∀ j < m.width, m.get i j = 0 ∨ m.get i j = 1

/-- `band` consists of the points at most `D` away (in the coordinate `along`) from the middle between the two extreme
points. -/
def IsMiddleBand (along : Pt → ℝ) (D : ℝ) (points band : List Pt) : Prop :=
  ∃ lo hi, (∃ p ∈ points, along p = lo) ∧ (∃ p ∈ points, along p = hi) ∧ (∀ p ∈ points, lo ≤ along p ∧ along p ≤ hi) ∧
    (∀ p, p ∈ band ↔ p ∈ points ∧ |along p - (lo + hi) / 2| ≤ D) ∧ band.Subperm points

/-- A line found from the coarse group `g` (both in rotated coordinates). -/
def FromGroup (pf : PolyfitFn) (along across : Pt → ℝ) (rotated : List Pt) (residual : ℝ) (order : ℕ) (g selp : List Pt) : Prop :=
  (∀ p ∈ g, p ∈ selp) ∧
  (∀ p ∈ selp, p ∈ g ∨ p ∈ rotated ∧ ∃ cur : List Pt, cur ≠ [] ∧ (∀ q ∈ g, q ∈ cur) ∧ (∀ q ∈ cur, q ∈ selp) ∧
    |across p - polyval (pf (cur.map along) (cur.map across) order) (along p)| ≤ residual)

/-- The lines whose position differs by more than `d` from that of the line before; `prev` precedes the first one. -/
noncomputable def jumpsAfter (d : ℝ) (pos : List Pt → ℝ) (prev : List Pt) : List (List Pt) → List (List Pt)
  | [] => []
  | l :: r => open Classical in if d < |pos l - pos prev| then l :: jumpsAfter d pos l r else jumpsAfter d pos l r

/-- The first line and those that jump by more than `d`; all lines if none jumps. -/
noncomputable def withoutRepeats (d : ℝ) (pos : List Pt → ℝ) : List (List Pt) → List (List Pt)
  | [] => []
  | l :: r => open Classical in if jumpsAfter d pos l r = [] then l :: r else l :: jumpsAfter d pos l r

end Discorpy.Spec
