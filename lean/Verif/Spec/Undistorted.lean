import Verif.Spec.Grid

/-! # Specifications about families of lines, fits and equal spacing -/

namespace Discorpy.Spec

open Discorpy

/-- The parabola `across - ca = a·t² + b·t + c`, `t = along - ta`, is a least-squares parabola of the dots. -/
def IsLsqPara (along across : Pt → ℝ) (ta ca : ℝ) (dots : List Pt) (a b c : ℝ) : Prop :=
  ∀ a' b' c', (dots.map fun p => (a * (along p - ta) ^ 2 + b * (along p - ta) + c - (across p - ca)) ^ 2).sum ≤
    (dots.map fun p => (a' * (along p - ta) ^ 2 + b' * (along p - ta) + c' - (across p - ca)) ^ 2).sum

/-- `l` is strictly increasing or strictly decreasing. -/
def StrictlyMonotone (l : List ℝ) : Prop := l.Pairwise (· < ·) ∨ l.Pairwise (· > ·)

/-- `u` is equally spaced with as many entries as `m`, and agrees with `m` at an entry of `m` nearest to `0`. -/
def IsEquidistantFit (m u : List ℝ) : Prop :=
  u.length = m.length ∧ ∃ (k : ℕ) (c δ : ℝ), m[k]? = some c ∧ (∀ c' ∈ m, |c| ≤ |c'|) ∧
    ∀ (i : ℕ) (v : ℝ), u[i]? = some v → v = c + ((i : ℝ) - k) * δ

/-- `u` increases (decreases) strictly if `m` does. -/
def KeepsDirection (m u : List ℝ) : Prop :=
  (m.Pairwise (· < ·) → u.Pairwise (· < ·)) ∧ (m.Pairwise (· > ·) → u.Pairwise (· > ·))

/-- The spacing of neighbours in `u` is between any bounds of the spacings of neighbours in `m`. -/
def SpacingIsMean (m u : List ℝ) : Prop :=
  ∀ lo hi : ℝ, (∀ (i : ℕ) (a b : ℝ), m[i]? = some a → m[i + 1]? = some b → lo ≤ |b - a| ∧ |b - a| ≤ hi) →
    ∀ (i : ℕ) (a b : ℝ), u[i]? = some a → u[i + 1]? = some b → lo ≤ |b - a| ∧ |b - a| ≤ hi

/-- `l` is the arithmetic progression `c0, c0 + δ, …`. -/
def IsArith (l : List ℝ) (c0 δ : ℝ) : Prop := ∀ (i : ℕ) (v : ℝ), l[i]? = some v → v = c0 + i * δ

/-- Line `i` is straight (any slope), at height `c0 + i·δ` above the centre, with at least three different positions. -/
def IsStraightFamily (along across : Pt → ℝ) (c : Pt) (lines : List (List Pt)) (c0 δ : ℝ) : Prop :=
  ∀ (i : ℕ) (line : List Pt), lines[i]? = some line →
    (∃ b, ∀ p ∈ line, across p - across c = b * (along p - along c) + (c0 + i * δ)) ∧
    ∃ p ∈ line, ∃ q ∈ line, ∃ r ∈ line, along p ≠ along q ∧ along p ≠ along r ∧ along q ≠ along r

/-- A minimiser that finds a global minimum whenever there is one. -/
def ExactMin (minimize : (ℝ → ℝ) → ℝ → ℝ) : Prop :=
  ∀ (f : ℝ → ℝ) (x0 : ℝ), (∃ m, ∀ x, f m ≤ f x) → ∀ x, f (minimize f x0) ≤ f x

/-- Distances to the centre of the dots of lines that do not pass through it. -/
def offCentreRadii (c : Pt) (lines : List (List Pt)) (c0 δ : ℝ) : Set ℝ :=
  {r | ∃ (i : ℕ) (line : List Pt) (p : Pt), lines[i]? = some line ∧ c0 + i * δ ≠ 0 ∧ p ∈ line ∧ r = ptDist p c}

end Discorpy.Spec
