import Verif.Py.Num
import Verif.Model.Post
import Mathlib.Algebra.BigOperators.Group.Finset.Basic
import Mathlib.Data.Set.Card

/-! # Specifications about dots (connected components) -/

namespace Discorpy.Spec

open Discorpy

/-- A pixel of the image that is not zero. -/
def Lit (m : Mat ℤ) (p : ℕ × ℕ) : Prop := p.1 < m.height ∧ p.2 < m.width ∧ m.get p.1 p.2 ≠ 0

/-- The pixels share an edge. -/
def ShareEdge (p q : ℕ × ℕ) : Prop := |(p.1 : ℤ) - q.1| + |(p.2 : ℤ) - q.2| = 1

/-- The set contains every non-zero neighbour of its pixels. -/
def ClosedSet (m : Mat ℤ) (D : Set (ℕ × ℕ)) : Prop := ∀ p ∈ D, ∀ q, Lit m q → ShareEdge p q → q ∈ D

/-- A dot: a smallest non-empty set of non-zero pixels that contains the non-zero neighbours of its pixels. -/
structure IsDot (m : Mat ℤ) (D : Set (ℕ × ℕ)) : Prop where
  nonempty : D.Nonempty
  lit : ∀ p ∈ D, Lit m p
  closed : ClosedSet m D
  minimal : ∀ E ⊆ D, E.Nonempty → ClosedSet m E → E = D

/-- The pixel is between the pixels of the dot in both directions. -/
def InBox (D : Set (ℕ × ℕ)) (i j : ℕ) : Prop :=
  (∃ p ∈ D, p.1 ≤ i) ∧ (∃ p ∈ D, i ≤ p.1) ∧ (∃ p ∈ D, p.2 ≤ j) ∧ (∃ p ∈ D, j ≤ p.2)

open Classical in
/-- Sum of the pixels of `m` in the bounding box of the dot. -/
noncomputable def boxSum (m : Mat ℝ) (D : Set (ℕ × ℕ)) : ℝ :=
  ∑ q ∈ (Finset.range m.height ×ˢ Finset.range m.width) with InBox D q.1 q.2, m.get q.1 q.2

/-- The result keeps the pixels of `m` in the bounding boxes of the accepted dots and is zero elsewhere. -/
def KeepsDots (m out : Mat ℤ) (accepted : Set (ℕ × ℕ) → Prop) : Prop :=
  out.height = m.height ∧ out.width = m.width ∧
  ∀ i < m.height, ∀ j < m.width,
    ((∃ D, IsDot m D ∧ accepted D ∧ InBox D i j) → out.get i j = m.get i j) ∧
    ((¬ ∃ D, IsDot m D ∧ accepted D ∧ InBox D i j) → out.get i j = 0)

open Classical in
/-- `c` is the centre of mass of the dot. -/
def IsCentre (m : Mat ℤ) (D : Set (ℕ × ℕ)) (c : Pt) : Prop :=
  (∑ q ∈ (Finset.range m.height ×ˢ Finset.range m.width) with q ∈ D, (m.get q.1 q.2 : ℝ)) ≠ 0 ∧
  c.y * (∑ q ∈ (Finset.range m.height ×ˢ Finset.range m.width) with q ∈ D, (m.get q.1 q.2 : ℝ)) =
    ∑ q ∈ (Finset.range m.height ×ˢ Finset.range m.width) with q ∈ D, (m.get q.1 q.2 : ℝ) * q.1 ∧
  c.x * (∑ q ∈ (Finset.range m.height ×ˢ Finset.range m.width) with q ∈ D, (m.get q.1 q.2 : ℝ)) =
    ∑ q ∈ (Finset.range m.height ×ˢ Finset.range m.width) with q ∈ D, (m.get q.1 q.2 : ℝ) * q.2

/-- `c` is the mean position of the pixels of the set. -/
def IsMiddle (D : Set (ℕ × ℕ)) (c : Pt) : Prop :=
  ∃ F : Finset (ℕ × ℕ), F.Nonempty ∧ (F : Set (ℕ × ℕ)) = D ∧ c.y * F.card = ∑ q ∈ F, (q.1 : ℝ) ∧ c.x * F.card = ∑ q ∈ F, (q.2 : ℝ)

/-- The first pixel of a dot, row by row. -/
def IsFirstPixel (D : Set (ℕ × ℕ)) (p : ℕ × ℕ) : Prop := p ∈ D ∧ ∀ q ∈ D, p.1 < q.1 ∨ p.1 = q.1 ∧ p.2 ≤ q.2

/-- A scan of the image row by row meets the dot `D` before the dot `E`. -/
def ScannedBefore (D E : Set (ℕ × ℕ)) : Prop :=
  ∃ p q, IsFirstPixel D p ∧ IsFirstPixel E q ∧ (p.1 < q.1 ∨ p.1 = q.1 ∧ p.2 < q.2)

/-- The list of points names the middle of each dot of the image once, in the order in which a scan row by row meets the dots. -/
def MiddlesOf (m : Mat ℤ) (pts : List Pt) : Prop :=
  ∃ dots : List (Set (ℕ × ℕ)), dots.Pairwise ScannedBefore ∧ (∀ D, D ∈ dots ↔ IsDot m D) ∧ List.Forall₂ IsMiddle dots pts

/-- Distance between two points. -/
noncomputable def centreDist (a b : Pt) : ℝ := √((a.y - b.y) ^ 2 + (a.x - b.x) ^ 2)

/-- `E` is one of the three nearest other dots of `D`, at distance `d`. -/
def NearDot (m : Mat ℤ) (D E : Set (ℕ × ℕ)) (d : ℝ) : Prop :=
  IsDot m E ∧ E ≠ D ∧ ∃ c c', IsCentre m D c ∧ IsCentre m E c' ∧ d = centreDist c c' ∧
    Set.encard {F | IsDot m F ∧ F ≠ D ∧ ∃ c'', IsCentre m F c'' ∧ centreDist c c'' < d} < 3

open Classical in
/-- Sum of the pixels of the dot; their number in a binary image. -/
noncomputable def dotSum (m : Mat ℤ) (D : Set (ℕ × ℕ)) : ℝ :=
  ∑ q ∈ (Finset.range m.height ×ˢ Finset.range m.width) with q ∈ D, (m.get q.1 q.2 : ℝ)

/-- `d` is the distance from the centre of the dot to the nearest centre of another dot. -/
def NearestDist (m : Mat ℤ) (D : Set (ℕ × ℕ)) (d : ℝ) : Prop :=
  ∃ c, IsCentre m D c ∧ (∃ E c', IsDot m E ∧ E ≠ D ∧ IsCentre m E c' ∧ d = centreDist c c') ∧
    ∀ E c', IsDot m E → E ≠ D → IsCentre m E c' → d ≤ centreDist c c'

/-- `v` is a median of the quantity `f` over the dots: it is at most `v` for at least half of the dots, and at least `v` for
at least half of the dots. -/
def DotMedian (m : Mat ℤ) (f : Set (ℕ × ℕ) → ℝ → Prop) (v : ℝ) : Prop :=
  {D | IsDot m D}.encard ≤ 2 * {D | IsDot m D ∧ ∃ x ≤ v, f D x}.encard ∧
  {D | IsDot m D}.encard ≤ 2 * {D | IsDot m D ∧ ∃ x ≥ v, f D x}.encard

end Discorpy.Spec
