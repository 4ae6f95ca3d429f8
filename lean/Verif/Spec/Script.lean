import Verif.Spec.Dots
import Verif.Spec.Geometry
import Verif.Spec.Lines

/-! # Vocabulary for the results of the calibration script -/

namespace Discorpy.Spec

/-- The list of points names the centre of mass of each dot of the image once, in the order in which a scan row by row meets the dots. -/
def CentresOf (m : Mat ℤ) (pts : List Pt) : Prop :=
  ∃ dots : List (Set (ℕ × ℕ)), dots.Pairwise ScannedBefore ∧ (∀ D, D ∈ dots ↔ IsDot m D) ∧ List.Forall₂ (IsCentre m) dots pts

/-- Lines found among the given dots: each dot belongs to at most one line, each line has dots, and its dots come in order. -/
def AreLinesOf (along : Pt → ℝ) (pts : List Pt) (lines : List (List Pt)) : Prop :=
  lines ≠ [] ∧ lines.flatten.Subperm pts ∧ ∀ l ∈ lines, l ≠ [] ∧ l.Pairwise fun p q => along p ≤ along q

/-- The number of dots of a table of residuals that are more than one pixel off. -/
noncomputable def farDots (table : List (ℝ × ℝ)) : ℕ := (table.filter fun r => decide (1 < r.2)).length

/-- The verdict `bad` on two families of lines is that in one of them more than 15 % of the dots are more than one pixel away from the
straight line fitted to their line. -/
def IsVerdict (hor ver : List (List Pt)) (c : Pt) (bad : Bool) : Prop :=
  ∃ h v, IsResidualTable IsLsqHorLine onHorLine hor c h ∧ IsResidualTable IsLsqVerLine onVerLine ver c v ∧
    (bad = true ↔ 0.15 * (h.length : ℝ) < farDots h ∨ 0.15 * (v.length : ℝ) < farDots v)

/-- Pixel `p` of the corrected image is read in `m` at the place to which the model moves it, or at the nearest place of the frame. -/
def ReadsBackward (sample : Mat ℝ → ℝ → ℝ → ℝ) (rnd : ℝ → ℝ) (m : Mat ℝ) (c : Pt) (coefs : List ℝ) (out : Mat ℝ) : Prop :=
  out.height = m.height ∧ out.width = m.width ∧ ∀ i < m.height, ∀ j < m.width,
    out.get i j = sample m (rnd (clampTo ((m.height : ℝ) - 1) (radialMap c coefs ⟨i, j⟩).y)) (rnd (clampTo ((m.width : ℝ) - 1) (radialMap c coefs ⟨i, j⟩).x))

/-- The pixels of `m` are moved to the pixels on which they land; where several land the last counts, elsewhere the image is zero. -/
def MovesForward (m : Mat ℝ) (c : Pt) (coefs : List ℝ) (out : Mat ℝ) : Prop :=
  out.height = m.height ∧ out.width = m.width ∧ ∀ q : ℕ × ℕ, q.1 < m.height → q.2 < m.width →
    ((∀ p : ℕ × ℕ, p.1 < m.height → p.2 < m.width → ¬ LandsAt m.height m.width c coefs p q) → out.get q.1 q.2 = 0) ∧
    ∀ p : ℕ × ℕ, p.1 < m.height → p.2 < m.width → LandsAt m.height m.width c coefs p q →
      (∀ p' : ℕ × ℕ, p'.1 < m.height → p'.2 < m.width → RowMajorLT p p' → ¬ LandsAt m.height m.width c coefs p' q) →
      out.get q.1 q.2 = m.get p.1 p.2

end Discorpy.Spec
