import Verif.Spec.Lines

/-! # Specification: deviation of dots from straight lines -/

namespace Discorpy.Spec

open Discorpy

/-- The sum of the squared vertical distances of all dots from straight lines, one line `y = a·x + b` for each line of dots. -/
noncomputable def offLinesHor (lines : List (List Pt)) (guess : List Pt → ℝ × ℝ) : ℝ :=
  (lines.map fun l => (l.map fun p => ((guess l).1 * p.x + (guess l).2 - p.y) ^ 2).sum).sum

/-- The sum of the squared horizontal distances of all dots from straight lines, one line `x = a·y + b` for each line of dots. -/
noncomputable def offLinesVer (lines : List (List Pt)) (guess : List Pt → ℝ × ℝ) : ℝ :=
  (lines.map fun l => (l.map fun p => ((guess l).1 * p.y + (guess l).2 - p.x) ^ 2).sum).sum

/-- The number of dots. -/
def numDots (lines : List (List Pt)) : ℕ := (lines.map List.length).sum

/-- The dots of the second list of lines are those of the first one, each moved by at most `d`. -/
def MovedBy (d : ℝ) (lines lines' : List (List Pt)) : Prop := List.Forall₂ (List.Forall₂ fun p q => ptDist p q ≤ d) lines lines'

end Discorpy.Spec
