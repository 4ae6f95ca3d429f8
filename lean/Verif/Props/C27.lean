import Verif.Lemmas.RadialFit

/-! # C27, C28: re-centring and independence of the image origin -/

namespace Discorpy

open Spec

/-- **C27.** Adding the centre back to the dots that the fit returned relative to it gives the original lines. -/
theorem C27_undo (pf : PolyfitFn) (lines : List (List Pt)) (xc yc : ℝ) (coefs : List Para) (shifted : List (List Pt))
    (h : paraFitHor pf lines xc yc = .ok (coefs, shifted) ∨ paraFitVer pf lines xc yc = .ok (coefs, shifted)) :
    updateCenter shifted xc yc = lines := by
  have e : shifted = lines.map (shiftLine xc yc) := by
    rcases h with h | h
    · unfold paraFitHor at h
      rw [bind_ok_iff] at h
      obtain ⟨_, _, h⟩ := h
      exact (Prod.mk.inj (Except.ok.inj h)).2.symm
    · unfold paraFitVer at h
      rw [bind_ok_iff] at h
      obtain ⟨_, _, h⟩ := h
      exact (Prod.mk.inj (Except.ok.inj h)).2.symm
  rw [e]
  unfold updateCenter shiftLine
  simp [List.map_map, Function.comp_def]

/-- A line of three dots seen from `(1, 1)`. -/
example : ∃ coefs shifted, paraFitHor refPolyfit [[⟨0, 0⟩, ⟨1, 1⟩, ⟨4, 2⟩]] 1 1 = .ok (coefs, shifted) ∧ updateCenter shifted 1 1 = [[⟨0, 0⟩, ⟨1, 1⟩, ⟨4, 2⟩]] := by
  obtain ⟨coefs, h, _⟩ := paraFitHor_ok refPolyfit_spec (lines := [[⟨0, 0⟩, ⟨1, 1⟩, ⟨4, 2⟩]]) (by simp) 1 1
  exact ⟨coefs, _, h, C27_undo _ _ _ _ _ _ (.inl h)⟩

/-- **C27** (shape and displacement): the dots are the input dots displaced by the centre, in order. -/
theorem C27_dots (lines : List (List Pt)) (xc yc : ℝ) :
    (updateCenter lines xc yc).length = lines.length ∧
    ∀ i j : ℕ, (entry (updateCenter lines xc yc) i j) = (entry lines i j).map fun p => ⟨p.y + yc, p.x + xc⟩ := by
  refine ⟨by simp [updateCenter], fun i j => ?_⟩
  unfold entry updateCenter
  rw [List.getElem?_map]
  cases lines[i]? <;> simp

/-- **C27** (composition): two displacements add up; displacing back undoes it. -/
theorem C27_compose (lines : List (List Pt)) (x y x' y' : ℝ) :
    updateCenter (updateCenter lines x y) x' y' = updateCenter lines (x + x') (y + y') ∧
    updateCenter (updateCenter lines x y) (-x) (-y) = lines := by
  constructor
  · simp [updateCenter, List.map_map, Function.comp_def, add_assoc]
  · simp [updateCenter, List.map_map, Function.comp_def]

theorem paraHor_shift (pf : PolyfitFn) (xc yc dx dy : ℝ) (line : List Pt) :
    paraHor pf (xc + dx) (yc + dy) (line.map fun p => ⟨p.y + dy, p.x + dx⟩) = paraHor pf xc yc line := by
  unfold paraHor
  simp [List.map_map, Function.comp_def]

theorem paraVer_shift (pf : PolyfitFn) (xc yc dx dy : ℝ) (line : List Pt) :
    paraVer pf (xc + dx) (yc + dy) (line.map fun p => ⟨p.y + dy, p.x + dx⟩) = paraVer pf xc yc line := by
  unfold paraVer
  simp [List.map_map, Function.comp_def]

theorem paraFitHor_shift (pf : PolyfitFn) (xc yc dx dy : ℝ) (lines : List (List Pt)) :
    paraFitHor pf (moveDots lines dx dy) (xc + dx) (yc + dy) = paraFitHor pf lines xc yc := by
  unfold paraFitHor moveDots
  rw [mapM_map', mapM_congr' (g := paraHor pf xc yc) (fun l _ => paraHor_shift pf xc yc dx dy l)]
  simp [shiftLine, List.map_map, Function.comp_def]
  rfl

theorem paraFitVer_shift (pf : PolyfitFn) (xc yc dx dy : ℝ) (lines : List (List Pt)) :
    paraFitVer pf (moveDots lines dx dy) (xc + dx) (yc + dy) = paraFitVer pf lines xc yc := by
  unfold paraFitVer moveDots
  rw [mapM_map', mapM_congr' (g := paraVer pf xc yc) (fun l _ => paraVer_shift pf xc yc dx dy l)]
  simp [shiftLine, List.map_map, Function.comp_def]
  rfl

theorem calcUndistorIntercept_shift (pf : PolyfitFn) (minimize : (ℝ → ℝ) → ℝ → ℝ) (hor ver : List (List Pt))
    (xc yc dx dy : ℝ) (optimizing : Bool) (threshold : ℝ) :
    calcUndistorIntercept pf minimize (moveDots hor dx dy) (moveDots ver dx dy) (xc + dx) (yc + dy) optimizing threshold =
      calcUndistorIntercept pf minimize hor ver xc yc optimizing threshold := by
  unfold calcUndistorIntercept
  rw [paraFitHor_shift, paraFitVer_shift]
  simp only [moveDots, List.length_map]

/-- **C28.** Moving all dots and the centre by the same vector changes none of the three results (values, warnings and
errors alike). -/
theorem C28_origin (pf : PolyfitFn) (lstsq : LstsqFn) (minimize : (ℝ → ℝ) → ℝ → ℝ) (hor ver : List (List Pt))
    (xc yc dx dy : ℝ) (numFact : ℤ) (optimizing : Bool) (threshold : ℝ) :
    calcCoefBackward pf lstsq minimize (moveDots hor dx dy) (moveDots ver dx dy) (xc + dx) (yc + dy) numFact optimizing
        threshold = calcCoefBackward pf lstsq minimize hor ver xc yc numFact optimizing threshold ∧
    calcCoefForward pf lstsq minimize (moveDots hor dx dy) (moveDots ver dx dy) (xc + dx) (yc + dy) numFact optimizing
        threshold = calcCoefForward pf lstsq minimize hor ver xc yc numFact optimizing threshold ∧
    calcCoefBackwardFromForward pf lstsq minimize (moveDots hor dx dy) (moveDots ver dx dy) (xc + dx) (yc + dy) numFact
        optimizing threshold = calcCoefBackwardFromForward pf lstsq minimize hor ver xc yc numFact optimizing threshold := by
  have hf : calcCoefForward pf lstsq minimize (moveDots hor dx dy) (moveDots ver dx dy) (xc + dx) (yc + dy) numFact optimizing
      threshold = calcCoefForward pf lstsq minimize hor ver xc yc numFact optimizing threshold := by
    unfold calcCoefForward
    rw [calcUndistorIntercept_shift, paraFitHor_shift, paraFitVer_shift]
  refine ⟨?_, hf, ?_⟩
  · unfold calcCoefBackward
    rw [calcUndistorIntercept_shift, paraFitHor_shift, paraFitVer_shift]
  · unfold calcCoefBackwardFromForward
    rw [hf, paraFitHor_shift, paraFitVer_shift]

/-- Non-vacuity: moving two dots. -/
example : moveDots [[⟨1, 2⟩], [⟨3, 4⟩]] 10 20 = [[⟨21, 12⟩], [⟨23, 14⟩]] := by
  simp [moveDots]; norm_num

end Discorpy
