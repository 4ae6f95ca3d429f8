import Verif.Lemmas.Symmetry
import Verif.Lemmas.SymmetryFit
import Verif.Props.C11

/-! # C95 — exchanging rows and columns -/

namespace Discorpy

open Spec

/-! ## Images -/

/-- **C95 (image, radial).** The corrected image of the transposed image, with the coordinates of the centre exchanged, is the transposed
corrected image. -/
theorem C95_image (B B' : Boundary) (rnd : ℝ → ℝ) (hr : CoordRounding rnd) (m m' : Mat ℝ) (h : IsTransposed m m') (hh : m.height ≤ 2 ^ 24)
    (hw : m.width ≤ 2 ^ 24) (xc yc : ℝ) (f : List ℝ) :
    IsTransposed (unwarpImageBackward (linearInterp B) rnd m xc yc f) (unwarpImageBackward (linearInterp B') rnd m' yc xc f) := by
  obtain ⟨h1, h2, h3⟩ := id h
  refine ⟨h1, h2, fun i hi j hj => ?_⟩
  replace hi : i < m.height := hi
  replace hj : j < m.width := hj
  have hp : 0 < m.height := by omega
  have wp : 0 < m.width := by omega
  simp only [unwarpImageBackward, h1, h2]
  rw [add_comm (((i : ℕ) - yc : ℝ) ^ 2)]
  set g := polySum f √(((j : ℝ) - xc) ^ 2 + ((i : ℝ) - yc) ^ 2)
  have hf := inFrame_rnd hr (inFrame_clip hp wp (yc + g * (i - yc)) (xc + g * (j - xc))) hp wp hh hw
  rw [linearInterp_eq _ _ hf, linearInterp_eq _ _ (h.inFrame hf), bilinear_transposed h hf]

/-- **C95 (image, perspective).** The same for the perspective correction, with the coefficients exchanged accordingly. -/
theorem C95_perspective_image (B B' : Boundary) (rnd : ℝ → ℝ) (hr : CoordRounding rnd) (m m' : Mat ℝ) (h : IsTransposed m m')
    (hh : m.height ≤ 2 ^ 24) (hw : m.width ≤ 2 ^ 24) (c1 c2 c3 c4 c5 c6 c7 c8 : ℝ) :
    ∃ r r', correctPerspectiveImage (linearInterp B) rnd m [c1, c2, c3, c4, c5, c6, c7, c8] none = .ok r ∧
      correctPerspectiveImage (linearInterp B') rnd m' [c5, c4, c6, c2, c1, c3, c8, c7] none = .ok r' ∧ IsTransposed r r' := by
  obtain ⟨h1, h2, h3⟩ := id h
  refine ⟨_, _, rfl, rfl, h1, h2, fun i hi j hj => ?_⟩
  replace hi : i < m.height := hi
  replace hj : j < m.width := hj
  have hp : 0 < m.height := by omega
  have wp : 0 < m.width := by omega
  simp only [h1, h2]
  rw [add_comm (c8 * (i : ℝ)), add_comm (c5 * (i : ℝ)), add_comm (c2 * (i : ℝ))]
  have hf := inFrame_rnd hr (inFrame_clip hp wp ((c4 * (j : ℝ) + c5 * (i : ℝ) + c6) / (c7 * (j : ℝ) + c8 * (i : ℝ) + 1))
    ((c1 * (j : ℝ) + c2 * (i : ℝ) + c3) / (c7 * (j : ℝ) + c8 * (i : ℝ) + 1))) hp wp hh hw
  rw [linearInterp_eq _ _ hf, linearInterp_eq _ _ (h.inFrame hf), bilinear_transposed h hf]

theorem landsAt_swap (h w : ℕ) (xc yc : ℝ) (f : List ℝ) (p q : ℕ × ℕ) : LandsAt w h ⟨xc, yc⟩ f p.swap q.swap ↔ LandsAt h w ⟨yc, xc⟩ f p q := by
  unfold LandsAt
  rw [and_comm]
  have e : radialMap ⟨xc, yc⟩ f ⟨p.2, p.1⟩ = swapPt (radialMap ⟨yc, xc⟩ f ⟨p.1, p.2⟩) := by
    simp only [radialMap, swapPt, ptDist]
    rw [add_comm ((p.1 - yc : ℝ) ^ 2)]
  simp only [Prod.fst_swap, Prod.snd_swap, e, swapPt]

/-- **C95 (image, forward).** `unwarp_image_forward` treats rows and columns alike as long as no two pixels are moved to the same place … -/
theorem C95_forward_image (m m' : Mat ℝ) (h : IsTransposed m m') (hh : 0 < m.height) (hw : 0 < m.width) (xc yc : ℝ) (f : List ℝ)
    (hi : ∀ p p' q : ℕ × ℕ, p.1 < m.height → p.2 < m.width → p'.1 < m.height → p'.2 < m.width →
      LandsAt m.height m.width ⟨yc, xc⟩ f p q → LandsAt m.height m.width ⟨yc, xc⟩ f p' q → p = p') :
    ∃ out out', unwarpImageForward m xc yc f = .ok out ∧ unwarpImageForward m' yc xc f = .ok out' ∧ IsTransposed out out' := by
  obtain ⟨h1, h2, h3⟩ := h
  obtain ⟨out, e, a1, a2, H⟩ := C11_forward_scatter m xc yc f hh hw
  obtain ⟨out', e', b1, b2, H'⟩ := C11_forward_scatter m' yc xc f (by omega) (by omega)
  have sw : ∀ p q : ℕ × ℕ, LandsAt m'.height m'.width ⟨xc, yc⟩ f p q ↔ LandsAt m.height m.width ⟨yc, xc⟩ f p.swap q.swap := by
    intro p q
    rw [h1, h2, ← landsAt_swap m.height m.width xc yc f p.swap q.swap, Prod.swap_swap, Prod.swap_swap]
  refine ⟨out, out', e, e', by rw [b1, h1, a2], by rw [b2, h2, a1], fun i hi' j hj => ?_⟩
  rw [a1] at hi'
  rw [a2] at hj
  obtain ⟨v1, v2⟩ := H (i, j) hi' hj
  obtain ⟨v1', v2'⟩ := H' (j, i) (by rw [h1]; exact hj) (by rw [h2]; exact hi')
  by_cases hp : ∃ p : ℕ × ℕ, p.1 < m.height ∧ p.2 < m.width ∧ LandsAt m.height m.width ⟨yc, xc⟩ f p (i, j)
  · obtain ⟨p, p1, p2, hl⟩ := hp
    have g1 := v2 p p1 p2 hl fun p' q1 q2 hlt hl' => by
      obtain rfl := hi p p' (i, j) p1 p2 q1 q2 hl hl'
      rcases hlt with hlt | ⟨_, hlt⟩ <;> exact lt_irrefl _ hlt
    have g2 := v2' p.swap (by rw [h1]; exact p2) (by rw [h2]; exact p1) ((sw _ _).2 (by simpa using hl)) fun p' q1 q2 hlt hl' => by
      have hp' := hi p p'.swap (i, j) p1 p2 (by rw [← h2]; exact q2) (by rw [← h1]; exact q1) hl (by simpa using (sw _ _).1 hl')
      rw [hp', Prod.swap_swap] at hlt
      rcases hlt with hlt | ⟨_, hlt⟩ <;> exact lt_irrefl _ hlt
    simp only at g1 g2
    rw [g1, g2]
    exact h3 _ p1 _ p2
  · push Not at hp
    have g1 := v1 fun p p1 p2 => hp p p1 p2
    have g2 := v1' fun p p1 p2 hl => hp p.swap (by rw [← h2]; exact p2) (by rw [← h1]; exact p1) ((sw _ _).1 hl)
    simp only at g1 g2
    rw [g1, g2]

/-- … but not otherwise: of two pixels moved to the same place the one further down wins, not the one further right. In an image of 2 × 2
pixels with the centre in the corner and the model `r² - 1` the pixels (0, 1) and (1, 0) are both moved to the corner. -/
theorem C95_forward_image_fold : ∃ (m m' : Mat ℝ) (xc yc : ℝ) (f : List ℝ) (out out' : Mat ℝ), 0 < m.height ∧ 0 < m.width ∧ IsTransposed m m' ∧
    unwarpImageForward m xc yc f = .ok out ∧ unwarpImageForward m' yc xc f = .ok out' ∧ ¬ IsTransposed out out' := by
  have key : ∀ g : ℕ → ℕ → ℝ, ∃ out, unwarpImageForward ⟨2, 2, g⟩ 0 0 [-1, 0, 1] = .ok out ∧ out.height = 2 ∧ out.width = 2 ∧ out.get 0 0 = g 1 0 := by
    intro g
    obtain ⟨out, e, a1, a2, H⟩ := C11_forward_scatter ⟨2, 2, g⟩ 0 0 [-1, 0, 1] (by norm_num) (by norm_num)
    refine ⟨out, e, a1, a2, (H (0, 0) (by norm_num) (by norm_num)).2 (1, 0) (by norm_num) (by norm_num) ?_ ?_⟩
    · constructor <;> left <;> norm_num [radialMap, radial, clampTo, ptDist, Fin.sum_univ_succ]
    · rintro ⟨a, b⟩ ha hb hlt ⟨hl, _⟩
      simp only [RowMajorLT] at ha hb hlt
      obtain ⟨rfl, rfl⟩ : a = 1 ∧ b = 1 := by omega
      have h2 : radial [-1, 0, 1] √(2 : ℝ) = 1 := by
        rw [radial_getD]
        norm_num [Finset.sum_range_succ]
      rcases hl with hl | ⟨hl, _⟩ <;> norm_num [radialMap, clampTo, ptDist, h2] at hl
  obtain ⟨out, e, a1, a2, a3⟩ := key fun i j => (10 * i + j : ℕ)
  obtain ⟨out', e', b1, b2, b3⟩ := key fun i j => (10 * j + i : ℕ)
  refine ⟨_, _, 0, 0, _, out, out', by norm_num, by norm_num, ⟨rfl, rfl, fun i _ j _ => rfl⟩, e, e', fun h => ?_⟩
  have := h.2.2 0 (by omega) 0 (by omega)
  rw [a3, b3] at this
  norm_num at this

/-! ## Lines of dots -/

theorem swapLines_twice (l : List (List Pt)) : swapLines (swapLines l) = l := by
  simp [swapLines, swapPt, Function.comp_def]

/-- **C95 (lines).** The corrections of lines of dots, radial and perspective, treat the two coordinates alike. -/
theorem C95_lines (minimize : (ℝ → ℝ) → ℝ → ℝ) (store : ℝ → ℝ) (lines : List (List Pt)) (xc yc : ℝ) (f : List ℝ) (c1 c2 c3 c4 c5 c6 c7 c8 : ℝ) :
    unwarpLineForward store (swapLines lines) yc xc f = swapLines (unwarpLineForward store lines xc yc f) ∧
    unwarpLineBackward minimize store (swapLines lines) yc xc f = swapLines (unwarpLineBackward minimize store lines xc yc f) ∧
    ∀ out, correctPerspectiveLine lines [c1, c2, c3, c4, c5, c6, c7, c8] = .ok out →
      correctPerspectiveLine (swapLines lines) [c5, c4, c6, c2, c1, c3, c8, c7] = .ok (swapLines out) := by
  refine ⟨?_, ?_, fun out h => ?_⟩
  · simp only [unwarpLineForward, swapLines, List.map_map, Function.comp_def, swapPt]
    refine List.map_congr_left fun l _ => List.map_congr_left fun p _ => ?_
    rw [add_comm ((p.y - yc) * (p.y - yc))]
  · simp only [unwarpLineBackward, swapLines, List.map_map]
    refine List.map_congr_left fun l _ => ?_
    simp only [Function.comp_apply, List.map_map]
    refine List.map_congr_left fun p _ => ?_
    simp only [Function.comp_apply]
    have e : √(((swapPt p).x - yc) * ((swapPt p).x - yc) + ((swapPt p).y - xc) * ((swapPt p).y - xc)) =
        √((p.x - xc) * (p.x - xc) + (p.y - yc) * (p.y - yc)) := by
      rw [add_comm]
      rfl
    simp only [e]
    rfl
  · have e : (swapLines lines).any List.isEmpty = lines.any List.isEmpty := by
      simp [swapLines, List.any_map, Function.comp_def]
    simp only [correctPerspectiveLine] at h ⊢
    rw [e]
    split_ifs at h ⊢
    cases h
    congr 1
    simp only [swapLines, List.map_map, Function.comp_def, swapPt]
    refine List.map_congr_left fun l _ => List.map_congr_left fun p _ => ?_
    rw [add_comm (c8 * p.y), add_comm (c5 * p.y), add_comm (c2 * p.y)]

/-! ## Centre -/

theorem paraVer_swap (pf : PolyfitFn) (xc yc : ℝ) (l : List Pt) : paraVer pf yc xc (l.map swapPt) = paraHor pf xc yc l := by
  simp [paraVer, paraHor, swapPt, Function.comp_def]

theorem paraHor_swap (pf : PolyfitFn) (xc yc : ℝ) (l : List Pt) : paraHor pf yc xc (l.map swapPt) = paraVer pf xc yc l := by
  simp [paraVer, paraHor, swapPt, Function.comp_def]

theorem shiftLine_swap (xc yc : ℝ) (lines : List (List Pt)) : (swapLines lines).map (shiftLine yc xc) = swapLines (lines.map (shiftLine xc yc)) := by
  simp [swapLines, shiftLine, swapPt, Function.comp_def]

theorem paraFitVer_swap {pf : PolyfitFn} {lines : List (List Pt)} {xc yc : ℝ} {c : List Para} {s : List (List Pt)} (h : paraFitHor pf lines xc yc = .ok (c, s)) :
    paraFitVer pf (swapLines lines) yc xc = .ok (c, swapLines s) := by
  unfold paraFitHor at h
  unfold paraFitVer
  rw [bind_ok_iff] at h
  obtain ⟨q, e, h⟩ := h
  cases h
  rw [swapLines, mapM_map']
  simp only [paraVer_swap]
  rw [e, ok_bind, ← swapLines, shiftLine_swap]

theorem paraFitHor_swap {pf : PolyfitFn} {lines : List (List Pt)} {xc yc : ℝ} {c : List Para} {s : List (List Pt)} (h : paraFitVer pf lines xc yc = .ok (c, s)) :
    paraFitHor pf (swapLines lines) yc xc = .ok (c, swapLines s) := by
  unfold paraFitVer at h
  unfold paraFitHor
  rw [bind_ok_iff] at h
  obtain ⟨q, e, h⟩ := h
  cases h
  rw [swapLines, mapM_map']
  simp only [paraHor_swap]
  rw [e, ok_bind, ← swapLines, shiftLine_swap]

theorem findCodCoarse_swap {pf : PolyfitFn} {hor ver : List (List Pt)} {c : Pt} (h : findCodCoarse pf hor ver = .ok c) :
    findCodCoarse pf (swapLines ver) (swapLines hor) = .ok (swapPt c) := by
  unfold findCodCoarse at h
  simp only [bind_ok_iff] at h
  obtain ⟨⟨ch, sh⟩, e1, ⟨cv, sv⟩, e2, ph, e3, pv, e4, h0, e5, h1, e6, v0, e7, v1, e8, y, e9, x, e10, h⟩ := h
  cases h
  unfold findCodCoarse
  have a1 := paraFitHor_swap e2
  have a2 := paraFitVer_swap e1
  rw [a1, ok_bind]
  simp only
  rw [a2, ok_bind]
  simp only
  rw [e4, ok_bind, e3, ok_bind, e7, ok_bind, e8, ok_bind, e5, ok_bind, e6, ok_bind]
  rw [mul_comm ((v0.b + v1.b) * 0.5), e10, ok_bind, e9, ok_bind]
  rfl

theorem baileyStep_swap {pf : PolyfitFn} {hor ver : List (List Pt)} {c d : Pt} (h : baileyStep pf hor ver c = .ok d) :
    baileyStep pf (swapLines ver) (swapLines hor) (swapPt c) = .ok (swapPt d) := by
  unfold baileyStep at h
  rw [bind_ok_iff] at h
  obtain ⟨⟨ch, sh⟩, e1, h⟩ := h
  rw [bind_ok_iff] at h
  obtain ⟨⟨cv, sv⟩, e2, h⟩ := h
  simp only at h
  split_ifs at h with hc
  simp only [bind_ok_iff] at h
  obtain ⟨l1, e3, l2, e4, dx, e5, dy, e6, h⟩ := h
  cases h
  unfold baileyStep
  have a1 := paraFitHor_swap e2
  have a2 := paraFitVer_swap e1
  simp only [swapPt]
  rw [a1, ok_bind]
  simp only
  rw [a2, ok_bind]
  simp only
  rw [if_neg (by tauto), e4, ok_bind, e3, ok_bind, e6, ok_bind, e5, ok_bind]

theorem findCodBailey_swap {pf : PolyfitFn} {hor ver : List (List Pt)} {n : ℕ} {c : Pt} (h : findCodBailey pf hor ver n = .ok c) :
    findCodBailey pf (swapLines ver) (swapLines hor) n = .ok (swapPt c) := by
  unfold findCodBailey at h
  simp only [bind_ok_iff] at h
  obtain ⟨c0, e0, c1, e1, h⟩ := h
  unfold findCodBailey
  rw [findCodCoarse_swap e0, ok_bind, baileyStep_swap e1, ok_bind]
  generalize List.range n = l at h
  clear e0 e1
  induction l generalizing c1 with
  | nil =>
    simp only [List.foldlM_nil] at h ⊢
    cases h
    rfl
  | cons a l ih =>
    simp only [List.foldlM_cons, bind_ok_iff] at h
    obtain ⟨c2, e2, h⟩ := h
    rw [List.foldlM_cons, baileyStep_swap e2, ok_bind]
    exact ih _ h

/-- **C95 (centre).** Exchanging the coordinates and the roles of horizontal and vertical lines exchanges the coordinates of the centre
found, by the coarse method and by the method of Bailey. -/
theorem C95_centre (pf : PolyfitFn) (hor ver : List (List Pt)) (iteration : ℕ) (c : Pt) :
    (findCodCoarse pf hor ver = .ok c ↔ findCodCoarse pf (swapLines ver) (swapLines hor) = .ok (swapPt c)) ∧
    (findCodBailey pf hor ver iteration = .ok c ↔ findCodBailey pf (swapLines ver) (swapLines hor) iteration = .ok (swapPt c)) := by
  refine ⟨⟨findCodCoarse_swap, fun h => ?_⟩, ⟨findCodBailey_swap, fun h => ?_⟩⟩
  · have := findCodCoarse_swap h
    rwa [swapLines_twice, swapLines_twice] at this
  · have := findCodBailey_swap h
    rwa [swapLines_twice, swapLines_twice] at this

/-! ## Residuals -/

/-- **C95 (residuals).** The residuals of horizontal lines are those of the vertical lines with exchanged coordinates. -/
theorem C95_residual (pf : PolyfitFn) (argsort : List ℝ → List ℕ) (lines : List (List Pt)) (xc yc : ℝ) :
    calcResidualVer pf argsort (swapLines lines) yc xc = calcResidualHor pf argsort lines xc yc := by
  unfold calcResidualVer calcResidualHor
  have : ∀ l : List Pt, residualLineVer pf yc xc (l.map swapPt) = residualLineHor pf xc yc l := by
    intro l
    unfold residualLineVer residualLineHor
    simp only [List.map_map, Function.comp_def, swapPt, List.map_eq_nil_iff]
    split_ifs
    · rfl
    · split
      · congr 1
        simp only [List.zipWith_map, List.zipWith_self]
        refine List.map_congr_left fun p _ => ?_
        rw [add_comm ((p.y - yc) ^ 2)]
      · rfl
  rw [swapLines, mapM_map']
  simp only [this]

/-! ## Models -/

theorem calcUndistorIntercept_swap {pf : PolyfitFn} {minimize : (ℝ → ℝ) → ℝ → ℝ} {hor ver : List (List Pt)} {xc yc : ℝ} {optimizing : Bool} {threshold : ℝ}
    {uh uv : List ℝ} {w : Bool} (h : calcUndistorIntercept pf minimize hor ver xc yc optimizing threshold = .ok (uh, uv, w)) :
    calcUndistorIntercept pf minimize (swapLines ver) (swapLines hor) yc xc optimizing threshold = .ok (uv, uh, w) := by
  unfold calcUndistorIntercept at h
  rw [bind_ok_iff] at h
  obtain ⟨⟨ch, sh⟩, e1, h⟩ := h
  simp only at h
  rw [bind_ok_iff] at h
  obtain ⟨⟨cv, sv⟩, e2, h⟩ := h
  simp only at h
  rw [bind_ok_iff] at h
  obtain ⟨w', ew, h⟩ := h
  simp only [bind_ok_iff] at h
  obtain ⟨uh', e3, uv', e4, h⟩ := h
  cases h
  unfold checkMissingLines at ew
  simp only [bind_ok_iff] at ew
  obtain ⟨m1, f1, m2, f2, ew⟩ := ew
  cases ew
  have a1 := paraFitHor_swap e2
  have a2 := paraFitVer_swap e1
  unfold calcUndistorIntercept
  rw [a1, ok_bind]
  simp only
  rw [a2, ok_bind]
  simp only [checkMissingLines]
  rw [f2, ok_bind, f1, ok_bind, ok_bind]
  have l1 : (swapLines hor).length = hor.length := by simp [swapLines]
  have l2 : (swapLines ver).length = ver.length := by simp [swapLines]
  rw [l1, l2, min_comm (((ver.length / 2 : ℕ) : ℤ) - 1), e4, ok_bind, e3, ok_bind, Bool.or_comm]

theorem fit_lengths {pf : PolyfitFn} {hor : List (List Pt)} {xc yc : ℝ} {ch : List Para} {sh : List (List Pt)} (h : paraFitHor pf hor xc yc = .ok (ch, sh)) :
    ch.length = hor.length ∧ sh = hor.map (shiftLine xc yc) := by
  unfold paraFitHor at h
  rw [bind_ok_iff] at h
  obtain ⟨q, e, h⟩ := h
  cases h
  exact ⟨(List.Forall₂.length_eq (mapM_ok_iff.1 e)).symm, rfl⟩

theorem fit_lengths_ver {pf : PolyfitFn} {ver : List (List Pt)} {xc yc : ℝ} {cv : List Para} {sv : List (List Pt)} (h : paraFitVer pf ver xc yc = .ok (cv, sv)) :
    cv.length = ver.length ∧ sv = ver.map (shiftLine xc yc) := by
  unfold paraFitVer at h
  rw [bind_ok_iff] at h
  obtain ⟨q, e, h⟩ := h
  cases h
  exact ⟨(List.Forall₂.length_eq (mapM_ok_iff.1 e)).symm, rfl⟩

theorem swap_radius (p : Pt) : √((swapPt p).x * (swapPt p).x + (swapPt p).y * (swapPt p).y) = 1 * √(p.x * p.x + p.y * p.y) := by
  rw [one_mul, add_comm]
  rfl

/-- **C95 (forward model).** With exchanged coordinates and roles of the lines the forward model is found again: it has the same values at the
distances of all dots that count and so, if there are as many different distances as coefficients, the same coefficients. -/
theorem C95_forward (pf : PolyfitFn) (lstsq : LstsqFn) (hls : LstsqSpec lstsq) (minimize : (ℝ → ℝ) → ℝ → ℝ) (hor ver : List (List Pt)) (xc yc : ℝ)
    (numFact : ℤ) (optimizing : Bool) (threshold : ℝ) (k : List ℝ) (w : Bool)
    (h : calcCoefForward pf lstsq minimize hor ver xc yc numFact optimizing threshold = .ok (k, w)) :
    ∃ k' uh uv, calcCoefForward pf lstsq minimize (swapLines ver) (swapLines hor) yc xc numFact optimizing threshold = .ok (k', w) ∧
      calcUndistorIntercept pf minimize hor ver xc yc optimizing threshold = .ok (uh, uv, w) ∧ k'.length = k.length ∧
      (∀ r, ForwardRadius uh hor ⟨yc, xc⟩ r ∨ ForwardRadius uv ver ⟨yc, xc⟩ r → radial k' r = radial k r) ∧
      ((∃ rs : List ℝ, rs.Nodup ∧ rs.length = k.length ∧ ∀ r ∈ rs, ForwardRadius uh hor ⟨yc, xc⟩ r ∨ ForwardRadius uv ver ⟨yc, xc⟩ r) → k' = k) := by
  unfold calcCoefForward at h
  simp only at h
  rw [bind_ok_iff] at h
  obtain ⟨⟨uh, uv, w'⟩, eu, h⟩ := h
  simp only at h
  rw [bind_ok_iff] at h
  obtain ⟨⟨ch, sh⟩, e1, h⟩ := h
  simp only at h
  rw [bind_ok_iff] at h
  obtain ⟨⟨cv, sv⟩, e2, h⟩ := h
  simp only [bind_ok_iff] at h
  obtain ⟨r1, e3, r2, e4, k0, e5, h⟩ := h
  cases h
  set n := numFactors numFact
  obtain ⟨l1, rfl⟩ := fit_lengths e1
  obtain ⟨l2, rfl⟩ := fit_lengths_ver e2
  obtain ⟨d1, R1, g1, d1'⟩ := forRows_forward (along' := Pt.y) (ψ := id) (φ := swapPt) one_ne_zero swap_radius (fun q p => by rw [one_mul]; rfl) e3
  obtain ⟨d2, R2, g2, d2'⟩ := forRows_forward (along' := Pt.x) (ψ := id) (φ := swapPt) one_ne_zero swap_radius (fun q p => by rw [one_mul]; rfl) e4
  simp only [List.map_id, one_mul, List.map_id'] at g1 g2
  set D1 := (samplesOf ch uh (hor.map (shiftLine xc yc)) (forwardData Pt.x)).flatten
  set D2 := (samplesOf cv uv (ver.map (shiftLine xc yc)) (forwardData Pt.y)).flatten
  rw [d1, d2, ← List.map_append] at e5
  have hne : D1 ++ D2 ≠ [] := by
    intro h0
    rw [h0] at e5
    simp [lstsqChecked] at e5
  obtain ⟨k1, k', f1, f2, f3, f4, hv⟩ := lsq_same_values hls hls n one_pos (List.perm_append_comm (l₁ := D2) (l₂ := D1)) hne
  rw [e5] at f1
  cases f1
  have hval : ∀ r, ForwardRadius uh hor ⟨yc, xc⟩ r ∨ ForwardRadius uv ver ⟨yc, xc⟩ r → radial k' r = radial k r := by
    intro r hr
    rcases hr with hr | hr
    · obtain ⟨v, hm⟩ := forwardRadius_mem (along := Pt.x) l1 hr
      simpa using hv (r, v) (List.mem_append_left _ hm)
    · obtain ⟨v, hm⟩ := forwardRadius_mem (along := Pt.y) l2 hr
      simpa using hv (r, v) (List.mem_append_right _ hm)
  refine ⟨k', uh, uv, ?_, eu, by rw [f3, f4], hval, fun ⟨rs, a, b, c⟩ => radial_determined (by rw [f3, f4]) a b fun r hr => hval r (c r hr)⟩
  have a1 := paraFitHor_swap e2
  have a2 := paraFitVer_swap e1
  unfold calcCoefForward
  simp only
  rw [calcUndistorIntercept_swap eu, ok_bind]
  simp only
  rw [a1, ok_bind]
  simp only
  rw [a2, ok_bind]
  simp only
  change (rowsOf (forwardRow n) Pt.x cv uv ((ver.map (shiftLine xc yc)).map fun l => l.map swapPt) >>= _) = _
  rw [g2, ok_bind]
  change (rowsOf (forwardRow n) Pt.y ch uh ((hor.map (shiftLine xc yc)).map fun l => l.map swapPt) >>= _) = _
  rw [g1, ok_bind, d1', d2', ← List.map_append, f2, ok_bind]

/-- **C95 (backward model).** The same for the backward model, at the undistorted radii of the dots. -/
theorem C95_backward (pf : PolyfitFn) (lstsq : LstsqFn) (hls : LstsqSpec lstsq) (minimize : (ℝ → ℝ) → ℝ → ℝ) (hor ver : List (List Pt)) (xc yc : ℝ)
    (numFact : ℤ) (optimizing : Bool) (threshold : ℝ) (k : List ℝ) (w : Bool)
    (h : calcCoefBackward pf lstsq minimize hor ver xc yc numFact optimizing threshold = .ok (k, w)) :
    ∃ k' ch cv uh uv, calcCoefBackward pf lstsq minimize (swapLines ver) (swapLines hor) yc xc numFact optimizing threshold = .ok (k', w) ∧
      calcUndistorIntercept pf minimize hor ver xc yc optimizing threshold = .ok (uh, uv, w) ∧
      paraFitHor pf hor xc yc = .ok (ch, hor.map (shiftLine xc yc)) ∧ paraFitVer pf ver xc yc = .ok (cv, ver.map (shiftLine xc yc)) ∧
      k'.length = k.length ∧
      (∀ r, BackwardRadius Pt.x ch uh hor ⟨yc, xc⟩ r ∨ BackwardRadius Pt.y cv uv ver ⟨yc, xc⟩ r → radial k' r = radial k r) ∧
      ((∃ rs : List ℝ, rs.Nodup ∧ rs.length = k.length ∧
        ∀ r ∈ rs, BackwardRadius Pt.x ch uh hor ⟨yc, xc⟩ r ∨ BackwardRadius Pt.y cv uv ver ⟨yc, xc⟩ r) → k' = k) := by
  unfold calcCoefBackward at h
  simp only at h
  rw [bind_ok_iff] at h
  obtain ⟨⟨uh, uv, w'⟩, eu, h⟩ := h
  simp only at h
  rw [bind_ok_iff] at h
  obtain ⟨⟨ch, sh⟩, e1, h⟩ := h
  simp only at h
  rw [bind_ok_iff] at h
  obtain ⟨⟨cv, sv⟩, e2, h⟩ := h
  simp only [bind_ok_iff] at h
  obtain ⟨r1, e3, r2, e4, k0, e5, h⟩ := h
  cases h
  set n := numFactors numFact
  obtain ⟨l1, rfl⟩ := fit_lengths e1
  obtain ⟨l2, rfl⟩ := fit_lengths_ver e2
  obtain ⟨d1, g1⟩ := forRows_backward (along' := Pt.y) (ψ := id) (φ := swapPt) one_ne_zero swap_radius (fun q p => by rw [one_mul]; rfl) e3
  obtain ⟨d2, g2⟩ := forRows_backward (along' := Pt.x) (ψ := id) (φ := swapPt) one_ne_zero swap_radius (fun q p => by rw [one_mul]; rfl) e4
  rw [List.map_id, show uh.map (fun u => 1 * u) = uh by simp] at g1
  rw [List.map_id, show uv.map (fun u => 1 * u) = uv by simp] at g2
  set D1 := samplesOf ch uh (hor.map (shiftLine xc yc)) (backwardData Pt.x)
  set D2 := samplesOf cv uv (ver.map (shiftLine xc yc)) (backwardData Pt.y)
  rw [d1, d2, ← List.map_append] at e5
  have hne : D1 ++ D2 ≠ [] := by
    intro h0
    rw [h0] at e5
    simp [lstsqChecked] at e5
  obtain ⟨k1, k', f1, f2, f3, f4, hv⟩ := lsq_same_values hls hls n one_pos (List.perm_append_comm (l₁ := D2) (l₂ := D1)) hne
  rw [e5] at f1
  cases f1
  have hval : ∀ r, BackwardRadius Pt.x ch uh hor ⟨yc, xc⟩ r ∨ BackwardRadius Pt.y cv uv ver ⟨yc, xc⟩ r → radial k' r = radial k r := by
    intro r hr
    rcases hr with hr | hr
    · obtain ⟨v, hm⟩ := backwardRadius_mem (fun _ => rfl) hr
      simpa using hv (r, v) (List.mem_append_left _ hm)
    · obtain ⟨v, hm⟩ := backwardRadius_mem (fun _ => rfl) hr
      simpa using hv (r, v) (List.mem_append_right _ hm)
  refine ⟨k', ch, cv, uh, uv, ?_, eu, e1, e2, by rw [f3, f4], hval, fun ⟨rs, a, b, c⟩ => radial_determined (by rw [f3, f4]) a b fun r hr => hval r (c r hr)⟩
  have a1 := paraFitHor_swap e2
  have a2 := paraFitVer_swap e1
  unfold calcCoefBackward
  simp only
  rw [calcUndistorIntercept_swap eu, ok_bind]
  simp only
  rw [a1, ok_bind]
  simp only
  rw [a2, ok_bind]
  simp only
  change (rowsOf (backwardRow n) Pt.x cv uv ((ver.map (shiftLine xc yc)).map fun l => l.map swapPt) >>= _) = _
  rw [g2, ok_bind]
  change (rowsOf (backwardRow n) Pt.y ch uh ((hor.map (shiftLine xc yc)).map fun l => l.map swapPt) >>= _) = _
  rw [g1, ok_bind, ← List.map_append, f2, ok_bind]

theorem inverseRow_data (f : List ℝ) (xc yc : ℝ) (L : List (List Pt)) :
    (L.map (shiftLine xc yc)).flatten.filterMap (inverseRow f) =
      ((L.flatten.filter fun p => decide (radial f (ptDist p ⟨yc, xc⟩) ≠ 0)).map fun p =>
        (radial f (ptDist p ⟨yc, xc⟩) * ptDist p ⟨yc, xc⟩, 1 / radial f (ptDist p ⟨yc, xc⟩))).map fun d => (powers d.1 f.length, d.2) := by
  have e : (L.map (shiftLine xc yc)).flatten = L.flatten.map fun p => ⟨p.y - yc, p.x - xc⟩ := by
    rw [List.map_flatten]
    rfl
  rw [e]
  induction L.flatten with
  | nil => rfl
  | cons p l ih =>
    have hr : inverseRow f ⟨p.y - yc, p.x - xc⟩ = if radial f (ptDist p ⟨yc, xc⟩) ≠ 0 then
        some (powers (radial f (ptDist p ⟨yc, xc⟩) * ptDist p ⟨yc, xc⟩) f.length, 1 / radial f (ptDist p ⟨yc, xc⟩)) else none := by
      simp only [inverseRow, polySum_eq_radial, shift_radius]
    by_cases hz : radial f (ptDist p ⟨yc, xc⟩) = 0
    · rw [if_neg (by simpa using hz)] at hr
      rw [List.map_cons, List.filterMap_cons_none hr, ih, List.filter_cons_of_neg (by simpa using hz)]
    · rw [if_pos hz] at hr
      rw [List.map_cons, List.filterMap_cons_some hr, ih, List.filter_cons_of_pos (by simpa using hz)]
      rfl

theorem ptDist_swap (p c : Pt) : ptDist (swapPt p) (swapPt c) = ptDist p c := by
  unfold ptDist
  rw [add_comm]
  rfl

/-- **C95 (both models).** The same for the pair of models of `calc_coef_backward_from_forward`, if there are as many different distances as
coefficients: the forward model is the same, and the backward model has the same values at the undistorted radii of all dots. -/
theorem C95_backward_from_forward (pf : PolyfitFn) (lstsq : LstsqFn) (hls : LstsqSpec lstsq) (minimize : (ℝ → ℝ) → ℝ → ℝ) (hor ver : List (List Pt))
    (xc yc : ℝ) (numFact : ℤ) (optimizing : Bool) (threshold : ℝ) (ff bf : List ℝ) (w : Bool)
    (h : calcCoefBackwardFromForward pf lstsq minimize hor ver xc yc numFact optimizing threshold = .ok (ff, bf, w)) :
    ∃ uh uv, calcUndistorIntercept pf minimize hor ver xc yc optimizing threshold = .ok (uh, uv, w) ∧
      ((∃ rs : List ℝ, rs.Nodup ∧ rs.length = ff.length ∧ ∀ r ∈ rs, ForwardRadius uh hor ⟨yc, xc⟩ r ∨ ForwardRadius uv ver ⟨yc, xc⟩ r) →
        ∃ bf', calcCoefBackwardFromForward pf lstsq minimize (swapLines ver) (swapLines hor) yc xc numFact optimizing threshold = .ok (ff, bf', w) ∧
          bf'.length = bf.length ∧
          ∀ p, p ∈ hor.flatten ∨ p ∈ ver.flatten → radial ff (ptDist p ⟨yc, xc⟩) ≠ 0 →
            radial bf' (radial ff (ptDist p ⟨yc, xc⟩) * ptDist p ⟨yc, xc⟩) = radial bf (radial ff (ptDist p ⟨yc, xc⟩) * ptDist p ⟨yc, xc⟩)) := by
  unfold calcCoefBackwardFromForward at h
  rw [bind_ok_iff] at h
  obtain ⟨⟨f, w'⟩, ef, h⟩ := h
  simp only at h
  rw [bind_ok_iff] at h
  obtain ⟨⟨ch, sh⟩, e1, h⟩ := h
  simp only at h
  rw [bind_ok_iff] at h
  obtain ⟨⟨cv, sv⟩, e2, h⟩ := h
  simp only [bind_ok_iff] at h
  obtain ⟨b, e3, h⟩ := h
  cases h
  obtain ⟨f', uh, uv, ef', eu, hl, -, huniq⟩ := C95_forward pf lstsq hls minimize hor ver xc yc numFact optimizing threshold ff w ef
  refine ⟨uh, uv, eu, fun hrs => ?_⟩
  obtain rfl := huniq hrs
  obtain ⟨l1, rfl⟩ := fit_lengths e1
  obtain ⟨l2, rfl⟩ := fit_lengths_ver e2
  have a1 := paraFitHor_swap e2
  have a2 := paraFitVer_swap e1
  rw [inverseRow_data, inverseRow_data, ← List.map_append] at e3
  set g : Pt → ℝ × ℝ := fun p => (radial f' (ptDist p ⟨yc, xc⟩) * ptDist p ⟨yc, xc⟩, 1 / radial f' (ptDist p ⟨yc, xc⟩)) with hg
  set D1 := (hor.flatten.filter fun p => decide (radial f' (ptDist p ⟨yc, xc⟩) ≠ 0)).map g with hD1
  set D2 := (ver.flatten.filter fun p => decide (radial f' (ptDist p ⟨yc, xc⟩) ≠ 0)).map g with hD2
  have swapped : ∀ L : List (List Pt), (swapLines (L.map (shiftLine xc yc))).flatten.filterMap (inverseRow f') =
      ((L.flatten.filter fun p => decide (radial f' (ptDist p ⟨yc, xc⟩) ≠ 0)).map g).map fun d => (powers d.1 f'.length, d.2) := by
    intro L
    rw [← inverseRow_data, swapLines, ← List.map_flatten, List.filterMap_map]
    congr 1
    funext p
    simp only [Function.comp_apply, inverseRow]
    rw [show √((swapPt p).x * (swapPt p).x + (swapPt p).y * (swapPt p).y) = √(p.x * p.x + p.y * p.y) by rw [swap_radius, one_mul]]
  have hne : D1 ++ D2 ≠ [] := by
    intro h0
    rw [h0] at e3
    simp [lstsqChecked] at e3
  obtain ⟨k1, k', g1, g2, g3, g4, hv⟩ := lsq_same_values hls hls f'.length one_pos (List.perm_append_comm (l₁ := D2) (l₂ := D1)) hne
  rw [e3] at g1
  cases g1
  simp only [one_mul] at g2 hv
  refine ⟨k', ?_, by rw [g3, g4], fun p hp hz => ?_⟩
  · unfold calcCoefBackwardFromForward
    rw [ef', ok_bind]
    simp only
    rw [a1, ok_bind]
    simp only
    rw [a2, ok_bind]
    simp only
    rw [swapped, swapped, ← List.map_append, g2, ok_bind]
  · refine hv (g p) ?_
    rw [List.mem_append]
    exact hp.imp (fun hp => List.mem_map.2 ⟨p, List.mem_filter.2 ⟨hp, by simpa using hz⟩, rfl⟩)
      (fun hp => List.mem_map.2 ⟨p, List.mem_filter.2 ⟨hp, by simpa using hz⟩, rfl⟩)

/-! ## Non-vacuity -/

/-- An image and its transposed image. -/
example : IsTransposed (⟨2, 3, fun i j => (10 * i + j : ℕ)⟩ : Mat ℝ) ⟨3, 2, fun i j => (10 * j + i : ℕ)⟩ :=
  ⟨rfl, rfl, fun _ _ _ _ => rfl⟩

/-- No two pixels are moved to the same place by the model without distortion. -/
example : ∃ out out', unwarpImageForward (⟨1, 2, fun i j => (10 * i + j : ℕ)⟩ : Mat ℝ) 0 0 [1] = .ok out ∧
    unwarpImageForward (⟨2, 1, fun i j => (10 * j + i : ℕ)⟩ : Mat ℝ) 0 0 [1] = .ok out' ∧ IsTransposed out out' := by
  refine C95_forward_image _ _ ⟨rfl, rfl, fun _ _ _ _ => rfl⟩ (by norm_num) (by norm_num) 0 0 [1] ?_
  rintro ⟨a, b⟩ ⟨a', b'⟩ ⟨i, j⟩ p1 p2 p3 p4 ⟨-, h⟩ ⟨-, h'⟩
  simp only at p1 p2 p3 p4
  have e : ∀ b : ℕ, b < 2 → ∀ a : ℕ, IsNearestEven (clampTo (((2 : ℕ) : ℝ) - 1) (radialMap ⟨0, 0⟩ [1] ⟨a, b⟩).x) (j : ℤ) → b = j := by
    intro b hb a h
    have hb' : b = 0 ∨ b = 1 := by omega
    have hx : clampTo (((2 : ℕ) : ℝ) - 1) (radialMap ⟨0, 0⟩ [1] ⟨(a : ℝ), (b : ℝ)⟩).x = ((b : ℕ) : ℤ) := by
      rcases hb' with rfl | rfl <;> norm_num [radialMap, radial, clampTo]
    rw [hx] at h
    have := IsNearestEven.unique h (show IsNearestEven (((b : ℕ) : ℤ) : ℝ) ((b : ℕ) : ℤ) from Or.inl (by norm_num))
    omega
  have h1 := e b p2 a h
  have h2 := e b' p4 a' h'
  rw [Prod.mk.injEq]
  omega

/-- Four barrel-shaped lines in each direction around (3, 5): there are three different distances, and the forward model with three
coefficients found with exchanged coordinates is the same. -/
example : ∃ k, calcCoefForward refPolyfit refLstsq refMinimize ([-3, -1, 1, 3].map (bentRow 0.5)) ([-3, -1, 1, 3].map (bentCol 0.5)) 5 3 3 true 0.3 =
      .ok (k, false) ∧ k.length = 3 ∧
    calcCoefForward refPolyfit refLstsq refMinimize (swapLines ([-3, -1, 1, 3].map (bentCol 0.5))) (swapLines ([-3, -1, 1, 3].map (bentRow 0.5))) 3 5 3 true 0.3 =
      .ok (k, false) := by
  have hb := bent_example 0.5 0.5 [-3, -1, 1, 3] [-3, -1, 1, 3]
  obtain ⟨k, e, hk, _⟩ := C80_ideal_forward refPolyfit refPolyfit_spec refLstsq refLstsq_spec refMinimize ⟨3, 5⟩ 0.5 0.5
    [-3, -1, 1, 3] [-3, -1, 1, 3] _ _ hb (-3) 2 (-3) 2 arith4 arith4 (by norm_num) (by norm_num) (by simp) (by simp)
    (fun _ _ p _ => by positivity) (fun _ _ p _ => by positivity) 3 (by norm_num) true (fun _ => refMinimize_exact) 0.3 (by norm_num)
  have hk3 : k.length = 3 := by omega
  obtain ⟨k', uh, uv, e', eu, _, _, hu⟩ := C95_forward refPolyfit refLstsq refLstsq_spec refMinimize _ _ _ _ _ _ _ _ _ e
  have eu' := bent_intercepts refPolyfit_spec refMinimize hb arith4 arith4 (by norm_num) (by norm_num) (by simp) (by simp) true (fun _ => refMinimize_exact)
      (show (0 : ℝ) ≤ 0.3 by norm_num)
  rw [eu'] at eu
  simp only [Except.ok.injEq, Prod.mk.injEq] at eu
  obtain ⟨rfl, rfl, _⟩ := eu
  have hkk : k' = k := by
    refine hu ⟨[1, 3, √3.25], ?_, by simp [hk3], ?_⟩
    · have h1 : √(3.25 : ℝ) ^ 2 = 3.25 := Real.sq_sqrt (by norm_num)
      simp only [List.nodup_cons, List.mem_cons, List.not_mem_nil, or_false, not_or, not_false_eq_true, List.nodup_nil, and_true]
      refine ⟨⟨by norm_num, fun h => ?_⟩, fun h => ?_⟩
      · rw [← h] at h1; norm_num at h1
      · rw [← h] at h1; norm_num at h1
    · intro r hr
      simp only [List.mem_cons, List.not_mem_nil, or_false] at hr
      left
      rcases hr with rfl | rfl | rfl
      · exact ⟨2, 1, bentRow 0.5 1, rfl, rfl, by norm_num, ⟨3 + 1 * (1 + 0.5 * 0 ^ 2), 5 + 0⟩, by simp [bentRow], by norm_num [ptDist]⟩
      · refine ⟨3, 3, bentRow 0.5 3, rfl, rfl, by norm_num, ⟨3 + 3 * (1 + 0.5 * 0 ^ 2), 5 + 0⟩, by simp [bentRow], ?_⟩
        rw [ptDist, show ((5 : ℝ) + 0 - 5) ^ 2 + (3 + 3 * (1 + 0.5 * 0 ^ 2) - 3) ^ 2 = 3 ^ 2 by norm_num, Real.sqrt_sq (by norm_num)]
      · exact ⟨2, 1, bentRow 0.5 1, rfl, rfl, by norm_num, ⟨3 + 1 * (1 + 0.5 * 1 ^ 2), 5 + 1⟩, by simp [bentRow], by norm_num [ptDist]⟩
  rw [hkk] at e'
  exact ⟨k, e, hk3, e'⟩

example (B B' : Boundary) (xc yc : ℝ) := C95_image B B' id coordRounding_id ⟨2, 3, fun i j => (10 * i + j : ℕ)⟩ ⟨3, 2, fun i j => (10 * j + i : ℕ)⟩
  ⟨rfl, rfl, fun _ _ _ _ => rfl⟩ (by norm_num) (by norm_num) xc yc [1, 1 / 10]
example (B B' : Boundary) := C95_perspective_image B B' id coordRounding_id ⟨2, 3, fun i j => (10 * i + j : ℕ)⟩ ⟨3, 2, fun i j => (10 * j + i : ℕ)⟩
  ⟨rfl, rfl, fun _ _ _ _ => rfl⟩ (by norm_num) (by norm_num) 1 2 3 4 5 6 (1 / 10) (1 / 7)
/-- The four barrel-shaped lines in each direction have a backward model with three coefficients. -/
example : ∃ k k' : List ℝ, calcCoefBackward refPolyfit refLstsq refMinimize ([-3, -1, 1, 3].map (bentRow 0.5)) ([-3, -1, 1, 3].map (bentCol 0.5)) 5 3 3 true 0.3 =
      .ok (k, false) ∧
    calcCoefBackward refPolyfit refLstsq refMinimize (swapLines ([-3, -1, 1, 3].map (bentCol 0.5))) (swapLines ([-3, -1, 1, 3].map (bentRow 0.5))) 3 5 3 true 0.3 =
      .ok (k', false) ∧ k'.length = k.length := by
  obtain ⟨k, e, _⟩ := C80_ideal_backward refPolyfit refPolyfit_spec refLstsq refLstsq_spec refMinimize ⟨3, 5⟩ 0.5 0.5
    [-3, -1, 1, 3] [-3, -1, 1, 3] _ _ (bent_example _ _ _ _) (-3) 2 (-3) 2 arith4 arith4 (by norm_num) (by norm_num) (by simp) (by simp)
    (by norm_num) (by norm_num) (fun l _ p _ => by positivity) (fun l _ p _ => by positivity) 3 (by norm_num) true (fun _ => refMinimize_exact) 0.3 (by norm_num)
  obtain ⟨k', _, _, _, _, e', _, _, _, hl, _⟩ := C95_backward refPolyfit refLstsq refLstsq_spec refMinimize _ _ 5 3 3 true 0.3 k false e
  exact ⟨k, k', e, e', hl⟩

/-- The forward and the inverse model of the 4 × 4 grid of C22 around (1.4, 1.5), with three coefficients, and three different distances of its dots. -/
theorem grid_models : ∃ f g, calcCoefBackwardFromForward refPolyfit refLstsq refMinimize gridHor gridVer 1.5 1.4 3 true 0.3 = .ok (f, g, false) ∧
    (∀ p ∈ gridHor.flatten ++ gridVer.flatten, radial f (ptDist p ⟨1.4, 1.5⟩) = 1) ∧
    ∀ uh uv w, calcUndistorIntercept refPolyfit refMinimize gridHor gridVer 1.5 1.4 true 0.3 = .ok (uh, uv, w) →
      ∃ rs : List ℝ, rs.Nodup ∧ rs.length = f.length ∧ ∀ r ∈ rs, ForwardRadius uh gridHor ⟨1.4, 1.5⟩ r ∨ ForwardRadius uv gridVer ⟨1.4, 1.5⟩ r := by
  have hc : ∀ i : ℕ, i < 4 → -(1.4 : ℝ) + i * 1 ≠ 0 ∧ -(1.5 : ℝ) + i * 1 ≠ 0 := by
    intro i hi
    interval_cases i <;> norm_num
  obtain ⟨f, g, e, hf, _, h1, _⟩ := C23_backward_from_forward refPolyfit refPolyfit_spec refLstsq refLstsq_spec refMinimize
    gridHor gridVer 1.5 1.4 (-1.4) 1 (-1.5) 1 (gridHor_straight _ _) (gridVer_straight _ _) one_ne_zero one_ne_zero (by simp [gridHor]) (by simp [gridVer])
    (fun i hi => (hc i hi).1) (fun i hi => (hc i hi).2) 3 (by norm_num) true (fun _ => refMinimize_exact) 0.3 (by norm_num)
  refine ⟨f, g, e, fun p hp => (h1 p hp).1, fun uh uv w eu => ?_⟩
  obtain ⟨uh', uv', eu', l1, _, a1, _⟩ := C22_exact refPolyfit refPolyfit_spec refMinimize gridHor gridVer 1.5 1.4 (-1.4) 1 (-1.5) 1 (gridHor_straight _ _)
    (gridVer_straight _ _) one_ne_zero one_ne_zero (by simp [gridHor]) (by simp [gridVer]) true (fun _ => refMinimize_exact) 0.3 (by norm_num)
  rw [eu] at eu'
  simp only [Except.ok.injEq, Prod.mk.injEq] at eu'
  obtain ⟨rfl, rfl, _⟩ := eu'
  have hl : uh.length = 4 := l1
  have u0 : uh[0]? = some uh[0] := List.getElem?_eq_getElem (by omega)
  have u1 : uh[1]? = some uh[1] := List.getElem?_eq_getElem (by omega)
  have v0 : uh[0] ≠ 0 := by rw [a1 0 _ u0]; norm_num
  have v1 : uh[1] ≠ 0 := by rw [a1 1 _ u1]; norm_num
  refine ⟨[√4.21, √2.21, √0.41], ?_, by simp; omega, ?_⟩
  · have s1 : √(4.21 : ℝ) ^ 2 = 4.21 := Real.sq_sqrt (by norm_num)
    have s2 : √(2.21 : ℝ) ^ 2 = 2.21 := Real.sq_sqrt (by norm_num)
    have s3 : √(0.41 : ℝ) ^ 2 = 0.41 := Real.sq_sqrt (by norm_num)
    simp only [List.nodup_cons, List.mem_cons, List.not_mem_nil, or_false, not_or, not_false_eq_true, List.nodup_nil, and_true]
    refine ⟨⟨fun h => ?_, fun h => ?_⟩, fun h => ?_⟩
    · rw [h, s2] at s1; norm_num at s1
    · rw [h, s3] at s1; norm_num at s1
    · rw [h, s3] at s2; norm_num at s2
  · intro r hr
    simp only [List.mem_cons, List.not_mem_nil, or_false] at hr
    left
    rcases hr with rfl | rfl | rfl
    · exact ⟨0, _, _, u0, rfl, v0, ⟨0, 0⟩, by simp, by norm_num [ptDist]⟩
    · exact ⟨0, _, _, u0, rfl, v0, ⟨0, 1⟩, by simp, by norm_num [ptDist]⟩
    · exact ⟨1, _, _, u1, rfl, v1, ⟨1, 1⟩, by simp, by norm_num [ptDist]⟩

/-- The models of the grid with exchanged coordinates. -/
example : ∃ f g g', calcCoefBackwardFromForward refPolyfit refLstsq refMinimize gridHor gridVer 1.5 1.4 3 true 0.3 = .ok (f, g, false) ∧
    calcCoefBackwardFromForward refPolyfit refLstsq refMinimize (swapLines gridVer) (swapLines gridHor) 1.4 1.5 3 true 0.3 = .ok (f, g', false) ∧
    radial g' (ptDist ⟨0, 0⟩ ⟨1.4, 1.5⟩) = radial g (ptDist ⟨0, 0⟩ ⟨1.4, 1.5⟩) := by
  obtain ⟨f, g, e, h1, hr⟩ := grid_models
  obtain ⟨uh, uv, eu, h⟩ := C95_backward_from_forward refPolyfit refLstsq refLstsq_spec refMinimize gridHor gridVer 1.5 1.4 3 true 0.3 f g false e
  obtain ⟨g', e', _, hg⟩ := h (hr _ _ _ eu)
  have h0 := h1 ⟨0, 0⟩ (by simp [gridHor])
  have := hg ⟨0, 0⟩ (.inl (by simp [gridHor])) (by rw [h0]; exact one_ne_zero)
  rw [h0, one_mul] at this
  exact ⟨f, g, g', e, e', this⟩

end Discorpy
