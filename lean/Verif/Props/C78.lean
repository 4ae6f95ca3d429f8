import Verif.Lemmas.LineDir
import Verif.Props.C43

/-! # C78 — direction and distance of the lines of a pattern -/

namespace Discorpy

open Spec

section parts
variable {E : Ext} {filter2 chess : Mat ℝ → Mat ℝ} {radon : Mat ℝ → List ℝ → Mat ℝ} {base : ℝ} {slopeOf : ℝ → ℝ} {m : Mat ℝ}
  {ratio R : ℝ} {radius : ℤ} {sensitive : ℝ} {bright denoise norm subpixel : Bool} {sel : Option PeakParams}

theorem mem_fineAngles {a b : ℝ} : a ∈ arange (b - 1) (b + 1.05) 0.05 ↔ ∃ k : ℕ, k ≤ 40 ∧ a = b - 1 + k / 20 := by
  rw [mem_arange (by norm_num)]
  constructor
  · rintro ⟨k, rfl, h⟩
    refine ⟨k, ?_, by ring⟩
    by_contra hk
    have : (41 : ℝ) ≤ k := by exact_mod_cast not_le.1 hk
    norm_num at h
    linarith
  · rintro ⟨k, hk, rfl⟩
    refine ⟨k, by ring, ?_⟩
    have : (k : ℝ) ≤ 40 := by exact_mod_cast hk
    norm_num
    linarith

theorem mem_coarseAngles {a base R : ℝ} : a ∈ (arange (-R) (R + 1) 1).map (fun a => base + a) ↔
    ∃ k : ℕ, a = base - R + k ∧ a < base + R + 1 := by
  rw [List.mem_map]
  constructor
  · rintro ⟨s, hs, rfl⟩
    obtain ⟨k, rfl, h⟩ := (mem_arange (by norm_num)).1 hs
    exact ⟨k, by ring, by linarith⟩
  · rintro ⟨k, e, h⟩
    exact ⟨a - base, (mem_arange (by norm_num)).2 ⟨k, by linarith, by linarith⟩, by ring⟩

theorem slopeDistance_result (hrad : ∀ img angles, (radon img angles).width = angles.length) {s d : ℝ}
    (h : calcSlopeDistance E filter2 chess radon base slopeOf m ratio R radius sensitive bright denoise norm subpixel false sel =
      .ok (s, d)) :
    ∃ img a1 a2 coarse fine k2 pts, IsMiddleDisc (if denoise then filter2 m else m) ratio bright img ∧
      IsAngleSearch radon img base R a1 a2 coarse fine k2 ∧
      s = Real.tan (slopeOf a2 * Real.pi / 180) ∧
      getLocalExtremaPoints E (column (radon img fine) k2) "max" radius sensitive denoise norm subpixel sel = .ok pts ∧
      IsPointDistance pts d := by
  unfold calcSlopeDistance at h
  simp only [Bool.false_eq_true, if_false, ok_bind] at h
  rw [bind_ok_iff] at h
  obtain ⟨img, himg, h⟩ := h
  rw [bind_ok_iff] at h
  obtain ⟨b1, hb1, h⟩ := h
  rw [bind_ok_iff] at h
  obtain ⟨b2, hb2, h⟩ := h
  rw [bind_ok_iff] at h
  obtain ⟨pts, hpts, h⟩ := h
  rw [bind_ok_iff] at h
  obtain ⟨d', hd, h⟩ := h
  injection h with h
  injection h with hs' hd'
  subst hd'
  obtain ⟨c1, c2⟩ := sharpestAngle_spec (hrad _ _) hb1
  obtain ⟨f1, f2⟩ := sharpestAngle_spec (hrad _ _) hb2
  have h2 : 2 ≤ pts.length := by
    by_contra hlt
    rw [lineSpacing_few (by omega)] at hd
    cases hd
  obtain ⟨d'', e, hd''⟩ := lineSpacing_spec h2
  rw [hd] at e
  injection e with e
  subst e
  exact ⟨img, b1.2, b2.2, _, _, b2.1, pts, lineRegion_disc himg,
    ⟨fun _ => mem_coarseAngles, ⟨b1.1, c1, c2⟩, fun _ => mem_fineAngles, f1, f2⟩, hs'.symm, hpts, hd''⟩

/-- Two searches are enough to come close to an angle the sinogram points at. -/
theorem Spec.IsAngleSearch.close {img : Mat ℝ} {a1 a2 α : ℝ} {coarse fine : List ℝ} {k2 : ℕ}
    (h : IsAngleSearch radon img base R a1 a2 coarse fine k2) (hα : |α - base| ≤ R)
    (hnear : ∀ (angles : List ℝ) (k : ℕ) (a : ℝ), IsSharpest (radon img angles) k → angles[k]? = some a →
      ∀ b ∈ angles, |a - α| ≤ |b - α|) : |a2 - α| ≤ 1 / 40 := by
  obtain ⟨hc, ⟨k1, e1, s1⟩, hf, e2, s2⟩ := h
  obtain ⟨l1, l2⟩ := abs_le.1 hα
  have h1 : |a1 - α| ≤ 1 / 2 := by
    obtain ⟨b, hb, hd⟩ := arange_near (start := base - R) (stop := base + R + 1) (step := 1) (α := α) (by norm_num) (by linarith)
      (by linarith)
    obtain ⟨k, rfl, hlt⟩ := (mem_arange (by norm_num)).1 hb
    exact (hnear _ _ _ s1 e1 _ ((hc _).2 ⟨k, by ring, hlt⟩)).trans hd
  obtain ⟨m1, m2⟩ := abs_le.1 h1
  obtain ⟨b, hb, hd⟩ := arange_near (start := a1 - 1) (stop := a1 + 1.05) (step := 0.05) (α := α) (by norm_num) (by linarith)
    (by norm_num; linarith)
  have := hnear _ _ _ s2 e2 b ((hf _).2 (mem_fineAngles.1 hb))
  norm_num at hd ⊢
  linarith

end parts

/-- **C78 (horizontal lines).** If `calc_slope_distance_hor_lines` returns a slope and a distance, then they come from the square
in the middle of the (smoothed) image: the angle `a2` is, among 41 angles in steps of 0.05 degrees around `a1`, one whose
projection has the largest value, `a1` being such an angle among those in steps of one degree within the search range around
90 degrees. The slope is the tangent of `90° - a2`. The distance is the median gap of the extremum points of the projection at
`a2`, or the mean gap for two or three points. -/
theorem C78_hor (E : Ext) (filter2 chess : Mat ℝ → Mat ℝ) (radon : Mat ℝ → List ℝ → Mat ℝ)
    (hrad : ∀ img angles, (radon img angles).width = angles.length) (m : Mat ℝ) (ratio R : ℝ) (radius : ℤ) (sensitive : ℝ)
    (bright denoise norm subpixel : Bool) (sel : Option PeakParams) (s d : ℝ)
    (h : calcSlopeDistanceHor E filter2 chess radon m ratio R radius sensitive bright denoise norm subpixel false sel = .ok (s, d)) :
    ∃ img a1 a2 coarse fine k2 pts, IsMiddleDisc (if denoise then filter2 m else m) ratio bright img ∧
      IsAngleSearch radon img 90 R a1 a2 coarse fine k2 ∧
      s = Real.tan ((90 - a2) * Real.pi / 180) ∧
      getLocalExtremaPoints E (column (radon img fine) k2) "max" radius sensitive denoise norm subpixel sel = .ok pts ∧
      IsPointDistance pts d := by
  obtain ⟨img, a1, a2, coarse, fine, k2, pts, h1, h2, h3, h4, h5⟩ := slopeDistance_result hrad h
  exact ⟨img, a1, a2, coarse, fine, k2, pts, h1, h2, by rw [h3]; congr 2; ring, h4, h5⟩

/-- **C78 (vertical lines).** The same for `calc_slope_distance_ver_lines`, with angles around 0 degrees; the slope is the tangent
of `a2`. -/
theorem C78_ver (E : Ext) (filter2 chess : Mat ℝ → Mat ℝ) (radon : Mat ℝ → List ℝ → Mat ℝ)
    (hrad : ∀ img angles, (radon img angles).width = angles.length) (m : Mat ℝ) (ratio R : ℝ) (radius : ℤ) (sensitive : ℝ)
    (bright denoise norm subpixel : Bool) (sel : Option PeakParams) (s d : ℝ)
    (h : calcSlopeDistanceVer E filter2 chess radon m ratio R radius sensitive bright denoise norm subpixel false sel = .ok (s, d)) :
    ∃ img a1 a2 coarse fine k2 pts, IsMiddleDisc (if denoise then filter2 m else m) ratio bright img ∧
      IsAngleSearch radon img 0 R a1 a2 coarse fine k2 ∧
      s = Real.tan (a2 * Real.pi / 180) ∧
      getLocalExtremaPoints E (column (radon img fine) k2) "max" radius sensitive denoise norm subpixel sel = .ok pts ∧
      IsPointDistance pts d := slopeDistance_result hrad h

/-- **C78 (chessboard).** A chessboard image is first converted to a line pattern with a bright background; then it is treated
like a line-pattern image. -/
theorem C78_chessboard (E : Ext) (filter2 chess : Mat ℝ → Mat ℝ) (radon : Mat ℝ → List ℝ → Mat ℝ) (m : Mat ℝ) (ratio R : ℝ)
    (radius : ℤ) (sensitive : ℝ) (bright denoise norm subpixel : Bool) (sel : Option PeakParams) :
    (∀ lp, convertChessboard chess m true true = .ok lp →
      calcSlopeDistanceHor E filter2 chess radon m ratio R radius sensitive bright denoise norm subpixel true sel =
        calcSlopeDistanceHor E filter2 chess radon lp ratio R radius sensitive bright denoise norm subpixel false sel ∧
      calcSlopeDistanceVer E filter2 chess radon m ratio R radius sensitive bright denoise norm subpixel true sel =
        calcSlopeDistanceVer E filter2 chess radon lp ratio R radius sensitive bright denoise norm subpixel false sel) ∧
    ∀ e, convertChessboard chess m true true = .error e →
      calcSlopeDistanceHor E filter2 chess radon m ratio R radius sensitive bright denoise norm subpixel true sel = .error e ∧
      calcSlopeDistanceVer E filter2 chess radon m ratio R radius sensitive bright denoise norm subpixel true sel = .error e := by
  unfold calcSlopeDistanceHor calcSlopeDistanceVer calcSlopeDistance
  constructor
  · intro lp h
    simp only [if_true, Bool.false_eq_true, if_false, h, ok_bind, and_self]
  · intro e h
    simp only [if_true, h]
    exact ⟨rfl, rfl⟩

/-- **C78 (accuracy).** If the projections are sharpest at the angle nearest to the lines' true angle, and the true tilt `θ` (in
degrees) is within the search range, then the returned slope belongs to a tilt that differs from `θ` by at most 1/40 degree. -/
theorem C78_accuracy (E : Ext) (filter2 chess : Mat ℝ → Mat ℝ) (radon : Mat ℝ → List ℝ → Mat ℝ)
    (hrad : ∀ img angles, (radon img angles).width = angles.length) (m : Mat ℝ) (ratio R : ℝ) (radius : ℤ) (sensitive : ℝ)
    (bright denoise norm subpixel : Bool) (sel : Option PeakParams) (s d θ : ℝ) (hθ : |θ| ≤ R) :
    ((∀ img, IsMiddleDisc (if denoise then filter2 m else m) ratio bright img → ∀ (angles : List ℝ) (k : ℕ) (a : ℝ),
        IsSharpest (radon img angles) k → angles[k]? = some a → ∀ b ∈ angles, |a - (90 - θ)| ≤ |b - (90 - θ)|) →
      calcSlopeDistanceHor E filter2 chess radon m ratio R radius sensitive bright denoise norm subpixel false sel = .ok (s, d) →
      ∃ φ, s = Real.tan (φ * Real.pi / 180) ∧ |φ - θ| ≤ 1 / 40) ∧
    ((∀ img, IsMiddleDisc (if denoise then filter2 m else m) ratio bright img → ∀ (angles : List ℝ) (k : ℕ) (a : ℝ),
        IsSharpest (radon img angles) k → angles[k]? = some a → ∀ b ∈ angles, |a - θ| ≤ |b - θ|) →
      calcSlopeDistanceVer E filter2 chess radon m ratio R radius sensitive bright denoise norm subpixel false sel = .ok (s, d) →
      ∃ φ, s = Real.tan (φ * Real.pi / 180) ∧ |φ - θ| ≤ 1 / 40) := by
  constructor
  · intro hn h
    obtain ⟨img, a1, a2, coarse, fine, k2, pts, h1, h2, h3, h4, h5⟩ := C78_hor _ _ _ _ hrad _ _ _ _ _ _ _ _ _ _ _ _ h
    refine ⟨90 - a2, h3, ?_⟩
    have e : |90 - θ - 90| ≤ R := by rw [show 90 - θ - 90 = -θ by ring, abs_neg]; exact hθ
    have := h2.close e (hn img h1)
    rw [show 90 - a2 - θ = -(a2 - (90 - θ)) by ring, abs_neg]
    exact this
  · intro hn h
    obtain ⟨img, a1, a2, coarse, fine, k2, pts, h1, h2, h3, h4, h5⟩ := C78_ver _ _ _ _ hrad _ _ _ _ _ _ _ _ _ _ _ _ h
    exact ⟨a2, h3, h2.close (by rw [sub_zero]; exact hθ) (hn img h1)⟩

/-- **C78 (totality).** For a region with at least one pixel, a search range that is not negative and projections that have at
least one sample, the functions fail only if looking for the points on the projection fails, or if there are fewer than two
points (then the distance is `nan`). -/
theorem C78_total (E : Ext) (filter2 chess : Mat ℝ → Mat ℝ) (radon : Mat ℝ → List ℝ → Mat ℝ)
    (hrad : ∀ img angles, (radon img angles).width = angles.length ∧ 0 < (radon img angles).height) (m : Mat ℝ) (ratio R : ℝ)
    (hR : 0 ≤ R) (radius : ℤ) (sensitive : ℝ) (bright denoise norm subpixel : Bool) (sel : Option PeakParams)
    (hm : 2 ≤ max 0.05 (min ratio 1) * (min (if denoise then filter2 m else m).height (if denoise then filter2 m else m).width : ℕ))
    (f : Mat ℝ → Except PyErr (ℝ × ℝ))
    (hf : f = (fun m => calcSlopeDistanceHor E filter2 chess radon m ratio R radius sensitive bright denoise norm subpixel false sel) ∨
      f = fun m => calcSlopeDistanceVer E filter2 chess radon m ratio R radius sensitive bright denoise norm subpixel false sel) :
    ∃ img angles k, IsMiddleDisc (if denoise then filter2 m else m) ratio bright img ∧ IsSharpest (radon img angles) k ∧
      (∀ e, getLocalExtremaPoints E (column (radon img angles) k) "max" radius sensitive denoise norm subpixel sel = .error e →
        f m = .error e) ∧
      ∀ pts, getLocalExtremaPoints E (column (radon img angles) k) "max" radius sensitive denoise norm subpixel sel = .ok pts →
        if 2 ≤ pts.length then ∃ r, f m = .ok r else f m = .error .nonFinite := by
  have key : ∀ (base : ℝ) (slopeOf : ℝ → ℝ), ∃ img angles k, IsMiddleDisc (if denoise then filter2 m else m) ratio bright img ∧
      IsSharpest (radon img angles) k ∧
      (∀ e, getLocalExtremaPoints E (column (radon img angles) k) "max" radius sensitive denoise norm subpixel sel = .error e →
        calcSlopeDistance E filter2 chess radon base slopeOf m ratio R radius sensitive bright denoise norm subpixel false sel =
          .error e) ∧
      ∀ pts, getLocalExtremaPoints E (column (radon img angles) k) "max" radius sensitive denoise norm subpixel sel = .ok pts →
        if 2 ≤ pts.length then ∃ r, calcSlopeDistance E filter2 chess radon base slopeOf m ratio R radius sensitive bright denoise
            norm subpixel false sel = .ok r
        else calcSlopeDistance E filter2 chess radon base slopeOf m ratio R radius sensitive bright denoise
            norm subpixel false sel = .error .nonFinite := by
    intro base slopeOf
    obtain ⟨img, himg⟩ := lineRegion_ok (bright := bright) hm
    have hc : (arange (-R) (R + 1) 1).map (fun a => base + a) ≠ [] := by
      apply List.ne_nil_of_mem (a := base - R)
      exact mem_coarseAngles.2 ⟨0, by simp, by linarith⟩
    obtain ⟨k1, a1, e1, _, _⟩ := sharpestAngle_ok (hrad img _).2 (hrad img _).1 hc
    have hfn : arange (a1 - 1) (a1 + 1.05) 0.05 ≠ [] := by
      apply List.ne_nil_of_mem (a := a1 - 1)
      exact mem_fineAngles.2 ⟨0, by omega, by simp⟩
    obtain ⟨k2, a2, e2, _, s2⟩ := sharpestAngle_ok (hrad img _).2 (hrad img _).1 hfn
    refine ⟨img, _, k2, lineRegion_disc himg, s2, ?_, ?_⟩
    · intro e he
      unfold calcSlopeDistance
      simp only [Bool.false_eq_true, if_false, ok_bind, himg, e1, e2]
      unfold column at he
      rw [he]; rfl
    · intro pts hp
      unfold calcSlopeDistance
      unfold column at hp
      simp only [Bool.false_eq_true, if_false, ok_bind, himg, e1, e2, hp]
      split_ifs with h2
      · obtain ⟨d, e, _⟩ := lineSpacing_spec h2
        rw [e]
        exact ⟨_, rfl⟩
      · rw [lineSpacing_few (by omega)]; rfl
  rcases hf with rfl | rfl
  · exact key 90 _
  · exact key 0 _

/-- **C78 (empty search).** A search range of `-1/2` or less leaves no angle: `ValueError`. -/
theorem C78_no_angles (E : Ext) (filter2 chess : Mat ℝ → Mat ℝ) (radon : Mat ℝ → List ℝ → Mat ℝ)
    (hrad : ∀ img angles, (radon img angles).width = angles.length) (m : Mat ℝ) (ratio R : ℝ) (hR : R ≤ -1 / 2) (radius : ℤ)
    (sensitive : ℝ) (bright denoise norm subpixel : Bool) (sel : Option PeakParams)
    (hm : 2 ≤ max 0.05 (min ratio 1) * (min (if denoise then filter2 m else m).height (if denoise then filter2 m else m).width : ℕ)) :
    calcSlopeDistanceHor E filter2 chess radon m ratio R radius sensitive bright denoise norm subpixel false sel = .error .valueError ∧
    calcSlopeDistanceVer E filter2 chess radon m ratio R radius sensitive bright denoise norm subpixel false sel =
      .error .valueError := by
  have hc : arange (-R) (R + 1) 1 = [] := by
    unfold arange
    have : ⌈(R + 1 - -R) / 1⌉ ≤ 0 := Int.ceil_le.2 (by push_cast; linarith)
    rw [Int.toNat_of_nonpos this]
    rfl
  obtain ⟨img, himg⟩ := lineRegion_ok (bright := bright) hm
  have hs : sharpestAngle (radon img []) [] = .error .valueError := by
    unfold sharpestAngle colMax
    rw [hrad]
    rfl
  unfold calcSlopeDistanceHor calcSlopeDistanceVer calcSlopeDistance
  simp only [Bool.false_eq_true, if_false, ok_bind, himg, hc, List.map_nil, hs]
  exact ⟨rfl, rfl⟩

/-- A sinogram of lines with a tilt of `θ` degrees: twelve samples, every fourth one bright, and brighter the closer the angle is to
`90 - θ`. -/
noncomputable def tiltSino (θ : ℝ) (angles : List ℝ) : Mat ℝ where
  height := 12
  width := angles.length
  get i j := (if i % 4 = 2 then 5 else 1) - |angles.getD j 0 - (90 - θ)|

theorem tiltSino_sharp {θ : ℝ} {angles : List ℝ} {k : ℕ} {a : ℝ} (h : IsSharpest (tiltSino θ angles) k) (hk : angles[k]? = some a) :
    ∀ b ∈ angles, |a - (90 - θ)| ≤ |b - (90 - θ)| := by
  intro b hb
  obtain ⟨j, hj, rfl⟩ := List.mem_iff_getElem.1 hb
  obtain ⟨_, i, hi, hmax⟩ := h
  have := hmax 2 j (by simp [tiltSino]) hj
  simp only [tiltSino, List.getD_eq_getElem?_getD, hk, List.getElem?_eq_getElem hj, Option.getD_some] at this
  norm_num at this
  split_ifs at this <;> linarith

/-- The hypotheses can be met: lines with a tilt of 3.01 degrees. -/
example (E : Ext) (m : Mat ℝ) (hh : m.height = 64) (hw : m.width = 64) : ∃ s d φ,
    calcSlopeDistanceHor E id id (fun _ => tiltSino 3.01) m 0.5 30 1 0.1 true false false false false none = .ok (s, d) ∧
    s = Real.tan (φ * Real.pi / 180) ∧ |φ - 3.01| ≤ 1 / 40 := by
  have hrad : ∀ (_ : Mat ℝ) (angles : List ℝ), (tiltSino 3.01 angles).width = angles.length ∧ 0 < (tiltSino 3.01 angles).height :=
    fun _ _ => ⟨rfl, by simp [tiltSino]⟩
  obtain ⟨img, angles, k, _, hk, _, h⟩ := C78_total E id id (fun _ => tiltSino 3.01) hrad m 0.5 30 (by norm_num) 1 0.1 true false
    false false none (by simp [hh, hw]; norm_num) _ (Or.inl rfl)
  have hlen : (column (tiltSino 3.01 angles) k).length = 12 := by simp [column, tiltSino]
  obtain ⟨M, hM, hmax, pts, e, hsort, hpts⟩ := C43_max E (column (tiltSino 3.01 angles) k) 1 0.1 (by omega) 1 (by rw [hlen]; norm_num)
  have hget : ∀ i, i < 12 → (column (tiltSino 3.01 angles) k).getD i 0 =
      (if i % 4 = 2 then 5 else 1) - |angles.getD k 0 - (90 - 3.01)| := by
    intro i hi
    simp [column, tiltSino, List.getD_eq_getElem?_getD, List.getElem?_range hi]
  generalize |angles.getD k 0 - (90 - 3.01)| = t at hget
  have hMt : M = 5 - t := by
    apply le_antisymm
    · obtain ⟨i, hi, rfl⟩ := List.mem_iff_getElem.1 hM
      have := hget i (by omega)
      rw [List.getD_eq_getElem?_getD, List.getElem?_eq_getElem hi, Option.getD_some] at this
      rw [this]
      split_ifs <;> linarith
    · have h2 := hget 2 (by omega)
      rw [List.getD_eq_getElem?_getD, List.getElem?_eq_getElem (by omega), Option.getD_some] at h2
      rw [if_pos (by norm_num)] at h2
      rw [← h2]
      exact hmax _ (List.getElem_mem _)
  have key : ∀ i, i = 2 ∨ i = 6 → i ∈ pts := by
    intro i hi
    refine (hpts i).2 ⟨by omega, by omega, ?_, 4, ?_, ?_⟩
    · intro j h1 h2
      rw [hget i (by omega), hget j (by omega)]
      rcases hi with rfl | rfl <;> norm_num <;> split_ifs <;> linarith
    · refine ⟨[0, 4], [4], ?_, by simp, by simp, by simp⟩
      have e1 := hget (i - 1) (by omega)
      have e2 := hget i (by omega)
      have e3 := hget (i + 1) (by omega)
      have i1 : i - 1 + 1 = i := by omega
      have i2 : i - 1 + 2 = i + 1 := by omega
      simp only [around, List.range_succ, List.range_zero, List.nil_append, List.map_append, List.map_cons, List.map_nil,
        Nat.add_zero, i1, i2, e1, e2, e3, hMt]
      rcases hi with rfl | rfl <;> norm_num <;> exact List.Perm.swap _ _ _
    · rw [hget i (by omega), hMt]
      unfold contrast
      rw [if_neg (by norm_num)]
      rcases hi with rfl | rfl <;> norm_num
  have h2 : 2 ≤ pts.length := by
    obtain ⟨a, ha, ea⟩ := List.mem_iff_getElem.1 (key 2 (Or.inl rfl))
    obtain ⟨b, hb, eb⟩ := List.mem_iff_getElem.1 (key 6 (Or.inr rfl))
    by_contra hlt
    have : a = b := by omega
    subst this
    omega
  have := h _ e
  rw [if_pos (by simpa using h2)] at this
  obtain ⟨⟨s, d⟩, hr⟩ := this
  obtain ⟨φ, h3, h4⟩ := (C78_accuracy E id id (fun _ => tiltSino 3.01) (fun _ _ => rfl) m 0.5 30 1 0.1 true false false false none s d
    3.01 (by rw [abs_of_pos] <;> norm_num)).1 (fun _ _ _ _ _ h1 h2 => tiltSino_sharp h1 h2) hr
  exact ⟨s, d, φ, hr, h3, h4⟩

example (E : Ext) (m : Mat ℝ) (hh : m.height = 64) (hw : m.width = 64) := C78_no_angles E id id (fun _ => tiltSino 3.01) (fun _ _ => rfl) m 0.5 (-1) (by norm_num) 1 0.1 true false
  false false none (by simp [hh, hw]; norm_num)

end Discorpy
