import Verif.Lemmas.Reorder
import Verif.Lemmas.Grouping
import Verif.Props.C95
import Verif.Props.C96
import Verif.Props.C75
import Verif.Props.C73

/-! # C116: the order of the dots does not matter -/

namespace Discorpy

open Spec

/-- **C116 (rows).** Dots of which no two have the same x are grouped into the same rows, whatever their order in the list. -/
theorem C116_rows (argsort argsort' : List ℝ → List ℕ) (hs : ArgsortSpec argsort) (hs' : ArgsortSpec argsort') (dots dots' : List Pt)
    (hp : dots.Perm dots') (hd : ∀ p ∈ dots, ∀ q ∈ dots, p.x = q.x → p = q) (slope dist ratio miss acc : ℝ) :
    groupDotsHor argsort dots slope dist ratio miss acc = groupDotsHor argsort' dots' slope dist ratio miss acc := by
  unfold groupDotsHor
  rw [argsort_reordered hs hs' Pt.x hp hd]
  simp only [nil_iff_perm hp]

/-- **C116 (columns).** The same for columns and dots of which no two have the same y. -/
theorem C116_columns (argsort argsort' : List ℝ → List ℕ) (hs : ArgsortSpec argsort) (hs' : ArgsortSpec argsort') (dots dots' : List Pt)
    (hp : dots.Perm dots') (hd : ∀ p ∈ dots, ∀ q ∈ dots, p.y = q.y → p = q) (slope dist ratio miss acc : ℝ) :
    groupDotsVer argsort dots slope dist ratio miss acc = groupDotsVer argsort' dots' slope dist ratio miss acc := by
  unfold groupDotsVer
  simp only
  rw [argsort_reordered hs hs' Pt.x (hp.map flipPt) (by
    intro a ha b hb e
    obtain ⟨p, hm, rfl⟩ := List.mem_map.1 ha
    obtain ⟨q, hq, rfl⟩ := List.mem_map.1 hb
    rw [hd p hm q hq e])]
  simp only [nil_iff_perm hp]

/-- **C116 (ties).** Dots with the same x may not be exchanged: of the three dots (0, 0), (1/4, 0) and (1/2, 1), at distance 1 and with the tolerance
0.3, one order of the first two gives a line of three dots and the other one a line of two. -/
theorem C116_ties (argsort : List ℝ → List ℕ) (hs : ArgsortSpec argsort) :
    ∃ lines lines', groupDotsHor argsort [⟨0, 0⟩, ⟨1 / 4, 0⟩, ⟨1 / 2, 1⟩] 0 1 0.3 1.5 0 = .ok [lines] ∧
      groupDotsHor argsort [⟨1 / 4, 0⟩, ⟨0, 0⟩, ⟨1 / 2, 1⟩] 0 1 0.3 1.5 0 = .ok [lines'] ∧
      (lines.length = 3 ∧ lines'.length = 2 ∨ lines.length = 2 ∧ lines'.length = 3) := by
  set check := checkDotOnLine 0 1 0.3 1.5 with hc
  have c : ∀ p q : Pt, check p q = true ↔ (p.x - 1.5 < q.x ∧ q.x < p.x + 1.5) ∧ |p.y - q.y| < 0.3 := by
    intro p q
    rw [hc, checkDotOnLine]
    simp [sub_eq_neg_add]
  have g1 : groupLoop check [⟨0, 0⟩, ⟨1 / 4, 0⟩, ⟨1 / 2, 1⟩] = [[⟨0, 0⟩, ⟨1 / 4, 0⟩, ⟨1 / 2, 1⟩]] := by
    have e1 : check ⟨0, 0⟩ ⟨1 / 4, 0⟩ = true := by rw [c]; norm_num [abs_lt]
    have e2 : check ⟨1 / 4, 0⟩ ⟨1 / 2, 1⟩ = true := by rw [c]; norm_num [abs_lt]
    rw [groupLoop_cons]
    simp [scan, e1, e2, groupLoop_nil, -one_div]
  have g2 : groupLoop check [⟨1 / 4, 0⟩, ⟨0, 0⟩, ⟨1 / 2, 1⟩] = [[⟨1 / 4, 0⟩, ⟨0, 0⟩]] := by
    have e1 : check ⟨1 / 4, 0⟩ ⟨0, 0⟩ = true := by rw [c]; norm_num [abs_lt]
    have e2 : check ⟨0, 0⟩ ⟨1 / 2, 1⟩ = false := by
      rw [Bool.eq_false_iff, ne_eq, c]
      norm_num [abs_lt]
    rw [groupLoop_cons]
    simp [scan, e1, e2, groupLoop_single, -one_div]
  have acc : ∀ (dots left line : List Pt), dots ≠ [] → fancyIndex dots (argsort (dots.map Pt.x)) = left → groupLoop check left = [line] → 0 < line.length →
      groupDotsHor argsort dots 0 1 0.3 1.5 0 = .ok [line] := by
    intro dots left line h0 h1 h2 h3
    unfold groupDotsHor
    rw [if_neg h0, h1]
    simp only [← hc, h2]
    have hm : npMax (lineLengths [line]) = .ok (line.length : ℝ) := by simp [lineLengths, npMax]
    rw [hm, ok_bind]
    have ht : truncInt (0 * (line.length : ℝ)) = 0 := by simp [truncInt]
    rw [ht]
    simp [sortLines, h3]
  have hp := hs.perm [0, 0, 1]
  have ho := hs.sorted [0, 0, 1]
  have cases : argsort [0, 0, 1] = [0, 1, 2] ∨ argsort [0, 0, 1] = [1, 0, 2] := by
    have h3 : (argsort [0, 0, 1]).length = 3 := by rw [hp.length_eq]; rfl
    obtain ⟨i, j, k, e⟩ := List.length_eq_three.1 h3
    rw [e] at hp ho ⊢
    have mem : ∀ t ∈ [i, j, k], t < 3 := fun t ht => by simpa using hp.mem_iff.1 ht
    have nd : [i, j, k].Nodup := hp.nodup_iff.2 List.nodup_range
    have hi := mem i (by simp)
    have hj := mem j (by simp)
    have hk := mem k (by simp)
    simp only [List.nodup_cons, List.mem_cons, List.not_mem_nil, or_false, not_or] at nd
    interval_cases i <;> interval_cases j <;> interval_cases k <;> simp_all
    all_goals norm_num at ho
  rcases cases with h | h
  · refine ⟨_, _, acc _ _ _ (by simp) (by simp [h, fancyIndex]) g1 (by simp), acc _ _ _ (by simp) (by simp [h, fancyIndex]) g2 (by simp), Or.inl ⟨rfl, rfl⟩⟩
  · refine ⟨_, _, acc _ _ _ (by simp) (by simp [h, fancyIndex]) g2 (by simp), acc _ _ _ (by simp) (by simp [h, fancyIndex]) g1 (by simp), Or.inr ⟨rfl, rfl⟩⟩

/-- **C116 (centres).** All ways of finding the centre give the same result, whatever the order of the dots in each line. -/
theorem C116_centres (pf : PolyfitFn) (hpf : PolyfitSpec pf) (hor hor' ver ver' : List (List Pt)) (hh : Reordered hor hor') (hv : Reordered ver ver')
    (h3 : ThreePlaces Pt.x hor) (v3 : ThreePlaces Pt.y ver) :
    findCodCoarse pf hor ver = findCodCoarse pf hor' ver' ∧
    (∀ n, findCodBailey pf hor ver n = findCodBailey pf hor' ver' n) ∧
    (∀ minimize xc yc d, findCodFine pf minimize hor ver xc yc d = findCodFine pf minimize hor' ver' xc yc d) ∧
    (∀ roots argsort, findCentreVanishing pf roots argsort hor ver = findCentreVanishing pf roots argsort hor' ver') ∧
    ∀ roots, findCentreVanishing2 pf roots hor ver = findCentreVanishing2 pf roots hor' ver' := by
  have S : SameFits pf hor hor' ver ver' := ⟨hh, hv, h3, v3, hpf⟩
  exact ⟨S.coarse, S.bailey, S.fine, fun roots argsort => S.vanishing _, fun roots => S.vanishing _⟩

/-- **C116 (forward model).** The forward model is found again from the dots in another order: it has the same values at the distances of all dots
that count and so, if there are as many different distances as coefficients, the same coefficients. -/
theorem C116_forward (pf : PolyfitFn) (hpf : PolyfitSpec pf) (hor hor' ver ver' : List (List Pt)) (hh : Reordered hor hor') (hv : Reordered ver ver')
    (h3 : ThreePlaces Pt.x hor) (v3 : ThreePlaces Pt.y ver) (lstsq : LstsqFn) (hls : LstsqSpec lstsq) (minimize : (ℝ → ℝ) → ℝ → ℝ)
    (xc yc : ℝ) (numFact : ℤ) (optimizing : Bool) (threshold : ℝ) (k : List ℝ) (w : Bool)
    (h : calcCoefForward pf lstsq minimize hor ver xc yc numFact optimizing threshold = .ok (k, w)) :
    ∃ k' uh uv, calcCoefForward pf lstsq minimize hor' ver' xc yc numFact optimizing threshold = .ok (k', w) ∧
      calcUndistorIntercept pf minimize hor ver xc yc optimizing threshold = .ok (uh, uv, w) ∧ k'.length = k.length ∧
      (∀ r, ForwardRadius uh hor ⟨yc, xc⟩ r ∨ ForwardRadius uv ver ⟨yc, xc⟩ r → radial k' r = radial k r) ∧
      ((∃ rs : List ℝ, rs.Nodup ∧ rs.length = k.length ∧ ∀ r ∈ rs, ForwardRadius uh hor ⟨yc, xc⟩ r ∨ ForwardRadius uv ver ⟨yc, xc⟩ r) → k' = k) := by
  have S : SameFits pf hor hor' ver ver' := ⟨hh, hv, h3, v3, hpf⟩
  unfold calcCoefForward at h
  simp only at h
  rw [bind_ok_iff] at h
  obtain ⟨⟨uh, uv, w'⟩, eu, h⟩ := h
  simp only at h
  rw [bind_ok_iff] at h
  obtain ⟨⟨ch, sh⟩, e1, h⟩ := h
  simp only at h
  rw [bind_ok_iff] at h
  obtain ⟨⟨cv, sv⟩, e2, h⟩ := h
  simp only [bind_ok_iff] at h
  obtain ⟨r1, e3, r2, e4, k0, e5, h⟩ := h
  cases h
  set n := numFactors numFact
  obtain ⟨l1, rfl⟩ := fit_lengths e1
  obtain ⟨l2, rfl⟩ := fit_lengths_ver e2
  have T := S.shift xc yc
  obtain ⟨r1', e3', p1⟩ := rowsOf_reordered T.rh e3
  obtain ⟨r2', e4', p2⟩ := rowsOf_reordered T.rv e4
  have d1 := (forRows_forward (along' := Pt.x) (ψ := id) (φ := id) one_ne_zero radius_id (fun q p => by rw [one_mul]; rfl) e3).1
  have d2 := (forRows_forward (along' := Pt.y) (ψ := id) (φ := id) one_ne_zero radius_id (fun q p => by rw [one_mul]; rfl) e4).1
  have d1' := (forRows_forward (along' := Pt.x) (ψ := id) (φ := id) one_ne_zero radius_id (fun q p => by rw [one_mul]; rfl) e3').1
  have d2' := (forRows_forward (along' := Pt.y) (ψ := id) (φ := id) one_ne_zero radius_id (fun q p => by rw [one_mul]; rfl) e4').1
  have q1 := (samplesOf_reordered ch uh T.rh (forwardData Pt.x)).flatten
  have q2 := (samplesOf_reordered cv uv T.rv (forwardData Pt.y)).flatten
  set D1 := (samplesOf ch uh (hor.map (shiftLine xc yc)) (forwardData Pt.x)).flatten
  set D2 := (samplesOf cv uv (ver.map (shiftLine xc yc)) (forwardData Pt.y)).flatten
  set D1' := (samplesOf ch uh (hor'.map (shiftLine xc yc)) (forwardData Pt.x)).flatten
  set D2' := (samplesOf cv uv (ver'.map (shiftLine xc yc)) (forwardData Pt.y)).flatten
  rw [d1, d2, ← List.map_append] at e5
  have hne : D1 ++ D2 ≠ [] := by
    intro h0
    rw [h0] at e5
    simp [lstsqChecked] at e5
  obtain ⟨k1, k', f1, f2, f3, f4, hval0⟩ := lsq_same_values hls hls n one_pos (q1.append q2).symm hne
  rw [e5] at f1
  cases f1
  simp only [one_mul] at f2 hval0
  have hval : ∀ r, ForwardRadius uh hor ⟨yc, xc⟩ r ∨ ForwardRadius uv ver ⟨yc, xc⟩ r → radial k' r = radial k r := by
    intro r hr
    rcases hr with hr | hr
    · obtain ⟨v, hm⟩ := forwardRadius_mem (along := Pt.x) l1 hr
      simpa using hval0 (r, v) (List.mem_append_left _ hm)
    · obtain ⟨v, hm⟩ := forwardRadius_mem (along := Pt.y) l2 hr
      simpa using hval0 (r, v) (List.mem_append_right _ hm)
  refine ⟨k', uh, uv, ?_, eu, by rw [f3, f4], hval, fun ⟨rs, a, b, c⟩ => radial_determined (by rw [f3, f4]) a b fun r hr => hval r (c r hr)⟩
  have a1 : paraFitHor pf hor' xc yc = .ok (ch, hor'.map (shiftLine xc yc)) := S.fitHor e1
  have a2 : paraFitVer pf ver' xc yc = .ok (cv, ver'.map (shiftLine xc yc)) := S.fitVer e2
  unfold calcCoefForward
  simp only
  rw [← S.intercept, eu, ok_bind]
  simp only
  rw [a1, ok_bind]
  simp only
  rw [a2, ok_bind]
  simp only
  rw [e3', ok_bind, e4', ok_bind, d1', d2', ← List.map_append, f2, ok_bind]

/-- **C116 (backward model).** The same for the backward model, at the undistorted radii of the dots. -/
theorem C116_backward (pf : PolyfitFn) (hpf : PolyfitSpec pf) (hor hor' ver ver' : List (List Pt)) (hh : Reordered hor hor') (hv : Reordered ver ver')
    (h3 : ThreePlaces Pt.x hor) (v3 : ThreePlaces Pt.y ver) (lstsq : LstsqFn) (hls : LstsqSpec lstsq) (minimize : (ℝ → ℝ) → ℝ → ℝ)
    (xc yc : ℝ) (numFact : ℤ) (optimizing : Bool) (threshold : ℝ) (k : List ℝ) (w : Bool)
    (h : calcCoefBackward pf lstsq minimize hor ver xc yc numFact optimizing threshold = .ok (k, w)) :
    ∃ k' ch cv uh uv, calcCoefBackward pf lstsq minimize hor' ver' xc yc numFact optimizing threshold = .ok (k', w) ∧
      calcUndistorIntercept pf minimize hor ver xc yc optimizing threshold = .ok (uh, uv, w) ∧
      paraFitHor pf hor xc yc = .ok (ch, hor.map (shiftLine xc yc)) ∧ paraFitVer pf ver xc yc = .ok (cv, ver.map (shiftLine xc yc)) ∧
      k'.length = k.length ∧
      (∀ r, BackwardRadius Pt.x ch uh hor ⟨yc, xc⟩ r ∨ BackwardRadius Pt.y cv uv ver ⟨yc, xc⟩ r → radial k' r = radial k r) ∧
      ((∃ rs : List ℝ, rs.Nodup ∧ rs.length = k.length ∧ ∀ r ∈ rs, BackwardRadius Pt.x ch uh hor ⟨yc, xc⟩ r ∨ BackwardRadius Pt.y cv uv ver ⟨yc, xc⟩ r) → k' = k) := by
  have S : SameFits pf hor hor' ver ver' := ⟨hh, hv, h3, v3, hpf⟩
  unfold calcCoefBackward at h
  simp only at h
  rw [bind_ok_iff] at h
  obtain ⟨⟨uh, uv, w'⟩, eu, h⟩ := h
  simp only at h
  rw [bind_ok_iff] at h
  obtain ⟨⟨ch, sh⟩, e1, h⟩ := h
  simp only at h
  rw [bind_ok_iff] at h
  obtain ⟨⟨cv, sv⟩, e2, h⟩ := h
  simp only [bind_ok_iff] at h
  obtain ⟨r1, e3, r2, e4, k0, e5, h⟩ := h
  cases h
  set n := numFactors numFact
  obtain ⟨l1, rfl⟩ := fit_lengths e1
  obtain ⟨l2, rfl⟩ := fit_lengths_ver e2
  have T := S.shift xc yc
  obtain ⟨r1', e3', p1⟩ := rowsOf_reordered T.rh e3
  obtain ⟨r2', e4', p2⟩ := rowsOf_reordered T.rv e4
  have d1 := (forRows_backward (along' := Pt.x) (ψ := id) (φ := id) one_ne_zero radius_id (fun q p => by rw [one_mul]; rfl) e3).1
  have d2 := (forRows_backward (along' := Pt.y) (ψ := id) (φ := id) one_ne_zero radius_id (fun q p => by rw [one_mul]; rfl) e4).1
  have d1' := (forRows_backward (along' := Pt.x) (ψ := id) (φ := id) one_ne_zero radius_id (fun q p => by rw [one_mul]; rfl) e3').1
  have d2' := (forRows_backward (along' := Pt.y) (ψ := id) (φ := id) one_ne_zero radius_id (fun q p => by rw [one_mul]; rfl) e4').1
  have q1 := samplesOf_reordered ch uh T.rh (backwardData Pt.x)
  have q2 := samplesOf_reordered cv uv T.rv (backwardData Pt.y)
  set D1 := samplesOf ch uh (hor.map (shiftLine xc yc)) (backwardData Pt.x)
  set D2 := samplesOf cv uv (ver.map (shiftLine xc yc)) (backwardData Pt.y)
  set D1' := samplesOf ch uh (hor'.map (shiftLine xc yc)) (backwardData Pt.x)
  set D2' := samplesOf cv uv (ver'.map (shiftLine xc yc)) (backwardData Pt.y)
  rw [d1, d2, ← List.map_append] at e5
  have hne : D1 ++ D2 ≠ [] := by
    intro h0
    rw [h0] at e5
    simp [lstsqChecked] at e5
  obtain ⟨k1, k', f1, f2, f3, f4, hval0⟩ := lsq_same_values hls hls n one_pos (q1.append q2).symm hne
  rw [e5] at f1
  cases f1
  simp only [one_mul] at f2 hval0
  have hval : ∀ r, BackwardRadius Pt.x ch uh hor ⟨yc, xc⟩ r ∨ BackwardRadius Pt.y cv uv ver ⟨yc, xc⟩ r → radial k' r = radial k r := by
    intro r hr
    rcases hr with hr | hr
    · obtain ⟨v, hm⟩ := backwardRadius_mem (fun _ => rfl) hr
      simpa using hval0 (r, v) (List.mem_append_left _ hm)
    · obtain ⟨v, hm⟩ := backwardRadius_mem (fun _ => rfl) hr
      simpa using hval0 (r, v) (List.mem_append_right _ hm)
  refine ⟨k', ch, cv, uh, uv, ?_, eu, e1, e2, by rw [f3, f4], hval, fun ⟨rs, a, b, c⟩ => radial_determined (by rw [f3, f4]) a b fun r hr => hval r (c r hr)⟩
  have a1 : paraFitHor pf hor' xc yc = .ok (ch, hor'.map (shiftLine xc yc)) := S.fitHor e1
  have a2 : paraFitVer pf ver' xc yc = .ok (cv, ver'.map (shiftLine xc yc)) := S.fitVer e2
  unfold calcCoefBackward
  simp only
  rw [← S.intercept, eu, ok_bind]
  simp only
  rw [a1, ok_bind]
  simp only
  rw [a2, ok_bind]
  simp only
  rw [e3', ok_bind, e4', ok_bind, d1', d2', ← List.map_append, f2, ok_bind]

/-- **C116 (both models).** The same for the pair of models of `calc_coef_backward_from_forward`, if there are as many different distances as
coefficients: the forward model is the same, and the backward model has the same values at the undistorted radii of all dots. -/
theorem C116_backward_from_forward (pf : PolyfitFn) (hpf : PolyfitSpec pf) (hor hor' ver ver' : List (List Pt)) (hh : Reordered hor hor') (hv : Reordered ver ver')
    (h3 : ThreePlaces Pt.x hor) (v3 : ThreePlaces Pt.y ver) (lstsq : LstsqFn) (hls : LstsqSpec lstsq) (minimize : (ℝ → ℝ) → ℝ → ℝ)
    (xc yc : ℝ) (numFact : ℤ) (optimizing : Bool) (threshold : ℝ) (ff bf : List ℝ) (w : Bool)
    (h : calcCoefBackwardFromForward pf lstsq minimize hor ver xc yc numFact optimizing threshold = .ok (ff, bf, w)) :
    ∃ uh uv, calcUndistorIntercept pf minimize hor ver xc yc optimizing threshold = .ok (uh, uv, w) ∧
      ((∃ rs : List ℝ, rs.Nodup ∧ rs.length = ff.length ∧ ∀ r ∈ rs, ForwardRadius uh hor ⟨yc, xc⟩ r ∨ ForwardRadius uv ver ⟨yc, xc⟩ r) →
        ∃ bf', calcCoefBackwardFromForward pf lstsq minimize hor' ver' xc yc numFact optimizing threshold = .ok (ff, bf', w) ∧
          bf'.length = bf.length ∧
          ∀ p, p ∈ hor.flatten ∨ p ∈ ver.flatten → radial ff (ptDist p ⟨yc, xc⟩) ≠ 0 →
            radial bf' (radial ff (ptDist p ⟨yc, xc⟩) * ptDist p ⟨yc, xc⟩) = radial bf (radial ff (ptDist p ⟨yc, xc⟩) * ptDist p ⟨yc, xc⟩)) := by
  have S : SameFits pf hor hor' ver ver' := ⟨hh, hv, h3, v3, hpf⟩
  unfold calcCoefBackwardFromForward at h
  rw [bind_ok_iff] at h
  obtain ⟨⟨f, w'⟩, ef, h⟩ := h
  simp only at h
  rw [bind_ok_iff] at h
  obtain ⟨⟨ch, sh⟩, e1, h⟩ := h
  simp only at h
  rw [bind_ok_iff] at h
  obtain ⟨⟨cv, sv⟩, e2, h⟩ := h
  simp only [bind_ok_iff] at h
  obtain ⟨b, e3, h⟩ := h
  cases h
  obtain ⟨f', uh, uv, ef', eu, hl, -, huniq⟩ := C116_forward pf hpf hor hor' ver ver' hh hv h3 v3 lstsq hls minimize xc yc numFact optimizing threshold ff w ef
  refine ⟨uh, uv, eu, fun hrs => ?_⟩
  obtain rfl := huniq hrs
  obtain ⟨l1, rfl⟩ := fit_lengths e1
  obtain ⟨l2, rfl⟩ := fit_lengths_ver e2
  rw [inverseRow_data, inverseRow_data, ← List.map_append] at e3
  set P : Pt → Bool := fun p => decide (radial f' (ptDist p ⟨yc, xc⟩) ≠ 0) with hP
  set g : Pt → ℝ × ℝ := fun p => (radial f' (ptDist p ⟨yc, xc⟩) * ptDist p ⟨yc, xc⟩, 1 / radial f' (ptDist p ⟨yc, xc⟩)) with hg
  have q1 := ((reordered_flatten hh).filter P).map g
  have q2 := ((reordered_flatten hv).filter P).map g
  have hne : (hor.flatten.filter P).map g ++ (ver.flatten.filter P).map g ≠ [] := by
    intro h0
    rw [h0] at e3
    simp [lstsqChecked] at e3
  obtain ⟨k1, k', g1, g2, g3, g4, hval⟩ := lsq_same_values hls hls f'.length one_pos (q1.append q2).symm hne
  rw [e3] at g1
  cases g1
  simp only [one_mul] at g2 hval
  refine ⟨k', ?_, by rw [g3, g4], fun p hp hz => ?_⟩
  · unfold calcCoefBackwardFromForward
    rw [ef', ok_bind]
    simp only
    rw [S.fitHor e1, ok_bind]
    simp only
    rw [S.fitVer e2, ok_bind]
    simp only
    rw [inverseRow_data, inverseRow_data, ← List.map_append, g2, ok_bind]
  · refine hval (g p) ?_
    rw [List.mem_append]
    exact hp.imp (fun hp => List.mem_map.2 ⟨p, List.mem_filter.2 ⟨hp, by simpa [hP] using hz⟩, rfl⟩)
      (fun hp => List.mem_map.2 ⟨p, List.mem_filter.2 ⟨hp, by simpa [hP] using hz⟩, rfl⟩)

/-- **C116 (straight grids).** Two places along each line are enough for the functions that fit straight lines. -/
theorem C116_grids (pf : PolyfitFn) (hpf : PolyfitSpec pf) (hor hor' ver ver' : List (List Pt)) (hh : Reordered hor hor') (hv : Reordered ver ver')
    (h2 : TwoPlaces Pt.x hor) (v2 : TwoPlaces Pt.y ver) :
    regenerateGridLinear pf hor ver = regenerateGridLinear pf hor' ver' ∧
    ∀ minimize equalDist scale optimizing,
      generateUndistortedPerspectiveLines pf minimize hor ver equalDist scale optimizing =
        generateUndistortedPerspectiveLines pf minimize hor' ver' equalDist scale optimizing ∧
      generateSourceTarget pf minimize hor ver equalDist scale optimizing = generateSourceTarget pf minimize hor' ver' equalDist scale optimizing := by
  have e := linearCoef_perm hpf hh hv h2 v2
  have e1 : regenerateGridLinear pf hor ver = regenerateGridLinear pf hor' ver' := by simp only [regenerateGridLinear, e]
  refine ⟨e1, fun minimize equalDist scale optimizing => ⟨?_, ?_⟩⟩
  · simp only [generateUndistortedPerspectiveLines, calcUndistorInterceptPers, e, reordered_length hh, reordered_length hv]
  · simp only [generateSourceTarget, e1]

/-- **C116 (bent grids).** The grid points regenerated from parabolas. -/
theorem C116_bent_grid (pf : PolyfitFn) (hpf : PolyfitSpec pf) (hor hor' ver ver' : List (List Pt)) (hh : Reordered hor hor') (hv : Reordered ver ver')
    (h3 : ThreePlaces Pt.x hor) (v3 : ThreePlaces Pt.y ver) (fsolve : (ℝ × ℝ → ℝ × ℝ) → ℝ × ℝ → ℝ × ℝ) (perspective findCenter : Bool) :
    regenerateGridParabola pf fsolve hor ver perspective findCenter = regenerateGridParabola pf fsolve hor' ver' perspective findCenter := by
  have S : SameFits pf hor hor' ver ver' := ⟨hh, hv, h3, v3, hpf⟩
  exact S.parabolaGrid fsolve perspective findCenter

/-- **C116 (perspective effect).** The corrected lines are the same, the dots of each line in the order in which they were given. -/
theorem C116_effect (pf : PolyfitFn) (hpf : PolyfitSpec pf) (hor hor' ver ver' : List (List Pt)) (hh : Reordered hor hor') (hv : Reordered ver ver')
    (h3 : ThreePlaces Pt.x hor) (v3 : ThreePlaces Pt.y ver) (lstsq : LstsqFn) (argsort : List ℝ → List ℕ) (xc yc : ℝ) (method : RepMethod) (scale : ScaleOpt) (oh ov : List (List Pt))
    (h : correctPerspectiveEffect pf lstsq argsort hor ver xc yc method scale = .ok (oh, ov)) :
    ∃ oh' ov', correctPerspectiveEffect pf lstsq argsort hor' ver' xc yc method scale = .ok (oh', ov') ∧ Reordered oh oh' ∧ Reordered ov ov' := by
  have S : SameFits pf hor hor' ver ver' := ⟨hh, hv, h3, v3, hpf⟩
  have T := S.shift xc yc
  have corr : ∀ {L L' : List (List Pt)} {coef : List ℝ} {out : List (List Pt)}, Reordered L L' → correctPerspectiveLine L coef = .ok out →
      ∃ out', correctPerspectiveLine L' coef = .ok out' ∧ Reordered out out' := by
    intro L L' coef out hL h
    unfold correctPerspectiveLine at h ⊢
    split at h
    · have he : L.any List.isEmpty = L'.any List.isEmpty := by
        clear h
        induction hL with
        | nil => rfl
        | cons hab _ ih =>
          rw [List.any_cons, List.any_cons, ih]
          congr 1
          rw [Bool.eq_iff_iff, List.isEmpty_iff, List.isEmpty_iff]
          exact nil_iff_perm hab
      rw [he] at h
      split at h
      · cases h
      · rename_i hf
        cases h
        refine ⟨_, by simp only [hf]; rfl, reordered_map hL _⟩
    · cases h
  unfold correctPerspectiveEffect at h ⊢
  rw [bind_ok_iff] at h
  obtain ⟨⟨ch, sh⟩, e1, h⟩ := h
  simp only at h
  rw [bind_ok_iff] at h
  obtain ⟨⟨cv, sv⟩, e2, h⟩ := h
  obtain ⟨l1, rfl⟩ := fit_lengths e1
  obtain ⟨l2, rfl⟩ := fit_lengths_ver e2
  rw [S.fitHor e1, ok_bind]
  simp only
  rw [S.fitVer e2, ok_bind]
  simp only at h ⊢
  split at h
  · cases h
  split at h
  · cases h
  rename_i c1 c2
  rw [if_neg c1, if_neg c2]
  rw [bind_ok_iff] at h
  obtain ⟨pts, e3, h⟩ := h
  rw [bind_ok_iff] at h
  obtain ⟨⟨s, t⟩, e4, h⟩ := h
  simp only [bind_ok_iff] at h
  obtain ⟨coef, e5, a, e6, b, e7, h⟩ := h
  cases h
  obtain ⟨a', e6', ra⟩ := corr T.rh e6
  obtain ⟨b', e7', rb⟩ := corr T.rv e7
  rw [e3, ok_bind, e4, ok_bind]
  simp only
  rw [e5, ok_bind, e6', ok_bind, e7', ok_bind]
  exact ⟨_, _, rfl, reordered_map ra _, reordered_map rb _⟩

/-- **C116 (residuals of rows).** The table of residuals has the same rows, the distances in the same order, and gives the same verdict. -/
theorem C116_residual_hor (pf : PolyfitFn) (hpf : PolyfitSpec pf) (argsort : List ℝ → List ℕ) (has : ArgsortSpec argsort) (lines lines' : List (List Pt))
    (h : Reordered lines lines') (h2 : TwoPlaces Pt.x lines) (hne : lines ≠ []) (xc yc : ℝ) :
    ∃ out out', calcResidualHor pf argsort lines xc yc = .ok out ∧ calcResidualHor pf argsort lines' xc yc = .ok out' ∧ out.Perm out' ∧
      out.map Prod.fst = out'.map Prod.fst ∧ checkDistortion out = checkDistortion out' := by
  obtain ⟨K, K', e, e', hp, h0⟩ := residualLines_perm (fun _ _ hp h => residualHor_perm hpf xc yc hp h) h h2 hne
  obtain ⟨out, out', f, f', r⟩ := residualTable has hp h0
  exact ⟨out, out', by rw [calcResidualHor, e, ok_bind, f], by rw [calcResidualHor, e', ok_bind, f'], r⟩

/-- **C116 (residuals of columns).** -/
theorem C116_residual_ver (pf : PolyfitFn) (hpf : PolyfitSpec pf) (argsort : List ℝ → List ℕ) (has : ArgsortSpec argsort) (lines lines' : List (List Pt))
    (h : Reordered lines lines') (h2 : TwoPlaces Pt.y lines) (hne : lines ≠ []) (xc yc : ℝ) :
    ∃ out out', calcResidualVer pf argsort lines xc yc = .ok out ∧ calcResidualVer pf argsort lines' xc yc = .ok out' ∧ out.Perm out' ∧
      out.map Prod.fst = out'.map Prod.fst ∧ checkDistortion out = checkDistortion out' := by
  obtain ⟨K, K', e, e', hp, h0⟩ := residualLines_perm (fun _ _ hp h => residualVer_perm hpf xc yc hp h) h h2 hne
  obtain ⟨out, out', f, f', r⟩ := residualTable has hp h0
  exact ⟨out, out', by rw [calcResidualVer, e, ok_bind, f], by rw [calcResidualVer, e', ok_bind, f'], r⟩

/-- **C116 (residual filter of rows).** The filter keeps the same dots of the same lines, or finds no line in both cases. -/
theorem C116_filter_hor (pf : PolyfitFn) (hpf : PolyfitSpec pf) (lines lines' : List (List Pt)) (h : Reordered lines lines') (h3 : ThreePlaces Pt.x lines)
    (slope residual : ℝ) :
    (∃ out out', removeResidualHor pf lines slope residual = .ok out ∧ removeResidualHor pf lines' slope residual = .ok out' ∧ Reordered out out') ∨
      removeResidualHor pf lines slope residual = .error .valueError ∧ removeResidualHor pf lines' slope residual = .error .valueError := by
  obtain ⟨K, K', e, e', hK⟩ := closeLines_perm hpf slope residual h h3
  have hf := reordered_filter hK
  unfold removeResidualHor
  rw [e, e', ok_bind, ok_bind]
  simp only [reordered_length hf]
  by_cases h0 : (K'.filter fun l => decide (l.length > 0)).length = 0
  · exact Or.inr ⟨if_pos h0, if_pos h0⟩
  · exact Or.inl ⟨_, _, if_neg h0, if_neg h0, hf⟩

/-- **C116 (residual filter of columns).** -/
theorem C116_filter_ver (pf : PolyfitFn) (hpf : PolyfitSpec pf) (lines lines' : List (List Pt)) (h : Reordered lines lines') (h3 : ThreePlaces Pt.y lines)
    (slope residual : ℝ) :
    (∃ out out', removeResidualVer pf lines slope residual = .ok out ∧ removeResidualVer pf lines' slope residual = .ok out' ∧ Reordered out out') ∨
      removeResidualVer pf lines slope residual = .error .valueError ∧ removeResidualVer pf lines' slope residual = .error .valueError := by
  have h3' : ThreePlaces Pt.x (lines.map fun l => l.map flipPt) := by
    intro l hl
    obtain ⟨m, hm, rfl⟩ := List.mem_map.1 hl
    obtain ⟨p, hp, q, hq, r, hr, hpqr⟩ := h3 m hm
    exact ⟨_, List.mem_map.2 ⟨p, hp, rfl⟩, _, List.mem_map.2 ⟨q, hq, rfl⟩, _, List.mem_map.2 ⟨r, hr, rfl⟩, hpqr⟩
  obtain ⟨K, K', e, e', hK⟩ := closeLines_perm hpf slope residual (reordered_map h flipPt) h3'
  have hf := reordered_map (reordered_filter hK) flipPt
  have m1 : ∀ L : List (List Pt), (L.map fun l => l.map flipPt).mapM (closeDots pf slope residual) = L.mapM fun l => closeDots pf slope residual (l.map flipPt) := by
    intro L
    rw [List.mapM_map]
    rfl
  rw [m1] at e e'
  unfold removeResidualVer
  rw [e, e', ok_bind, ok_bind]
  simp only [reordered_length hf]
  by_cases h0 : ((K'.filter fun l => decide (l.length > 0)).map fun l => l.map flipPt).length = 0
  · exact Or.inr ⟨if_pos h0, if_pos h0⟩
  · exact Or.inl ⟨_, _, if_neg h0, if_neg h0, hf⟩

/-! ## Non-vacuity -/

/-- Three dots with different x, in two orders. -/
example (slope dist ratio miss acc : ℝ) := C116_rows refArgsort refArgsort refArgsort_spec refArgsort_spec [⟨0, 0⟩, ⟨0, 1⟩, ⟨0, 2⟩] [⟨0, 2⟩, ⟨0, 1⟩, ⟨0, 0⟩]
  (List.reverse_perm _).symm (by intro p hp q hq h; simp at hp hq; rcases hp with rfl | rfl | rfl <;> rcases hq with rfl | rfl | rfl <;>
    first | rfl | norm_num at h)
  slope dist ratio miss acc
example (slope dist ratio miss acc : ℝ) := C116_columns refArgsort refArgsort refArgsort_spec refArgsort_spec [⟨0, 0⟩, ⟨1, 0⟩, ⟨2, 0⟩] [⟨2, 0⟩, ⟨1, 0⟩, ⟨0, 0⟩]
  (List.reverse_perm _).symm (by intro p hp q hq h; simp at hp hq; rcases hp with rfl | rfl | rfl <;> rcases hq with rfl | rfl | rfl <;>
    first | rfl | norm_num at h)
  slope dist ratio miss acc
example := C116_ties refArgsort refArgsort_spec

/-- The lines with all dots in the opposite order. -/
theorem reordered_reverse (lines : List (List Pt)) : Reordered lines (lines.map List.reverse) := by
  unfold Reordered
  rw [List.forall₂_map_right_iff, List.forall₂_same]
  exact fun l _ => (List.reverse_perm l).symm

theorem bentRows_places (k : ℝ) (us : List ℝ) : ThreePlaces Pt.x (us.map (bentRow k)) := by
  intro l hl
  obtain ⟨u, -, rfl⟩ := List.mem_map.1 hl
  exact bentRow_three k u

theorem bentCols_places (k : ℝ) (us : List ℝ) : ThreePlaces Pt.y (us.map (bentCol k)) := by
  intro l hl
  obtain ⟨u, -, rfl⟩ := List.mem_map.1 hl
  exact bentCol_three k u

theorem two_of_three {along : Pt → ℝ} {lines : List (List Pt)} (h : ThreePlaces along lines) : TwoPlaces along lines := fun l hl =>
  let ⟨p, hp, q, hq, _, _, h1, _⟩ := h l hl
  ⟨p, hp, q, hq, h1⟩

/-- Four barrel-shaped lines in each direction, and the same with the dots in the opposite order. -/
example := C116_centres refPolyfit refPolyfit_spec _ _ _ _ (reordered_reverse ([-3, -1, 1, 3].map (bentRow 0.5))) (reordered_reverse ([-3, -1, 1, 3].map (bentCol 0.5)))
  (bentRows_places _ _) (bentCols_places _ _)
example := C116_grids refPolyfit refPolyfit_spec _ _ _ _ (reordered_reverse ([-3, -1, 1, 3].map (bentRow 0.5))) (reordered_reverse ([-3, -1, 1, 3].map (bentCol 0.5)))
  (two_of_three (bentRows_places _ _)) (two_of_three (bentCols_places _ _))
example := C116_bent_grid refPolyfit refPolyfit_spec _ _ _ _ (reordered_reverse ([-3, -1, 1, 3].map (bentRow 0.5)))
  (reordered_reverse ([-3, -1, 1, 3].map (bentCol 0.5))) (bentRows_places _ _) (bentCols_places _ _) refFsolve true true
example := C116_effect refPolyfit refPolyfit_spec _ _ _ _ (reordered_reverse ([-3, -1, 1, 3].map (bentRow 0.5)))
  (reordered_reverse ([-3, -1, 1, 3].map (bentCol 0.5))) (bentRows_places _ _) (bentCols_places _ _) refLstsq refArgsort 5 3 .median .mean _ _
  (C75_fixed refPolyfit refPolyfit_spec refLstsq refLstsq_spec refArgsort refArgsort_spec ⟨3, 5⟩ 0.5 0.5 _ _ _ _ (bent_example 0.5 0.5 [-3, -1, 1, 3] [-3, -1, 1, 3])
    (by norm_num) (by norm_num) (by simp [BothSigns]) (by simp [BothSigns]) .median .mean (by simp))
example (xc yc : ℝ) := C116_residual_hor refPolyfit refPolyfit_spec refArgsort refArgsort_spec _ _ (reordered_reverse ([-3, -1, 1, 3].map (bentRow 0.5)))
  (two_of_three (bentRows_places _ _)) (by simp) xc yc
example (xc yc : ℝ) := C116_residual_ver refPolyfit refPolyfit_spec refArgsort refArgsort_spec _ _ (reordered_reverse ([-3, -1, 1, 3].map (bentCol 0.5)))
  (two_of_three (bentCols_places _ _)) (by simp) xc yc
example (slope : ℝ) := C116_filter_hor refPolyfit refPolyfit_spec _ _ (reordered_reverse ([-3, -1, 1, 3].map (bentRow 0.5))) (bentRows_places _ _) slope 2
example (slope : ℝ) := C116_filter_ver refPolyfit refPolyfit_spec _ _ (reordered_reverse ([-3, -1, 1, 3].map (bentCol 0.5))) (bentCols_places _ _) slope 2

/-- Their forward model with three coefficients, which there are enough different distances for. -/
example : ∃ k, calcCoefForward refPolyfit refLstsq refMinimize ([-3, -1, 1, 3].map (bentRow 0.5)) ([-3, -1, 1, 3].map (bentCol 0.5)) 5 3 3 true 0.3 =
      .ok (k, false) ∧ k.length = 3 ∧
    calcCoefForward refPolyfit refLstsq refMinimize (([-3, -1, 1, 3].map (bentRow 0.5)).map List.reverse) (([-3, -1, 1, 3].map (bentCol 0.5)).map List.reverse) 5 3 3
      true 0.3 = .ok (k, false) := by
  have hb := bent_example 0.5 0.5 [-3, -1, 1, 3] [-3, -1, 1, 3]
  obtain ⟨k, e, hk, _⟩ := C80_ideal_forward refPolyfit refPolyfit_spec refLstsq refLstsq_spec refMinimize ⟨3, 5⟩ 0.5 0.5
    [-3, -1, 1, 3] [-3, -1, 1, 3] _ _ hb (-3) 2 (-3) 2 arith4 arith4 (by norm_num) (by norm_num) (by simp) (by simp)
    (fun _ _ p _ => by positivity) (fun _ _ p _ => by positivity) 3 (by norm_num) true (fun _ => refMinimize_exact) 0.3 (by norm_num)
  have hk3 : k.length = 3 := by omega
  obtain ⟨k', uh, uv, e', eu, _, _, hu⟩ := C116_forward refPolyfit refPolyfit_spec _ _ _ _ (reordered_reverse ([-3, -1, 1, 3].map (bentRow 0.5)))
    (reordered_reverse ([-3, -1, 1, 3].map (bentCol 0.5))) (bentRows_places _ _) (bentCols_places _ _) refLstsq refLstsq_spec refMinimize _ _ _ _ _ _ _ e
  have eu' := bent_intercepts refPolyfit_spec refMinimize hb arith4 arith4 (by norm_num) (by norm_num) (by simp) (by simp) true (fun _ => refMinimize_exact)
      (show (0 : ℝ) ≤ 0.3 by norm_num)
  rw [eu'] at eu
  simp only [Except.ok.injEq, Prod.mk.injEq] at eu
  obtain ⟨rfl, rfl, _⟩ := eu
  have hkk : k' = k := by
    refine hu ⟨[1, 3, √3.25], ?_, by simp [hk3], ?_⟩
    · have h1 : √(3.25 : ℝ) ^ 2 = 3.25 := Real.sq_sqrt (by norm_num)
      simp only [List.nodup_cons, List.mem_cons, List.not_mem_nil, or_false, not_or, not_false_eq_true, List.nodup_nil, and_true]
      refine ⟨⟨by norm_num, fun h => ?_⟩, fun h => ?_⟩
      · rw [← h] at h1; norm_num at h1
      · rw [← h] at h1; norm_num at h1
    · intro r hr
      simp only [List.mem_cons, List.not_mem_nil, or_false] at hr
      left
      rcases hr with rfl | rfl | rfl
      · exact ⟨2, 1, bentRow 0.5 1, rfl, rfl, by norm_num, ⟨3 + 1 * (1 + 0.5 * 0 ^ 2), 5 + 0⟩, by simp [bentRow], by norm_num [ptDist]⟩
      · refine ⟨3, 3, bentRow 0.5 3, rfl, rfl, by norm_num, ⟨3 + 3 * (1 + 0.5 * 0 ^ 2), 5 + 0⟩, by simp [bentRow], ?_⟩
        rw [ptDist, show ((5 : ℝ) + 0 - 5) ^ 2 + (3 + 3 * (1 + 0.5 * 0 ^ 2) - 3) ^ 2 = 3 ^ 2 by norm_num, Real.sqrt_sq (by norm_num)]
      · exact ⟨2, 1, bentRow 0.5 1, rfl, rfl, by norm_num, ⟨3 + 1 * (1 + 0.5 * 1 ^ 2), 5 + 1⟩, by simp [bentRow], by norm_num [ptDist]⟩
  rw [hkk] at e'
  exact ⟨k, e, hk3, e'⟩

/-- Their backward model. -/
example : ∃ k k' : List ℝ, calcCoefBackward refPolyfit refLstsq refMinimize ([-3, -1, 1, 3].map (bentRow 0.5)) ([-3, -1, 1, 3].map (bentCol 0.5)) 5 3 3 true 0.3 =
      .ok (k, false) ∧
    calcCoefBackward refPolyfit refLstsq refMinimize (([-3, -1, 1, 3].map (bentRow 0.5)).map List.reverse) (([-3, -1, 1, 3].map (bentCol 0.5)).map List.reverse) 5 3 3
      true 0.3 = .ok (k', false) ∧ k'.length = k.length := by
  obtain ⟨k, e, _⟩ := C80_ideal_backward refPolyfit refPolyfit_spec refLstsq refLstsq_spec refMinimize ⟨3, 5⟩ 0.5 0.5
    [-3, -1, 1, 3] [-3, -1, 1, 3] _ _ (bent_example _ _ _ _) (-3) 2 (-3) 2 arith4 arith4 (by norm_num) (by norm_num) (by simp) (by simp)
    (by norm_num) (by norm_num) (fun l _ p _ => by positivity) (fun l _ p _ => by positivity) 3 (by norm_num) true (fun _ => refMinimize_exact) 0.3 (by norm_num)
  obtain ⟨k', _, _, _, _, e', _, _, _, hl, _⟩ := C116_backward refPolyfit refPolyfit_spec _ _ _ _ (reordered_reverse ([-3, -1, 1, 3].map (bentRow 0.5)))
    (reordered_reverse ([-3, -1, 1, 3].map (bentCol 0.5))) (bentRows_places _ _) (bentCols_places _ _) refLstsq refLstsq_spec refMinimize 5 3 3 true 0.3 k false e
  exact ⟨k, k', e, e', hl⟩

/-- The models of the grid of C22 with the dots of all lines in the opposite order. -/
example : ∃ f g g', calcCoefBackwardFromForward refPolyfit refLstsq refMinimize gridHor gridVer 1.5 1.4 3 true 0.3 = .ok (f, g, false) ∧
    calcCoefBackwardFromForward refPolyfit refLstsq refMinimize (gridHor.map List.reverse) (gridVer.map List.reverse) 1.5 1.4 3 true 0.3 = .ok (f, g', false) ∧
    radial g' (ptDist ⟨0, 0⟩ ⟨1.4, 1.5⟩) = radial g (ptDist ⟨0, 0⟩ ⟨1.4, 1.5⟩) := by
  obtain ⟨f, g, e, h1, hr⟩ := grid_models
  obtain ⟨uh, uv, eu, h⟩ := C116_backward_from_forward refPolyfit refPolyfit_spec gridHor _ gridVer _ (reordered_reverse _) (reordered_reverse _) gridHor_three
    gridVer_three refLstsq refLstsq_spec refMinimize 1.5 1.4 3 true 0.3 f g false e
  obtain ⟨g', e', _, hg⟩ := h (hr _ _ _ eu)
  have h0 := h1 ⟨0, 0⟩ (by simp [gridHor])
  have := hg ⟨0, 0⟩ (.inl (by simp [gridHor])) (by rw [h0]; exact one_ne_zero)
  rw [h0, one_mul] at this
  exact ⟨f, g, g', e, e', this⟩

end Discorpy
