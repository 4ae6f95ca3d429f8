import Verif.Lemmas.Lines

/-! # C12–C14: residuals and the distortion verdict -/

namespace Discorpy

open Spec

/-- **C12** (horizontal). For a non-empty list of non-empty lines `calc_residual_hor` succeeds and returns the residual
table: one row per dot, radius and Euclidean distance to the least-squares line, sorted by radius. -/
theorem C12_residual_hor (pf : List ℝ → List ℝ → ℕ → List ℝ) (hpf : PolyfitSpec pf)
    (argsort : List ℝ → List ℕ) (has : ArgsortSpec argsort) (lines : List (List Pt)) (xc yc : ℝ)
    (hne : lines ≠ []) (hl : ∀ l ∈ lines, l ≠ []) :
    ∃ out, calcResidualHor pf argsort lines xc yc = .ok out ∧
      IsResidualTable IsLsqHorLine onHorLine lines ⟨yc, xc⟩ out ∧
      out.length = (lines.map List.length).sum ∧ ∀ r ∈ out, 0 ≤ r.2 := by
  classical
  -- fit of each line
  choose! fa fb hf using fun (l : List Pt) (h : l ≠ []) => hpf.lsqHor l h xc yc
  let row := fun l : List Pt => l.map fun p => (p, ptDist p ⟨yc, xc⟩,
    |fa l * p.x - p.y + (fb l + yc - fa l * xc)| / √(fa l ^ 2 + 1))
  have hrow : ∀ l ∈ lines, residualLineHor pf xc yc l = .ok ((row l).map Prod.snd) := by
    intro l hlm
    have h := hf l (hl l hlm)
    unfold residualLineHor
    simp only [hl l hlm, if_false]
    rw [h.1]
    simp only [Except.ok.injEq]
    rw [List.zipWith_map, List.zipWith_self, List.map_map]
    apply List.map_congr_left
    intro p _
    simp only [Function.comp, ptDist, Prod.mk.injEq, true_and]
    congr 2
    ring
  have hm := mapM_ok _ _ lines hrow
  have hflat : (lines.map fun l => (row l).map Prod.snd).flatten = ((lines.map row).flatten).map Prod.snd := by
    rw [List.map_flatten, List.map_map]; rfl
  have hnz : (lines.map fun l => (row l).map Prod.snd).flatten ≠ [] := by
    obtain ⟨l, hlm⟩ := List.exists_mem_of_ne_nil _ hne
    obtain ⟨p, hp⟩ := List.exists_mem_of_ne_nil _ (hl l hlm)
    intro h0
    rw [List.flatten_eq_nil_iff] at h0
    have := h0 _ (List.mem_map.2 ⟨l, hlm, rfl⟩)
    simp [row, hl l hlm] at this
  have hlen : ∀ ls : List (List Pt), ((ls.map row).flatten.map Prod.snd).length = (ls.map List.length).sum := by
    intro ls
    simp [row, List.length_flatten, Function.comp_def]
  refine ⟨fancyIndex ((lines.map row).flatten.map Prod.snd)
    (argsort (((lines.map row).flatten.map Prod.snd).map Prod.fst)), ?_, ⟨lines.map row, ?_, ?_, ?_, ?_⟩, ?_, ?_⟩
  · unfold calcResidualHor
    rw [hm]
    show sortByRadius argsort _ = _
    rw [sortByRadius, if_neg hnz, hflat]
  · rw [List.map_map]
    conv_rhs => rw [← List.map_id lines]
    apply List.map_congr_left
    intro l _
    simp [row, Function.comp_def]
  · intro l hlm
    obtain ⟨l0, h0, rfl⟩ := List.mem_map.1 hlm
    refine ⟨fa l0, fb l0 + yc - fa l0 * xc, ?_, ?_⟩
    · have : (row l0).map Prod.fst = l0 := by simp [row, Function.comp_def]
      rw [this]; exact (hf l0 (hl l0 h0)).2
    · intro e he
      obtain ⟨p, hp, rfl⟩ := List.mem_map.1 he
      exact ⟨rfl, isDistTo_horLine _ _ p⟩
  · exact has.fancy_perm _ _
  · exact has.fancy_sorted _ _
  · rw [(has.fancy_perm _ _).length_eq, hlen]
  · intro r hr
    have := (has.fancy_perm _ _).mem_iff.1 hr
    simp only [List.mem_map, List.mem_flatten] at this
    obtain ⟨e, ⟨l, ⟨l0, _, rfl⟩, hel⟩, rfl⟩ := this
    obtain ⟨p, _, rfl⟩ := List.mem_map.1 hel
    positivity

/-- **C13.** `calc_residual_ver` is `calc_residual_hor` of the transposed lines about the transposed centre. -/
theorem C13_ver_eq_hor_transposed (pf : List ℝ → List ℝ → ℕ → List ℝ) (argsort : List ℝ → List ℕ)
    (lines : List (List Pt)) (xc yc : ℝ) :
    calcResidualVer pf argsort lines xc yc =
      calcResidualHor pf argsort (lines.map fun l => l.map swapPt) yc xc := by
  unfold calcResidualVer calcResidualHor
  have : ∀ ls : List (List Pt), ls.mapM (residualLineVer pf xc yc) =
      (ls.map fun l => l.map swapPt).mapM (residualLineHor pf yc xc) := by
    intro ls
    induction ls with
    | nil => rfl
    | cons l ls ih =>
      rw [List.map_cons, List.mapM_cons, List.mapM_cons, ih]
      have e : residualLineVer pf xc yc l = residualLineHor pf yc xc (l.map swapPt) := by
        unfold residualLineVer residualLineHor
        simp only [List.map_map, Function.comp_def, swapPt, List.map_eq_nil_iff]
        split
        · rfl
        · split
          next a b heq =>
            rw [List.zipWith_comm]
            simp only [add_comm]
          next => rfl
      rw [e]
  rw [this]

/-- Non-vacuity of C13: a sloped two-dot line gives a real (not an error) result on both sides. -/
example : ∃ out, calcResidualVer refPolyfit refArgsort [[⟨0, 1⟩, ⟨2, 5⟩]] 1 2 = .ok out ∧ out.length = 2 := by
  rw [C13_ver_eq_hor_transposed]
  obtain ⟨out, h, _, h', _⟩ := C12_residual_hor refPolyfit refPolyfit_spec refArgsort refArgsort_spec
    [[⟨1, 0⟩, ⟨5, 2⟩]] 2 1 (by simp) (by simp)
  exact ⟨out, by simpa [swapPt] using h, by simpa using h'⟩

/-- **C12** (vertical). -/
theorem C12_residual_ver (pf : List ℝ → List ℝ → ℕ → List ℝ) (hpf : PolyfitSpec pf)
    (argsort : List ℝ → List ℕ) (has : ArgsortSpec argsort) (lines : List (List Pt)) (xc yc : ℝ)
    (hne : lines ≠ []) (hl : ∀ l ∈ lines, l ≠ []) :
    ∃ out, calcResidualVer pf argsort lines xc yc = .ok out ∧
      IsResidualTable IsLsqVerLine onVerLine lines ⟨yc, xc⟩ out ∧
      out.length = (lines.map List.length).sum ∧ ∀ r ∈ out, 0 ≤ r.2 := by
  obtain ⟨out, e, ⟨table, t1, t2, t3, t4⟩, h2, h3⟩ := C12_residual_hor pf hpf argsort has
    (lines.map fun l => l.map swapPt) yc xc (by simpa using hne) (by
      intro l hlm
      obtain ⟨l0, h0, rfl⟩ := List.mem_map.1 hlm
      simpa using hl l0 h0)
  have hss : ∀ p : Pt, swapPt (swapPt p) = p := fun p => rfl
  have hd : ∀ p q, ptDist (swapPt p) q = ptDist p (swapPt q) := by
    intro p q; unfold ptDist swapPt; simp only; rw [add_comm]
  refine ⟨out, by rw [C13_ver_eq_hor_transposed, e], ⟨table.map fun l => l.map fun r => (swapPt r.1, r.2), ?_, ?_, ?_, t4⟩,
    ?_, h3⟩
  · have := congrArg (fun ls : List (List Pt) => ls.map fun l => l.map swapPt) t1
    simpa [Function.comp_def, hss, swapPt] using this
  · intro l hlm
    obtain ⟨l0, h0, rfl⟩ := List.mem_map.1 hlm
    obtain ⟨a, b, hab, hall⟩ := t2 l0 h0
    refine ⟨a, b, ?_, ?_⟩
    · intro a' b'
      have := hab a' b'
      simpa [Function.comp_def, swapPt] using this
    · intro r hr
      obtain ⟨r0, hr0, rfl⟩ := List.mem_map.1 hr
      obtain ⟨h1, ⟨q, hq, hqd⟩, hmin⟩ := hall r0 hr0
      refine ⟨?_, ⟨swapPt q, hq, ?_⟩, ?_⟩
      · simp only; rw [h1, hd]; rfl
      · simp only; rw [← hqd, hd]; rfl
      · intro q' hq'
        have := hmin (swapPt q') hq'
        simp only; rw [hd]; exact this
  · rw [← List.map_flatten, List.map_map]; simpa [Function.comp_def] using t3
  · rw [h2]; simp [Function.comp_def]

example := C12_residual_ver refPolyfit refPolyfit_spec refArgsort refArgsort_spec [[⟨0, 1⟩, ⟨2, 5⟩], [⟨0, 9⟩]] 1 2 (by simp) (by simp)

/-- **C12** (errors). No lines at all, or a line without dots: both functions raise IndexError. -/
theorem C12_errors (pf : List ℝ → List ℝ → ℕ → List ℝ) (hpf : PolyfitSpec pf) (argsort : List ℝ → List ℕ) (lines : List (List Pt)) (xc yc : ℝ)
    (h : lines = [] ∨ [] ∈ lines) :
    calcResidualHor pf argsort lines xc yc = .error .indexError ∧ calcResidualVer pf argsort lines xc yc = .error .indexError := by
  have key : ∀ (ls : List (List Pt)) (xc yc : ℝ), ls = [] ∨ [] ∈ ls → calcResidualHor pf argsort ls xc yc = .error .indexError := by
    intro ls xc yc h
    unfold calcResidualHor
    rcases h with rfl | h
    · rfl
    have : ls.mapM (residualLineHor pf xc yc) = .error .indexError := by
      induction ls with
      | nil => simp at h
      | cons l ls ih =>
        rw [List.mapM_cons]
        by_cases hl : l = []
        · subst hl
          rfl
        · obtain ⟨a, b, e, -⟩ := hpf.lsqHor l hl xc yc
          have hls : [] ∈ ls := by
            rcases List.mem_cons.1 h with h | h
            · exact absurd h.symm hl
            · exact h
          rw [ih hls]
          unfold residualLineHor
          simp only [hl, if_false]
          rw [e]
          rfl
    rw [this]
    rfl
  refine ⟨key _ _ _ h, ?_⟩
  rw [C13_ver_eq_hor_transposed]
  refine key _ _ _ (h.imp (fun h => by rw [h]; rfl) fun h => List.mem_map.2 ⟨[], h, rfl⟩)

/-- A line without points among others. -/
example := C12_errors refPolyfit refPolyfit_spec refArgsort [[⟨0, 1⟩, ⟨2, 5⟩], []] 1 2 (by simp)

/-- **C12** (straight lines): in a residual table a dot of a straight line has residual 0. -/
theorem C12_straight_line_zero (lines : List (List Pt)) (c : Pt) (out : List (ℝ × ℝ))
    (h : IsResidualTable IsLsqHorLine onHorLine lines c out)
    (hst : ∀ l ∈ lines, ∃ a b, ∀ p ∈ l, onHorLine a b p) : ∀ r ∈ out, r.2 = 0 := by
  obtain ⟨table, t1, t2, t3, _⟩ := h
  intro r hr
  have hr' := t3.mem_iff.1 hr
  simp only [List.mem_map, List.mem_flatten] at hr'
  obtain ⟨e, ⟨l, hlt, hel⟩, rfl⟩ := hr'
  obtain ⟨a, b, hab, hall⟩ := t2 l hlt
  have hmem : l.map Prod.fst ∈ lines := by rw [← t1]; exact List.mem_map.2 ⟨l, hlt, rfl⟩
  obtain ⟨a0, b0, h0⟩ := hst _ hmem
  have hon := lsqHor_exact hab h0 e.1 (List.mem_map.2 ⟨e, hel, rfl⟩)
  refine IsDistTo.unique (hall e hel).2 ⟨⟨e.1, hon, by unfold ptDist; simp⟩, fun q _ => Real.sqrt_nonneg _⟩

/-- **C12** (straight vertical lines). -/
theorem C12_straight_line_zero_ver (lines : List (List Pt)) (c : Pt) (out : List (ℝ × ℝ))
    (h : IsResidualTable IsLsqVerLine onVerLine lines c out)
    (hst : ∀ l ∈ lines, ∃ a b, ∀ p ∈ l, onVerLine a b p) : ∀ r ∈ out, r.2 = 0 := by
  obtain ⟨table, t1, t2, t3, _⟩ := h
  intro r hr
  have hr' := t3.mem_iff.1 hr
  simp only [List.mem_map, List.mem_flatten] at hr'
  obtain ⟨e, ⟨l, hlt, hel⟩, rfl⟩ := hr'
  obtain ⟨a, b, hab, hall⟩ := t2 l hlt
  have hmem : l.map Prod.fst ∈ lines := by rw [← t1]; exact List.mem_map.2 ⟨l, hlt, rfl⟩
  obtain ⟨a0, b0, h0⟩ := hst _ hmem
  have hon := lsqVer_exact hab h0 e.1 (List.mem_map.2 ⟨e, hel, rfl⟩)
  refine IsDistTo.unique (hall e hel).2 ⟨⟨e.1, hon, by unfold ptDist; simp⟩, fun q _ => Real.sqrt_nonneg _⟩

/-- Two straight lines of different slopes. -/
example : ∃ out, calcResidualVer refPolyfit refArgsort [[⟨0, 0⟩, ⟨1, 1⟩, ⟨2, 2⟩], [⟨0, 5⟩, ⟨1, 7⟩]] 1 2 = .ok out ∧ ∀ r ∈ out, r.2 = 0 := by
  obtain ⟨out, h, ht, _⟩ := C12_residual_ver refPolyfit refPolyfit_spec refArgsort refArgsort_spec [[⟨0, 0⟩, ⟨1, 1⟩, ⟨2, 2⟩], [⟨0, 5⟩, ⟨1, 7⟩]] 1 2
    (by simp) (by simp)
  refine ⟨out, h, C12_straight_line_zero_ver _ _ out ht ?_⟩
  intro l hl
  simp at hl
  rcases hl with rfl | rfl
  · exact ⟨1, 0, by simp [onVerLine]⟩
  · exact ⟨2, 5, by simp [onVerLine]; norm_num⟩

/-- Non-vacuity of C12: contracts can be met, and three dots on `y = x` plus a two-dot line give 5 rows of residual 0. -/
example : ∃ out, calcResidualHor refPolyfit refArgsort [[⟨0, 0⟩, ⟨1, 1⟩, ⟨2, 2⟩], [⟨5, 0⟩, ⟨7, 1⟩]] 1 2 = .ok out ∧
    out.length = 5 ∧ ∀ r ∈ out, r.2 = 0 := by
  obtain ⟨out, h, ht, hlen, _⟩ := C12_residual_hor refPolyfit refPolyfit_spec refArgsort refArgsort_spec
    [[⟨0, 0⟩, ⟨1, 1⟩, ⟨2, 2⟩], [⟨5, 0⟩, ⟨7, 1⟩]] 1 2 (by simp) (by simp)
  refine ⟨out, h, by simpa using hlen, C12_straight_line_zero _ _ out ht ?_⟩
  intro l hl
  simp at hl
  rcases hl with rfl | rfl
  · exact ⟨1, 0, by simp [onHorLine]⟩
  · exact ⟨2, 5, by simp [onHorLine]; norm_num⟩

/-- **C14.** `check_distortion` is `True` exactly when more than 15 % of the rows have a residual strictly above 1. -/
theorem C14_check_iff (data : List (ℝ × ℝ)) (hne : data ≠ []) :
    ∃ b, checkDistortion data = .ok b ∧
      (b = true ↔ (15 / 100 : ℝ) * data.length < ((data.filter fun r => 1 < r.2).length : ℝ)) := by
  have hl : data.length ≠ 0 := by simpa using hne
  have hpos : (0 : ℝ) < data.length := by exact_mod_cast Nat.pos_of_ne_zero hl
  refine ⟨_, by simp only [checkDistortion, List.length_map]; rw [if_neg hl], ?_⟩
  have e : ((data.map Prod.snd).filter fun r => decide (1 < r)).length = (data.filter fun r => decide (1 < r.2)).length := by
    rw [List.filter_map, List.length_map]; rfl
  rw [decide_eq_true_eq, e, gt_iff_lt, lt_div_iff₀ hpos]
  norm_num

/-- **C14** (order): the verdict does not depend on the order of the rows. -/
theorem C14_perm_invariant (data data' : List (ℝ × ℝ)) (h : data.Perm data') :
    checkDistortion data = checkDistortion data' := by
  have e : ((data.map Prod.snd).filter fun r => decide (1 < r)).length =
      ((data'.map Prod.snd).filter fun r => decide (1 < r)).length := ((h.map _).filter _).length_eq
  unfold checkDistortion
  simp only [e, (h.map Prod.snd).length_eq]

example := C14_perm_invariant [(1, 2), (2, 0)] [(2, 0), (1, 2)] (.swap _ _ _)

/-- **C14** (monotone): when residuals grow the verdict can only change from `False` to `True`. -/
theorem C14_monotone (data data' : List (ℝ × ℝ)) (h : List.Forall₂ (fun r s : ℝ × ℝ => r.2 ≤ s.2) data data')
    (ht : checkDistortion data = .ok true) : checkDistortion data' = .ok true := by
  have hl := h.length_eq
  have hne : data ≠ [] := by rintro rfl; simp [checkDistortion] at ht
  have hne' : data' ≠ [] := by intro h0; rw [h0] at hl; simp at hl; exact hne hl
  have hc : (data.filter fun r => decide (1 < r.2)).length ≤ (data'.filter fun r => decide (1 < r.2)).length := by
    clear ht hl hne hne'
    induction h with
    | nil => simp
    | @cons a b l l' hab _ ih =>
      simp only [List.filter_cons]
      by_cases h1 : 1 < a.2
      · have h2 : 1 < b.2 := lt_of_lt_of_le h1 hab
        simp [h1, h2]; exact ih
      · by_cases h2 : 1 < b.2
        · simp [h1, h2]; omega
        · simp [h1, h2]; simpa using ih
  obtain ⟨b, e, hb⟩ := C14_check_iff data hne
  obtain ⟨b', e', hb'⟩ := C14_check_iff data' hne'
  rw [ht] at e
  have hbt : b = true := by cases e; rfl
  have := hb.1 hbt
  rw [e']
  congr 1
  rw [hb', ← hl]
  have : ((data.filter fun r => decide (1 < r.2)).length : ℝ) ≤ ((data'.filter fun r => decide (1 < r.2)).length : ℝ) := by
    exact_mod_cast hc
  linarith

/-- One residual of two pixels grows to three. -/
example : checkDistortion [(7, 3)] = .ok true := by
  refine C14_monotone [(1, 2)] [(7, 3)] (.cons (by norm_num) .nil) ?_
  obtain ⟨b, e, hb⟩ := C14_check_iff [(1, 2)] (by simp)
  rw [e]; congr 1; rw [hb]
  norm_num [List.filter_cons]

/-- **C14** (empty input): raises. -/
theorem C14_empty_raises : checkDistortion [] = .error .zeroDivisionError := rfl

/-- Non-vacuity: one bad dot in six (16.7 %) is distortion. -/
example : checkDistortion [(1, 2), (2, 0), (3, 0), (4, 1), (5, 0), (6, 0)] = .ok true := by
  obtain ⟨b, e, hb⟩ := C14_check_iff [(1, 2), (2, 0), (3, 0), (4, 1), (5, 0), (6, 0)] (by simp)
  rw [e]; congr 1; rw [hb]
  norm_num [List.filter_cons]

end Discorpy
