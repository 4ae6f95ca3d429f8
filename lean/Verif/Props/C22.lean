import Verif.Lemmas.RadialFit

/-! # C22, C23: undistorted intercepts; an undistorted grid yields the identity model -/

namespace Discorpy

open Spec

/-- What one direction must satisfy. -/
theorem undistorted_fit (minimize : (ℝ → ℝ) → ℝ → ℝ) {inter : List ℝ} (hm : StrictlyMonotone inter) {numUse : ℤ}
    (hu : 1 ≤ numUse) (h2 : 2 ≤ inter.length) (optimizing : Bool) :
    ∃ u, undistorted minimize inter numUse optimizing = .ok u ∧ IsEquidistantFit inter u ∧
      (optimizing = false → KeepsDirection inter u ∧ SpacingIsMean inter u) := by
  obtain ⟨pos, hp, s, d, hmin, hs, hms, hd, e⟩ := undistorted_eq minimize hm hu h2 optimizing
  refine ⟨_, e, ⟨by simp, pos, inter[pos],
    s * (if optimizing then minimize (funcOpt inter[pos] pos inter) d else d), List.getElem?_eq_getElem hp, hmin, ?_⟩, ?_⟩
  · intro i v hv
    rw [List.getElem?_mapIdx, Option.map_eq_some_iff] at hv
    obtain ⟨_, _, rfl⟩ := hv
    rfl
  · rintro rfl
    simp only [Bool.false_eq_true, if_false]
    have hw := window_length inter hp numUse hu h2
    set sl := npSlice inter (window pos inter.length numUse).1 (window pos inter.length numUse).2 with hsl
    have hne : (npDiff sl).map (fun t => |t|) ≠ [] := by rw [ne_eq, List.map_eq_nil_iff]; exact npDiff_ne_nil hw
    rw [npMean_ok hne] at hd
    have hd := Except.ok.inj hd
    have hn : 0 < (((npDiff sl).map fun t => |t|).length : ℝ) := by
      have := List.length_pos_iff.2 hne
      exact_mod_cast this
    have hmem : ∀ t ∈ npDiff sl, ∃ i a b, inter[i]? = some a ∧ inter[i + 1]? = some b ∧ t = b - a := by
      intro t ht
      obtain ⟨i, a, b, ha, hb, e⟩ := npDiff_mem ht
      have hb' := npSlice_getElem? (a := (window pos inter.length numUse).1) (b := (window pos inter.length numUse).2) hb
      rw [← Nat.add_assoc] at hb'
      exact ⟨_, a, b, npSlice_getElem? ha, hb', e⟩
    have bounds : ∀ lo hi : ℝ, (∀ t ∈ npDiff sl, lo ≤ |t| ∧ |t| ≤ hi) → lo ≤ d ∧ d ≤ hi := by
      intro lo hi hb
      rw [← hd, le_div_iff₀ hn, div_le_iff₀ hn]
      constructor
      · have := List.card_nsmul_le_sum ((npDiff sl).map fun t => |t|) lo (by
          intro x hx; obtain ⟨t, ht, rfl⟩ := List.mem_map.1 hx; exact (hb t ht).1)
        rw [nsmul_eq_mul] at this
        linarith
      · have := List.sum_le_card_nsmul ((npDiff sl).map fun t => |t|) hi (by
          intro x hx; obtain ⟨t, ht, rfl⟩ := List.mem_map.1 hx; exact (hb t ht).2)
        rw [nsmul_eq_mul] at this
        linarith
    have hdpos : 0 < d := by
      rw [← hd]
      apply div_pos _ hn
      apply List.sum_pos _ _ hne
      intro x hx
      obtain ⟨t, ht, rfl⟩ := List.mem_map.1 hx
      obtain ⟨i, a, b, ha, hb, rfl⟩ := hmem t ht
      obtain ⟨hi, rfl⟩ := List.getElem?_eq_some_iff.1 ha
      obtain ⟨hj, rfl⟩ := List.getElem?_eq_some_iff.1 hb
      have := List.pairwise_iff_getElem.1 hms i (i + 1) hi hj (by omega)
      rw [abs_pos, sub_ne_zero]
      intro h
      rw [h] at this
      exact lt_irrefl _ this
    have hl2 : ∀ i j : ℕ, i < j → s * (((i : ℝ) - pos) * (s * d)) < s * (((j : ℝ) - pos) * (s * d)) := by
      intro i j hij
      have hc : (i : ℝ) < j := by exact_mod_cast hij
      have hss : s * s = 1 := by rcases hs with rfl | rfl <;> norm_num
      have e1 : ∀ t : ℝ, s * (t * (s * d)) = (s * s) * (t * d) := by intro t; ring
      rw [e1, e1, hss]
      nlinarith
    have h01 := List.pairwise_iff_getElem.1 hms 0 1 (by omega) (by omega) (by omega)
    refine ⟨⟨?_, ?_⟩, ?_⟩
    · intro hinc
      have h1 := List.pairwise_iff_getElem.1 hinc 0 1 (by omega) (by omega) (by omega)
      obtain rfl : s = 1 := by
        rcases hs with rfl | rfl
        · rfl
        · linarith
      rw [List.pairwise_iff_getElem]
      intro i j hi hj hij
      have := hl2 i j hij
      simp only [List.getElem_mapIdx]
      linarith
    · intro hdec
      have h1 := List.pairwise_iff_getElem.1 hdec 0 1 (by omega) (by omega) (by omega)
      obtain rfl : s = -1 := by
        rcases hs with rfl | rfl
        · linarith
        · rfl
      rw [List.pairwise_iff_getElem]
      intro i j hi hj hij
      have := hl2 i j hij
      simp only [List.getElem_mapIdx]
      linarith
    · intro lo hi hb i a b ha hb'
      rw [List.getElem?_mapIdx, Option.map_eq_some_iff] at ha hb'
      obtain ⟨_, _, rfl⟩ := ha
      obtain ⟨_, _, rfl⟩ := hb'
      have : |inter[pos] + (((i + 1 : ℕ) : ℝ) - pos) * (s * d) - (inter[pos] + ((i : ℝ) - pos) * (s * d))| = d := by
        rw [show inter[pos] + (((i + 1 : ℕ) : ℝ) - pos) * (s * d) - (inter[pos] + ((i : ℝ) - pos) * (s * d)) = s * d by
          push_cast; ring]
        rcases hs with rfl | rfl
        · rw [one_mul, abs_of_pos hdpos]
        · rw [neg_one_mul, abs_neg, abs_of_pos hdpos]
      rw [this]
      apply bounds
      intro t ht
      obtain ⟨j, a, b, ha, hb2, rfl⟩ := hmem t ht
      exact hb j a b ha hb2

/-- **C22.** With at least four non-empty lines per direction: if the intercepts of the fitted parabolas (relative to the
centre) are strictly monotone, the undistorted intercepts exist, are equally spaced, and agree with the measured one at a
line nearest to the centre. Without optimisation their spacing is a mean of measured spacings and their order is kept. -/
theorem C22_equidistant (pf : PolyfitFn) (hpf : PolyfitSpec pf) (minimize : (ℝ → ℝ) → ℝ → ℝ) (hor ver : List (List Pt))
    (hh : ∀ l ∈ hor, l ≠ []) (hv : ∀ l ∈ ver, l ≠ []) (h4 : 4 ≤ hor.length) (v4 : 4 ≤ ver.length) (xc yc : ℝ)
    (optimizing : Bool) (threshold : ℝ) :
    ∃ ch cv : List Para, List.Forall₂ (fun l q => IsLsqPara Pt.x Pt.y xc yc l q.a q.b q.c) hor ch ∧
      List.Forall₂ (fun l q => IsLsqPara Pt.y Pt.x yc xc l q.a q.b q.c) ver cv ∧
      (StrictlyMonotone (ch.map Para.c) → StrictlyMonotone (cv.map Para.c) →
        ∃ uh uv warned, calcUndistorIntercept pf minimize hor ver xc yc optimizing threshold = .ok (uh, uv, warned) ∧
          IsEquidistantFit (ch.map Para.c) uh ∧ IsEquidistantFit (cv.map Para.c) uv ∧
          (optimizing = false → KeepsDirection (ch.map Para.c) uh ∧ SpacingIsMean (ch.map Para.c) uh ∧
            KeepsDirection (cv.map Para.c) uv ∧ SpacingIsMean (cv.map Para.c) uv)) := by
  obtain ⟨ch, e1, f1⟩ := paraFitHor_ok hpf hh xc yc
  obtain ⟨cv, e2, f2⟩ := paraFitVer_ok hpf hv xc yc
  have l1 := f1.length_eq
  have l2 := f2.length_eq
  refine ⟨ch, cv, f1, f2, fun m1 m2 => ?_⟩
  obtain ⟨w1, ew1⟩ := missingInDir_ok hpf (coefs := ch) (by omega) threshold
  obtain ⟨w2, ew2⟩ := missingInDir_ok hpf (coefs := cv) (by omega) threshold
  obtain ⟨uh, eh, g1, k1⟩ := undistorted_fit minimize m1
    (numUse := min 3 (min ((hor.length / 2 : ℕ) - 1) ((ver.length / 2 : ℕ) - 1))) (by omega) (by simp; omega) optimizing
  obtain ⟨uv, ev, g2, k2⟩ := undistorted_fit minimize m2
    (numUse := min 3 (min ((hor.length / 2 : ℕ) - 1) ((ver.length / 2 : ℕ) - 1))) (by omega) (by simp; omega) optimizing
  refine ⟨uh, uv, w1 || w2, ?_, g1, g2, fun h => ⟨(k1 h).1, (k1 h).2, (k2 h).1, (k2 h).2⟩⟩
  unfold calcUndistorIntercept checkMissingLines
  rw [e1, ok_bind]
  simp only
  rw [e2, ok_bind]
  simp only [ew1, ew2, ok_bind, eh, ev]

/-- **C22** (exactness). Straight equidistant lines (any slopes) give back exactly their own intercepts, without a
missing-line warning — with an exact optimiser too. -/
theorem C22_exact (pf : PolyfitFn) (hpf : PolyfitSpec pf) (minimize : (ℝ → ℝ) → ℝ → ℝ) (hor ver : List (List Pt))
    (xc yc h0 dh v0 dv : ℝ) (hh : IsStraightFamily Pt.x Pt.y ⟨yc, xc⟩ hor h0 dh)
    (hv : IsStraightFamily Pt.y Pt.x ⟨yc, xc⟩ ver v0 dv) (hdh : dh ≠ 0) (hdv : dv ≠ 0) (h4 : 4 ≤ hor.length)
    (v4 : 4 ≤ ver.length) (optimizing : Bool) (hmin : optimizing = true → ExactMin minimize) (threshold : ℝ)
    (ht : 0 ≤ threshold) :
    ∃ uh uv, calcUndistorIntercept pf minimize hor ver xc yc optimizing threshold = .ok (uh, uv, false) ∧
      uh.length = hor.length ∧ uv.length = ver.length ∧ IsArith uh h0 dh ∧ IsArith uv v0 dv := by
  obtain ⟨ch, cv, _, _, l1, l2, k1, k2, e⟩ :=
    calcUndistorIntercept_exact hpf minimize hh hv hdh hdv h4 v4 optimizing hmin ht
  refine ⟨_, _, e, by simp [l1], by simp [l2], ?_, ?_⟩
  · intro i v hiv
    rw [List.getElem?_map, Option.map_eq_some_iff] at hiv
    obtain ⟨q, hq, rfl⟩ := hiv
    exact (k1 i q hq).2
  · intro i v hiv
    rw [List.getElem?_map, Option.map_eq_some_iff] at hiv
    obtain ⟨q, hq, rfl⟩ := hiv
    exact (k2 i q hq).2

/-- **C22** (limit of the code). With fewer than four lines in one direction the spacing is the mean of nothing (`nan`), so
no intercepts can be computed. -/
theorem C22_few_lines (pf : PolyfitFn) (minimize : (ℝ → ℝ) → ℝ → ℝ) (hor ver : List (List Pt)) (xc yc : ℝ)
    (optimizing : Bool) (threshold : ℝ) (h : hor.length < 4 ∨ ver.length < 4) (r : List ℝ × List ℝ × Bool) :
    calcUndistorIntercept pf minimize hor ver xc yc optimizing threshold ≠ .ok r := by
  intro hr
  unfold calcUndistorIntercept at hr
  rw [bind_ok_iff] at hr
  obtain ⟨⟨ch, _⟩, _, hr⟩ := hr
  rw [bind_ok_iff] at hr
  obtain ⟨⟨cv, _⟩, _, hr⟩ := hr
  rw [bind_ok_iff] at hr
  obtain ⟨w, _, hr⟩ := hr
  rw [bind_ok_iff] at hr
  obtain ⟨uh, hu, hr⟩ := hr
  unfold undistorted at hu
  rw [bind_ok_iff] at hu
  obtain ⟨pos, hpos, hu⟩ := hu
  simp only at hu
  rw [bind_ok_iff] at hu
  obtain ⟨d, hd, -⟩ := hu
  have hlen : (npSlice (ch.map Para.c) (window pos (ch.map Para.c).length
      (min 3 (min ((hor.length / 2 : ℕ) - 1) ((ver.length / 2 : ℕ) - 1)))).1 (window pos (ch.map Para.c).length
      (min 3 (min ((hor.length / 2 : ℕ) - 1) ((ver.length / 2 : ℕ) - 1)))).2).length ≤ 1 := by
    simp only [npSlice, window, List.length_drop, List.length_take]
    omega
  have hnil : npDiff (npSlice (ch.map Para.c) (window pos (ch.map Para.c).length
      (min 3 (min ((hor.length / 2 : ℕ) - 1) ((ver.length / 2 : ℕ) - 1)))).1 (window pos (ch.map Para.c).length
      (min 3 (min ((hor.length / 2 : ℕ) - 1) ((ver.length / 2 : ℕ) - 1)))).2) = [] := by
    rw [← List.length_eq_zero_iff]
    simp only [npDiff, List.length_zipWith, List.length_tail]
    omega
  rw [hnil] at hd
  simp [npMean] at hd

/-! ## C23 -/

/-- **C23** (forward). For straight equidistant lines (any slopes, at least four per direction, at least three positions
per line) the forward model is `1` at the radius of every dot not on a line through the centre; when these dots have
`num_fact` different radii, the coefficients are literally `[1, 0, …, 0]`. No missing-line warning is issued. -/
theorem C23_forward (pf : PolyfitFn) (hpf : PolyfitSpec pf) (lstsq : LstsqFn) (hls : LstsqSpec lstsq)
    (minimize : (ℝ → ℝ) → ℝ → ℝ) (hor ver : List (List Pt)) (xc yc h0 dh v0 dv : ℝ)
    (hh : IsStraightFamily Pt.x Pt.y ⟨yc, xc⟩ hor h0 dh) (hv : IsStraightFamily Pt.y Pt.x ⟨yc, xc⟩ ver v0 dv)
    (hdh : dh ≠ 0) (hdv : dv ≠ 0) (h4 : 4 ≤ hor.length) (v4 : 4 ≤ ver.length) (numFact : ℤ) (hn : numFact ≤ 32767)
    (optimizing : Bool) (hmin : optimizing = true → ExactMin minimize) (threshold : ℝ) (ht : 0 ≤ threshold) :
    ∃ v, calcCoefForward pf lstsq minimize hor ver xc yc numFact optimizing threshold = .ok (v, false) ∧
      (v.length : ℤ) = max numFact 1 ∧
      (∀ r ∈ offCentreRadii ⟨yc, xc⟩ hor h0 dh ∪ offCentreRadii ⟨yc, xc⟩ ver v0 dv, radial v r = 1) ∧
      ((∃ rs : List ℝ, rs.Nodup ∧ rs.length = v.length ∧
        ∀ r ∈ rs, r ∈ offCentreRadii ⟨yc, xc⟩ hor h0 dh ∪ offCentreRadii ⟨yc, xc⟩ ver v0 dv) →
        v = 1 :: List.replicate (v.length - 1) 0) := by
  obtain ⟨ch, cv, e1, e2, l1, l2, k1, k2, e⟩ :=
    calcUndistorIntercept_exact hpf minimize hh hv hdh hdv h4 v4 optimizing hmin ht
  obtain ⟨r1, er1, a1, b1⟩ := rowsOf_forward (xc := xc) (yc := yc) k1 l1 (numFactors numFact) Pt.x
  obtain ⟨r2, er2, a2, b2⟩ := rowsOf_forward (xc := xc) (yc := yc) k2 l2 (numFactors numFact) Pt.y
  obtain ⟨t, htm⟩ := offCentreRadii_nonempty hh hdh (by omega)
  obtain ⟨v, ev, hl, hv1⟩ := solve_ones hls (n := numFactors numFact) (by rw [numFactors_eq hn]; omega)
    (rows := r1.flatten ++ r2.flatten) (List.ne_nil_of_mem (List.mem_append_left _ (b1 t htm)))
    (by intro q hq; rcases List.mem_append.1 hq with hq | hq; exacts [a1 q hq, a2 q hq])
  have hone : ∀ r ∈ offCentreRadii ⟨yc, xc⟩ hor h0 dh ∪ offCentreRadii ⟨yc, xc⟩ ver v0 dv, radial v r = 1 := by
    rintro r (hr | hr)
    · exact hv1 r (List.mem_append_left _ (b1 r hr))
    · exact hv1 r (List.mem_append_right _ (b2 r hr))
  refine ⟨v, ?_, ?_, hone, ?_⟩
  · unfold calcCoefForward
    rw [e, ok_bind]
    simp only
    rw [e1, ok_bind]
    simp only
    rw [e2, ok_bind]
    simp only [er1, er2, ev, ok_bind]
  · rw [hl, numFactors_eq hn]; omega
  · rintro ⟨rs, h1, h2, h3⟩
    exact radial_one_unique (by rw [hl, numFactors_eq hn]; omega) rs h1 h2 fun r hr => hone r (h3 r hr)

/-- **C23** (backward). The same for the backward model when no line passes through the centre. -/
theorem C23_backward (pf : PolyfitFn) (hpf : PolyfitSpec pf) (lstsq : LstsqFn) (hls : LstsqSpec lstsq)
    (minimize : (ℝ → ℝ) → ℝ → ℝ) (hor ver : List (List Pt)) (xc yc h0 dh v0 dv : ℝ)
    (hh : IsStraightFamily Pt.x Pt.y ⟨yc, xc⟩ hor h0 dh) (hv : IsStraightFamily Pt.y Pt.x ⟨yc, xc⟩ ver v0 dv)
    (hdh : dh ≠ 0) (hdv : dv ≠ 0) (h4 : 4 ≤ hor.length) (v4 : 4 ≤ ver.length)
    (hch : ∀ i : ℕ, i < hor.length → h0 + i * dh ≠ 0) (hcv : ∀ i : ℕ, i < ver.length → v0 + i * dv ≠ 0) (numFact : ℤ)
    (hn : numFact ≤ 32767)
    (optimizing : Bool) (hmin : optimizing = true → ExactMin minimize) (threshold : ℝ) (ht : 0 ≤ threshold) :
    ∃ v, calcCoefBackward pf lstsq minimize hor ver xc yc numFact optimizing threshold = .ok (v, false) ∧
      (v.length : ℤ) = max numFact 1 ∧
      (∀ r ∈ offCentreRadii ⟨yc, xc⟩ hor h0 dh ∪ offCentreRadii ⟨yc, xc⟩ ver v0 dv, radial v r = 1) ∧
      ((∃ rs : List ℝ, rs.Nodup ∧ rs.length = v.length ∧
        ∀ r ∈ rs, r ∈ offCentreRadii ⟨yc, xc⟩ hor h0 dh ∪ offCentreRadii ⟨yc, xc⟩ ver v0 dv) →
        v = 1 :: List.replicate (v.length - 1) 0) := by
  obtain ⟨ch, cv, e1, e2, l1, l2, k1, k2, e⟩ :=
    calcUndistorIntercept_exact hpf minimize hh hv hdh hdv h4 v4 optimizing hmin ht
  obtain ⟨r1, er1, a1, b1⟩ := rowsOf_backward (xc := xc) (yc := yc) k1 l1 hch (numFactors numFact) Pt.x
  obtain ⟨r2, er2, a2, b2⟩ := rowsOf_backward (xc := xc) (yc := yc) k2 l2 hcv (numFactors numFact) Pt.y
  obtain ⟨t, htm⟩ := offCentreRadii_nonempty hh hdh (by omega)
  obtain ⟨v, ev, hl, hv1⟩ := solve_ones hls (n := numFactors numFact) (by rw [numFactors_eq hn]; omega)
    (rows := r1 ++ r2) (List.ne_nil_of_mem (List.mem_append_left _ (b1 t htm)))
    (by intro q hq; rcases List.mem_append.1 hq with hq | hq; exacts [a1 q hq, a2 q hq])
  have hone : ∀ r ∈ offCentreRadii ⟨yc, xc⟩ hor h0 dh ∪ offCentreRadii ⟨yc, xc⟩ ver v0 dv, radial v r = 1 := by
    rintro r (hr | hr)
    · exact hv1 r (List.mem_append_left _ (b1 r hr))
    · exact hv1 r (List.mem_append_right _ (b2 r hr))
  refine ⟨v, ?_, ?_, hone, ?_⟩
  · unfold calcCoefBackward
    rw [e, ok_bind]
    simp only
    rw [e1, ok_bind]
    simp only
    rw [e2, ok_bind]
    simp only [er1, er2, ev, ok_bind]
  · rw [hl, numFactors_eq hn]; omega
  · rintro ⟨rs, h1, h2, h3⟩
    exact radial_one_unique (by rw [hl, numFactors_eq hn]; omega) rs h1 h2 fun r hr => hone r (h3 r hr)

/-- All dots are off the centre lines if no line passes through the centre. -/
theorem mem_offCentre {c : Pt} {lines : List (List Pt)} {c0 δ : ℝ}
    (h : ∀ i : ℕ, i < lines.length → c0 + i * δ ≠ 0) {p : Pt} (hp : p ∈ lines.flatten) :
    ptDist p c ∈ offCentreRadii c lines c0 δ := by
  obtain ⟨l, hl, hpl⟩ := List.mem_flatten.1 hp
  obtain ⟨i, hi, rfl⟩ := List.getElem_of_mem hl
  exact ⟨i, _, p, List.getElem?_eq_getElem hi, h i hi, hpl, rfl⟩

/-- **C23** (backward from forward). Both models are `1` at the radii of all dots. -/
theorem C23_backward_from_forward (pf : PolyfitFn) (hpf : PolyfitSpec pf) (lstsq : LstsqFn) (hls : LstsqSpec lstsq)
    (minimize : (ℝ → ℝ) → ℝ → ℝ) (hor ver : List (List Pt)) (xc yc h0 dh v0 dv : ℝ)
    (hh : IsStraightFamily Pt.x Pt.y ⟨yc, xc⟩ hor h0 dh) (hv : IsStraightFamily Pt.y Pt.x ⟨yc, xc⟩ ver v0 dv)
    (hdh : dh ≠ 0) (hdv : dv ≠ 0) (h4 : 4 ≤ hor.length) (v4 : 4 ≤ ver.length)
    (hch : ∀ i : ℕ, i < hor.length → h0 + i * dh ≠ 0) (hcv : ∀ i : ℕ, i < ver.length → v0 + i * dv ≠ 0) (numFact : ℤ)
    (hn : numFact ≤ 32767)
    (optimizing : Bool) (hmin : optimizing = true → ExactMin minimize) (threshold : ℝ) (ht : 0 ≤ threshold) :
    ∃ f g, calcCoefBackwardFromForward pf lstsq minimize hor ver xc yc numFact optimizing threshold = .ok (f, g, false) ∧
      (f.length : ℤ) = max numFact 1 ∧ (g.length : ℤ) = max numFact 1 ∧
      (∀ p ∈ hor.flatten ++ ver.flatten, radial f (ptDist p ⟨yc, xc⟩) = 1 ∧ radial g (ptDist p ⟨yc, xc⟩) = 1) ∧
      ((∃ dots : List Pt, (dots.map fun p => ptDist p ⟨yc, xc⟩).Nodup ∧ dots.length = f.length ∧
        ∀ p ∈ dots, p ∈ hor.flatten ++ ver.flatten) →
        f = 1 :: List.replicate (f.length - 1) 0 ∧ g = 1 :: List.replicate (g.length - 1) 0) := by
  obtain ⟨f, ef, hlf, h1, h2⟩ := C23_forward pf hpf lstsq hls minimize hor ver xc yc h0 dh v0 dv hh hv hdh hdv h4 v4 numFact
    hn optimizing hmin threshold ht
  obtain ⟨ch, e1, -⟩ := paraFitHor_ok hpf (family_ne_nil hh) xc yc
  obtain ⟨cv, e2, -⟩ := paraFitVer_ok hpf (family_ne_nil hv) xc yc
  set pts := hor.flatten ++ ver.flatten with hpts
  have hf1 : ∀ p ∈ pts, radial f (ptDist p ⟨yc, xc⟩) = 1 := by
    intro p hp
    rcases List.mem_append.1 hp with hp | hp
    · exact h1 _ (.inl (mem_offCentre hch hp))
    · exact h1 _ (.inr (mem_offCentre hcv hp))
  have hsh : (hor.map (shiftLine xc yc)).flatten ++ (ver.map (shiftLine xc yc)).flatten = shiftLine xc yc pts := by
    simp only [hpts, shiftLine, List.map_append, List.map_flatten]
    rfl
  have hf2 : ∀ q ∈ shiftLine xc yc pts, radial f (√(q.x * q.x + q.y * q.y)) = 1 := by
    intro q hq
    obtain ⟨p, hp, rfl⟩ := List.mem_map.1 hq
    simp only
    rw [shift_radius]
    exact hf1 p hp
  have hflen : 1 ≤ f.length := by omega
  have hpne : ∃ p, p ∈ pts := by
    obtain ⟨t, i, line, p, hl, _, hp, _⟩ := offCentreRadii_nonempty hh hdh (by omega)
    exact ⟨p, List.mem_append_left _ (List.mem_flatten.2 ⟨line, List.mem_of_getElem? hl, hp⟩)⟩
  obtain ⟨p0, hp0⟩ := hpne
  obtain ⟨g, eg, hlg, hg⟩ := lstsq_inverse hls f (shiftLine xc yc pts)
    ⟨_, List.mem_map.2 ⟨p0, hp0, rfl⟩, by
      have := hf2 _ (List.mem_map.2 ⟨p0, hp0, rfl⟩)
      rw [this]; exact one_ne_zero⟩ (1 :: List.replicate (f.length - 1) 0) (by simp; omega) (by
        intro p hp _
        rw [hf2 p hp, ← polySum_eq_radial, polySum_one, one_mul])
  have hg1 : ∀ p ∈ pts, radial g (ptDist p ⟨yc, xc⟩) = 1 := by
    intro p hp
    have hm : (⟨p.y - yc, p.x - xc⟩ : Pt) ∈ shiftLine xc yc pts := List.mem_map.2 ⟨p, hp, rfl⟩
    have := hg _ hm (by rw [hf2 _ hm]; exact one_ne_zero)
    rw [hf2 _ hm, one_mul, one_mul] at this
    simp only at this
    rwa [shift_radius] at this
  refine ⟨f, g, ?_, hlf, by rw [hlg]; exact hlf, fun p hp => ⟨hf1 p hp, hg1 p hp⟩, ?_⟩
  · unfold calcCoefBackwardFromForward
    rw [ef, ok_bind]
    simp only
    rw [e1, ok_bind]
    simp only
    rw [e2, ok_bind]
    simp only
    rw [← List.filterMap_append, hsh, eg, ok_bind]
  · rintro ⟨dots, d1, d2, d3⟩
    refine ⟨radial_one_unique hflen _ d1 (by simpa using d2) ?_, radial_one_unique (by omega) _ d1 (by simpa [hlg] using d2) ?_⟩
    · intro r hr
      obtain ⟨p, hp, rfl⟩ := List.mem_map.1 hr
      exact hf1 p (d3 p hp)
    · intro r hr
      obtain ⟨p, hp, rfl⟩ := List.mem_map.1 hr
      exact hg1 p (d3 p hp)

/-- **C23** (limit of the code). A horizontal line through the centre makes the backward system divide `0` by `0`, whereas
`calc_coef_forward` skips that line. -/
theorem C23_backward_through_centre (pf : PolyfitFn) (hpf : PolyfitSpec pf) (lstsq : LstsqFn)
    (minimize : (ℝ → ℝ) → ℝ → ℝ) (hor ver : List (List Pt)) (xc yc h0 dh v0 dv : ℝ)
    (hh : IsStraightFamily Pt.x Pt.y ⟨yc, xc⟩ hor h0 dh) (hv : IsStraightFamily Pt.y Pt.x ⟨yc, xc⟩ ver v0 dv)
    (hdh : dh ≠ 0) (hdv : dv ≠ 0) (h4 : 4 ≤ hor.length) (v4 : 4 ≤ ver.length)
    (k : ℕ) (hk : k < hor.length) (hck : h0 + k * dh = 0) (numFact : ℤ)
    (optimizing : Bool) (hmin : optimizing = true → ExactMin minimize) (threshold : ℝ) (ht : 0 ≤ threshold)
    (r : List ℝ × Bool) :
    calcCoefBackward pf lstsq minimize hor ver xc yc numFact optimizing threshold ≠ .ok r := by
  obtain ⟨ch, cv, e1, e2, l1, l2, k1, k2, e⟩ :=
    calcUndistorIntercept_exact hpf minimize hh hv hdh hdv h4 v4 optimizing hmin ht
  intro hr
  unfold calcCoefBackward at hr
  rw [e, ok_bind] at hr
  simp only at hr
  rw [e1, ok_bind] at hr
  simp only at hr
  rw [e2, ok_bind] at hr
  simp only at hr
  rw [bind_ok_iff] at hr
  obtain ⟨R, hR, -⟩ := hr
  unfold rowsOf at hR
  rw [bind_ok_iff] at hR
  obtain ⟨rr, hrr, -⟩ := hR
  have hq := List.getElem?_eq_getElem (l := ch) (i := k) (by omega)
  obtain ⟨_, p, hp, _⟩ := hh k _ (List.getElem?_eq_getElem hk)
  have hz : ((ch[k], ch[k].c), shiftLine xc yc hor[k]) ∈
      List.zip (List.zip ch (ch.map Para.c)) (hor.map (shiftLine xc yc)) :=
    zip3_mem.2 ⟨k, hq, by rw [List.getElem?_map, hq]; rfl, by rw [List.getElem?_map, List.getElem?_eq_getElem hk]; rfl⟩
  obtain ⟨m, hm, em⟩ := List.getElem_of_mem hz
  have hf := mapM_ok_iff.1 hrr
  have hm' : m < rr.length := by rw [← hf.length_eq]; exact hm
  have h3 := (List.forall₂_iff_get.1 hf).2 m hm hm'
  simp only [List.get_eq_getElem, em] at h3
  have h4 := mapM_ok_iff.1 h3
  obtain ⟨j, hj, ej⟩ := List.getElem_of_mem (List.mem_map.2 ⟨p, hp, rfl⟩ : (⟨p.y - yc, p.x - xc⟩ : Pt) ∈ shiftLine xc yc hor[k])
  have hj' : j < rr[m].length := by rw [← h4.length_eq]; exact hj
  have h5 := (List.forall₂_iff_get.1 h4).2 j hj hj'
  unfold backwardRow at h5
  simp only at h5
  rw [(k1 k _ hq).2, hck, finDiv, if_pos rfl] at h5
  simp at h5

/-- A 4 × 4 grid with spacing 1. -/
def gridHor : List (List Pt) := [[⟨0, 0⟩, ⟨0, 1⟩, ⟨0, 2⟩, ⟨0, 3⟩], [⟨1, 0⟩, ⟨1, 1⟩, ⟨1, 2⟩, ⟨1, 3⟩],
  [⟨2, 0⟩, ⟨2, 1⟩, ⟨2, 2⟩, ⟨2, 3⟩], [⟨3, 0⟩, ⟨3, 1⟩, ⟨3, 2⟩, ⟨3, 3⟩]]

/-- Its columns. -/
def gridVer : List (List Pt) := [[⟨0, 0⟩, ⟨1, 0⟩, ⟨2, 0⟩, ⟨3, 0⟩], [⟨0, 1⟩, ⟨1, 1⟩, ⟨2, 1⟩, ⟨3, 1⟩],
  [⟨0, 2⟩, ⟨1, 2⟩, ⟨2, 2⟩, ⟨3, 2⟩], [⟨0, 3⟩, ⟨1, 3⟩, ⟨2, 3⟩, ⟨3, 3⟩]]

theorem gridHor_straight (yc xc : ℝ) : IsStraightFamily Pt.x Pt.y ⟨yc, xc⟩ gridHor (-yc) 1 := by
  intro i line h
  obtain ⟨hi, rfl⟩ := List.getElem?_eq_some_iff.1 h
  have hi' : i < 4 := hi
  interval_cases i <;> simp [gridHor] <;> exact ⟨0, by simp <;> ring⟩

theorem gridVer_straight (yc xc : ℝ) : IsStraightFamily Pt.y Pt.x ⟨yc, xc⟩ gridVer (-xc) 1 := by
  intro i line h
  obtain ⟨hi, rfl⟩ := List.getElem?_eq_some_iff.1 h
  have hi' : i < 4 := hi
  interval_cases i <;> simp [gridVer] <;> exact ⟨0, by simp <;> ring⟩

/-- Non-vacuity: the grid around a centre between the lines gives the identity. -/
example : ∃ f g, calcCoefBackwardFromForward refPolyfit refLstsq refMinimize gridHor gridVer 1.5 1.4 5 true 0.3 =
    .ok (f, g, false) ∧ f.length = 5 := by
  obtain ⟨f, g, e, h, _⟩ := C23_backward_from_forward refPolyfit refPolyfit_spec refLstsq refLstsq_spec refMinimize
    gridHor gridVer 1.5 1.4 (-1.4) 1 (-1.5) 1 (gridHor_straight _ _) (gridVer_straight _ _) one_ne_zero one_ne_zero (by simp [gridHor]) (by simp [gridVer])
    (by
      intro i hi
      have hi' : i < 4 := hi
      interval_cases i <;> norm_num)
    (by
      intro i hi
      have hi' : i < 4 := hi
      interval_cases i <;> norm_num) 5 (by norm_num) true (fun _ => refMinimize_exact) 0.3 (by norm_num)
  exact ⟨f, g, e, by omega⟩

example := C22_equidistant refPolyfit refPolyfit_spec refMinimize gridHor gridVer (by simp [gridHor]) (by simp [gridVer]) (by simp [gridHor]) (by simp [gridVer])
  1.5 1.4 true 0.3

example := C22_exact refPolyfit refPolyfit_spec refMinimize gridHor gridVer 1.5 1.4 (-1.4) 1 (-1.5) 1 (gridHor_straight _ _) (gridVer_straight _ _) one_ne_zero one_ne_zero
  (by simp [gridHor]) (by simp [gridVer]) true (fun _ => refMinimize_exact) 0.3 (by norm_num)

example := C22_few_lines refPolyfit refMinimize [[⟨0, 0⟩, ⟨0, 1⟩], [⟨1, 0⟩, ⟨1, 1⟩]] gridVer 1.5 1.4 true 0.3 (.inl (by simp))

example := C23_forward refPolyfit refPolyfit_spec refLstsq refLstsq_spec refMinimize gridHor gridVer 1.5 1.4 (-1.4) 1 (-1.5) 1 (gridHor_straight _ _)
  (gridVer_straight _ _) one_ne_zero one_ne_zero (by simp [gridHor]) (by simp [gridVer]) 5 (by norm_num) true (fun _ => refMinimize_exact) 0.3 (by norm_num)

/-- The horizontal line with the number 1 passes through the centre. -/
example := C23_backward_through_centre refPolyfit refPolyfit_spec refLstsq refMinimize gridHor gridVer 1.5 1 (-1) 1 (-1.5) 1
  (gridHor_straight _ _) (gridVer_straight _ _) one_ne_zero one_ne_zero (by simp [gridHor]) (by simp [gridVer]) 1 (by simp [gridHor]) (by norm_num) 5 true
  (fun _ => refMinimize_exact) 0.3 (by norm_num)

example := C23_backward refPolyfit refPolyfit_spec refLstsq refLstsq_spec refMinimize gridHor gridVer 1.5 1.4 (-1.4) 1 (-1.5) 1 (gridHor_straight _ _)
  (gridVer_straight _ _) one_ne_zero one_ne_zero (by simp [gridHor]) (by simp [gridVer])
  (by intro i hi; have hi' : i < 4 := hi; interval_cases i <;> norm_num) (by intro i hi; have hi' : i < 4 := hi; interval_cases i <;> norm_num)
  5 (by norm_num) true (fun _ => refMinimize_exact) 0.3 (by norm_num)

end Discorpy
