import Verif.Props.C19
import Verif.Lemmas.Spacing

/-! # C20: values of the undistorted perspective grid; C77: source and target points -/

namespace Discorpy

open Spec

/-- **C20** (values). The undistorted lines keep the middle line of each direction at its fitted intercept, have the common
slope (and the perpendicular one), and the spacing chosen by the options: without optimisation by `scale` from the central
lines, with an exact optimiser the one with least squared deviation from all intercepts; `equal_dist=True` combines both. -/
theorem C20_values (pf : PolyfitFn) (hpf : PolyfitSpec pf) (minimize : (ℝ → ℝ) → ℝ → ℝ) (hor ver : List (List Pt))
    (hh : ∀ l ∈ hor, l ≠ []) (hv : ∀ l ∈ ver, l ≠ []) (h2 : 2 ≤ hor.length) (v2 : 2 ≤ ver.length) (equalDist : Bool)
    (scale : ScaleOpt) (optimizing : Bool) :
    ∃ (ch cv : List Lin) (a0 eh ev dh dv : ℝ) (rows cols : List (List Pt)),
      List.Forall₂ (fun l q => IsLsqHorLine l q.a q.b) hor ch ∧ List.Forall₂ (fun l q => IsLsqVerLine l q.a q.b) ver cv ∧
      IsCommonSlope ch cv a0 ∧
      (dh, dv) = commonSpacing equalDist eh ev scale ∧
      (optimizing = false →
        IsSpacing (central (ch.map Lin.b) (hor.length / 2) (min (max (hor.length / 2 - 1) 1) (max (ver.length / 2 - 1) 1))) eh scale ∧
        IsSpacing (central (cv.map Lin.b) (ver.length / 2) (min (max (hor.length / 2 - 1) 1) (max (ver.length / 2 - 1) 1))) ev scale) ∧
      (optimizing = true → ExactMin minimize →
        (∀ x, spacingError (ch.map Lin.b) (hor.length / 2) eh ≤ spacingError (ch.map Lin.b) (hor.length / 2) x) ∧
        (∀ x, spacingError (cv.map Lin.b) (ver.length / 2) ev ≤ spacingError (cv.map Lin.b) (ver.length / 2) x)) ∧
      generateUndistortedPerspectiveLines pf minimize hor ver equalDist scale optimizing = .ok (rows, cols) ∧
      IsGridPair hor.length ver.length rows cols ∧
      ∀ i < hor.length, ∀ j < ver.length, ∃ p, entry rows i j = some p ∧
        onHorLine a0 ((ch.map Lin.b).getD (hor.length / 2) 0 + ((i : ℝ) - (hor.length / 2 : ℕ)) * dh) p ∧
        onVerLine (-a0) ((cv.map Lin.b).getD (ver.length / 2) 0 + ((j : ℝ) - (ver.length / 2 : ℕ)) * dv) p := by
  obtain ⟨ch, cv, e, f1, f2⟩ := generateLinearCoef_ok hpf hh hv
  have l1 := f1.length_eq.symm
  have l2 := f2.length_eq.symm
  obtain ⟨a0, ea, ha⟩ := commonSlope_ok hpf (ch := ch) (cv := cv) (by intro h; rw [h] at l1; simp only [List.length_nil] at l1; omega)
    (by intro h; rw [h] at l2; simp only [List.length_nil] at l2; omega)
  obtain ⟨eh, ev, dh, dv, hc, ho, hm, ei⟩ := calcUndistorInterceptPers_values minimize e l1 l2 h2 v2 equalDist scale optimizing
  have hne : a0 * -a0 ≠ 1 := by nlinarith [sq_nonneg a0]
  set bh := (ch.map Lin.b).getD (hor.length / 2) 0
  set bv := (cv.map Lin.b).getD (ver.length / 2) 0
  set uh : List Lin := ((List.range hor.length).map fun i : ℕ => bh + ((i : ℝ) - (hor.length / 2 : ℕ)) * dh).map fun b => ⟨a0, b⟩ with huh
  set uv : List Lin := ((List.range ver.length).map fun i : ℕ => bv + ((i : ℝ) - (ver.length / 2 : ℕ)) * dv).map fun b => ⟨-a0, b⟩ with huv
  have hp : ∀ h ∈ uh, ∀ v ∈ uv, h.a * v.a ≠ 1 := by
    intro h hm v hm'
    obtain ⟨_, _, rfl⟩ := List.mem_map.1 hm
    obtain ⟨_, _, rfl⟩ := List.mem_map.1 hm'
    exact hne
  have key : generateUndistortedPerspectiveLines pf minimize hor ver equalDist scale optimizing =
      .ok (uh.map fun h => uv.map fun v => crossPt h v, uv.map fun v => uh.map fun h => crossPt h v) := by
    unfold generateUndistortedPerspectiveLines
    rw [e, ok_bind]
    simp only [ea, ei, ok_bind]
    rw [← gridPoints_eq hp]
  refine ⟨ch, cv, a0, eh, ev, dh, dv, _, _, f1, f2, ha, hc, ho, hm, key, ?_, ?_⟩
  · have := isGridPair_map uh uv crossPt
    simpa [huh, huv] using this
  · intro i hi j hj
    refine ⟨crossPt ⟨a0, bh + ((i : ℝ) - (hor.length / 2 : ℕ)) * dh⟩ ⟨-a0, bv + ((j : ℝ) - (ver.length / 2 : ℕ)) * dv⟩, ?_, ?_, ?_⟩
    · rw [entry_map]
      simp [huh, huv, hi, hj]
    · exact (crossPt_on (h := ⟨a0, _⟩) (v := ⟨-a0, _⟩) hne).1
    · exact (crossPt_on (h := ⟨a0, _⟩) (v := ⟨-a0, _⟩) hne).2

theorem parallelFamily_hor {hor : List (List Pt)} {s c0 δ : ℝ} (h : IsParallelFamily Pt.x Pt.y hor s c0 δ) {ch : List Lin}
    (f : List.Forall₂ (fun l q => IsLsqHorLine l q.a q.b) hor ch) : ch = (List.range hor.length).map fun i : ℕ => ⟨s, c0 + i * δ⟩ := by
  apply List.ext_getElem
  · simp [f.length_eq]
  · intro i h1 h2
    simp only [List.length_map, List.length_range] at h2
    simp only [List.getElem_map, List.getElem_range]
    have hl := f.get h2 h1
    simp only [List.get_eq_getElem] at hl
    obtain ⟨hon, p, hp, q, hq, hpq⟩ := h i hor[i] (List.getElem?_eq_getElem h2)
    have on := lsqHor_exact (a0 := s) (b0 := c0 + i * δ) hl hon
    have e1 := on p hp
    have e2 := on q hq
    have k1 := hon p hp
    have k2 := hon q hq
    unfold onHorLine at e1 e2
    have : (ch[i].a - s) * (p.x - q.x) = 0 := by linear_combination k1 - k2 - e1 + e2
    have ha : ch[i].a = s := by
      rcases mul_eq_zero.1 this with h | h
      · linarith
      · exact absurd (sub_eq_zero.1 h) hpq
    have hb : ch[i].b = c0 + i * δ := by rw [ha] at e1; linarith
    rw [← ha, ← hb]

theorem parallelFamily_ver {ver : List (List Pt)} {s c0 δ : ℝ} (h : IsParallelFamily Pt.y Pt.x ver s c0 δ) {cv : List Lin}
    (f : List.Forall₂ (fun l q => IsLsqVerLine l q.a q.b) ver cv) : cv = (List.range ver.length).map fun i : ℕ => ⟨s, c0 + i * δ⟩ := by
  apply List.ext_getElem
  · simp [f.length_eq]
  · intro i h1 h2
    simp only [List.length_map, List.length_range] at h2
    simp only [List.getElem_map, List.getElem_range]
    have hl := f.get h2 h1
    simp only [List.get_eq_getElem] at hl
    obtain ⟨hon, p, hp, q, hq, hpq⟩ := h i ver[i] (List.getElem?_eq_getElem h2)
    have on := lsqVer_exact (a0 := s) (b0 := c0 + i * δ) hl hon
    have e1 := on p hp
    have e2 := on q hq
    have k1 := hon p hp
    have k2 := hon q hq
    unfold onVerLine at e1 e2
    have : (cv[i].a - s) * (p.y - q.y) = 0 := by linear_combination k1 - k2 - e1 + e2
    have ha : cv[i].a = s := by
      rcases mul_eq_zero.1 this with h | h
      · linarith
      · exact absurd (sub_eq_zero.1 h) hpq
    have hb : cv[i].b = c0 + i * δ := by rw [ha] at e1; linarith
    rw [← ha, ← hb]

/-- The fitted slopes of a perpendicular regular grid determine the common slope. -/
theorem commonSlope_parallel {s c0 δ c0' δ' a0 : ℝ} {n m : ℕ} (hn : 2 ≤ n) (hm : 2 ≤ m) (hδ : δ ≠ 0) (hδ' : δ' ≠ 0)
    (h : IsCommonSlope ((List.range n).map fun i : ℕ => ⟨s, c0 + i * δ⟩) ((List.range m).map fun i : ℕ => ⟨-s, c0' + i * δ'⟩) a0) :
    a0 = s := by
  obtain ⟨k, b, k', b', h1, h2, _, h4⟩ := h
  have key : ∀ (N : ℕ) (c d K B : ℝ) (L : List Pt), 2 ≤ N → d ≠ 0 → (L = (List.range N).map fun i : ℕ => (⟨s, c + i * d⟩ : Pt)) →
      IsLsqHorLine L K B → K = 0 ∧ B = s := by
    intro N c d K B L hN hd hL hl
    have on := lsqHor_exact (a0 := 0) (b0 := s) hl (by
      intro p hp; rw [hL] at hp; obtain ⟨i, _, rfl⟩ := List.mem_map.1 hp; simp [onHorLine])
    have e0 := on ⟨s, c + (0 : ℕ) * d⟩ (by rw [hL]; exact List.mem_map.2 ⟨0, by simp; omega, rfl⟩)
    have e1 := on ⟨s, c + (1 : ℕ) * d⟩ (by rw [hL]; exact List.mem_map.2 ⟨1, by simp; omega, rfl⟩)
    unfold onHorLine at e0 e1
    push_cast at e0 e1
    have : K * d = 0 := by linear_combination e0 - e1
    have hK : K = 0 := (mul_eq_zero.1 this).resolve_right hd
    subst hK
    exact ⟨rfl, by linarith⟩
  obtain ⟨rfl, rfl⟩ := key n c0 δ k b _ hn hδ (by simp [List.map_map, Function.comp_def]) h1
  obtain ⟨rfl, rfl⟩ := key m c0' δ' k' b' _ hm hδ' (by simp [List.map_map, Function.comp_def]) h2
  have := h4 (by norm_num)
  linarith

theorem getD_range_map (f : ℕ → ℝ) {n i : ℕ} (h : i < n) : ((List.range n).map f).getD i 0 = f i := by
  rw [List.getD_eq_getElem?_getD, List.getElem?_map, List.getElem?_range h]
  rfl

theorem gaps_central_arith {c0 δ : ℝ} {N pos n : ℕ} :
    ∀ g ∈ gaps (central ((List.range N).map fun i : ℕ => c0 + i * δ) pos n), g = |δ| := by
  intro g hg
  obtain ⟨i, hi, rfl⟩ := List.mem_map.1 hg
  rw [List.mem_range] at hi
  unfold central at hi ⊢
  rw [List.length_drop, List.length_take, List.length_map, List.length_range] at hi
  have get : ∀ k : ℕ, k < N - (pos - n) → k < min (pos + n + 1) N - (pos - n) →
      (((List.range N).map fun i : ℕ => c0 + (i : ℝ) * δ).take (pos + n + 1) |>.drop (pos - n)).getD k 0 = c0 + ((pos - n + k : ℕ) : ℝ) * δ := by
    intro k hk hk'
    rw [List.getD_eq_getElem?_getD, List.getElem?_drop, List.getElem?_take, if_pos (by omega), List.getElem?_map, List.getElem?_range (by omega)]
    rfl
  rw [get i (by omega) (by omega), get (i + 1) (by omega) (by omega)]
  push_cast
  congr 1
  ring

theorem isSpacing_arith {l : List ℝ} {d e : ℝ} {scale : ScaleOpt} (hl : 2 ≤ l.length) (hg : ∀ g ∈ gaps l, g = e)
    (hs : ∀ s, scale = .float s → s = 1) (h : IsSpacing l d scale) : d = e := by
  have hlen : (gaps l).length = l.length - 1 := by simp [gaps]
  have hpos : (0 : ℝ) < (gaps l).length := by rw [hlen]; exact_mod_cast (by omega : 0 < l.length - 1)
  have hsum : (gaps l).sum = (gaps l).length * e := by
    rw [List.eq_replicate_of_mem hg]; simp
  have hmean : ∀ m : ℝ, m * (gaps l).length = (gaps l).sum → m = e := by
    intro m hm
    rw [hsum, mul_comm] at hm
    exact mul_left_cancel₀ hpos.ne' hm
  cases scale with
  | max => exact hg d h.1
  | min => exact hg d h.1
  | median =>
    have hpos' : 0 < (gaps l).length := by exact_mod_cast hpos
    obtain ⟨h1, h2⟩ := h
    have n1 : 0 < ((gaps l).filter fun x => decide (id x ≤ d)).length := by omega
    have n2 : 0 < ((gaps l).filter fun x => decide (d ≤ id x)).length := by omega
    obtain ⟨x, hx⟩ := List.exists_mem_of_length_pos n1
    obtain ⟨y, hy⟩ := List.exists_mem_of_length_pos n2
    rw [List.mem_filter, decide_eq_true_iff] at hx hy
    have ex := hg x hx.1
    have ey := hg y hy.1
    have := hx.2
    have := hy.2
    simp only [id] at *
    linarith
  | mean => exact hmean d h
  | float s =>
    obtain ⟨m, hm, rfl⟩ := h
    rw [hs s rfl, hmean m hm, one_mul]

theorem spacingError_arith {c0 δ : ℝ} {N pos : ℕ} (hp : pos < N) : spacingError ((List.range N).map fun i : ℕ => c0 + i * δ) pos δ = 0 := by
  unfold spacingError
  apply List.sum_eq_zero
  intro x hx
  obtain ⟨i, hi, rfl⟩ := List.mem_map.1 hx
  rw [List.mem_range, List.length_map, List.length_range] at hi
  rw [getD_range_map _ hp, getD_range_map _ hi]
  ring

theorem spacingError_nonneg (l : List ℝ) (pos : ℕ) (d : ℝ) : 0 ≤ spacingError l pos d := by
  unfold spacingError
  apply List.sum_nonneg
  intro x hx
  obtain ⟨i, _, rfl⟩ := List.mem_map.1 hx
  positivity

/-- The grid for lines which already are two perpendicular families of parallel equidistant lines. -/
theorem undistorted_parallel {pf : PolyfitFn} (hpf : PolyfitSpec pf) {minimize : (ℝ → ℝ) → ℝ → ℝ} {hor ver : List (List Pt)}
    {s ch dh cv dv : ℝ} (hh : IsParallelFamily Pt.x Pt.y hor s ch dh) (hv : IsParallelFamily Pt.y Pt.x ver (-s) cv dv)
    (h2 : 2 ≤ hor.length) (v2 : 2 ≤ ver.length) (nh : dh ≠ 0) (nv : dv ≠ 0) (equalDist : Bool) (scale : ScaleOpt) (optimizing : Bool)
    (hs : optimizing = false → ∀ k, scale = .float k → k = 1) (hm : optimizing = true → ExactMin minimize) :
    ∃ (eh ev : ℝ) (rows cols : List (List Pt)), (eh, ev) = commonSpacing equalDist (if optimizing then dh else |dh|) (if optimizing then dv else |dv|) scale ∧
      generateUndistortedPerspectiveLines pf minimize hor ver equalDist scale optimizing = .ok (rows, cols) ∧
      IsGridPair hor.length ver.length rows cols ∧
      ∀ i < hor.length, ∀ j < ver.length, ∃ p, entry rows i j = some p ∧
        onHorLine s (ch + (hor.length / 2 : ℕ) * dh + ((i : ℝ) - (hor.length / 2 : ℕ)) * eh) p ∧
        onVerLine (-s) (cv + (ver.length / 2 : ℕ) * dv + ((j : ℝ) - (ver.length / 2 : ℕ)) * ev) p := by
  have fam : ∀ {f g : Pt → ℝ} {lines : List (List Pt)} {a b c : ℝ}, IsParallelFamily f g lines a b c → ∀ l ∈ lines, l ≠ [] := by
    intro f g lines a b c h l hl
    obtain ⟨i, hi⟩ := List.mem_iff_getElem?.1 hl
    obtain ⟨_, p, hp, _⟩ := h i l hi
    exact List.ne_nil_of_mem hp
  obtain ⟨lh, lv, a0, eh, ev, uh, uv, rows, cols, f1, f2, ha, hc, ho, hmin, key, hg, hent⟩ :=
    C20_values pf hpf minimize hor ver (fam hh) (fam hv) h2 v2 equalDist scale optimizing
  have e1 := parallelFamily_hor hh f1
  have e2 := parallelFamily_ver hv f2
  rw [e1, e2] at ha
  have ea : a0 = s := commonSlope_parallel h2 v2 nh nv ha
  have b1 : lh.map Lin.b = (List.range hor.length).map fun i : ℕ => ch + i * dh := by rw [e1, List.map_map]; rfl
  have b2 : lv.map Lin.b = (List.range ver.length).map fun i : ℕ => cv + i * dv := by rw [e2, List.map_map]; rfl
  rw [b1, b2] at ho hmin
  have n1 : 1 ≤ min (max (hor.length / 2 - 1) 1) (max (ver.length / 2 - 1) 1) := by omega
  have eeh : eh = if optimizing then dh else |dh| := by
    cases optimizing with
    | false =>
      have := (ho rfl).1
      refine isSpacing_arith ?_ gaps_central_arith (hs rfl) this
      have := central_length ((List.range hor.length).map fun i : ℕ => ch + (i : ℝ) * dh) n1 (by simpa using h2)
      rwa [List.length_map, List.length_range] at this
    | true =>
      have := (hmin rfl (hm rfl)).1
      refine spacingError_unique (l := (List.range hor.length).map fun i : ℕ => ch + (i : ℝ) * dh) (by simpa using h2) this ?_
      intro x
      rw [if_pos rfl, spacingError_arith (by omega)]
      exact spacingError_nonneg _ _ _
  have eev : ev = if optimizing then dv else |dv| := by
    cases optimizing with
    | false =>
      have := (ho rfl).2
      refine isSpacing_arith ?_ gaps_central_arith (hs rfl) this
      have := central_length ((List.range ver.length).map fun i : ℕ => cv + (i : ℝ) * dv) n1 (by simpa using v2)
      rwa [List.length_map, List.length_range] at this
    | true =>
      have := (hmin rfl (hm rfl)).2
      refine spacingError_unique (l := (List.range ver.length).map fun i : ℕ => cv + (i : ℝ) * dv) (by simpa using v2) this ?_
      intro x
      rw [if_pos rfl, spacingError_arith (by omega)]
      exact spacingError_nonneg _ _ _
  rw [eeh, eev] at hc
  refine ⟨uh, uv, rows, cols, hc, key, hg, ?_⟩
  intro i hi j hj
  obtain ⟨p, hp, h1, h2'⟩ := hent i hi j hj
  rw [b1, getD_range_map _ (by omega), ea] at h1
  rw [b2, getD_range_map _ (by omega), ea] at h2'
  exact ⟨p, hp, h1, h2'⟩

/-- **C20** (fixed point). Two perpendicular families of parallel equidistant lines, listed in increasing order or with exact
optimisation in any order, are already undistorted: point `(i, j)` of the result is the crossing of lines `i` and `j`. With
`equal_dist=True` the spacings must be equal; without optimisation a float `scale` must be `1`. -/
theorem C20_fixed (pf : PolyfitFn) (hpf : PolyfitSpec pf) (minimize : (ℝ → ℝ) → ℝ → ℝ) (hor ver : List (List Pt))
    (s ch dh cv dv : ℝ) (hh : IsParallelFamily Pt.x Pt.y hor s ch dh) (hv : IsParallelFamily Pt.y Pt.x ver (-s) cv dv)
    (h2 : 2 ≤ hor.length) (v2 : 2 ≤ ver.length) (nh : dh ≠ 0) (nv : dv ≠ 0) (equalDist : Bool) (scale : ScaleOpt) (optimizing : Bool)
    (he : equalDist = true → dh = dv) (ho : optimizing = false → (∀ k, scale = .float k → k = 1) ∧ 0 < dh ∧ 0 < dv)
    (hm : optimizing = true → ExactMin minimize) :
    ∃ rows cols : List (List Pt), generateUndistortedPerspectiveLines pf minimize hor ver equalDist scale optimizing = .ok (rows, cols) ∧
      IsGridPair hor.length ver.length rows cols ∧
      ∀ i < hor.length, ∀ j < ver.length, ∃ p, entry rows i j = some p ∧
        onHorLine s (ch + i * dh) p ∧ onVerLine (-s) (cv + j * dv) p := by
  obtain ⟨eh, ev, rows, cols, hc, key, hg, hent⟩ :=
    undistorted_parallel hpf hh hv h2 v2 nh nv equalDist scale optimizing (fun h => (ho h).1) hm
  have e1 : (if optimizing then dh else |dh|) = dh := by
    cases optimizing with
    | false => simp [abs_of_pos (ho rfl).2.1]
    | true => simp
  have e2 : (if optimizing then dv else |dv|) = dv := by
    cases optimizing with
    | false => simp [abs_of_pos (ho rfl).2.2]
    | true => simp
  rw [e1, e2] at hc
  have hd : eh = dh ∧ ev = dv := by
    cases equalDist with
    | false => cases scale <;> simpa [commonSpacing] using hc
    | true => cases he rfl; cases scale <;> simpa [commonSpacing] using hc
  obtain ⟨rfl, rfl⟩ := hd
  refine ⟨rows, cols, key, hg, fun i hi j hj => ?_⟩
  obtain ⟨p, hp, k1, k2⟩ := hent i hi j hj
  refine ⟨p, hp, ?_, ?_⟩
  · convert k1 using 1; ring
  · convert k2 using 1; ring

/-- **C20** (order). Without optimisation, lines listed from bottom to top (`dh < 0`) come back mirrored at the middle line:
row `i` is on line `2 * (H / 2) - i` of the input. -/
theorem C20_reversed (pf : PolyfitFn) (hpf : PolyfitSpec pf) (minimize : (ℝ → ℝ) → ℝ → ℝ) (hor ver : List (List Pt))
    (s ch dh cv dv : ℝ) (hh : IsParallelFamily Pt.x Pt.y hor s ch dh) (hv : IsParallelFamily Pt.y Pt.x ver (-s) cv dv)
    (h2 : 2 ≤ hor.length) (v2 : 2 ≤ ver.length) (nh : dh < 0) (nv : 0 < dv) (scale : ScaleOpt) (hs : ∀ k, scale = .float k → k = 1) :
    ∃ rows cols : List (List Pt), generateUndistortedPerspectiveLines pf minimize hor ver false scale false = .ok (rows, cols) ∧
      ∀ i < hor.length, ∀ j < ver.length, ∃ p, entry rows i j = some p ∧
        onHorLine s (ch + (2 * (hor.length / 2 : ℕ) - i) * dh) p ∧ onVerLine (-s) (cv + j * dv) p := by
  obtain ⟨eh, ev, rows, cols, hc, key, hg, hent⟩ :=
    undistorted_parallel (minimize := minimize) hpf hh hv h2 v2 nh.ne nv.ne' false scale false (fun _ => hs) (by simp)
  have hd : eh = -dh ∧ ev = dv := by cases scale <;> simpa [commonSpacing, abs_of_neg nh, abs_of_pos nv] using hc
  obtain ⟨rfl, rfl⟩ := hd
  refine ⟨rows, cols, key, fun i hi j hj => ?_⟩
  obtain ⟨p, hp, k1, k2⟩ := hent i hi j hj
  refine ⟨p, hp, ?_, ?_⟩
  · convert k1 using 1; ring
  · convert k2 using 1; ring

/-- **C20** (scale). With exact optimisation a float `scale` has no effect: it only gives the start value. -/
theorem C20_scale_ignored (pf : PolyfitFn) (hpf : PolyfitSpec pf) (minimize : (ℝ → ℝ) → ℝ → ℝ) (hm : ExactMin minimize)
    (hor ver : List (List Pt)) (hh : ∀ l ∈ hor, l ≠ []) (hv : ∀ l ∈ ver, l ≠ []) (h2 : 2 ≤ hor.length) (v2 : 2 ≤ ver.length)
    (equalDist : Bool) (k : ℝ) :
    generateUndistortedPerspectiveLines pf minimize hor ver equalDist (.float k) true =
      generateUndistortedPerspectiveLines pf minimize hor ver equalDist .mean true := by
  obtain ⟨ch, cv, e, f1, f2⟩ := generateLinearCoef_ok hpf hh hv
  have l1 := f1.length_eq.symm
  have l2 := f2.length_eq.symm
  obtain ⟨eh, ev, dh, dv, hc, _, hmin, ei⟩ := calcUndistorInterceptPers_values minimize e l1 l2 h2 v2 equalDist (.float k) true
  obtain ⟨eh', ev', dh', dv', hc', _, hmin', ei'⟩ := calcUndistorInterceptPers_values minimize e l1 l2 h2 v2 equalDist .mean true
  have q1 : eh = eh' := spacingError_unique (by rw [List.length_map, l1]; exact h2) (hmin rfl hm).1 (hmin' rfl hm).1
  have q2 : ev = ev' := spacingError_unique (by rw [List.length_map, l2]; exact v2) (hmin rfl hm).2 (hmin' rfl hm).2
  subst q1 q2
  have hd : (dh, dv) = (dh', dv') := by rw [hc, hc']; rfl
  cases hd
  unfold generateUndistortedPerspectiveLines
  simp only [e, ok_bind, ei, ei']

/-- Non-vacuity: two tilted lines per direction with different spacings. -/
example : IsParallelFamily Pt.x Pt.y [[⟨0, 0⟩, ⟨1, 10⟩], [⟨20, 0⟩, ⟨21, 10⟩]] 0.1 0 20 ∧
    IsParallelFamily Pt.y Pt.x [[⟨0, 5⟩, ⟨10, 4⟩], [⟨0, 35⟩, ⟨20, 33⟩]] (-0.1) 5 30 := by
  constructor
  · intro i line h
    rcases i with _ | _ | i <;> simp at h
    · subst h; simp; norm_num
    · subst h; simp; norm_num
  · intro i line h
    rcases i with _ | _ | i <;> simp at h
    · subst h; simp; norm_num
    · subst h; simp; norm_num

theorem shown_hor : IsParallelFamily Pt.x Pt.y [[⟨0, 0⟩, ⟨1, 10⟩], [⟨20, 0⟩, ⟨21, 10⟩]] 0.1 0 20 := by
  intro i line h
  rcases i with _ | _ | i <;> simp at h
  · subst h; simp; norm_num
  · subst h; simp; norm_num

theorem shown_hor_down : IsParallelFamily Pt.x Pt.y [[⟨20, 0⟩, ⟨21, 10⟩], [⟨0, 0⟩, ⟨1, 10⟩]] 0.1 20 (-20) := by
  intro i line h
  rcases i with _ | _ | i <;> simp at h
  · subst h; simp; norm_num
  · subst h; simp; norm_num

theorem shown_ver : IsParallelFamily Pt.y Pt.x [[⟨0, 5⟩, ⟨10, 4⟩], [⟨0, 35⟩, ⟨20, 33⟩]] (-0.1) 5 30 := by
  intro i line h
  rcases i with _ | _ | i <;> simp at h
  · subst h; simp; norm_num
  · subst h; simp; norm_num

example := C20_values refPolyfit refPolyfit_spec refMinimize [[⟨0, 0⟩, ⟨1, 10⟩], [⟨20, 0⟩, ⟨21, 10⟩]] [[⟨0, 5⟩, ⟨10, 4⟩], [⟨0, 35⟩, ⟨20, 33⟩]] (by simp) (by simp)
  (by simp) (by simp) true .mean true

example := C20_fixed refPolyfit refPolyfit_spec refMinimize _ _ _ _ _ _ _ shown_hor shown_ver (by simp) (by simp) (by norm_num) (by norm_num) false .mean true
  (by simp) (by simp) fun _ => refMinimize_exact

example := C20_reversed refPolyfit refPolyfit_spec refMinimize _ _ _ _ _ _ _ shown_hor_down shown_ver (by simp) (by simp) (by norm_num) (by norm_num) .mean (by simp)

example := C20_scale_ignored refPolyfit refPolyfit_spec refMinimize refMinimize_exact [[⟨0, 0⟩, ⟨1, 10⟩], [⟨20, 0⟩, ⟨21, 10⟩]]
  [[⟨0, 5⟩, ⟨10, 4⟩], [⟨0, 35⟩, ⟨20, 33⟩]] (by simp) (by simp) (by simp) (by simp) true 2

end Discorpy
