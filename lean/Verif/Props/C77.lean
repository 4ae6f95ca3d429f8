import Verif.Props.C20

/-! # C77: source and target points for perspective correction -/

namespace Discorpy

open Spec

theorem flatten_uniform {rows : List (List Pt)} {w : ℕ} (h : ∀ r ∈ rows, r.length = w) (i : ℕ) {j : ℕ} (hj : j < w) :
    rows.flatten[i * w + j]? = entry rows i j := by
  induction rows generalizing i with
  | nil => simp [entry]
  | cons r rows ih =>
    have hr := h r (by simp)
    rw [List.flatten_cons]
    cases i with
    | zero =>
      rw [List.getElem?_append_left (by omega)]
      simp [entry]
    | succ i =>
      rw [List.getElem?_append_right (by rw [hr, Nat.succ_mul]; omega), hr,
        show (i + 1) * w + j - w = i * w + j by rw [Nat.succ_mul]; omega, ih (fun r hr => h r (by simp [hr])) i]
      simp [entry]

theorem flatten_length {rows : List (List Pt)} {w : ℕ} (h : ∀ r ∈ rows, r.length = w) : rows.flatten.length = rows.length * w := by
  induction rows with
  | nil => simp
  | cons r rows ih =>
    rw [List.flatten_cons, List.length_append, h r (by simp), ih (fun r hr => h r (by simp [hr])), List.length_cons, Nat.succ_mul]
    omega

theorem IsGridPair_rows_ne {h w : ℕ} {rows cols : List (List Pt)} (hg : IsGridPair h w rows cols) (hw : 0 < w) : ∀ r ∈ rows, r ≠ [] := by
  intro r hr he
  have := hg.rowLen r hr
  rw [he] at this
  simp at this
  omega

theorem IsGridPair_cols_ne {h w : ℕ} {rows cols : List (List Pt)} (hg : IsGridPair h w rows cols) (hh : 0 < h) : ∀ c ∈ cols, c ≠ [] := by
  intro r hr he
  have := hg.colLen r hr
  rw [he] at this
  simp at this
  omega

/-- **C77.** With at least two lines of each direction, none empty, whose fitted lines are nowhere parallel across directions,
the source and target lists have one point per pair of lines, row by row. Source point `(i, j)` is the crossing of the fitted
lines `i` and `j`; the targets form a rectangular lattice in the same order, square with `equal_dist=True`. -/
theorem C77_aligned (pf : PolyfitFn) (hpf : PolyfitSpec pf) (minimize : (ℝ → ℝ) → ℝ → ℝ) (hor ver : List (List Pt))
    (hh : ∀ l ∈ hor, l ≠ []) (hv : ∀ l ∈ ver, l ≠ []) (h2 : 2 ≤ hor.length) (v2 : 2 ≤ ver.length)
    (hp : ∀ l ∈ hor, ∀ m ∈ ver, ∀ a b a' b', IsLsqHorLine l a b → IsLsqVerLine m a' b' → a * a' ≠ 1) (equalDist : Bool)
    (scale : ScaleOpt) (optimizing : Bool) :
    ∃ (ch cv : List Lin) (source target : List Pt) (o w u : Pt),
      List.Forall₂ (fun l q => IsLsqHorLine l q.a q.b) hor ch ∧ List.Forall₂ (fun l q => IsLsqVerLine l q.a q.b) ver cv ∧
      generateSourceTarget pf minimize hor ver equalDist scale optimizing = .ok (source, target) ∧
      source.length = hor.length * ver.length ∧ target.length = hor.length * ver.length ∧
      w.x * u.x + w.y * u.y = 0 ∧ (equalDist = true → ptDist w ⟨0, 0⟩ = ptDist u ⟨0, 0⟩) ∧
      ∀ i < hor.length, ∀ j < ver.length, ∀ h v : Lin, ch[i]? = some h → cv[j]? = some v →
        (∃ p, source[i * ver.length + j]? = some p ∧ onHorLine h.a h.b p ∧ onVerLine v.a v.b p) ∧
        target[i * ver.length + j]? = some ⟨o.y + i * w.y + j * u.y, o.x + i * w.x + j * u.x⟩ := by
  obtain ⟨ch, cv, f1, f2, e⟩ := C19_grid_dots pf hpf hor ver hh hv
  have hp' : ∀ h ∈ ch, ∀ v ∈ cv, h.a * v.a ≠ 1 := by
    intro h mh v mv
    obtain ⟨l, ml, hl⟩ := forall₂_left f1.flip mh
    obtain ⟨m, mm, hm⟩ := forall₂_left f2.flip mv
    exact hp l ml m mm _ _ _ _ hl hm
  obtain ⟨rows, cols, e', hg, hent⟩ := C19_grid_coef ch cv hp'
  have l1 := f1.length_eq
  have l2 := f2.length_eq
  rw [← l1, ← l2] at hg
  obtain ⟨trows, tcols, o, w, u, et, hgt, hlat, horth, heq⟩ := C20_lattice pf hpf minimize rows cols
    (IsGridPair_rows_ne hg (by omega)) (IsGridPair_cols_ne hg (by omega)) (by rw [hg.nrows]; exact h2) (by rw [hg.ncols]; exact v2)
    equalDist scale optimizing
  rw [hg.nrows, hg.ncols] at hgt
  refine ⟨ch, cv, rows.flatten, trows.flatten, o, w, u, f1, f2, ?_, ?_, ?_, horth, heq, ?_⟩
  · unfold generateSourceTarget
    rw [e, e', ok_bind]
    simp only [et, ok_bind]
  · rw [flatten_length hg.rowLen, hg.nrows]
  · rw [flatten_length hgt.rowLen, hgt.nrows]
  · intro i hi j hj h v eh ev
    rw [flatten_uniform hg.rowLen i hj, flatten_uniform hgt.rowLen i hj]
    constructor
    · obtain ⟨p, hp, k1, k2, _⟩ := hent i j h v eh ev
      exact ⟨p, hp, k1, k2⟩
    · have hi' : i < trows.length := by rw [hgt.nrows]; exact hi
      have hr : trows[i].length = ver.length := hgt.rowLen _ (List.getElem_mem hi')
      have hs : entry trows i j = some trows[i][j] := by
        unfold entry
        rw [List.getElem?_eq_getElem hi']
        exact List.getElem?_eq_getElem (by omega)
      rw [hs, ← hlat i j _ hs]

/-- Rows and columns parallel to the axes. -/
example (equalDist : Bool) (scale : ScaleOpt) (optimizing : Bool) :=
  C77_aligned refPolyfit refPolyfit_spec refMinimize [[⟨0, 0⟩, ⟨0, 10⟩], [⟨20, 0⟩, ⟨20, 10⟩]] [[⟨0, 0⟩, ⟨20, 0⟩], [⟨0, 10⟩, ⟨20, 10⟩]] (by simp) (by simp) (by simp) (by simp) (by
    intro l hl m hm a b a' b' h v
    have e : a = 0 := by
      simp only [List.mem_cons, List.not_mem_nil, or_false] at hl
      rcases hl with rfl | rfl
      · have h1 := lsqHor_exact (a0 := 0) (b0 := 0) h (by simp [onHorLine])
        simp [onHorLine] at h1
        linarith [h1.1, h1.2]
      · have h1 := lsqHor_exact (a0 := 0) (b0 := 20) h (by simp [onHorLine])
        simp [onHorLine] at h1
        linarith [h1.1, h1.2]
    rw [e]
    norm_num) equalDist scale optimizing

/-- **C77** (fixed point). For two perpendicular families of parallel equidistant lines, as in C20, source and target points
are equal, so the correction estimated from them is the identity. -/
theorem C77_fixed (pf : PolyfitFn) (hpf : PolyfitSpec pf) (minimize : (ℝ → ℝ) → ℝ → ℝ) (hor ver : List (List Pt))
    (s ch dh cv dv : ℝ) (hh : IsParallelFamily Pt.x Pt.y hor s ch dh) (hv : IsParallelFamily Pt.y Pt.x ver (-s) cv dv)
    (h2 : 2 ≤ hor.length) (v2 : 2 ≤ ver.length) (nh : dh ≠ 0) (nv : dv ≠ 0) (equalDist : Bool) (scale : ScaleOpt) (optimizing : Bool)
    (he : equalDist = true → dh = dv) (ho : optimizing = false → (∀ k, scale = .float k → k = 1) ∧ 0 < dh ∧ 0 < dv)
    (hm : optimizing = true → ExactMin minimize) :
    ∃ points : List Pt, generateSourceTarget pf minimize hor ver equalDist scale optimizing = .ok (points, points) ∧
      points.length = hor.length * ver.length := by
  have fam : ∀ {f g : Pt → ℝ} {lines : List (List Pt)} {a b c : ℝ}, IsParallelFamily f g lines a b c → ∀ l ∈ lines, l ≠ [] := by
    intro f g lines a b c h l hl
    obtain ⟨i, hi⟩ := List.mem_iff_getElem?.1 hl
    obtain ⟨_, p, hp, _⟩ := h i l hi
    exact List.ne_nil_of_mem hp
  have hss : s * -s ≠ 1 := by nlinarith [sq_nonneg s]
  obtain ⟨lh, lv, f1, f2, e⟩ := C19_grid_dots pf hpf hor ver (fam hh) (fam hv)
  have e1 := parallelFamily_hor hh f1
  have e2 := parallelFamily_ver hv f2
  have hp' : ∀ h ∈ lh, ∀ v ∈ lv, h.a * v.a ≠ 1 := by
    intro h mh v mv
    rw [e1] at mh
    rw [e2] at mv
    obtain ⟨_, _, rfl⟩ := List.mem_map.1 mh
    obtain ⟨_, _, rfl⟩ := List.mem_map.1 mv
    exact hss
  obtain ⟨rows, cols, e', hg, hent⟩ := C19_grid_coef lh lv hp'
  rw [← f1.length_eq, ← f2.length_eq] at hg
  have pt : ∀ i < hor.length, ∀ j < ver.length, ∃ p, entry rows i j = some p ∧ onHorLine s (ch + i * dh) p ∧ onVerLine (-s) (cv + j * dv) p := by
    intro i hi j hj
    obtain ⟨p, hp, k1, k2, _⟩ := hent i j ⟨s, ch + i * dh⟩ ⟨-s, cv + j * dv⟩ (by rw [e1]; simp [hi]) (by rw [e2]; simp [hj])
    exact ⟨p, hp, k1, k2⟩
  have ph : IsParallelFamily Pt.x Pt.y rows s ch dh := by
    intro i ln hl
    have hi : i < hor.length := by
      rw [← hg.nrows]; exact (List.getElem?_eq_some_iff.1 hl).1
    have en : ∀ j, entry rows i j = ln[j]? := by intro j; unfold entry; rw [hl]; rfl
    constructor
    · intro p hp
      obtain ⟨j, hj⟩ := List.mem_iff_getElem?.1 hp
      have hj' : j < ver.length := by
        rw [← hg.rowLen ln (List.mem_of_getElem? hl)]; exact (List.getElem?_eq_some_iff.1 hj).1
      obtain ⟨q, hq, k1, _⟩ := pt i hi j hj'
      rw [en, hj] at hq
      cases hq
      exact k1
    · obtain ⟨p, hp, k1, k2⟩ := pt i hi 0 (by omega)
      obtain ⟨q, hq, k3, k4⟩ := pt i hi 1 (by omega)
      rw [en] at hp hq
      refine ⟨p, List.mem_of_getElem? hp, q, List.mem_of_getElem? hq, fun hx => nv ?_⟩
      unfold onHorLine at k1 k3
      unfold onVerLine at k2 k4
      have hy : p.y = q.y := by rw [k1, k3, hx]
      rw [hx, hy, k4] at k2
      push_cast at k2
      linarith
  have pv : IsParallelFamily Pt.y Pt.x cols (-s) cv dv := by
    intro j ln hl
    have hj : j < ver.length := by
      rw [← hg.ncols]; exact (List.getElem?_eq_some_iff.1 hl).1
    have en : ∀ i, entry rows i j = ln[i]? := by intro i; rw [hg.transpose]; unfold entry; rw [hl]; rfl
    constructor
    · intro p hp
      obtain ⟨i, hi⟩ := List.mem_iff_getElem?.1 hp
      have hi' : i < hor.length := by
        rw [← hg.colLen ln (List.mem_of_getElem? hl)]; exact (List.getElem?_eq_some_iff.1 hi).1
      obtain ⟨q, hq, _, k1⟩ := pt i hi' j hj
      rw [en, hi] at hq
      cases hq
      exact k1
    · obtain ⟨p, hp, k1, k2⟩ := pt 0 (by omega) j hj
      obtain ⟨q, hq, k3, k4⟩ := pt 1 (by omega) j hj
      rw [en] at hp hq
      refine ⟨p, List.mem_of_getElem? hp, q, List.mem_of_getElem? hq, fun hy => nh ?_⟩
      unfold onHorLine at k1 k3
      unfold onVerLine at k2 k4
      have hx : p.x = q.x := by rw [k2, k4, hy]
      rw [hx, hy, k3] at k1
      push_cast at k1
      linarith
  obtain ⟨trows, tcols, et, hgt, hentt⟩ := C20_fixed pf hpf minimize rows cols s ch dh cv dv ph pv (by rw [hg.nrows]; exact h2)
    (by rw [hg.ncols]; exact v2) nh nv equalDist scale optimizing he ho hm
  rw [hg.nrows, hg.ncols] at hgt hentt
  have same : trows = rows := by
    apply List.ext_getElem (by rw [hgt.nrows, hg.nrows])
    intro i h1 h1'
    have r1 := hgt.rowLen _ (List.getElem_mem h1)
    have r2 := hg.rowLen _ (List.getElem_mem h1')
    apply List.ext_getElem (by rw [r1, r2])
    intro j h3 h4
    obtain ⟨p, hp, k1, k2⟩ := pt i (by rw [← hg.nrows]; exact h1') j (by omega)
    obtain ⟨q, hq, k3, k4⟩ := hentt i (by rw [← hg.nrows]; exact h1') j (by omega)
    unfold entry at hp hq
    rw [List.getElem?_eq_getElem h1', Option.bind_eq_bind, Option.bind_some, List.getElem?_eq_getElem h4] at hp
    rw [List.getElem?_eq_getElem h1, Option.bind_eq_bind, Option.bind_some, List.getElem?_eq_getElem h3] at hq
    rw [Option.some.inj hp, Option.some.inj hq]
    exact cross_unique hss k3 k4 k1 k2
  refine ⟨rows.flatten, ?_, by rw [flatten_length hg.rowLen, hg.nrows]⟩
  unfold generateSourceTarget
  rw [e, e', ok_bind]
  simp only [et, ok_bind, same]

theorem mapM_dichotomy {α β : Type} {f : α → Except PyErr β} {l : List α} {e : PyErr}
    (h : ∀ x ∈ l, (∃ b, f x = .ok b) ∨ f x = .error e) : (∃ r, l.mapM f = .ok r) ∨ l.mapM f = .error e := by
  induction l with
  | nil => exact Or.inl ⟨[], rfl⟩
  | cons x l ih =>
    rw [List.mapM_cons]
    rcases h x (by simp) with ⟨b, hb⟩ | hb
    · rcases ih (fun y hy => h y (by simp [hy])) with ⟨r, hr⟩ | hr
      · exact Or.inl ⟨b :: r, by rw [hb, hr]; rfl⟩
      · exact Or.inr (by rw [hb, hr]; rfl)
    · exact Or.inr (by rw [hb]; rfl)

theorem mapM_mem_ok {α β : Type} {f : α → Except PyErr β} {l : List α} {r : List β} (h : l.mapM f = .ok r) {x : α} (hx : x ∈ l) :
    ∃ b, f x = .ok b := by
  obtain ⟨b, _, hb⟩ := forall₂_left (mapM_ok_iff.1 h) hx
  exact ⟨b, hb⟩

theorem crossPoint_dichotomy (h v : Lin) : (∃ p, crossPoint h v = .ok p) ∨ crossPoint h v = .error .nonFinite := by
  by_cases hp : h.a * v.a = 1
  · exact Or.inr (crossPoint_parallel hp)
  · exact Or.inl ⟨_, crossPoint_eq hp⟩

/-- A grid with a pair of parallel lines is not finite. -/
theorem gridPoints_parallel {ch cv : List Lin} {h v : Lin} (hh : h ∈ ch) (hv : v ∈ cv) (hp : h.a * v.a = 1) :
    gridPoints ch cv = .error .nonFinite := by
  have hrow : ∀ h ∈ ch, (∃ r, (cv.mapM fun v => crossPoint h v) = .ok r) ∨ (cv.mapM fun v => crossPoint h v) = .error .nonFinite :=
    fun h _ => mapM_dichotomy fun v _ => crossPoint_dichotomy h v
  unfold gridPoints
  rcases mapM_dichotomy hrow with ⟨r, hr⟩ | hr
  · obtain ⟨row, e1⟩ := mapM_mem_ok hr hh
    obtain ⟨p, e2⟩ := mapM_mem_ok e1 hv
    rw [crossPoint_parallel hp] at e2
    cases e2
  · rw [hr]; rfl

/-- **C77** (parallel lines). If a fitted horizontal line is parallel to a fitted vertical one, a crossing point and so the
result is not finite. -/
theorem C77_parallel (pf : PolyfitFn) (hpf : PolyfitSpec pf) (minimize : (ℝ → ℝ) → ℝ → ℝ) (hor ver : List (List Pt))
    (hh : ∀ l ∈ hor, l ≠ []) (hv : ∀ l ∈ ver, l ≠ [])
    (hp : ∃ l ∈ hor, ∃ m ∈ ver, ∀ a b a' b', IsLsqHorLine l a b → IsLsqVerLine m a' b' → a * a' = 1) (equalDist : Bool)
    (scale : ScaleOpt) (optimizing : Bool) :
    generateSourceTarget pf minimize hor ver equalDist scale optimizing = .error .nonFinite := by
  obtain ⟨ch, cv, f1, f2, e⟩ := C19_grid_dots pf hpf hor ver hh hv
  obtain ⟨l, ml, m, mm, hlm⟩ := hp
  obtain ⟨h, mh, hl⟩ := forall₂_left f1 ml
  obtain ⟨v, mv, hm⟩ := forall₂_left f2 mm
  unfold generateSourceTarget
  rw [e, regenerateGridLinearCoef, gridPoints_parallel mh mv (hlm _ _ _ _ hl hm)]
  rfl

/-- Dots on the diagonal are a horizontal and a vertical line parallel to each other. -/
example (equalDist : Bool) (scale : ScaleOpt) (optimizing : Bool) :=
  C77_parallel refPolyfit refPolyfit_spec refMinimize [[⟨0, 0⟩, ⟨1, 1⟩]] [[⟨0, 0⟩, ⟨1, 1⟩]] (by simp) (by simp) ⟨_, List.mem_singleton.2 rfl, _, List.mem_singleton.2 rfl, by
    intro a b a' b' h v
    have h1 := lsqHor_exact (a0 := 1) (b0 := 0) h (by simp [onHorLine])
    have h2 := lsqVer_exact (a0 := 1) (b0 := 0) v (by simp [onVerLine])
    simp [onHorLine, onVerLine] at h1 h2
    have e1 : a = 1 := by linarith [h1.1, h1.2]
    have e2 : a' = 1 := by linarith [h2.1, h2.2]
    rw [e1, e2]; norm_num⟩ equalDist scale optimizing

/-- Non-vacuity: dots on the diagonal are a horizontal and a vertical line parallel to each other. -/
example (a b a' b' : ℝ) (h : IsLsqHorLine [⟨0, 0⟩, ⟨1, 1⟩] a b) (v : IsLsqVerLine [⟨0, 0⟩, ⟨1, 1⟩] a' b') : a * a' = 1 := by
  have h1 := lsqHor_exact (a0 := 1) (b0 := 0) h (by simp [onHorLine])
  have h2 := lsqVer_exact (a0 := 1) (b0 := 0) v (by simp [onVerLine])
  simp [onHorLine, onVerLine] at h1 h2
  have e1 : a = 1 := by linarith [h1.1, h1.2]
  have e2 : a' = 1 := by linarith [h2.1, h2.2]
  rw [e1, e2]; norm_num

/-- Non-vacuity: a tilted grid of two by two lines is a fixed point. -/
example : ∃ points, generateSourceTarget refPolyfit refMinimize [[⟨0, 0⟩, ⟨1, 10⟩], [⟨20, 0⟩, ⟨21, 10⟩]]
    [[⟨0, 5⟩, ⟨10, 4⟩], [⟨0, 35⟩, ⟨20, 33⟩]] false (.float 3) true = .ok (points, points) ∧ points.length = 2 * 2 := by
  apply C77_fixed refPolyfit refPolyfit_spec refMinimize _ _ 0.1 0 20 5 30
  · intro i line h
    rcases i with _ | _ | i <;> simp at h
    · subst h; simp; norm_num
    · subst h; simp; norm_num
  · intro i line h
    rcases i with _ | _ | i <;> simp at h
    · subst h; simp; norm_num
    · subst h; simp; norm_num
  all_goals try simp
  exact refMinimize_exact

end Discorpy
