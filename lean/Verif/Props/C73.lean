import Verif.Lemmas.GridPara
import Verif.Props.C25
import Verif.Props.C72

/-! # C73, C74: grids regenerated from parabolas -/

namespace Discorpy

open Spec

/-- The centre used without perspective correction. -/
def GridCentre (pf : PolyfitFn) (hor ver : List (List Pt)) (findCenter : Bool) (c : Pt) : Prop :=
  if findCenter then findCodBailey pf hor ver 2 = .ok c else c = ⟨0, 0⟩

theorem paraGridCentre_ok {pf : PolyfitFn} {hor ver : List (List Pt)} {findCenter : Bool} {c : Pt}
    (h : GridCentre pf hor ver findCenter c) : paraGridCentre pf hor ver findCenter = .ok c := by
  unfold GridCentre at h
  unfold paraGridCentre
  cases findCenter <;> simp_all

/-- **C73** Without perspective correction the result is a grid and its transpose, and point `(i, j)` is on the
least-squares parabolas (relative to the centre) of horizontal line `i` and of vertical line `j` whenever the numerical
solver found a root for that pair. -/
theorem C73_grid (pf : PolyfitFn) (hpf : PolyfitSpec pf) (fsolve : (ℝ × ℝ → ℝ × ℝ) → ℝ × ℝ → ℝ × ℝ)
    (hor ver : List (List Pt)) (hh : ∀ l ∈ hor, l ≠ []) (hv : ∀ l ∈ ver, l ≠ []) (findCenter : Bool) (c : Pt)
    (hc : GridCentre pf hor ver findCenter c) :
    ∃ (ch cv : List Para) (rows cols : List (List Pt)),
      List.Forall₂ (fun l q => IsLsqPara Pt.x Pt.y c.x c.y l q.a q.b q.c) hor ch ∧
      List.Forall₂ (fun l q => IsLsqPara Pt.y Pt.x c.y c.x l q.a q.b q.c) ver cv ∧
      regenerateGridParabola pf fsolve hor ver false findCenter = .ok (rows, cols) ∧
      IsGridPair hor.length ver.length rows cols ∧
      ∀ (i j : ℕ) (h v : Para), ch[i]? = some h → cv[j]? = some v → ∃ p, entry rows i j = some p ∧
        (FoundRoot fsolve (paraEquations h.a h.b h.c v.a v.b v.c) →
          onPara Pt.x Pt.y c h.a h.b h.c p ∧ onPara Pt.y Pt.x c v.a v.b v.c p) := by
  obtain ⟨ch, eh, fh⟩ := paraFitHor_ok hpf hh c.x c.y
  obtain ⟨cv, ev, fv⟩ := paraFitVer_ok hpf hv c.x c.y
  refine ⟨ch, cv, ch.map fun h => cv.map fun v => paraGridPoint fsolve c h v,
    cv.map fun v => ch.map fun h => paraGridPoint fsolve c h v, fh, fv, ?_, ?_, ?_⟩
  · unfold regenerateGridParabola paraGridCoefs
    rw [if_neg Bool.false_ne_true, paraGridCentre_ok hc]
    simp only [eh, ev, ok_bind]
  · rw [fh.length_eq, fv.length_eq]
    exact isGridPair_mapPara ch cv _
  · intro i j h v hi hj
    refine ⟨paraGridPoint fsolve c h v, by rw [entry_map, hi, hj]; rfl, paraGridPoint_on⟩

/-- The dots of a line are on the parabola `a·t² + b·t + e` of the image, at three or more different positions. -/
def IsCurve (along across : Pt → ℝ) (line : List Pt) (q : Para) : Prop :=
  (∀ p ∈ line, onPara along across ⟨0, 0⟩ q.a q.b q.c p) ∧
    ∃ p ∈ line, ∃ q ∈ line, ∃ r ∈ line, along p ≠ along q ∧ along p ≠ along r ∧ along q ≠ along r

theorem isCurve_ne_nil {along across : Pt → ℝ} {line : List Pt} {q : Para} (h : IsCurve along across line q) : line ≠ [] := by
  obtain ⟨_, p, hp, _⟩ := h
  exact List.ne_nil_of_mem hp

/-- The coefficients of a parabola of the image relative to the position `(t, s)`. -/
noncomputable def relativeTo (t s : ℝ) (q : Para) : Para := ⟨q.a, 2 * q.a * t + q.b, q.a * t ^ 2 + q.b * t + q.c - s⟩

theorem isCurve_fit {along across : Pt → ℝ} {line : List Pt} {q r : Para} (h : IsCurve along across line q) {t s : ℝ}
    (h0 : along ⟨0, 0⟩ = 0) (h1 : across ⟨0, 0⟩ = 0) (hl : IsLsqPara along across t s line r.a r.b r.c) : r = relativeTo t s q := by
  obtain ⟨e1, e2, e3⟩ := lsqPara_exact (a' := q.a) (b' := 2 * q.a * t + q.b) (c' := q.a * t ^ 2 + q.b * t + q.c - s) hl
    (fun p hp => by
      have := h.1 p hp
      unfold onPara at this
      rw [h0, h1] at this
      linear_combination this) h.2
  obtain ⟨a, b, c⟩ := r
  simp only at e1 e2 e3
  simp [relativeTo, e1, e2, e3]

/-- **C73** (exact patterns): when the dots of every line are on a parabola of the image, every regenerated point for
which the solver found a root is on these two parabolas, whatever centre is used. -/
theorem C73_on_curves (pf : PolyfitFn) (hpf : PolyfitSpec pf) (fsolve : (ℝ × ℝ → ℝ × ℝ) → ℝ × ℝ → ℝ × ℝ)
    (hor ver : List (List Pt)) (qh qv : List Para) (hh : List.Forall₂ (IsCurve Pt.x Pt.y) hor qh)
    (hv : List.Forall₂ (IsCurve Pt.y Pt.x) ver qv) (findCenter : Bool) (c : Pt) (hc : GridCentre pf hor ver findCenter c) :
    ∃ rows cols, regenerateGridParabola pf fsolve hor ver false findCenter = .ok (rows, cols) ∧
      IsGridPair hor.length ver.length rows cols ∧
      ∀ (i j : ℕ) (h v : Para), qh[i]? = some h → qv[j]? = some v → ∃ p, entry rows i j = some p ∧
        (FoundRoot fsolve (paraEquations h.a (2 * h.a * c.x + h.b) (h.a * c.x ^ 2 + h.b * c.x + h.c - c.y)
            v.a (2 * v.a * c.y + v.b) (v.a * c.y ^ 2 + v.b * c.y + v.c - c.x)) →
          onPara Pt.x Pt.y ⟨0, 0⟩ h.a h.b h.c p ∧ onPara Pt.y Pt.x ⟨0, 0⟩ v.a v.b v.c p) := by
  have nh : ∀ l ∈ hor, l ≠ [] := fun l hl => by
    obtain ⟨q, _, h⟩ := forall₂_left hh hl
    exact isCurve_ne_nil h
  have nv : ∀ l ∈ ver, l ≠ [] := fun l hl => by
    obtain ⟨q, _, h⟩ := forall₂_left hv hl
    exact isCurve_ne_nil h
  obtain ⟨ch, cv, rows, cols, fh, fv, e, hg, hp⟩ := C73_grid pf hpf fsolve hor ver nh nv findCenter c hc
  refine ⟨rows, cols, e, hg, ?_⟩
  intro i j h v hi hj
  obtain ⟨h', hi', r1⟩ := forall₂_get_fit hh fh hi
  obtain ⟨v', hj', r2⟩ := forall₂_get_fit hv fv hj
  obtain ⟨l1, c1, f1⟩ := r1
  obtain ⟨l2, c2, f2⟩ := r2
  have e1 := isCurve_fit c1 rfl rfl f1
  have e2 := isCurve_fit c2 rfl rfl f2
  obtain ⟨p, hp1, hp2⟩ := hp i j h' v' hi' hj'
  refine ⟨p, hp1, fun hr => ?_⟩
  subst e1 e2
  obtain ⟨x1, x2⟩ := hp2 hr
  unfold onPara relativeTo at *
  simp only at *
  constructor
  · linear_combination x1
  · linear_combination x2

theorem slope_unique {h v : Para} (ha : h.a = 0) (va : v.a = 0) (hp : h.b * v.b ≠ 1) {p : Pt}
    (h1 : onPara Pt.x Pt.y ⟨0, 0⟩ h.a h.b h.c p) (h2 : onPara Pt.y Pt.x ⟨0, 0⟩ v.a v.b v.c p) :
    p = crossPt ⟨h.b, h.c⟩ ⟨v.b, v.c⟩ := by
  have hc := crossPt_on (h := ⟨h.b, h.c⟩) (v := ⟨v.b, v.c⟩) hp
  refine cross_unique (a := h.b) (b := h.c) (a' := v.b) (b' := v.c) hp ?_ ?_ hc.1 hc.2
  · unfold onPara at h1; unfold onHorLine; rw [ha] at h1; simp only at h1; linear_combination h1
  · unfold onPara at h2; unfold onVerLine; rw [va] at h2; simp only at h2; linear_combination h2

/-- **C73** (straight lines): on straight lines the result is that of `regenerate_grid_points_linear`, if the solver
always finds the crossing. -/
theorem C73_straight (pf : PolyfitFn) (hpf : PolyfitSpec pf) (fsolve : (ℝ × ℝ → ℝ × ℝ) → ℝ × ℝ → ℝ × ℝ)
    (hor ver : List (List Pt)) (qh qv : List Para) (hh : List.Forall₂ (IsCurve Pt.x Pt.y) hor qh)
    (hv : List.Forall₂ (IsCurve Pt.y Pt.x) ver qv) (sh : ∀ q ∈ qh, q.a = 0) (sv : ∀ q ∈ qv, q.a = 0)
    (hpar : ∀ h ∈ qh, ∀ v ∈ qv, h.b * v.b ≠ 1)
    (hr : ∀ h ∈ qh, ∀ v ∈ qv, FoundRoot fsolve (paraEquations 0 h.b h.c 0 v.b v.c)) :
    regenerateGridParabola pf fsolve hor ver false false = regenerateGridLinear pf hor ver := by
  have nh : ∀ l ∈ hor, l ≠ [] := fun l hl => by
    obtain ⟨q, _, h⟩ := forall₂_left hh hl
    exact isCurve_ne_nil h
  have nv : ∀ l ∈ ver, l ≠ [] := fun l hl => by
    obtain ⟨q, _, h⟩ := forall₂_left hv hl
    exact isCurve_ne_nil h
  obtain ⟨ch, eh, fh⟩ := paraFitHor_ok hpf nh 0 0
  obtain ⟨cv, ev, fv⟩ := paraFitVer_ok hpf nv 0 0
  have key : ∀ {along across : Pt → ℝ} {ls : List (List Pt)} {qs fs : List Para},
      along ⟨0, 0⟩ = 0 → across ⟨0, 0⟩ = 0 → List.Forall₂ (IsCurve along across) ls qs →
      List.Forall₂ (fun l q => IsLsqPara along across 0 0 l q.a q.b q.c) ls fs → fs = qs := by
    intro along across ls qs fs h0 h1 hq
    induction hq generalizing fs with
    | nil => intro h; cases h; rfl
    | cons hc _ ih =>
      intro h
      cases h with
      | cons hf hfs =>
        rw [ih hfs, isCurve_fit hc h0 h1 hf]
        simp [relativeTo]
  have e1 := key rfl rfl hh fh
  have e2 := key rfl rfl hv fv
  subst e1 e2
  obtain ⟨lh, lv, el, gh, gv⟩ := generateLinearCoef_ok hpf nh nv
  have lin : ∀ {along across : Pt → ℝ} {ls : List (List Pt)} {qs : List Para} {gs : List Lin}
      {lsq : List Pt → ℝ → ℝ → Prop},
      along ⟨0, 0⟩ = 0 → across ⟨0, 0⟩ = 0 →
      (∀ l a b a0 b0, lsq l a b → (∀ p ∈ l, across p = a0 * along p + b0) → ∀ p ∈ l, across p = a * along p + b) →
      List.Forall₂ (IsCurve along across) ls qs → (∀ q ∈ qs, q.a = 0) →
      List.Forall₂ (fun l q => lsq l q.a q.b) ls gs → gs = qs.map fun q => ⟨q.b, q.c⟩ := by
    intro along across ls qs gs lsq h0 h1 hex hq
    induction hq generalizing gs with
    | nil => intro _ h; cases h; rfl
    | @cons l q ls qs hc _ ih =>
      intro hs h
      cases h with
      | @cons _ g _ gs hf hfs =>
        rw [ih (fun q hq => hs q (by simp [hq])) hfs]
        simp only [List.map_cons, List.cons.injEq, and_true]
        have on : ∀ p ∈ l, across p = q.b * along p + q.c := by
          intro p hp
          have := hc.1 p hp
          unfold onPara at this
          rw [h0, h1, hs q (by simp)] at this
          linarith
        have on' := hex l _ _ _ _ hf on
        obtain ⟨_, p, hp, r, hr, _, _, hpr, _⟩ := hc
        have x1 := on p hp
        have x2 := on r hr
        have y1 := on' p hp
        have y2 := on' r hr
        have : (along p - along r) * (g.a - q.b) = 0 := by linear_combination x1 - x2 - y1 + y2
        have ga : g.a = q.b := by
          have := (mul_eq_zero.1 this).resolve_left (sub_ne_zero.2 hpr)
          linarith
        have gb : g.b = q.c := by rw [ga] at y1; linarith
        obtain ⟨a, b⟩ := g
        simp only at ga gb
        rw [ga, gb]
  have l1 := lin (along := Pt.x) (across := Pt.y) rfl rfl (fun l a b a0 b0 h1 h2 => lsqHor_exact h1 h2) hh sh gh
  have l2 := lin (along := Pt.y) (across := Pt.x) rfl rfl (fun l a b a0 b0 h1 h2 => lsqVer_exact h1 h2) hv sv gv
  subst l1 l2
  have left : regenerateGridParabola pf fsolve hor ver false false =
      .ok (ch.map fun h => cv.map fun v => paraGridPoint fsolve ⟨0, 0⟩ h v,
        cv.map fun v => ch.map fun h => paraGridPoint fsolve ⟨0, 0⟩ h v) := by
    unfold regenerateGridParabola paraGridCoefs paraGridCentre
    simp only [Bool.false_eq_true, if_false, ok_bind, eh, ev]
  have hpt : ∀ h ∈ ch, ∀ v ∈ cv, paraGridPoint fsolve ⟨0, 0⟩ h v = crossPt ⟨h.b, h.c⟩ ⟨v.b, v.c⟩ := by
    intro h hm v vm
    have := hr h hm v vm
    rw [show paraEquations 0 h.b h.c 0 v.b v.c = paraEquations h.a h.b h.c v.a v.b v.c by rw [sh h hm, sv v vm]] at this
    obtain ⟨h1, h2⟩ := paraGridPoint_on (c := ⟨0, 0⟩) this
    exact slope_unique (sh h hm) (sv v vm) (hpar h hm v vm) h1 h2
  rw [left]
  unfold regenerateGridLinear
  rw [el, ok_bind]
  simp only
  rw [gridPoints_eq (by
    intro h hm v vm
    obtain ⟨h', hm', rfl⟩ := List.mem_map.1 hm
    obtain ⟨v', vm', rfl⟩ := List.mem_map.1 vm
    exact hpar h' hm' v' vm')]
  simp only [List.map_map, Function.comp_def]
  congr 2
  · exact List.map_congr_left fun h hm => List.map_congr_left fun v vm => hpt h hm v vm
  · exact List.map_congr_left fun v vm => List.map_congr_left fun h hm => hpt h hm v vm

/-- **C73** (errors): a line without dots raises `IndexError`. -/
theorem C73_empty_line (pf : PolyfitFn) (fsolve : (ℝ × ℝ → ℝ × ℝ) → ℝ × ℝ → ℝ × ℝ) (hor ver : List (List Pt)) :
    regenerateGridParabola pf fsolve ([] :: hor) ver false false = .error .indexError := by
  unfold regenerateGridParabola paraGridCoefs paraGridCentre paraFitHor
  simp only [Bool.false_eq_true, if_false, ok_bind, List.mapM_cons, paraHor, if_true]
  rfl

/-! ## With perspective correction -/

/-- The intercepts of the lines from `n` lines before the line after the change of curvature at `k` to `n` lines after. -/
def centralIntercepts (coefs : List Para) (k n : ℕ) : List ℝ := ((coefs.take (k + 1 + n + 1)).drop (k + 1 - n)).map Para.c

theorem centralDist_ok {coefs : List Para} {k n : ℕ} (hk : signChange coefs = .ok (k + 1)) (hk' : k + 1 < coefs.length)
    (hn : 1 ≤ n) : centralDist coefs n = .ok (meanSpacing (centralIntercepts coefs k n)) ∧
      2 ≤ (centralIntercepts coefs k n).length := by
  have hw : (npSlice coefs (window (k + 1) coefs.length n).1 (window (k + 1) coefs.length n).2) =
      (coefs.take (k + 1 + n + 1)).drop (k + 1 - n) := by
    unfold npSlice window
    simp only
    have e1 : (max (0 : ℤ) (((k + 1 : ℕ) : ℤ) - (n : ℤ))).toNat = k + 1 - n := by omega
    have e2 : (min (coefs.length : ℤ) (((k + 1 : ℕ) : ℤ) + (n : ℤ) + 1)).toNat = min coefs.length (k + 1 + n + 1) := by omega
    rw [e1, e2, List.take_eq_take_min (i := k + 1 + n + 1), min_comm]
  have hl : 2 ≤ (centralIntercepts coefs k n).length := by
    unfold centralIntercepts
    simp
    omega
  refine ⟨?_, hl⟩
  unfold centralDist
  rw [hk, ok_bind]
  simp only
  rw [hw]
  exact npMean_spacing hl

theorem signChange_setB (coefs : List Para) (b : ℝ) :
    signChange (coefs.map fun q => (⟨q.a, b, q.c⟩ : Para)) = signChange coefs := by
  unfold signChange
  rw [List.map_map]
  rfl

theorem centralIntercepts_setB (coefs : List Para) (b : ℝ) (k n : ℕ) :
    centralIntercepts (coefs.map fun q => (⟨q.a, b, q.c⟩ : Para)) k n = centralIntercepts coefs k n := by
  unfold centralIntercepts
  rw [← List.map_take, ← List.map_drop, List.map_map]
  rfl

theorem centralIntercepts_nodup {coefs : List Para} (h : (coefs.map Para.c).Nodup) (k n : ℕ) :
    (centralIntercepts coefs k n).Nodup := by
  unfold centralIntercepts
  rw [List.map_drop, List.map_take]
  exact h.sublist ((List.drop_sublist _ _).trans (List.take_sublist _ _))

theorem paraSlope_ok {pf : PolyfitFn} (hpf : PolyfitSpec pf) {ch cv : List Para} (hh : ch ≠ []) (hv : cv ≠ []) :
    ∃ b0, paraSlope pf ch cv = .ok b0 := by
  unfold paraSlope
  rw [if_neg (by simp [hh, hv])]
  obtain ⟨x, y, e1⟩ := length_two (hpf.length (ch.map Para.c) (ch.map Para.b) 1 (by simp) (by simpa using hh))
  obtain ⟨x', y', e2⟩ := length_two (hpf.length (cv.map Para.c) (cv.map fun q => -q.b) 1 (by simp) (by simpa using hv))
  rw [e1, e2]
  simp only [Lin.ofList, ok_bind]
  split <;> exact ⟨_, rfl⟩

theorem paraSlope_const {pf : PolyfitFn} (hpf : PolyfitSpec pf) {ch cv : List Para} {s : ℝ} (hh : ∀ q ∈ ch, q.b = s)
    (hv : ∀ q ∈ cv, q.b = -s) (h2 : ∃ x ∈ ch, ∃ y ∈ ch, x.c ≠ y.c) (v2 : ∃ x ∈ cv, ∃ y ∈ cv, x.c ≠ y.c) :
    paraSlope pf ch cv = .ok s := by
  have nh : ch ≠ [] := by obtain ⟨x, hx, _⟩ := h2; exact List.ne_nil_of_mem hx
  have nv : cv ≠ [] := by obtain ⟨x, hx, _⟩ := v2; exact List.ne_nil_of_mem hx
  unfold paraSlope
  rw [if_neg (by simp [nh, nv]), hpf.lin_exact (a := 0) (b := s) (fun q hq => by rw [hh q hq]; ring) h2,
    hpf.lin_exact (a := 0) (b := s) (fun q hq => by rw [hv q hq]; ring) v2]
  simp only [ok_bind]
  rw [if_neg (by norm_num)]
  congr 1
  ring

theorem paraSlope_lines {pf : PolyfitFn} (hpf : PolyfitSpec pf) {ch cv : List Para} {a1 e1 a2 e2 b0 : ℝ} (hh : ∀ q ∈ ch, q.b = a1 * q.c + e1)
    (hv : ∀ q ∈ cv, -q.b = a2 * q.c + e2) (h2 : ∃ x ∈ ch, ∃ y ∈ ch, x.c ≠ y.c) (v2 : ∃ x ∈ cv, ∃ y ∈ cv, x.c ≠ y.c)
    (h : paraSlope pf ch cv = .ok b0) :
    (0.001 ≤ |a1 - a2| → ∃ t, b0 = a1 * t + e1 ∧ b0 = a2 * t + e2) ∧ (|a1 - a2| < 0.001 → b0 = (e1 + e2) / 2) := by
  have nh : ch ≠ [] := by obtain ⟨x, hx, _⟩ := h2; exact List.ne_nil_of_mem hx
  have nv : cv ≠ [] := by obtain ⟨x, hx, _⟩ := v2; exact List.ne_nil_of_mem hx
  unfold paraSlope at h
  rw [if_neg (by simp [nh, nv]), hpf.lin_exact (a := a1) (b := e1) (fun q hq => by rw [hh q hq]) h2,
    hpf.lin_exact (a := a2) (b := e2) (fun q hq => by rw [hv q hq]) v2] at h
  simp only [ok_bind] at h
  constructor
  · intro ha
    rw [if_pos ha] at h
    have hne : a1 - a2 ≠ 0 := by
      intro h0; rw [h0, abs_zero] at ha; norm_num at ha
    refine ⟨(e2 - e1) / (a1 - a2), ?_, ?_⟩ <;> rw [← Except.ok.inj h] <;> field_simp <;> ring
  · intro ha
    rw [if_neg (not_le.2 ha)] at h
    rw [← Except.ok.inj h]
    ring

/-- **C74** With perspective correction and at least four lines per direction, the grid is the one of corrected parabolas:
all horizontal ones have the same slope `b0` and all vertical ones `-b0` at the centre (perpendicular), each direction is
scaled by one factor that keeps the ratio of curvature and distance, no direction shrinks and one keeps its size, and the mean
line spacings around the centre become equal. If the fitted slopes are already `s` and `-s`, then `b0 = s`; if the
slopes change linearly with the intercepts, `b0` is the value that both directions have in common (the mean of the values at intercept
zero if the changes are almost equal). -/
theorem C74_corrected (pf : PolyfitFn) (hpf : PolyfitSpec pf) (fsolve : (ℝ × ℝ → ℝ × ℝ) → ℝ × ℝ → ℝ × ℝ)
    (hor ver : List (List Pt)) (hh : ∀ l ∈ hor, l ≠ []) (hv : ∀ l ∈ ver, l ≠ []) (h4 : 4 ≤ hor.length)
    (v4 : 4 ≤ ver.length) (findCenter : Bool) (c : Pt) (hc : findCodBailey pf hor ver 2 = .ok c)
    (dh : ∀ ch, List.Forall₂ (fun l (q : Para) => IsLsqPara Pt.x Pt.y c.x c.y l q.a q.b q.c) hor ch → (ch.map Para.c).Nodup)
    (dv : ∀ cv, List.Forall₂ (fun l (q : Para) => IsLsqPara Pt.y Pt.x c.y c.x l q.a q.b q.c) ver cv → (cv.map Para.c).Nodup) :
    ∃ (ch cv : List Para) (b0 fh fv : ℝ) (k m : ℕ) (rows cols : List (List Pt)),
      List.Forall₂ (fun l q => IsLsqPara Pt.x Pt.y c.x c.y l q.a q.b q.c) hor ch ∧
      List.Forall₂ (fun l q => IsLsqPara Pt.y Pt.x c.y c.x l q.a q.b q.c) ver cv ∧
      1 ≤ fh ∧ 1 ≤ fv ∧ (fh = 1 ∨ fv = 1) ∧ IsSignChange ch k ∧ IsSignChange cv m ∧
      fh * meanSpacing (centralIntercepts ch k (min 3 (min (hor.length / 2 - 1) (ver.length / 2 - 1)))) =
        fv * meanSpacing (centralIntercepts cv m (min 3 (min (hor.length / 2 - 1) (ver.length / 2 - 1)))) ∧
      (∀ s, (∀ q ∈ ch, q.b = s) → (∀ q ∈ cv, q.b = -s) → b0 = s) ∧
      (∀ a1 e1 a2 e2 : ℝ, (∀ q ∈ ch, q.b = a1 * q.c + e1) → (∀ q ∈ cv, -q.b = a2 * q.c + e2) →
        (0.001 ≤ |a1 - a2| → ∃ t, b0 = a1 * t + e1 ∧ b0 = a2 * t + e2) ∧ (|a1 - a2| < 0.001 → b0 = (e1 + e2) / 2)) ∧
      regenerateGridParabola pf fsolve hor ver true findCenter = .ok (rows, cols) ∧
      IsGridPair hor.length ver.length rows cols ∧
      ∀ (i j : ℕ) (h v : Para), ch[i]? = some h → cv[j]? = some v → ∃ p, entry rows i j = some p ∧
        (FoundRoot fsolve (paraEquations (fh * h.a) b0 (fh * h.c) (fv * v.a) (-b0) (fv * v.c)) →
          onPara Pt.x Pt.y c (fh * h.a) b0 (fh * h.c) p ∧ onPara Pt.y Pt.x c (fv * v.a) (-b0) (fv * v.c) p) := by
  obtain ⟨ch, eh, gh⟩ := paraFitHor_ok hpf hh c.x c.y
  obtain ⟨cv, ev, gv⟩ := paraFitVer_ok hpf hv c.x c.y
  have lh := gh.length_eq
  have lv := gv.length_eq
  have nh : ch ≠ [] := by intro h; rw [h] at lh; simp only [List.length_nil] at lh; omega
  have nv : cv ≠ [] := by intro h; rw [h] at lv; simp only [List.length_nil] at lv; omega
  have two : ∀ l : List Para, 4 ≤ l.length → (l.map Para.c).Nodup → ∃ x ∈ l, ∃ y ∈ l, x.c ≠ y.c := by
    intro l hl hn
    refine ⟨l[0], by simp, l[1], by simp, fun e => ?_⟩
    have := (hn.getElem_inj_iff (i := 0) (j := 1) (hi := by simp; omega) (hj := by simp; omega)).1 (by simpa using e)
    omega
  obtain ⟨b0, eb⟩ := paraSlope_ok hpf nh nv
  have hb : ∀ s, (∀ q ∈ ch, q.b = s) → (∀ q ∈ cv, q.b = -s) → b0 = s := by
    intro s h1 h2
    have := paraSlope_const hpf h1 h2 (two ch (by omega) (dh ch gh)) (two cv (by omega) (dv cv gv))
    rw [eb] at this
    exact Except.ok.inj this
  have hb2 : ∀ a1 e1 a2 e2 : ℝ, (∀ q ∈ ch, q.b = a1 * q.c + e1) → (∀ q ∈ cv, -q.b = a2 * q.c + e2) →
      (0.001 ≤ |a1 - a2| → ∃ t, b0 = a1 * t + e1 ∧ b0 = a2 * t + e2) ∧ (|a1 - a2| < 0.001 → b0 = (e1 + e2) / 2) :=
    fun a1 e1 a2 e2 h1 h2 => paraSlope_lines hpf h1 h2 (two ch (by omega) (dh ch gh)) (two cv (by omega) (dv cv gv)) eb
  obtain ⟨k, ek, hk, sk⟩ := signChange_ok (coefs := ch) (by omega)
  obtain ⟨m, em, hm, sm⟩ := signChange_ok (coefs := cv) (by omega)
  set n := min 3 (min (hor.length / 2 - 1) (ver.length / 2 - 1)) with hn
  have n1 : 1 ≤ n := by omega
  have en : (min 3 (min (((hor.length / 2 : ℕ) : ℤ) - 1) (((ver.length / 2 : ℕ) : ℤ) - 1)) : ℤ) = (n : ℤ) := by omega
  obtain ⟨ckh, lkh⟩ := centralDist_ok (coefs := ch.map fun q => (⟨q.a, b0, q.c⟩ : Para)) (k := k) (n := n)
    (by rw [signChange_setB]; exact ek) (by simpa using hk) n1
  obtain ⟨ckv, lkv⟩ := centralDist_ok (coefs := cv.map fun q => (⟨q.a, -b0, q.c⟩ : Para)) (k := m) (n := n)
    (by rw [signChange_setB]; exact em) (by simpa using hm) n1
  rw [centralIntercepts_setB] at ckh ckv lkh lkv
  have ph := meanSpacing_pos lkh (centralIntercepts_nodup (dh ch gh) k n)
  have pv := meanSpacing_pos lkv (centralIntercepts_nodup (dv cv gv) m n)
  set sh := meanSpacing (centralIntercepts ch k n) with hsh
  set sv := meanSpacing (centralIntercepts cv m n) with hsv
  have fin : ∀ fh fv : ℝ, 1 ≤ fh → 1 ≤ fv → (fh = 1 ∨ fv = 1) → fh * sh = fv * sv →
      balancePara (ch.map fun q => (⟨q.a, b0, q.c⟩ : Para)) (cv.map fun q => (⟨q.a, -b0, q.c⟩ : Para)) sh sv =
        .ok (ch.map fun q => ⟨fh * q.a, b0, fh * q.c⟩, cv.map fun q => ⟨fv * q.a, -b0, fv * q.c⟩) →
      ∃ (ch cv : List Para) (b0 fh fv : ℝ) (k m : ℕ) (rows cols : List (List Pt)),
        List.Forall₂ (fun l q => IsLsqPara Pt.x Pt.y c.x c.y l q.a q.b q.c) hor ch ∧
        List.Forall₂ (fun l q => IsLsqPara Pt.y Pt.x c.y c.x l q.a q.b q.c) ver cv ∧
        1 ≤ fh ∧ 1 ≤ fv ∧ (fh = 1 ∨ fv = 1) ∧ IsSignChange ch k ∧ IsSignChange cv m ∧
        fh * meanSpacing (centralIntercepts ch k n) = fv * meanSpacing (centralIntercepts cv m n) ∧
        (∀ s, (∀ q ∈ ch, q.b = s) → (∀ q ∈ cv, q.b = -s) → b0 = s) ∧
        (∀ a1 e1 a2 e2 : ℝ, (∀ q ∈ ch, q.b = a1 * q.c + e1) → (∀ q ∈ cv, -q.b = a2 * q.c + e2) →
          (0.001 ≤ |a1 - a2| → ∃ t, b0 = a1 * t + e1 ∧ b0 = a2 * t + e2) ∧ (|a1 - a2| < 0.001 → b0 = (e1 + e2) / 2)) ∧
        regenerateGridParabola pf fsolve hor ver true findCenter = .ok (rows, cols) ∧
        IsGridPair hor.length ver.length rows cols ∧
        ∀ (i j : ℕ) (h v : Para), ch[i]? = some h → cv[j]? = some v → ∃ p, entry rows i j = some p ∧
          (FoundRoot fsolve (paraEquations (fh * h.a) b0 (fh * h.c) (fv * v.a) (-b0) (fv * v.c)) →
            onPara Pt.x Pt.y c (fh * h.a) b0 (fh * h.c) p ∧ onPara Pt.y Pt.x c (fv * v.a) (-b0) (fv * v.c) p) := by
    intro fh fv h1 h2 h3 h4' hbal
    have hcoef : nonPerspectiveParaCoef pf hor ver = .ok (ch.map fun q => (⟨fh * q.a, b0, fh * q.c⟩ : Para),
        cv.map fun q => (⟨fv * q.a, -b0, fv * q.c⟩ : Para), c) := by
      unfold nonPerspectiveParaCoef
      simp only [hc, ok_bind, eh, ev, eb, en, ckh, ckv, hbal]
    refine ⟨ch, cv, b0, fh, fv, k, m, (ch.map fun q => (⟨fh * q.a, b0, fh * q.c⟩ : Para)).map fun h =>
        (cv.map fun q => (⟨fv * q.a, -b0, fv * q.c⟩ : Para)).map fun v => paraGridPoint fsolve c h v,
      (cv.map fun q => (⟨fv * q.a, -b0, fv * q.c⟩ : Para)).map fun v =>
        (ch.map fun q => (⟨fh * q.a, b0, fh * q.c⟩ : Para)).map fun h => paraGridPoint fsolve c h v,
      gh, gv, h1, h2, h3, sk, sm, h4', hb, hb2, ?_, ?_, ?_⟩
    · unfold regenerateGridParabola paraGridCoefs
      rw [if_pos rfl, hcoef]
      rfl
    · have := isGridPair_mapPara (ch.map fun q => (⟨fh * q.a, b0, fh * q.c⟩ : Para))
        (cv.map fun q => (⟨fv * q.a, -b0, fv * q.c⟩ : Para)) (paraGridPoint fsolve c)
      simpa [lh, lv] using this
    · intro i j h v hi hj
      refine ⟨paraGridPoint fsolve c ⟨fh * h.a, b0, fh * h.c⟩ ⟨fv * v.a, -b0, fv * v.c⟩, ?_, fun hr => ?_⟩
      · rw [entry_map, List.getElem?_map, List.getElem?_map, hi, hj]; rfl
      · exact paraGridPoint_on (h := ⟨fh * h.a, b0, fh * h.c⟩) (v := ⟨fv * v.a, -b0, fv * v.c⟩) hr
  by_cases hlt : sh > sv
  · apply fin 1 (sh / sv) le_rfl ((one_le_div pv).2 hlt.le) (.inl rfl)
    · field_simp
    · unfold balancePara
      rw [if_pos hlt, rescalePara_ok pv.ne', ok_bind, List.map_map]
      congr 2
      · exact List.map_congr_left fun q _ => by simp
      · refine List.map_congr_left fun q _ => ?_
        simp only [Function.comp_apply, Para.mk.injEq, true_and]
        exact ⟨by ring, by ring⟩
  · push Not at hlt
    apply fin (sv / sh) 1 ((one_le_div ph).2 hlt) le_rfl (.inr rfl)
    · field_simp
    · unfold balancePara
      rw [if_neg (not_lt.2 hlt), rescalePara_ok ph.ne', ok_bind, List.map_map]
      congr 2
      · refine List.map_congr_left fun q _ => ?_
        simp only [Function.comp_apply, Para.mk.injEq, true_and]
        exact ⟨by ring, by ring⟩
      · exact List.map_congr_left fun q _ => by simp

theorem centralDist_zero {coefs : List Para} (h2 : 2 ≤ coefs.length) : centralDist coefs 0 = .error .nonFinite := by
  obtain ⟨k, ek, hk, _⟩ := signChange_ok h2
  unfold centralDist
  rw [ek, ok_bind]
  simp only
  have : (npDiff ((npSlice coefs (window (k + 1) coefs.length 0).1 (window (k + 1) coefs.length 0).2).map Para.c)) = [] := by
    rw [← List.length_eq_zero_iff, npDiff_length, List.length_map, npSlice_length]
    unfold window
    simp only
    omega
  rw [this]
  rfl

/-- **C74** (too few lines): with two or three lines in a direction, the mean spacing around the centre is the mean of
nothing: no grid is returned. -/
theorem C74_few (pf : PolyfitFn) (hpf : PolyfitSpec pf) (fsolve : (ℝ × ℝ → ℝ × ℝ) → ℝ × ℝ → ℝ × ℝ)
    (hor ver : List (List Pt)) (hh : ∀ l ∈ hor, l ≠ []) (hv : ∀ l ∈ ver, l ≠ []) (h2 : 2 ≤ hor.length)
    (v2 : 2 ≤ ver.length) (hf : hor.length < 4 ∨ ver.length < 4) (findCenter : Bool) (c : Pt)
    (hc : findCodBailey pf hor ver 2 = .ok c) :
    regenerateGridParabola pf fsolve hor ver true findCenter = .error .nonFinite := by
  obtain ⟨ch, eh, gh⟩ := paraFitHor_ok hpf hh c.x c.y
  obtain ⟨cv, ev, gv⟩ := paraFitVer_ok hpf hv c.x c.y
  have lh := gh.length_eq
  have lv := gv.length_eq
  have nh : ch ≠ [] := by intro h; rw [h] at lh; simp only [List.length_nil] at lh; omega
  have nv : cv ≠ [] := by intro h; rw [h] at lv; simp only [List.length_nil] at lv; omega
  obtain ⟨b0, eb⟩ := paraSlope_ok hpf nh nv
  have en : (min 3 (min (((hor.length / 2 : ℕ) : ℤ) - 1) (((ver.length / 2 : ℕ) : ℤ) - 1)) : ℤ) = 0 := by omega
  unfold regenerateGridParabola paraGridCoefs nonPerspectiveParaCoef
  simp only [if_true, hc, ok_bind, eh, ev, eb, en]
  rw [centralDist_zero (by simp; omega)]
  rfl

theorem meanSpacing_arith {l : List ℝ} {c0 δ : ℝ} (h : IsArith l c0 δ) (h2 : 2 ≤ l.length) : meanSpacing l = |δ| := by
  unfold meanSpacing
  have : ((List.range (l.length - 1)).map fun i : ℕ => |l.getD (i + 1) 0 - l.getD i 0|) =
      List.replicate (l.length - 1) |δ| := by
    rw [List.eq_replicate_iff]
    refine ⟨by simp, fun x hx => ?_⟩
    obtain ⟨i, hi, rfl⟩ := List.mem_map.1 hx
    rw [List.mem_range] at hi
    rw [List.getD_eq_getElem?_getD, List.getD_eq_getElem?_getD, List.getElem?_eq_getElem (by omega),
      List.getElem?_eq_getElem (by omega)]
    simp only [Option.getD_some]
    rw [h (i + 1) _ (List.getElem?_eq_getElem (by omega)), h i _ (List.getElem?_eq_getElem (by omega))]
    congr 1
    push_cast
    ring
  rw [this, List.sum_replicate, nsmul_eq_mul, mul_comm, mul_div_cancel_right₀]
  exact_mod_cast (show l.length - 1 ≠ 0 by omega)

theorem central_arith {l : List Para} {c0 δ : ℝ} (h : IsArith (l.map Para.c) c0 δ) (k n : ℕ) :
    IsArith (centralIntercepts l k n) (c0 + (k + 1 - n : ℕ) * δ) δ := by
  intro i v hv
  unfold centralIntercepts at hv
  rw [List.map_drop, List.map_take] at hv
  have := npSlice_getElem? (l := l.map Para.c) (a := k + 1 - n) (b := k + 1 + n + 1) hv
  rw [h _ _ this]
  push_cast
  ring

/-- **C74** (fixed point): on an ideal pattern without perspective — lines bent in proportion to their distance from the
centre, equally spaced with the same spacing in both directions — the perspective correction changes nothing. -/
theorem C74_fixed (pf : PolyfitFn) (hpf : PolyfitSpec pf) (fsolve : (ℝ × ℝ → ℝ × ℝ) → ℝ × ℝ → ℝ × ℝ)
    (c : Pt) (kh kv : ℝ) (us vs : List ℝ) (hor ver : List (List Pt)) (h : IsBentPattern c kh kv us vs hor ver)
    (u0 v0 δ ε : ℝ) (hu : IsArith us u0 δ) (hv : IsArith vs v0 ε) (hδ : δ ≠ 0) (he : |δ| = |ε|) (h4 : 4 ≤ us.length)
    (v4 : 4 ≤ vs.length) (hc : findCodBailey pf hor ver 2 = .ok c) (findCenter : Bool) :
    regenerateGridParabola pf fsolve hor ver true findCenter = regenerateGridParabola pf fsolve hor ver false true := by
  have two : ∀ (l : List ℝ) (k c0 d : ℝ), d ≠ 0 → IsArith l c0 d → 4 ≤ l.length →
      ∃ x ∈ l.map (bentPara k 0 0), ∃ y ∈ l.map (bentPara k 0 0), x.c ≠ y.c := by
    intro l k c0 d hd ha hl
    refine ⟨_, List.mem_map_of_mem (List.getElem_mem (n := 0) (by omega)), _,
      List.mem_map_of_mem (List.getElem_mem (n := 1) (by omega)), ?_⟩
    simp only [bentPara]
    rw [ha 0 _ (List.getElem?_eq_getElem (by omega)), ha 1 _ (List.getElem?_eq_getElem (by omega))]
    intro h
    apply hd
    push_cast at h
    linarith
  have hε : ε ≠ 0 := by rwa [ne_eq, ← abs_eq_zero, ← he, abs_eq_zero]
  have lh := h.hor.length_eq
  have lv := h.ver.length_eq
  have eh := bent_fitHor hpf h.hor c.x c.y
  have ev := bent_fitVer hpf h.ver c.x c.y
  rw [sub_self, sub_self] at eh ev
  have eb : paraSlope pf (us.map (bentPara kh 0 0)) (vs.map (bentPara kv 0 0)) = .ok 0 :=
    paraSlope_const hpf (by simp [bentPara]) (by simp [bentPara]) (two us kh u0 δ hδ hu h4) (two vs kv v0 ε hε hv v4)
  have z : ∀ (l : List ℝ) (k b : ℝ), b = 0 → (l.map (bentPara k 0 0)).map (fun q => (⟨q.a, b, q.c⟩ : Para)) = l.map (bentPara k 0 0) := by
    rintro l k b rfl
    rw [List.map_map]
    exact List.map_congr_left fun u _ => by simp [bentPara]
  have ar : ∀ (l : List ℝ) (k c0 d : ℝ), IsArith l c0 d → IsArith ((l.map (bentPara k 0 0)).map Para.c) c0 d := by
    intro l k c0 d ha
    rw [List.map_map]
    convert ha
    convert List.map_id l using 2
    ext u
    simp [bentPara]
  set n := min 3 (min (hor.length / 2 - 1) (ver.length / 2 - 1)) with hn
  have n1 : 1 ≤ n := by omega
  have en : (min 3 (min (((hor.length / 2 : ℕ) : ℤ) - 1) (((ver.length / 2 : ℕ) : ℤ) - 1)) : ℤ) = (n : ℤ) := by omega
  obtain ⟨k, ek, hk, _⟩ := signChange_ok (coefs := us.map (bentPara kh 0 0)) (by simp; omega)
  obtain ⟨m, em, hm, _⟩ := signChange_ok (coefs := vs.map (bentPara kv 0 0)) (by simp; omega)
  obtain ⟨d1, l1⟩ := centralDist_ok ek hk n1
  obtain ⟨d2, l2⟩ := centralDist_ok em hm n1
  rw [meanSpacing_arith (central_arith (ar us kh u0 δ hu) k n) l1] at d1
  rw [meanSpacing_arith (central_arith (ar vs kv v0 ε hv) m n) l2, ← he] at d2
  have hbal : balancePara (us.map (bentPara kh 0 0)) (vs.map (bentPara kv 0 0)) |δ| |δ| =
      .ok (us.map (bentPara kh 0 0), vs.map (bentPara kv 0 0)) := by
    have hd : |δ| ≠ 0 := abs_ne_zero.2 hδ
    unfold balancePara
    rw [if_neg (lt_irrefl _), rescalePara_ok hd, ok_bind, List.map_map]
    congr 2
    exact List.map_congr_left fun u _ => by
      simp only [Function.comp_apply]
      rw [mul_div_cancel_right₀ _ hd, mul_div_cancel_right₀ _ hd]
  unfold regenerateGridParabola paraGridCoefs paraGridCentre nonPerspectiveParaCoef
  simp only [if_true, Bool.false_eq_true, if_false, hc, ok_bind, eh, ev, eb, en]
  rw [z us kh 0 rfl, z vs kv (-0) neg_zero]
  simp only [d1, d2, ok_bind, hbal]

/-! ## Non-vacuity -/

/-- A solver that finds a root if there is one. -/
noncomputable def refFsolve (f : ℝ × ℝ → ℝ × ℝ) (x0 : ℝ × ℝ) : ℝ × ℝ := by
  classical exact if h : ∃ z, f z = (0, 0) then h.choose else x0

theorem refFsolve_found {f : ℝ × ℝ → ℝ × ℝ} (h : ∃ z, f z = (0, 0)) : FoundRoot refFsolve f := by
  unfold FoundRoot refFsolve
  rw [dif_pos h]
  exact h.choose_spec

/-- A bent row and a straight column: the only grid point is on both. -/
example : ∃ rows cols p, regenerateGridParabola refPolyfit refFsolve [bentRow 1 2] [bentCol 1 0] false false = .ok (rows, cols) ∧
    entry rows 0 0 = some p ∧ p = ⟨5, 5⟩ := by
  have hh : List.Forall₂ (IsCurve Pt.x Pt.y) [bentRow 1 2] [⟨2, -20, 55⟩] := by
    refine .cons ⟨?_, ?_⟩ .nil
    · norm_num [bentRow, onPara]
    · exact (List.forall₂_cons.1 (bent_example 1 1 [2] [0]).hor).1.three
  have hv : List.Forall₂ (IsCurve Pt.y Pt.x) [bentCol 1 0] [⟨0, 0, 5⟩] := by
    refine .cons ⟨?_, ?_⟩ .nil
    · norm_num [bentCol, onPara]
    · exact (List.forall₂_cons.1 (bent_example 1 1 [2] [0]).ver).1.three
  obtain ⟨rows, cols, e, _, hp⟩ := C73_on_curves refPolyfit refPolyfit_spec refFsolve _ _ _ _ hh hv false ⟨0, 0⟩
    (by simp [GridCentre])
  obtain ⟨p, h1, h2⟩ := hp 0 0 ⟨2, -20, 55⟩ ⟨0, 0, 5⟩ rfl rfl
  refine ⟨rows, cols, p, e, h1, ?_⟩
  obtain ⟨h3, h4⟩ := h2 (refFsolve_found ⟨(5, 5), by norm_num [paraEquations]⟩)
  obtain ⟨y, x⟩ := p
  unfold onPara at h3 h4
  simp only at h3 h4
  have hx : x = 5 := by linarith
  subst hx
  norm_num at h3
  rw [h3]

theorem arith_example : IsArith [-3, -1, 1, 3] (-3) 2 := by
  intro i v hv
  match i with
  | 0 | 1 | 2 | 3 => simp at hv; subst hv; norm_num
  | n + 4 => simp at hv

theorem coarse_example : findCodCoarse refPolyfit ([-3, -1, 1, 3].map (bentRow 1)) ([-3, -1, 1, 3].map (bentCol 1)) = .ok ⟨3, 5⟩ := by
  have hb := bent_example 1 1 [-3, -1, 1, 3] [-3, -1, 1, 3]
  have sc : ∀ (d e : ℝ), signChange (([-3, -1, 1, 3] : List ℝ).map (bentPara 1 d e)) = .ok 2 := by
    intro d e
    have : (npDiff ((([-3, -1, 1, 3] : List ℝ).map (bentPara 1 d e)).map fun q => npSign q.a)).map (fun t => |t|) = [0, 2, 0] := by
      norm_num [npDiff, npSign, bentPara]
    unfold signChange
    rw [this]
    unfold npArgmax
    rw [if_neg (by simp)]
    norm_num [List.findIdx_cons]
  unfold findCodCoarse
  rw [bent_fitHor refPolyfit_spec hb.hor, bent_fitVer refPolyfit_spec hb.ver]
  simp only [ok_bind, sc]
  simp only [List.map_cons, List.map_nil, npGet, List.getElem?_cons_zero, List.getElem?_cons_succ, ok_bind, Nat.add_one_sub_one]
  norm_num [bentPara, finDiv]

/-- Four rows and four columns, bent by 1 and equally spaced: the hypotheses of the fixed-point theorem hold. -/
example (fsolve : (ℝ × ℝ → ℝ × ℝ) → ℝ × ℝ → ℝ × ℝ) :
    regenerateGridParabola refPolyfit fsolve ([-3, -1, 1, 3].map (bentRow 1)) ([-3, -1, 1, 3].map (bentCol 1)) true false =
      regenerateGridParabola refPolyfit fsolve ([-3, -1, 1, 3].map (bentRow 1)) ([-3, -1, 1, 3].map (bentCol 1)) false true :=
  C74_fixed _ refPolyfit_spec fsolve _ 1 1 _ _ _ _ (bent_example 1 1 [-3, -1, 1, 3] [-3, -1, 1, 3]) _ _ 2 2 arith_example
    arith_example two_ne_zero rfl (by simp) (by simp)
    (C72_pincushion _ refPolyfit_spec _ 1 1 _ _ _ _ (bent_example 1 1 [-3, -1, 1, 3] [-3, -1, 1, 3])
      ⟨-3, by simp, 1, by simp, by norm_num⟩ ⟨-3, by simp, 1, by simp, by norm_num⟩ one_pos one_pos _ coarse_example 2) false

/-- `C72_exact` for four lines per direction. -/
example : findCodBailey refPolyfit ([-3, -1, 1, 3].map (bentRow 1)) ([-3, -1, 1, 3].map (bentCol 1)) 2 = .ok ⟨3, 5⟩ :=
  C72_exact refPolyfit refPolyfit_spec ⟨3, 5⟩ 1 1 _ _ _ _ (bent_example 1 1 [-3, -1, 1, 3] [-3, -1, 1, 3]) ⟨-3, by simp, 1, by simp, by norm_num⟩
    ⟨-3, by simp, 1, by simp, by norm_num⟩ one_ne_zero one_ne_zero _ coarse_example (by norm_num) (by norm_num) 2

example (fsolve : (ℝ × ℝ → ℝ × ℝ) → ℝ × ℝ → ℝ × ℝ) := C73_grid refPolyfit refPolyfit_spec fsolve ([-3, -1, 1, 3].map (bentRow 1)) ([-3, -1, 1, 3].map (bentCol 1))
  (by simp [bentRow]) (by simp [bentCol]) false ⟨0, 0⟩ (by simp [GridCentre])

/-- Two straight rows and two straight columns about `(5, 3)`. -/
example : regenerateGridParabola refPolyfit refFsolve ([-1, 2].map (bentRow 0)) ([-1, 1].map (bentCol 0)) false false =
    regenerateGridLinear refPolyfit ([-1, 2].map (bentRow 0)) ([-1, 1].map (bentCol 0)) := by
  have hb := bent_example 0 0 [-1, 2] [-1, 1]
  have hh : List.Forall₂ (IsCurve Pt.x Pt.y) ([-1, 2].map (bentRow 0)) [⟨0, 0, 2⟩, ⟨0, 0, 5⟩] := by
    rcases hb.hor with _ | ⟨h1, _ | ⟨h2, _⟩⟩
    exact .cons ⟨by norm_num [bentRow, onPara], h1.three⟩ (.cons ⟨by norm_num [bentRow, onPara], h2.three⟩ .nil)
  have hv : List.Forall₂ (IsCurve Pt.y Pt.x) ([-1, 1].map (bentCol 0)) [⟨0, 0, 4⟩, ⟨0, 0, 6⟩] := by
    rcases hb.ver with _ | ⟨h1, _ | ⟨h2, _⟩⟩
    exact .cons ⟨by norm_num [bentCol, onPara], h1.three⟩ (.cons ⟨by norm_num [bentCol, onPara], h2.three⟩ .nil)
  refine C73_straight refPolyfit refPolyfit_spec refFsolve _ _ _ _ hh hv (by simp) (by simp) (by simp) ?_
  intro h hm v hw
  refine refFsolve_found ⟨(v.c, h.c), ?_⟩
  simp only [List.mem_cons, List.not_mem_nil, or_false] at hm hw
  rcases hm with rfl | rfl <;> rcases hw with rfl | rfl <;> norm_num [paraEquations]

theorem bent_nodup {along across : Pt → ℝ} {c : Pt} {k : ℝ} {us : List ℝ} {lines : List (List Pt)} {paras : List Para}
    (h : List.Forall₂ (IsBentLine along across c k) us lines)
    (hp : List.Forall₂ (fun l (q : Para) => IsLsqPara along across (along c) (across c) l q.a q.b q.c) lines paras) : paras.map Para.c = us := by
  induction h generalizing paras with
  | nil => cases hp; rfl
  | cons h _ ih =>
    cases hp with
    | cons h1 h2 =>
      rw [List.map_cons, ih h2]
      have := h.fit h1
      rw [sub_self, sub_self] at this
      have e := congrArg Para.c this
      simp only [bentPara, mul_zero, add_zero, zero_pow two_ne_zero] at e
      rw [e]
      simp

/-- Four bent rows and four bent columns have different intercepts about their centre. -/
example (fsolve : (ℝ × ℝ → ℝ × ℝ) → ℝ × ℝ → ℝ × ℝ) :=
  C74_corrected refPolyfit refPolyfit_spec fsolve ([-3, -1, 1, 3].map (bentRow 1)) ([-3, -1, 1, 3].map (bentCol 1)) (by simp [bentRow])
    (by simp [bentCol]) (by simp) (by simp) false ⟨3, 5⟩
    (C72_pincushion _ refPolyfit_spec _ 1 1 _ _ _ _ (bent_example 1 1 [-3, -1, 1, 3] [-3, -1, 1, 3])
      ⟨-3, by simp, 1, by simp, by norm_num⟩ ⟨-3, by simp, 1, by simp, by norm_num⟩ one_pos one_pos _ coarse_example 2)
    (fun ch h => by rw [bent_nodup (bent_example 1 1 [-3, -1, 1, 3] [-3, -1, 1, 3]).hor h]; norm_num)
    (fun cv h => by rw [bent_nodup (bent_example 1 1 [-3, -1, 1, 3] [-3, -1, 1, 3]).ver h]; norm_num)

theorem coarse_pair : findCodCoarse refPolyfit ([-1, 1].map (bentRow 1)) ([-1, 1].map (bentCol 1)) = .ok ⟨3, 5⟩ := by
  have hb := bent_example 1 1 [-1, 1] [-1, 1]
  have sc : ∀ (d e : ℝ), signChange (([-1, 1] : List ℝ).map (bentPara 1 d e)) = .ok 1 := by
    intro d e
    have : (npDiff ((([-1, 1] : List ℝ).map (bentPara 1 d e)).map fun q => npSign q.a)).map (fun t => |t|) = [2] := by
      norm_num [npDiff, npSign, bentPara]
    unfold signChange
    rw [this]
    unfold npArgmax
    rw [if_neg (by simp)]
    norm_num [List.findIdx_cons]
  unfold findCodCoarse
  rw [bent_fitHor refPolyfit_spec hb.hor, bent_fitVer refPolyfit_spec hb.ver]
  simp only [ok_bind, sc]
  simp only [List.map_cons, List.map_nil, npGet, List.getElem?_cons_zero, List.getElem?_cons_succ, ok_bind, Nat.add_one_sub_one]
  norm_num [bentPara, finDiv]

/-- Two bent rows and two bent columns are too few for the correction of the perspective. -/
example (fsolve : (ℝ × ℝ → ℝ × ℝ) → ℝ × ℝ → ℝ × ℝ) :=
  C74_few refPolyfit refPolyfit_spec fsolve ([-1, 1].map (bentRow 1)) ([-1, 1].map (bentCol 1)) (by simp [bentRow])
    (by simp [bentCol]) (by simp) (by simp) (.inl (by simp)) false ⟨3, 5⟩
    (C72_pincushion _ refPolyfit_spec _ 1 1 _ _ _ _ (bent_example 1 1 [-1, 1] [-1, 1])
      ⟨-1, by simp, 1, by simp, by norm_num⟩ ⟨-1, by simp, 1, by simp, by norm_num⟩ one_pos one_pos _ coarse_pair 2)

end Discorpy
