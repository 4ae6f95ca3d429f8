import Verif.Lemmas.VanishPoints
import Verif.Props.C73
import Verif.Props.C75

/-! # C76: centre of distortion from vanishing points -/

namespace Discorpy

open Spec

theorem shiftLine_zero (l : List Pt) : shiftLine 0 0 l = l := by
  unfold shiftLine
  simp

theorem shiftLines_zero (lines : List (List Pt)) : lines.map (shiftLine 0 0) = lines := by
  rw [show shiftLine 0 0 = id from funext shiftLine_zero, List.map_id]

theorem relativeTo_zero (q : Para) : relativeTo 0 0 q = q := by simp [relativeTo]

theorem curve_fitHor {pf : PolyfitFn} (hpf : PolyfitSpec pf) {lines : List (List Pt)} {qs : List Para}
    (h : List.Forall₂ (IsCurve Pt.x Pt.y) lines qs) : paraFitHor pf lines 0 0 = .ok (qs, lines) := by
  unfold paraFitHor
  have : lines.mapM (paraHor pf 0 0) = .ok qs := by
    rw [mapM_ok_iff]
    refine h.imp fun l q hl => ?_
    obtain ⟨r, e, hr⟩ := paraHor_ok hpf (isCurve_ne_nil hl) 0 0
    rw [e, isCurve_fit hl rfl rfl hr, relativeTo_zero]
  rw [this, shiftLines_zero]
  rfl

theorem curve_fitVer {pf : PolyfitFn} (hpf : PolyfitSpec pf) {lines : List (List Pt)} {qs : List Para}
    (h : List.Forall₂ (IsCurve Pt.y Pt.x) lines qs) : paraFitVer pf lines 0 0 = .ok (qs, lines) := by
  unfold paraFitVer
  have : lines.mapM (paraVer pf 0 0) = .ok qs := by
    rw [mapM_ok_iff]
    refine h.imp fun l q hl => ?_
    obtain ⟨r, e, hr⟩ := paraVer_ok hpf (isCurve_ne_nil hl) 0 0
    rw [e, isCurve_fit hl rfl rfl hr, relativeTo_zero]
  rw [this, shiftLines_zero]
  rfl

/-- The crossing of the lines through the vanishing points. -/
theorem vanishingCentre_common {pf : PolyfitFn} (hpf : PolyfitSpec pf) {P Q R S : Pt} (hpq : P.x ≠ Q.x) (hrs : R.y ≠ S.y)
    (hpar : (Q.x - P.x) * (S.y - R.y) ≠ (Q.y - P.y) * (S.x - R.x)) {hpts vpts : List (ℝ × ℝ)}
    (hh : ∀ z ∈ hpts, z = (P.x, P.y) ∨ z = (Q.x, Q.y)) (hm : (P.x, P.y) ∈ hpts ∧ (Q.x, Q.y) ∈ hpts)
    (vh : ∀ z ∈ vpts, z = (R.y, R.x) ∨ z = (S.y, S.x)) (vm : (R.y, R.x) ∈ vpts ∧ (S.y, S.x) ∈ vpts) :
    ∃ o, vanishingCentre pf hpts vpts = .ok o ∧ Collinear3 P Q o ∧ Collinear3 R S o := by
  have d1 : Q.x - P.x ≠ 0 := sub_ne_zero.2 hpq.symm
  have d2 : S.y - R.y ≠ 0 := sub_ne_zero.2 hrs.symm
  obtain ⟨m, em⟩ : ∃ m, m = (Q.y - P.y) / (Q.x - P.x) := ⟨_, rfl⟩
  obtain ⟨n, en⟩ : ∃ n, n = (S.x - R.x) / (S.y - R.y) := ⟨_, rfl⟩
  have em' : Q.y - P.y = m * (Q.x - P.x) := by rw [em]; field_simp
  have en' : S.x - R.x = n * (S.y - R.y) := by rw [en]; field_simp
  have e1 : Lin.ofList (pf (hpts.map Prod.fst) (hpts.map Prod.snd) 1) = .ok ⟨m, P.y - m * P.x⟩ := by
    apply hpf.lin_exact
    · intro z hz
      rcases hh z hz with rfl | rfl
      · simp only; ring
      · simp only; linarith
    · exact ⟨_, hm.1, _, hm.2, hpq⟩
  have e2 : Lin.ofList (pf (vpts.map Prod.fst) (vpts.map Prod.snd) 1) = .ok ⟨n, R.x - n * R.y⟩ := by
    apply hpf.lin_exact
    · intro z hz
      rcases vh z hz with rfl | rfl
      · simp only; ring
      · simp only; linarith
    · exact ⟨_, vm.1, _, vm.2, hrs⟩
  have hmn : 1 - m * n ≠ 0 := by
    intro h
    apply hpar
    rw [em', en']
    linear_combination (Q.x - P.x) * (S.y - R.y) * h
  unfold vanishingCentre
  rw [e1, e2]
  simp only [ok_bind]
  rw [finDiv_ok hmn]
  simp only [ok_bind]
  refine ⟨_, rfl, ?_, ?_⟩
  · unfold Collinear3
    simp only
    rw [em']
    field_simp
    ring
  · unfold Collinear3
    simp only
    rw [en']
    ring

/-- Different parabolas through two common points. -/
structure ThroughTwo (qs : List Para) (t1 s1 t2 s2 : ℝ) : Prop where
  first : ∀ q ∈ qs, s1 = q.a * t1 ^ 2 + q.b * t1 + q.c
  second : ∀ q ∈ qs, s2 = q.a * t2 ^ 2 + q.b * t2 + q.c
  ne : t1 ≠ t2

open Classical in
/-- Number of parabolas opening to the positive, respectively negative side. -/
noncomputable def countUp (qs : List Para) : ℕ := (qs.filter fun q => decide (0 < q.a)).length

open Classical in
@[inherit_doc countUp] noncomputable def countDown (qs : List Para) : ℕ := (qs.filter fun q => decide (q.a < 0)).length

/-- **C76** When the horizontal lines are parabolas through two common points `P`, `Q` and the vertical lines are parabolas
through two common points `R`, `S`, with at least two lines of each curvature in each direction,
`find_center_based_vanishing_points` returns the crossing of the straight lines `PQ` and `RS` (if not parallel). -/
theorem C76_common_points (pf : PolyfitFn) (hpf : PolyfitSpec pf) (roots : RootsFn) (hr : RootsSpec roots)
    (argsort : List ℝ → List ℕ) (ha : ArgsortSpec argsort) (hor ver : List (List Pt)) (qh qv : List Para)
    (hh : List.Forall₂ (IsCurve Pt.x Pt.y) hor qh) (hv : List.Forall₂ (IsCurve Pt.y Pt.x) ver qv) (P Q R S : Pt)
    (th : ThroughTwo qh P.x P.y Q.x Q.y) (tv : ThroughTwo qv R.y R.x S.y S.x)
    (hpar : (Q.x - P.x) * (S.y - R.y) ≠ (Q.y - P.y) * (S.x - R.x))
    (u2 : 2 ≤ countUp qh) (d2 : 2 ≤ countDown qh) (u2' : 2 ≤ countUp qv) (d2' : 2 ≤ countDown qv) :
    ∃ o, findCentreVanishing pf roots argsort hor ver = .ok o ∧ Collinear3 P Q o ∧ Collinear3 R S o := by
  obtain ⟨hp, e1, l1, m1, n1⟩ := oppositeCrossings_common hr ha th.ne th.first th.second
  obtain ⟨vp, e2, l2, m2, n2⟩ := oppositeCrossings_common hr ha tv.ne tv.first tv.second
  have lu : ∀ qs, (opensUp qs).length = countUp qs := fun _ => rfl
  have ld : ∀ qs, (opensDown qs).length = countDown qs := fun _ => rfl
  rw [lu, ld] at l1 l2
  have g1 : hp.length > 2 := by omega
  have g2 : vp.length > 2 := by omega
  obtain ⟨o, eo, c1, c2⟩ := vanishingCentre_common hpf th.ne tv.ne hpar m1 (n1 (by rintro rfl; simp at g1)) m2 (n2 (by rintro rfl; simp at g2))
  refine ⟨o, ?_, c1, c2⟩
  unfold findCentreVanishing vanishingSearch
  rw [curve_fitHor hpf hh, curve_fitVer hpf hv]
  simp only [ok_bind, e1, e2, if_pos g1, if_pos g2, eo]

/-- **C76** (second way): at least three lines of different curvature in each direction are enough. -/
theorem C76_second (pf : PolyfitFn) (hpf : PolyfitSpec pf) (roots : RootsFn) (hr : RootsSpec roots)
    (hor ver : List (List Pt)) (qh qv : List Para)
    (hh : List.Forall₂ (IsCurve Pt.x Pt.y) hor qh) (hv : List.Forall₂ (IsCurve Pt.y Pt.x) ver qv) (P Q R S : Pt)
    (th : ThroughTwo qh P.x P.y Q.x Q.y) (tv : ThroughTwo qv R.y R.x S.y S.x)
    (hpar : (Q.x - P.x) * (S.y - R.y) ≠ (Q.y - P.y) * (S.x - R.x))
    (h3 : 3 ≤ hor.length) (v3 : 3 ≤ ver.length) (dh : (qh.map Para.a).Nodup) (dv : (qv.map Para.a).Nodup) :
    ∃ o, findCentreVanishing2 pf roots hor ver = .ok o ∧ Collinear3 P Q o ∧ Collinear3 R S o := by
  have lh := hh.length_eq
  have lv := hv.length_eq
  obtain ⟨hp, e1, l1, m1, n1⟩ := flattestCrossings_common hr (by intro hn; rw [hn] at lh; simp only [List.length_nil] at lh; omega) dh th.ne th.first th.second
  obtain ⟨vp, e2, l2, m2, n2⟩ := flattestCrossings_common hr (by intro hn; rw [hn] at lv; simp only [List.length_nil] at lv; omega) dv tv.ne tv.first tv.second
  have g1 : hp.length > 2 := by omega
  have g2 : vp.length > 2 := by omega
  obtain ⟨o, eo, c1, c2⟩ := vanishingCentre_common hpf th.ne tv.ne hpar m1 (n1 (by rintro rfl; simp at g1)) m2 (n2 (by rintro rfl; simp at g2))
  refine ⟨o, ?_, c1, c2⟩
  unfold findCentreVanishing2 vanishingSearch
  rw [curve_fitHor hpf hh, curve_fitVer hpf hv]
  simp only [ok_bind, e1, e2, if_pos g1, if_pos g2, eo]

/-! ## Ideally bent patterns -/

theorem bent_isCurve {c : Pt} {k : ℝ} {us : List ℝ} {lines : List (List Pt)} :
    (List.Forall₂ (IsBentLine Pt.x Pt.y c k) us lines → List.Forall₂ (IsCurve Pt.x Pt.y) lines (us.map (bentPara k (0 - c.x) (c.y - 0)))) ∧
    (List.Forall₂ (IsBentLine Pt.y Pt.x c k) us lines → List.Forall₂ (IsCurve Pt.y Pt.x) lines (us.map (bentPara k (0 - c.y) (c.x - 0)))) := by
  constructor
  all_goals
    intro h
    rw [List.forall₂_map_right_iff]
    refine List.Forall₂.flip (h.imp fun u l hl => ⟨fun p hp => ?_, hl.three⟩)
    have := hl.on p hp
    unfold onPara bentPara
    simp only
    linear_combination this

/-- Barrel-bent lines pass through two common points at the height of the centre. -/
theorem bent_through {k d e : ℝ} (hk : k < 0) (us : List ℝ) :
    ThroughTwo (us.map (bentPara k (0 - d) (e - 0))) (d - 1 / √(-k)) e (d + 1 / √(-k)) e := by
  have hs : 0 < √(-k) := Real.sqrt_pos.2 (by linarith)
  have hq : √(-k) ^ 2 = -k := Real.sq_sqrt (by linarith)
  have key : k * (1 / √(-k)) ^ 2 = -1 := by
    rw [div_pow, one_pow, hq]
    have : k ≠ 0 := hk.ne
    field_simp
  refine ⟨?_, ?_, by have : 0 < 1 / √(-k) := by positivity
                     linarith⟩
  all_goals
    intro q hq
    obtain ⟨u, _, rfl⟩ := List.mem_map.1 hq
    simp only [bentPara]
    linear_combination -u * key

open Classical in
theorem bent_counts {k d e : ℝ} (hk : k < 0) (us : List ℝ) :
    countUp (us.map (bentPara k d e)) = (us.filter fun u => decide (u < 0)).length ∧
    countDown (us.map (bentPara k d e)) = (us.filter fun u => decide (0 < u)).length := by
  unfold countUp countDown
  rw [List.filter_map, List.filter_map, List.length_map, List.length_map]
  constructor
  · congr 2
    ext u
    simp only [Function.comp_apply]
    rw [Bool.eq_iff_iff, decide_eq_true_iff, decide_eq_true_iff]
    change 0 < u * k ↔ u < 0
    constructor
    · intro h; by_contra h'; nlinarith [not_lt.1 h']
    · intro h; nlinarith
  · congr 2
    ext u
    simp only [Function.comp_apply]
    rw [Bool.eq_iff_iff, decide_eq_true_iff, decide_eq_true_iff]
    change u * k < 0 ↔ 0 < u
    constructor
    · intro h; by_contra h'; nlinarith [not_lt.1 h']
    · intro h; nlinarith

theorem centre_of_collinear {c o : Pt} {r s : ℝ} (hr : r ≠ 0) (hs : s ≠ 0) (h1 : Collinear3 ⟨c.y, c.x - r⟩ ⟨c.y, c.x + r⟩ o)
    (h2 : Collinear3 ⟨c.y - s, c.x⟩ ⟨c.y + s, c.x⟩ o) : o = c := by
  unfold Collinear3 at h1 h2
  simp only at h1 h2
  obtain ⟨y, x⟩ := o
  obtain ⟨cy, cx⟩ := c
  simp only at h1 h2
  have e1 : r * (y - cy) = 0 := by linear_combination h1 / 2
  have e2 : s * (x - cx) = 0 := by linear_combination -h2 / 2
  have := (mul_eq_zero.1 e1).resolve_left hr
  have := (mul_eq_zero.1 e2).resolve_left hs
  rw [Pt.mk.injEq]
  constructor <;> linarith

theorem inv_sqrt_pos {k : ℝ} (hk : k < 0) : 0 < 1 / √(-k) := by
  have := Real.sqrt_pos.2 (show 0 < -k by linarith)
  positivity

open Classical in
/-- **C76** (ideal barrel distortion): lines bent in proportion to their distance from a centre give exactly this centre,
if there are at least two lines on each side of it in each direction. -/
theorem C76_barrel (pf : PolyfitFn) (hpf : PolyfitSpec pf) (roots : RootsFn) (hr : RootsSpec roots)
    (argsort : List ℝ → List ℕ) (ha : ArgsortSpec argsort) (c : Pt) (kh kv : ℝ) (us vs : List ℝ) (hor ver : List (List Pt))
    (h : IsBentPattern c kh kv us vs hor ver) (hkh : kh < 0) (hkv : kv < 0)
    (u1 : 2 ≤ (us.filter fun u => decide (u < 0)).length) (u2 : 2 ≤ (us.filter fun u => decide (0 < u)).length)
    (v1 : 2 ≤ (vs.filter fun u => decide (u < 0)).length) (v2 : 2 ≤ (vs.filter fun u => decide (0 < u)).length) :
    findCentreVanishing pf roots argsort hor ver = .ok c := by
  have p1 := inv_sqrt_pos hkh
  have p2 := inv_sqrt_pos hkv
  obtain ⟨o, e, c1, c2⟩ := C76_common_points pf hpf roots hr argsort ha hor ver _ _ (bent_isCurve.1 h.hor) (bent_isCurve.2 h.ver)
    ⟨c.y, c.x - 1 / √(-kh)⟩ ⟨c.y, c.x + 1 / √(-kh)⟩ ⟨c.y - 1 / √(-kv), c.x⟩ ⟨c.y + 1 / √(-kv), c.x⟩
    (bent_through hkh us) (bent_through hkv vs)
    (by simp only; rw [sub_self, sub_self, mul_zero]; exact mul_ne_zero (by linarith) (by linarith))
    (by rwa [(bent_counts hkh us).1]) (by rwa [(bent_counts hkh us).2]) (by rwa [(bent_counts hkv vs).1]) (by rwa [(bent_counts hkv vs).2])
  rw [e, centre_of_collinear p1.ne' p2.ne' c1 c2]

theorem second_barrel {pf : PolyfitFn} (hpf : PolyfitSpec pf) {roots : RootsFn} (hr : RootsSpec roots) {c : Pt} {kh kv : ℝ}
    {us vs : List ℝ} {hor ver : List (List Pt)} (h : IsBentPattern c kh kv us vs hor ver) (hkh : kh < 0) (hkv : kv < 0)
    (u3 : 3 ≤ us.length) (v3 : 3 ≤ vs.length) (du : us.Nodup) (dv : vs.Nodup) : findCentreVanishing2 pf roots hor ver = .ok c := by
  have p1 := inv_sqrt_pos hkh
  have p2 := inv_sqrt_pos hkv
  have nd : ∀ (k d e : ℝ) (l : List ℝ), k ≠ 0 → l.Nodup → ((l.map (bentPara k d e)).map Para.a).Nodup := by
    intro k d e l hk hl
    rw [List.map_map]
    refine hl.map fun u v huv => ?_
    simpa [bentPara, hk] using huv
  obtain ⟨o, e, c1, c2⟩ := C76_second pf hpf roots hr hor ver _ _ (bent_isCurve.1 h.hor) (bent_isCurve.2 h.ver)
    ⟨c.y, c.x - 1 / √(-kh)⟩ ⟨c.y, c.x + 1 / √(-kh)⟩ ⟨c.y - 1 / √(-kv), c.x⟩ ⟨c.y + 1 / √(-kv), c.x⟩
    (bent_through hkh us) (bent_through hkv vs)
    (by simp only; rw [sub_self, sub_self, mul_zero]; exact mul_ne_zero (by linarith) (by linarith))
    (by rw [← h.hor.length_eq]; exact u3) (by rw [← h.ver.length_eq]; exact v3) (nd _ _ _ _ hkh.ne du) (nd _ _ _ _ hkv.ne dv)
  rw [e, centre_of_collinear p1.ne' p2.ne' c1 c2]

theorem bent_shift {c : Pt} {kh kv : ℝ} {us vs : List ℝ} {hor ver : List (List Pt)} (h : IsBentPattern c kh kv us vs hor ver) :
    IsBentPattern ⟨0, 0⟩ kh kv us vs (hor.map (shiftLine c.x c.y)) (ver.map (shiftLine c.x c.y)) := by
  constructor
  · rw [List.forall₂_map_right_iff]
    refine h.hor.imp fun u l hl => ⟨fun p hp => ?_, ?_⟩
    · obtain ⟨q, hq, rfl⟩ := List.mem_map.1 hp
      have := hl.on q hq
      simp only
      linear_combination this
    · obtain ⟨p, hp, q, hq, r, hr, h1, h2, h3⟩ := hl.three
      refine ⟨_, List.mem_map_of_mem hp, _, List.mem_map_of_mem hq, _, List.mem_map_of_mem hr, ?_, ?_, ?_⟩ <;>
        · simp only [ne_eq, sub_left_inj]; assumption
  · rw [List.forall₂_map_right_iff]
    refine h.ver.imp fun u l hl => ⟨fun p hp => ?_, ?_⟩
    · obtain ⟨q, hq, rfl⟩ := List.mem_map.1 hp
      have := hl.on q hq
      simp only
      linear_combination this
    · obtain ⟨p, hp, q, hq, r, hr, h1, h2, h3⟩ := hl.three
      refine ⟨_, List.mem_map_of_mem hp, _, List.mem_map_of_mem hq, _, List.mem_map_of_mem hr, ?_, ?_, ?_⟩ <;>
        · simp only [ne_eq, sub_left_inj]; assumption

/-- A centre that the second way finds, and finds again after shifting, is a fixed point of the iteration. -/
theorem iteration_fixed {pf : PolyfitFn} (hpf : PolyfitSpec pf) {lstsq : LstsqFn} (hl : LstsqSpec lstsq) {roots : RootsFn}
    {argsort : List ℝ → List ℕ} (ha : ArgsortSpec argsort) {c : Pt} {kh kv : ℝ}
    {us vs : List ℝ} {hor ver : List (List Pt)} (h : IsBentPattern c kh kv us vs hor ver) (hkh : kh ≠ 0) (hkv : kv ≠ 0)
    (bu : BothSigns us) (bv : BothSigns vs) (method : RepMethod)
    (h1 : findCentreVanishing2 pf roots hor ver = .ok c)
    (h2 : findCentreVanishing2 pf roots (hor.map (shiftLine c.x c.y)) (ver.map (shiftLine c.x c.y)) = .ok ⟨0, 0⟩) (iteration : ℕ) :
    findCentreVanishingIter pf lstsq roots argsort hor ver iteration method = .ok c := by
  have step : vanishingRound pf lstsq roots argsort hor ver method c = .ok c := by
    unfold vanishingRound
    rw [C75_fixed pf hpf lstsq hl argsort ha c kh kv us vs hor ver h hkh hkv bu bv method .mean (by intro f hf; cases hf)]
    simp only [ok_bind, bent_fitHor hpf h.hor, bent_fitVer hpf h.ver, h2]
    simp
  unfold findCentreVanishingIter
  rw [h1]
  simp only [ok_bind]
  generalize List.range iteration = l
  induction l with
  | nil => rfl
  | cons a l ih => rw [List.foldlM_cons, step]; exact ih

/-- **C76** (iteration, ideal barrel distortion): every number of iterations and every method gives exactly the centre, if
there are lines on both sides of it and at least three in each direction. -/
theorem C76_iteration (pf : PolyfitFn) (hpf : PolyfitSpec pf) (lstsq : LstsqFn) (hl : LstsqSpec lstsq) (roots : RootsFn)
    (hr : RootsSpec roots) (argsort : List ℝ → List ℕ) (ha : ArgsortSpec argsort) (c : Pt) (kh kv : ℝ)
    (us vs : List ℝ) (hor ver : List (List Pt)) (h : IsBentPattern c kh kv us vs hor ver) (hkh : kh < 0) (hkv : kv < 0)
    (u3 : 3 ≤ us.length) (v3 : 3 ≤ vs.length) (du : us.Nodup) (dv : vs.Nodup) (bu : BothSigns us) (bv : BothSigns vs)
    (iteration : ℕ) (method : RepMethod) :
    findCentreVanishingIter pf lstsq roots argsort hor ver iteration method = .ok c :=
  iteration_fixed hpf hl ha h hkh.ne hkv.ne bu bv method (second_barrel hpf hr h hkh hkv u3 v3 du dv)
    (second_barrel hpf hr (bent_shift h) hkh hkv u3 v3 du dv) iteration

theorem bent_shift_to {e : Pt} {kh kv : ℝ} {us vs : List ℝ} {hor ver : List (List Pt)} (h : IsBentPattern e kh kv us vs hor ver) (c : Pt) :
    IsBentPattern ⟨e.y - c.y, e.x - c.x⟩ kh kv us vs (hor.map (shiftLine c.x c.y)) (ver.map (shiftLine c.x c.y)) := by
  constructor
  · rw [List.forall₂_map_right_iff]
    refine h.hor.imp fun u l hl => ⟨fun p hp => ?_, ?_⟩
    · obtain ⟨q, hq, rfl⟩ := List.mem_map.1 hp
      have := hl.on q hq
      simp only
      linear_combination this
    · obtain ⟨p, hp, q, hq, r, hr, h1, h2, h3⟩ := hl.three
      refine ⟨_, List.mem_map_of_mem hp, _, List.mem_map_of_mem hq, _, List.mem_map_of_mem hr, ?_, ?_, ?_⟩ <;>
        · simp only [ne_eq, sub_left_inj]; assumption
  · rw [List.forall₂_map_right_iff]
    refine h.ver.imp fun u l hl => ⟨fun p hp => ?_, ?_⟩
    · obtain ⟨q, hq, rfl⟩ := List.mem_map.1 hp
      have := hl.on q hq
      simp only
      linear_combination this
    · obtain ⟨p, hp, q, hq, r, hr, h1, h2, h3⟩ := hl.three
      refine ⟨_, List.mem_map_of_mem hp, _, List.mem_map_of_mem hq, _, List.mem_map_of_mem hr, ?_, ?_, ?_⟩ <;>
        · simp only [ne_eq, sub_left_inj]; assumption

/-- **C76** (next estimate): if the lines corrected for perspective about the estimate after `iteration` rounds are barrel-bent
about a point `e`, which may differ from that estimate, then one more round gives exactly `e`. -/
theorem C76_next (pf : PolyfitFn) (hpf : PolyfitSpec pf) (lstsq : LstsqFn) (roots : RootsFn) (hr : RootsSpec roots)
    (argsort : List ℝ → List ℕ) (hor ver : List (List Pt)) (iteration : ℕ) (method : RepMethod) (c : Pt)
    (hc : findCentreVanishingIter pf lstsq roots argsort hor ver iteration method = .ok c) (hor' ver' : List (List Pt))
    (hp : correctPerspectiveEffect pf lstsq argsort hor ver c.x c.y method .mean = .ok (hor', ver')) (e : Pt) (kh kv : ℝ)
    (us vs : List ℝ) (h : IsBentPattern e kh kv us vs hor' ver') (hkh : kh < 0) (hkv : kv < 0)
    (u3 : 3 ≤ us.length) (v3 : 3 ≤ vs.length) (du : us.Nodup) (dv : vs.Nodup) :
    findCentreVanishingIter pf lstsq roots argsort hor ver (iteration + 1) method = .ok e := by
  have step : vanishingRound pf lstsq roots argsort hor ver method c = .ok e := by
    unfold vanishingRound
    rw [hp]
    simp only [ok_bind, bent_fitHor hpf h.hor, bent_fitVer hpf h.ver,
      second_barrel hpf hr (bent_shift_to h c) hkh hkv u3 v3 du dv]
    simp
  unfold findCentreVanishingIter at hc ⊢
  cases h0 : findCentreVanishing2 pf roots hor ver with
  | error err => rw [h0] at hc; cases hc
  | ok c0 =>
    rw [h0] at hc
    simp only [ok_bind] at hc ⊢
    rw [List.range_succ, List.foldlM_append, hc, ok_bind, List.foldlM_cons, step]
    rfl

/-- Pincushion-bent lines at different distances never meet. -/
theorem crossSame_pincushion {roots : RootsFn} (hr : RootsSpec roots) {k d e u v : ℝ} (hk : 0 < k) (huv : u ≠ v) :
    crossSame roots (bentPara k d e u) (bentPara k d e v) = .ok [] := by
  have h : u - v ≠ 0 := sub_ne_zero.2 huv
  have h2 : 0 < (u - v) ^ 2 := by positivity
  unfold crossSame
  rw [hr.complex _ _ _ (by
    simp only [bentPara]
    rw [← sub_mul]
    exact mul_ne_zero h hk.ne') (by
    simp only [bentPara]
    have : (2 * u * k * d - 2 * v * k * d) ^ 2 - 4 * (u * k - v * k) * (u * (1 + k * d ^ 2) + e - (v * (1 + k * d ^ 2) + e)) =
        -(4 * (u - v) ^ 2 * k) := by ring
    rw [this]
    have : 0 < 4 * (u - v) ^ 2 * k := by positivity
    linarith)]

theorem mapM_nil {α : Type} {l : List α} {f : α → Except PyErr (List (ℝ × ℝ))} (h : ∀ x ∈ l, f x = .ok []) :
    ∃ r, l.mapM f = .ok r ∧ r.flatten = [] := by
  refine ⟨l.map fun _ => [], ?_, by simp⟩
  rw [mapM_ok_iff, List.forall₂_map_right_iff, List.forall₂_same]
  exact h

theorem opposite_pincushion {roots : RootsFn} (hr : RootsSpec roots) {argsort : List ℝ → List ℕ} (ha : ArgsortSpec argsort)
    {k d e : ℝ} (hk : 0 < k) (us : List ℝ) : oppositeCrossings roots argsort (us.map (bentPara k d e)) = .ok [] := by
  have pu := ha.fancy_perm (opensUp (us.map (bentPara k d e))) fun q => |q.a|
  have pd := ha.fancy_perm (opensDown (us.map (bentPara k d e))) fun q => |q.a|
  obtain ⟨r, e1, e2⟩ := mapM_nil (l := List.zip (sortByCurvature argsort (opensUp (us.map (bentPara k d e))))
      (sortByCurvature argsort (opensDown (us.map (bentPara k d e))))) (f := fun z => crossSame roots z.1 z.2) (by
    rintro ⟨p, q⟩ hz
    have hu := mem_opensUp.1 (pu.mem_iff.1 (List.of_mem_zip hz).1)
    have hd := mem_opensDown.1 (pd.mem_iff.1 (List.of_mem_zip hz).2)
    obtain ⟨u, _, rfl⟩ := List.mem_map.1 hu.1
    obtain ⟨v, _, rfl⟩ := List.mem_map.1 hd.1
    refine crossSame_pincushion hr hk ?_
    rintro rfl
    linarith [hu.2, hd.2])
  unfold oppositeCrossings
  simp only
  rw [e1]
  simp only [ok_bind, e2]

theorem flattest_pincushion {roots : RootsFn} (hr : RootsSpec roots) {k d e : ℝ} (hk : 0 < k) {us : List ℝ} (hne : us ≠ [])
    (hd : us.Nodup) : flattestCrossings roots (us.map (bentPara k d e)) = .ok [] := by
  obtain ⟨i, ei, hi, _⟩ := npArgmin_ok (l := (us.map (bentPara k d e)).map fun q => |q.a|) (by simpa using hne)
  simp only [List.length_map] at hi
  obtain ⟨r, e1, e2⟩ := mapM_nil (l := (us.map (bentPara k d e)).eraseIdx i)
    (f := fun q => crossSame roots q (bentPara k d e us[i])) (by
      intro q hq
      obtain ⟨j, hj, hji, rfl⟩ := List.mem_eraseIdx_iff_getElem.1 hq
      rw [List.getElem_map]
      refine crossSame_pincushion hr hk ?_
      intro h
      exact hji ((hd.getElem_inj_iff).1 h))
  unfold flattestCrossings
  rw [ei]
  simp only [ok_bind]
  rw [npGet_of_lt (by simpa using hi), List.getElem_map]
  simp only [ok_bind]
  rw [e1]
  simp only [ok_bind, e2]

theorem coarse_centred {pf : PolyfitFn} (hpf : PolyfitSpec pf) {kh kv : ℝ} {us vs : List ℝ} {hor ver : List (List Pt)}
    (h : IsBentPattern ⟨0, 0⟩ kh kv us vs hor ver) (hu : 2 ≤ us.length) (hv : 2 ≤ vs.length) :
    ∃ o, findCodCoarse pf hor ver = .ok o := by
  obtain ⟨k, e1, hk, _⟩ := signChange_ok (coefs := us.map (bentPara kh (0 - (⟨0, 0⟩ : Pt).x) ((⟨0, 0⟩ : Pt).y - 0))) (by simpa using hu)
  obtain ⟨m, e2, hm, _⟩ := signChange_ok (coefs := vs.map (bentPara kv (0 - (⟨0, 0⟩ : Pt).y) ((⟨0, 0⟩ : Pt).x - 0))) (by simpa using hv)
  rw [List.length_map] at hk hm
  unfold findCodCoarse
  rw [bent_fitHor hpf h.hor, bent_fitVer hpf h.ver]
  simp only [ok_bind, e1, e2, Nat.add_sub_cancel]
  rw [npGet_of_lt (by simp; omega), npGet_of_lt (by simpa using hk), npGet_of_lt (by simp; omega), npGet_of_lt (by simpa using hm)]
  simp only [ok_bind, List.getElem_map, bentPara]
  rw [finDiv_ok (by norm_num), finDiv_ok (by norm_num)]
  exact ⟨_, rfl⟩

theorem both_two {l : List ℝ} (h : BothSigns l) : TwoValues l ∧ 2 ≤ l.length := by
  obtain ⟨⟨u, hu, pu⟩, v, hv, nv⟩ := h
  refine ⟨⟨u, hu, v, hv, by rintro rfl; linarith⟩, ?_⟩
  match l with
  | [] => simp at hu
  | [a] => rw [List.mem_singleton] at hu hv; linarith
  | _ :: _ :: _ => simp

/-- **C76** (ideal pincushion distortion): the lines never meet, all three functions fall back to Bailey's approach, and
return exactly the centre as soon as the coarse estimate is finite. -/
theorem C76_pincushion (pf : PolyfitFn) (hpf : PolyfitSpec pf) (lstsq : LstsqFn) (hl : LstsqSpec lstsq) (roots : RootsFn)
    (hr : RootsSpec roots) (argsort : List ℝ → List ℕ) (ha : ArgsortSpec argsort) (c : Pt) (kh kv : ℝ)
    (us vs : List ℝ) (hor ver : List (List Pt)) (h : IsBentPattern c kh kv us vs hor ver) (hkh : 0 < kh) (hkv : 0 < kv)
    (du : us.Nodup) (bu : BothSigns us) (bv : BothSigns vs) (o : Pt) (ho : findCodCoarse pf hor ver = .ok o) :
    findCentreVanishing pf roots argsort hor ver = .ok c ∧ findCentreVanishing2 pf roots hor ver = .ok c ∧
      ∀ (iteration : ℕ) (method : RepMethod), findCentreVanishingIter pf lstsq roots argsort hor ver iteration method = .ok c := by
  have second : ∀ {c : Pt} {hor ver : List (List Pt)}, IsBentPattern c kh kv us vs hor ver → ∀ o, findCodCoarse pf hor ver = .ok o →
      findCentreVanishing2 pf roots hor ver = .ok c := by
    intro c hor ver h o ho
    unfold findCentreVanishing2 vanishingSearch
    rw [bent_fitHor hpf h.hor, bent_fitVer hpf h.ver]
    simp only [ok_bind, flattest_pincushion hr hkh (twoValues_ne_nil (both_two bu).1) du]
    rw [if_neg (by simp), shiftLines_zero, shiftLines_zero]
    exact C72_pincushion pf hpf c kh kv us vs hor ver h (both_two bu).1 (both_two bv).1 hkh hkv o ho 2
  obtain ⟨o', ho'⟩ := coarse_centred hpf (bent_shift h) (both_two bu).2 (both_two bv).2
  refine ⟨?_, second h o ho, fun iteration method => iteration_fixed hpf hl ha h hkh.ne' hkv.ne' bu bv method (second h o ho)
    (second (bent_shift h) o' ho') iteration⟩
  unfold findCentreVanishing vanishingSearch
  rw [bent_fitHor hpf h.hor, bent_fitVer hpf h.ver]
  simp only [ok_bind, opposite_pincushion hr ha hkh]
  rw [if_neg (by simp), shiftLines_zero, shiftLines_zero]
  exact C72_pincushion pf hpf c kh kv us vs hor ver h (both_two bu).1 (both_two bv).1 hkh hkv o ho 2

/-- **C76** (violation): on straight lines, that is without distortion, no centre is returned: the first way divides by
zero in Bailey's approach, the second way and the iteration raise `ValueError` when unpacking the missing roots. -/
theorem C76_straight (pf : PolyfitFn) (hpf : PolyfitSpec pf) (lstsq : LstsqFn) (roots : RootsFn)
    (hr : RootsSpec roots) (argsort : List ℝ → List ℕ) (ha : ArgsortSpec argsort) (c : Pt)
    (us vs : List ℝ) (hor ver : List (List Pt)) (h : IsBentPattern c 0 0 us vs hor ver) (hu : TwoValues us) (hv : TwoValues vs) :
    findCentreVanishing pf roots argsort hor ver = .error .nonFinite ∧
      findCentreVanishing2 pf roots hor ver = .error .valueError ∧
      ∀ (iteration : ℕ) (method : RepMethod),
        findCentreVanishingIter pf lstsq roots argsort hor ver iteration method = .error .valueError := by
  have first : oppositeCrossings roots argsort (us.map (bentPara 0 (0 - c.x) (c.y - 0))) = .ok [] := by
    have : opensUp (us.map (bentPara 0 (0 - c.x) (c.y - 0))) = [] := by
      rw [List.eq_nil_iff_forall_not_mem]
      intro q hq
      obtain ⟨hq, hp⟩ := mem_opensUp.1 hq
      obtain ⟨u, _, rfl⟩ := List.mem_map.1 hq
      simp [bentPara] at hp
    unfold oppositeCrossings sortByCurvature
    rw [this, (ha.fancy_perm ([] : List Para) fun q => |q.a|).eq_nil]
    rfl
  have second : findCentreVanishing2 pf roots hor ver = .error .valueError := by
    have two : 2 ≤ us.length := by
      obtain ⟨u, hu, v, hv, huv⟩ := hu
      match us with
      | [] => simp at hu
      | [a] => rw [List.mem_singleton] at hu hv; exact absurd (hu.trans hv.symm) huv
      | _ :: _ :: _ => simp
    obtain ⟨i, ei, hi, _⟩ := npArgmin_ok (l := (us.map (bentPara 0 (0 - c.x) (c.y - 0))).map fun q => |q.a|)
      (by simpa using twoValues_ne_nil hu)
    simp only [List.length_map] at hi
    have hlen : ((us.map (bentPara 0 (0 - c.x) (c.y - 0))).eraseIdx i).length = us.length - 1 := by
      rw [List.length_eraseIdx, if_pos (by simpa using hi), List.length_map]
    unfold findCentreVanishing2 vanishingSearch flattestCrossings
    rw [bent_fitHor hpf h.hor, bent_fitVer hpf h.ver]
    simp only [ok_bind, ei]
    rw [npGet_of_lt (by simpa using hi), List.getElem_map]
    simp only [ok_bind]
    match hE : (us.map (bentPara 0 (0 - c.x) (c.y - 0))).eraseIdx i, hlen with
    | [], hlen => simp only [List.length_nil] at hlen; omega
    | q :: rest, _ =>
      have hq : q ∈ us.map (bentPara 0 (0 - c.x) (c.y - 0)) :=
        (List.eraseIdx_sublist _ i).mem (by rw [hE]; exact List.mem_cons_self)
      obtain ⟨v, _, rfl⟩ := List.mem_map.1 hq
      rw [List.mapM_cons]
      have : crossSame roots (bentPara 0 (0 - c.x) (c.y - 0) v) (bentPara 0 (0 - c.x) (c.y - 0) us[i]) = .error .valueError := by
        unfold crossSame bentPara
        simp only [mul_zero, zero_mul, sub_self, hr.const]
      rw [this]
      rfl
  refine ⟨?_, second, fun iteration method => by unfold findCentreVanishingIter; rw [second]; rfl⟩
  unfold findCentreVanishing vanishingSearch
  rw [bent_fitHor hpf h.hor, bent_fitVer hpf h.ver]
  simp only [ok_bind, first]
  rw [if_neg (by simp), shiftLines_zero, shiftLines_zero]
  exact C72_straight pf hpf c us vs hor ver h hu hv 2

/-- **C76** (too few lines): without two horizontal lines all three functions raise `ValueError`. -/
theorem C76_few (pf : PolyfitFn) (hpf : PolyfitSpec pf) (lstsq : LstsqFn) (roots : RootsFn) (argsort : List ℝ → List ℕ)
    (ha : ArgsortSpec argsort) (hor ver : List (List Pt)) (hh : ∀ l ∈ hor, l ≠ []) (hv : ∀ l ∈ ver, l ≠ []) (hf : hor.length < 2) :
    findCentreVanishing pf roots argsort hor ver = .error .valueError ∧
      findCentreVanishing2 pf roots hor ver = .error .valueError ∧
      ∀ (iteration : ℕ) (method : RepMethod),
        findCentreVanishingIter pf lstsq roots argsort hor ver iteration method = .error .valueError := by
  obtain ⟨ch, eh, gh⟩ := paraFitHor_ok hpf hh 0 0
  obtain ⟨cv, ev, gv⟩ := paraFitVer_ok hpf hv 0 0
  have lh := gh.length_eq
  rw [shiftLines_zero] at eh ev
  have bailey := (C72_few pf hpf hor ver hh hv (.inl hf) 2).2
  have second : findCentreVanishing2 pf roots hor ver = .error .valueError := by
    unfold findCentreVanishing2 vanishingSearch flattestCrossings
    rw [eh, ev]
    simp only [ok_bind]
    match ch, lh with
    | [], _ => rfl
    | [q], _ =>
      have e0 : npArgmin ([q].map fun q => |q.a|) = .ok 0 := by
        unfold npArgmin
        rw [if_neg (by simp)]
        simp
      rw [e0]
      simp only [ok_bind]
      rw [npGet_of_lt (by simp)]
      simp only [ok_bind, List.eraseIdx_cons_zero, List.mapM_nil]
      exact bailey
    | _ :: _ :: _, lh => simp only [List.length_cons] at lh; omega
  refine ⟨?_, second, fun iteration method => by unfold findCentreVanishingIter; rw [second]; rfl⟩
  have hz : List.zip (sortByCurvature argsort (opensUp ch)) (sortByCurvature argsort (opensDown ch)) = [] := by
    rw [List.eq_nil_iff_forall_not_mem]
    rintro ⟨p, q⟩ hz
    have hu := mem_opensUp.1 ((ha.fancy_perm (opensUp ch) fun q => |q.a|).mem_iff.1 (List.of_mem_zip hz).1)
    have hd := mem_opensDown.1 ((ha.fancy_perm (opensDown ch) fun q => |q.a|).mem_iff.1 (List.of_mem_zip hz).2)
    have := two_of_opens ⟨p, hu⟩ ⟨q, hd⟩
    omega
  unfold findCentreVanishing vanishingSearch oppositeCrossings
  rw [eh, ev]
  simp only [ok_bind, hz, List.mapM_nil]
  exact bailey

/-- A reference implementation of the roots, by the quadratic formula. -/
noncomputable def refRoots : RootsFn := fun a b c =>
  if a = 0 then (if b = 0 then some [] else some [-c / b])
  else if b ^ 2 - 4 * a * c < 0 then none
  else some [(-b + √(b ^ 2 - 4 * a * c)) / (2 * a), (-b - √(b ^ 2 - 4 * a * c)) / (2 * a)]

theorem refRoots_spec : RootsSpec refRoots where
  real a b c ha hd := by
    refine ⟨_, _, by unfold refRoots; rw [if_neg ha, if_neg (not_lt.2 hd)], fun t => ?_⟩
    have := Real.sq_sqrt hd
    generalize √(b ^ 2 - 4 * a * c) = q at *
    field_simp
    linear_combination this
  complex a b c ha hd := by unfold refRoots; rw [if_neg ha, if_pos hd]
  linear b c hb := by unfold refRoots; rw [if_pos rfl, if_neg hb]
  const c := by unfold refRoots; rw [if_pos rfl, if_pos rfl]

theorem both_example : BothSigns [-2, -1, 1, 2] := ⟨⟨1, by simp⟩, -1, by simp⟩

theorem coarse_bent_ok : ∃ o, findCodCoarse refPolyfit ([-2, -1, 1, 2].map (bentRow (1 / 100))) ([-2, -1, 1, 2].map (bentCol (1 / 100))) = .ok o := by
  have h := bent_example (1 / 100) (1 / 100) [-2, -1, 1, 2] [-2, -1, 1, 2]
  obtain ⟨k, e1, hk, hs⟩ := signChange_ok (coefs := [-2, -1, 1, 2].map (bentPara (1 / 100) (0 - 5) (3 - 0))) (by simp)
  obtain ⟨m, e2, hm, ht⟩ := signChange_ok (coefs := [-2, -1, 1, 2].map (bentPara (1 / 100) (0 - 3) (5 - 0))) (by simp)
  simp only [List.length_map, List.length_cons, List.length_nil] at hk hm
  unfold findCodCoarse
  rw [bent_fitHor refPolyfit_spec h.hor, bent_fitVer refPolyfit_spec h.ver]
  simp only [ok_bind, e1, e2, Nat.add_sub_cancel]
  rw [npGet_of_lt (by simp; omega), npGet_of_lt (by simpa using hk), npGet_of_lt (by simp; omega), npGet_of_lt (by simpa using hm)]
  simp only [ok_bind]
  have val : ∀ (d e : ℝ) (l : List ℝ) (i : ℕ) (hi : i < (l.map (bentPara (1 / 100) d e)).length), (∀ u ∈ l, |u| ≤ 2) →
      |d| ≤ 5 → |((l.map (bentPara (1 / 100) d e))[i]).b| ≤ 2 / 5 := by
    intro d e l i hi hl hd
    rw [List.getElem_map]
    simp only [bentPara]
    have := hl _ (List.getElem_mem (by simpa using hi : i < l.length))
    rw [abs_mul, abs_mul, abs_mul]
    have h1 := mul_le_mul this hd (abs_nonneg _) (by norm_num)
    norm_num [abs_of_pos]
    linarith
  have hl : ∀ u ∈ ([-2, -1, 1, 2] : List ℝ), |u| ≤ 2 := by simp [abs_le]; norm_num
  have b1 := val (0 - 5) (3 - 0) [-2, -1, 1, 2] k (by simp; omega) hl (by norm_num [abs_le])
  have b2 := val (0 - 5) (3 - 0) [-2, -1, 1, 2] (k + 1) (by simpa using hk) hl (by norm_num [abs_le])
  have b3 := val (0 - 3) (5 - 0) [-2, -1, 1, 2] m (by simp; omega) hl (by norm_num [abs_le])
  have b4 := val (0 - 3) (5 - 0) [-2, -1, 1, 2] (m + 1) (by simpa using hm) hl (by norm_num [abs_le])
  rw [abs_le] at b1 b2 b3 b4
  have ne : ∀ a b c d : ℝ, -(2 / 5) ≤ a ∧ a ≤ 2 / 5 → -(2 / 5) ≤ b ∧ b ≤ 2 / 5 → -(2 / 5) ≤ c ∧ c ≤ 2 / 5 → -(2 / 5) ≤ d ∧ d ≤ 2 / 5 →
      1 - (a + b) * 0.5 * ((c + d) * 0.5) ≠ 0 := by
    intro a b c d ha hb hc hd
    have h1 : |(a + b) * 0.5| ≤ 2 / 5 := abs_le.2 ⟨by linarith [ha.1, hb.1], by linarith [ha.2, hb.2]⟩
    have h2 : |(c + d) * 0.5| ≤ 2 / 5 := abs_le.2 ⟨by linarith [hc.1, hd.1], by linarith [hc.2, hd.2]⟩
    have h3 := mul_le_mul h1 h2 (abs_nonneg _) (by norm_num)
    rw [← abs_mul, abs_le] at h3
    linarith [h3.2]
  rw [finDiv_ok (ne _ _ _ _ b1 b2 b3 b4), finDiv_ok (ne _ _ _ _ b1 b2 b3 b4)]
  exact ⟨_, rfl⟩

/-- Non-vacuity: four barrel-bent lines per direction about `(5, 3)`. -/
example : findCentreVanishing refPolyfit refRoots refArgsort ([-2, -1, 1, 2].map (bentRow (-1 / 100))) ([-2, -1, 1, 2].map (bentCol (-1 / 100))) =
    .ok ⟨3, 5⟩ := by
  have hd : ((([-2, -1, 1, 2] : List ℝ).filter fun u => decide (u < 0)).length = 2) ∧
      ((([-2, -1, 1, 2] : List ℝ).filter fun u => decide (0 < u)).length = 2) := by
    constructor <;> simp
  refine C76_barrel refPolyfit refPolyfit_spec refRoots refRoots_spec refArgsort refArgsort_spec ⟨3, 5⟩ (-1 / 100) (-1 / 100) _ _ _ _
    (bent_example _ _ _ _) (by norm_num) (by norm_num) ?_ ?_ ?_ ?_
  · exact hd.1.ge
  · exact hd.2.ge
  · exact hd.1.ge
  · exact hd.2.ge

/-- Non-vacuity of the iteration and of C75. -/
example (n : ℕ) (method : RepMethod) :
    findCentreVanishingIter refPolyfit refLstsq refRoots refArgsort ([-2, -1, 1, 2].map (bentRow (-1 / 100)))
      ([-2, -1, 1, 2].map (bentCol (-1 / 100))) n method = .ok ⟨3, 5⟩ :=
  C76_iteration refPolyfit refPolyfit_spec refLstsq refLstsq_spec refRoots refRoots_spec refArgsort refArgsort_spec ⟨3, 5⟩ (-1 / 100) (-1 / 100)
    _ _ _ _ (bent_example _ _ _ _) (by norm_num) (by norm_num) (by simp) (by simp) (by norm_num) (by norm_num) both_example both_example n method

/-- Non-vacuity of the next estimate: lines bent about `(5, 3)`, where the estimate has settled. -/
example (n : ℕ) (method : RepMethod) :=
  C76_next refPolyfit refPolyfit_spec refLstsq refRoots refRoots_spec refArgsort _ _ n method ⟨3, 5⟩
    (C76_iteration refPolyfit refPolyfit_spec refLstsq refLstsq_spec refRoots refRoots_spec refArgsort refArgsort_spec ⟨3, 5⟩ (-1 / 100) (-1 / 100)
      _ _ _ _ (bent_example _ _ [-2, -1, 1, 2] [-2, -1, 1, 2]) (by norm_num) (by norm_num) (by simp) (by simp) (by norm_num) (by norm_num)
      both_example both_example n method) _ _
    (C75_fixed refPolyfit refPolyfit_spec refLstsq refLstsq_spec refArgsort refArgsort_spec ⟨3, 5⟩ (-1 / 100) (-1 / 100) _ _ _ _
      (bent_example _ _ [-2, -1, 1, 2] [-2, -1, 1, 2]) (by norm_num) (by norm_num) both_example both_example method .mean (by intro f hf; cases hf))
    ⟨3, 5⟩ (-1 / 100) (-1 / 100) _ _ (bent_example _ _ [-2, -1, 1, 2] [-2, -1, 1, 2]) (by norm_num) (by norm_num) (by simp) (by simp)
    (by norm_num) (by norm_num)

/-- Non-vacuity for pincushion distortion. -/
example : findCentreVanishing refPolyfit refRoots refArgsort ([-2, -1, 1, 2].map (bentRow (1 / 100))) ([-2, -1, 1, 2].map (bentCol (1 / 100))) =
    .ok ⟨3, 5⟩ := by
  obtain ⟨o, ho⟩ := coarse_bent_ok
  exact (C76_pincushion refPolyfit refPolyfit_spec refLstsq refLstsq_spec refRoots refRoots_spec refArgsort refArgsort_spec ⟨3, 5⟩
    (1 / 100) (1 / 100) _ _ _ _ (bent_example _ _ _ _) (by norm_num) (by norm_num) (by norm_num) both_example both_example o ho).1

/-- Non-vacuity of the fixed point of C75: lines bent about `(5, 3)`, in every mode. -/
example (method : RepMethod) :
    correctPerspectiveEffect refPolyfit refLstsq refArgsort ([-2, -1, 1, 2].map (bentRow (1 / 100))) ([-2, -1, 1, 2].map (bentCol (1 / 100)))
      5 3 method .max = .ok ([-2, -1, 1, 2].map (bentRow (1 / 100)), [-2, -1, 1, 2].map (bentCol (1 / 100))) :=
  C75_fixed refPolyfit refPolyfit_spec refLstsq refLstsq_spec refArgsort refArgsort_spec ⟨3, 5⟩ (1 / 100) (1 / 100) _ _ _ _
    (bent_example _ _ _ _) (by norm_num) (by norm_num) both_example both_example method .max (by intro f hf; cases hf)

/-- Non-vacuity of `C75_one_sided`: all rows are bent to the same side. -/
example (method : RepMethod) (scale : ScaleOpt) :=
  C75_one_sided refPolyfit refPolyfit_spec refLstsq refArgsort refArgsort_spec ([1, 2].map (bentRow 1)) ([-1, 2].map (bentCol 1)) (by simp [bentRow]) (by simp [bentCol])
    (by simp) (by simp) ⟨3, 5⟩ (by
      intro ch cv h _
      right; left
      have hb := (bent_example 1 1 [1, 2] [-1, 2]).hor
      rcases h with _ | ⟨h1, _ | ⟨h2, _ | _⟩⟩
      rcases hb with _ | ⟨b1, _ | ⟨b2, _ | _⟩⟩
      have e1 := lsqPara_exact (a' := 1) (b' := 0) (c' := 1) h1 (fun p hp => by rw [b1.on p hp]; ring) b1.three
      have e2 := lsqPara_exact (a' := 2) (b' := 0) (c' := 2) h2 (fun p hp => by rw [b2.on p hp]; ring) b2.three
      simp [e1.1, e2.1]) method scale

/-- Non-vacuity of `C76_straight` and `C76_few`. -/
example := C76_straight refPolyfit refPolyfit_spec refLstsq refRoots refRoots_spec refArgsort refArgsort_spec ⟨3, 5⟩ _ _ _ _ (bent_example 0 0 [-1, 2] [-1, 1])
  ⟨-1, by simp, 2, by simp, by norm_num⟩ ⟨-1, by simp, 1, by simp, by norm_num⟩

example := C76_few refPolyfit refPolyfit_spec refLstsq refRoots refArgsort refArgsort_spec [[⟨0, 0⟩, ⟨0, 1⟩]] [[⟨0, 0⟩, ⟨1, 0⟩]] (by simp) (by simp) (by simp)

end Discorpy
