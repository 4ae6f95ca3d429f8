import Verif.Lemmas.Vanish
import Verif.Props.C17
import Verif.Props.C21

/-! # C75: correction of the perspective effect on bent lines -/

namespace Discorpy

open Spec

theorem forall₂_map_self {α β : Type} {R : α → β → Prop} {f : α → β} {l : List α} (h : ∀ x ∈ l, R x (f x)) :
    List.Forall₂ R l (l.map f) := by
  rw [List.forall₂_map_right_iff, List.forall₂_same]
  exact h

/-- The result about the centre `c` of the perspective map with the coefficients `k`, as computed. -/
noncomputable def aboutCentre (c : Pt) (k : Fin 8 → ℝ) (p : Pt) : Pt :=
  ⟨(projPt k (relTo c p)).y + c.y, (projPt k (relTo c p)).x + c.x⟩

theorem relTo_aboutCentre (c : Pt) (k : Fin 8 → ℝ) (p : Pt) : relTo c (aboutCentre c k p) = projPt k (relTo c p) := by
  simp [relTo, aboutCentre]

theorem corrected_lines (c : Pt) (k : Fin 8 → ℝ) {lines : List (List Pt)} (hne : ∀ l ∈ lines, l ≠ []) :
    (do let r ← correctPerspectiveLine (lines.map (shiftLine c.x c.y)) (List.ofFn k)
        Except.ok (updateCenter r c.x c.y)) = .ok (lines.map fun l => l.map (aboutCentre c k)) := by
  rw [correctPerspectiveLine_eq k _ (by
    intro h
    obtain ⟨l, hl, e⟩ := List.mem_map.1 h
    unfold shiftLine at e
    exact hne l hl (List.map_eq_nil_iff.1 e))]
  simp only [ok_bind, updateCenter, List.map_map, Except.ok.injEq]
  apply List.map_congr_left
  intro l _
  simp only [Function.comp_apply, shiftLine, List.map_map]
  apply List.map_congr_left
  intro p _
  simp [aboutCentre, relTo]

/-- The last step of the function, given the coefficients. -/
theorem effect_of_coefs {pf : PolyfitFn} {lstsq : LstsqFn} {argsort : List ℝ → List ℕ} {hor ver : List (List Pt)}
    (nh : ∀ l ∈ hor, l ≠ []) (nv : ∀ l ∈ ver, l ≠ []) {c : Pt} {method : RepMethod} {scale : ScaleOpt} {ch cv : List Para}
    (eh : paraFitHor pf hor c.x c.y = .ok (ch, hor.map (shiftLine c.x c.y)))
    (ev : paraFitVer pf ver c.x c.y = .ok (cv, ver.map (shiftLine c.x c.y))) (h2 : 2 ≤ ch.length) (v2 : 2 ≤ cv.length)
    {pts s t : List Pt} (hp : representativePoints argsort method ch cv = .ok pts)
    (hg : generate4SourceTarget argsort pts false false scale = .ok (s, t)) {k : Fin 8 → ℝ}
    (hk : calcPerspectiveCoefs lstsq s t "forward" = .ok (List.ofFn k)) :
    correctPerspectiveEffect pf lstsq argsort hor ver c.x c.y method scale =
      .ok (hor.map (fun l => l.map (aboutCentre c k)), ver.map (fun l => l.map (aboutCentre c k))) := by
  have e1 := corrected_lines c k nh
  have e2 := corrected_lines c k nv
  unfold correctPerspectiveEffect
  rw [eh, ev]
  simp only [ok_bind]
  rw [if_neg (by omega), if_neg (by omega), hp]
  simp only [ok_bind, hg, hk]
  obtain ⟨r1, f1, g1⟩ := bind_ok_iff.1 e1
  obtain ⟨r2, f2, g2⟩ := bind_ok_iff.1 e2
  rw [f1, f2]
  simp only [ok_bind]
  rw [Except.ok.injEq] at g1 g2
  rw [g1, g2]

theorem two_of_opens {ch : List Para} (h1 : ∃ q ∈ ch, 0 < q.a) (h2 : ∃ q ∈ ch, q.a < 0) : 2 ≤ ch.length := by
  obtain ⟨p, hp, h1⟩ := h1
  obtain ⟨q, hq, h2⟩ := h2
  match ch with
  | [] => simp at hp
  | [a] =>
    rw [List.mem_singleton] at hp hq
    rw [hp] at h1; rw [hq] at h2; linarith
  | _ :: _ :: _ => simp

open Classical in
/-- **C75** (the map). Fit parabolas to all lines relative to the centre. If each direction has parabolas of both
curvatures, choose representative lines of the four groups by the given method. If the perspective map with coefficients
`k` carries the four cross points to the targets that `generate_4_source_target_perspective_points` gives for them, the
function applies exactly this map, about the centre, to every dot. -/
theorem C75_map (pf : PolyfitFn) (hpf : PolyfitSpec pf) (lstsq : LstsqFn) (hl : LstsqSpec lstsq)
    (argsort : List ℝ → List ℕ) (ha : ArgsortSpec argsort) (hor ver : List (List Pt)) (nh : ∀ l ∈ hor, l ≠ [])
    (nv : ∀ l ∈ ver, l ≠ []) (c : Pt) (method : RepMethod) (scale : ScaleOpt) :
    ∃ ch cv : List Para,
      List.Forall₂ (fun l q => IsLsqPara Pt.x Pt.y c.x c.y l q.a q.b q.c) hor ch ∧
      List.Forall₂ (fun l q => IsLsqPara Pt.y Pt.x c.y c.x l q.a q.b q.c) ver cv ∧
      ((∃ q ∈ ch, 0 < q.a) → (∃ q ∈ ch, q.a < 0) → (∃ q ∈ cv, 0 < q.a) → (∃ q ∈ cv, q.a < 0) →
        ∃ h1 h2 v1 v2 : Lin,
          IsRepresentative (ch.filter fun q => decide (0 < q.a)) h1 method ∧
          IsRepresentative (ch.filter fun q => decide (q.a < 0)) h2 method ∧
          IsRepresentative (cv.filter fun q => decide (0 < q.a)) v1 method ∧
          IsRepresentative (cv.filter fun q => decide (q.a < 0)) v2 method ∧
          ((∀ h ∈ [h1, h2], ∀ v ∈ [v1, v2], h.a * v.a ≠ 1) →
            ∀ p1 p2 p3 p4 : Pt, onHorLine h1.a h1.b p1 ∧ onVerLine v1.a v1.b p1 → onHorLine h1.a h1.b p2 ∧ onVerLine v2.a v2.b p2 →
            onHorLine h2.a h2.b p3 ∧ onVerLine v1.a v1.b p3 → onHorLine h2.a h2.b p4 ∧ onVerLine v2.a v2.b p4 →
            ∀ s t, generate4SourceTarget argsort [p1, p2, p3, p4] false false scale = .ok (s, t) →
            ∀ k : Fin 8 → ℝ, List.Forall₂ (IsImage (coefMatrix k)) s t → (coefMatrix k).det ≠ 0 →
            (∃ p : Fin 4 → Pt, (∀ i, p i ∈ s) ∧ ∀ i j l : Fin 4, i ≠ j → j ≠ l → i ≠ l → ¬ Collinear3 (p i) (p j) (p l)) →
            ∃ h' v', correctPerspectiveEffect pf lstsq argsort hor ver c.x c.y method scale = .ok (h', v') ∧
              List.Forall₂ (List.Forall₂ fun p q => FiniteAt (coefMatrix k) (relTo c p) → IsImageAbout c (coefMatrix k) p q) hor h' ∧
              List.Forall₂ (List.Forall₂ fun p q => FiniteAt (coefMatrix k) (relTo c p) → IsImageAbout c (coefMatrix k) p q) ver v')) := by
  obtain ⟨ch, eh, gh⟩ := paraFitHor_ok hpf nh c.x c.y
  obtain ⟨cv, ev, gv⟩ := paraFitVer_ok hpf nv c.x c.y
  refine ⟨ch, cv, gh, gv, fun a1 a2 a3 a4 => ?_⟩
  have up : ∀ l : List Para, opensUp l = l.filter fun q => decide (0 < q.a) := fun l => rfl
  have down : ∀ l : List Para, opensDown l = l.filter fun q => decide (q.a < 0) := fun l => rfl
  have neu : ∀ l : List Para, (∃ q ∈ l, 0 < q.a) → opensUp l ≠ [] := fun l ⟨q, hq, h⟩ => List.ne_nil_of_mem (mem_opensUp.2 ⟨hq, h⟩)
  have ned : ∀ l : List Para, (∃ q ∈ l, q.a < 0) → opensDown l ≠ [] := fun l ⟨q, hq, h⟩ => List.ne_nil_of_mem (mem_opensDown.2 ⟨hq, h⟩)
  obtain ⟨h1, e1, r1⟩ := representativeLine_ok ha method (neu ch a1) (.inl fun q hq => (mem_opensUp.1 hq).2)
  obtain ⟨h2, e2, r2⟩ := representativeLine_ok ha method (ned ch a2) (.inr fun q hq => (mem_opensDown.1 hq).2)
  obtain ⟨v1, e3, r3⟩ := representativeLine_ok ha method (neu cv a3) (.inl fun q hq => (mem_opensUp.1 hq).2)
  obtain ⟨v2, e4, r4⟩ := representativeLine_ok ha method (ned cv a4) (.inr fun q hq => (mem_opensDown.1 hq).2)
  refine ⟨h1, h2, v1, v2, r1, r2, r3, r4, fun hpar p1 p2 p3 p4 o1 o2 o3 o4 s t hg k hex hdet ⟨p, hp, hgen⟩ => ?_⟩
  have cr : ∀ h ∈ [h1, h2], ∀ v ∈ [v1, v2], ∀ p, onHorLine h.a h.b p ∧ onVerLine v.a v.b p → crossPoint h v = .ok p := by
    intro h hh v hv p ⟨b1, b2⟩
    rw [crossPoint_eq (hpar h hh v hv), cross_unique (hpar h hh v hv) b1 b2 (crossPt_on (hpar h hh v hv)).1 (crossPt_on (hpar h hh v hv)).2]
  have hpts : representativePoints argsort method ch cv = .ok [p1, p2, p3, p4] := by
    unfold representativePoints
    rw [e1, e2, e3, e4]
    simp only [ok_bind]
    rw [cr h1 (by simp) v1 (by simp) p1 o1, cr h1 (by simp) v2 (by simp) p2 o2, cr h2 (by simp) v1 (by simp) p3 o3,
      cr h2 (by simp) v2 (by simp) p4 o4]
    rfl
  refine ⟨_, _, effect_of_coefs nh nv eh ev (two_of_opens a1 a2) (two_of_opens a3 a4) hpts hg
    (C17_recovers lstsq hl s t k hex hdet p hp hgen), ?_, ?_⟩
  all_goals
    refine forall₂_map_self fun l _ => forall₂_map_self fun p _ hf => ?_
    unfold IsImageAbout
    rw [relTo_aboutCentre]
    exact isImage_projPt hf

/-- **C75** (too few lines): fewer than two lines in a direction raise `ValueError`. -/
theorem C75_few (pf : PolyfitFn) (hpf : PolyfitSpec pf) (lstsq : LstsqFn) (argsort : List ℝ → List ℕ)
    (hor ver : List (List Pt)) (nh : ∀ l ∈ hor, l ≠ []) (nv : ∀ l ∈ ver, l ≠ []) (hf : hor.length < 2 ∨ ver.length < 2)
    (xc yc : ℝ) (method : RepMethod) (scale : ScaleOpt) :
    correctPerspectiveEffect pf lstsq argsort hor ver xc yc method scale = .error .valueError := by
  obtain ⟨ch, eh, gh⟩ := paraFitHor_ok hpf nh xc yc
  obtain ⟨cv, ev, gv⟩ := paraFitVer_ok hpf nv xc yc
  have lh := gh.length_eq
  have lv := gv.length_eq
  unfold correctPerspectiveEffect
  rw [eh, ev]
  simp only [ok_bind]
  split
  · rfl
  · split
    · rfl
    · omega

/-- The exception for a group without lines. -/
def missingErr : RepMethod → PyErr
  | .max | .min => .indexError
  | .mean | .median => .nonFinite

theorem representativePoints_missing {argsort : List ℝ → List ℕ} (ha : ArgsortSpec argsort) (method : RepMethod)
    {ch cv : List Para} (h : opensUp ch = [] ∨ opensDown ch = [] ∨ opensUp cv = [] ∨ opensDown cv = []) :
    representativePoints argsort method ch cv = .error (missingErr method) := by
  have hn : representativeLine argsort method [] = .error (missingErr method) := by
    rw [representativeLine_nil ha]; cases method <;> rfl
  have hu : ∀ l, representativeLine argsort method (opensUp l) = .error (missingErr method) ∨
      (opensUp l ≠ [] ∧ ∃ r, representativeLine argsort method (opensUp l) = .ok r) := fun l => by
    by_cases hl : opensUp l = []
    · left; rw [hl, hn]
    · obtain ⟨r, e, _⟩ := representativeLine_ok ha method hl (.inl fun q hq => (mem_opensUp.1 hq).2)
      exact .inr ⟨hl, r, e⟩
  have hd : ∀ l, representativeLine argsort method (opensDown l) = .error (missingErr method) ∨
      (opensDown l ≠ [] ∧ ∃ r, representativeLine argsort method (opensDown l) = .ok r) := fun l => by
    by_cases hl : opensDown l = []
    · left; rw [hl, hn]
    · obtain ⟨r, e, _⟩ := representativeLine_ok ha method hl (.inr fun q hq => (mem_opensDown.1 hq).2)
      exact .inr ⟨hl, r, e⟩
  unfold representativePoints
  rcases hu ch with e | ⟨n1, r1, e⟩ <;> rw [e]
  · rfl
  simp only [ok_bind]
  rcases hd ch with e | ⟨n2, r2, e⟩ <;> rw [e]
  · rfl
  simp only [ok_bind]
  rcases hu cv with e | ⟨n3, r3, e⟩ <;> rw [e]
  · rfl
  simp only [ok_bind]
  rcases hd cv with e | ⟨n4, r4, e⟩ <;> rw [e]
  · rfl
  simp_all

/-- **C75** (violation): when each direction has at least two lines but in one direction none is bent to one of the two
sides, the documented `ValueError` ("Input error!!! No curved line open ...") is never raised: the methods `mean` and
`median` go on with nan, `max` and `min` raise `IndexError`. -/
theorem C75_one_sided (pf : PolyfitFn) (hpf : PolyfitSpec pf) (lstsq : LstsqFn) (argsort : List ℝ → List ℕ)
    (ha : ArgsortSpec argsort) (hor ver : List (List Pt)) (nh : ∀ l ∈ hor, l ≠ []) (nv : ∀ l ∈ ver, l ≠ []) (h2 : 2 ≤ hor.length)
    (v2 : 2 ≤ ver.length) (c : Pt)
    (hs : ∀ ch cv, List.Forall₂ (fun l (q : Para) => IsLsqPara Pt.x Pt.y c.x c.y l q.a q.b q.c) hor ch →
      List.Forall₂ (fun l (q : Para) => IsLsqPara Pt.y Pt.x c.y c.x l q.a q.b q.c) ver cv →
      (∀ q ∈ ch, q.a ≤ 0) ∨ (∀ q ∈ ch, 0 ≤ q.a) ∨ (∀ q ∈ cv, q.a ≤ 0) ∨ ∀ q ∈ cv, 0 ≤ q.a)
    (method : RepMethod) (scale : ScaleOpt) :
    correctPerspectiveEffect pf lstsq argsort hor ver c.x c.y method scale =
      .error (match method with | .max | .min => .indexError | .mean | .median => .nonFinite) := by
  obtain ⟨ch, eh, gh⟩ := paraFitHor_ok hpf nh c.x c.y
  obtain ⟨cv, ev, gv⟩ := paraFitVer_ok hpf nv c.x c.y
  have lh := gh.length_eq
  have lv := gv.length_eq
  have nu : ∀ l : List Para, (∀ q ∈ l, q.a ≤ 0) → opensUp l = [] := fun l hq => by
    rw [List.eq_nil_iff_forall_not_mem]
    intro q hm
    exact absurd (mem_opensUp.1 hm).2 (not_lt.2 (hq q (mem_opensUp.1 hm).1))
  have nd : ∀ l : List Para, (∀ q ∈ l, 0 ≤ q.a) → opensDown l = [] := fun l hq => by
    rw [List.eq_nil_iff_forall_not_mem]
    intro q hm
    exact absurd (mem_opensDown.1 hm).2 (not_lt.2 (hq q (mem_opensDown.1 hm).1))
  have hr := representativePoints_missing ha method ((hs ch cv gh gv).imp (nu ch) (Or.imp (nd ch) (Or.imp (nu cv) (nd cv))))
  unfold correctPerspectiveEffect
  rw [eh, ev]
  simp only [ok_bind]
  rw [if_neg (by omega), if_neg (by omega), hr]
  cases method <;> rfl

/-- Both signs occur. -/
def BothSigns (l : List ℝ) : Prop := (∃ u ∈ l, 0 < u) ∧ ∃ u ∈ l, u < 0

theorem rect_gen {yt yb xl xr : ℝ} (hy : yt < yb) (hx : xl < xr) (i j k : Fin 4) (h1 : i ≠ j) (h2 : j ≠ k) (h3 : i ≠ k) :
    ¬ Collinear3 ((![⟨yt, xl⟩, ⟨yt, xr⟩, ⟨yb, xl⟩, ⟨yb, xr⟩] : Fin 4 → Pt) i)
      ((![⟨yt, xl⟩, ⟨yt, xr⟩, ⟨yb, xl⟩, ⟨yb, xr⟩] : Fin 4 → Pt) j) ((![⟨yt, xl⟩, ⟨yt, xr⟩, ⟨yb, xl⟩, ⟨yb, xr⟩] : Fin 4 → Pt) k) := by
  have hy' : yb - yt ≠ 0 := by linarith
  have hy'' : yt - yb ≠ 0 := by linarith
  have hx' : xr - xl ≠ 0 := by linarith
  have hx'' : xl - xr ≠ 0 := by linarith
  unfold Collinear3
  fin_cases i <;> fin_cases j <;> fin_cases k <;> simp_all

theorem rect_fixed {argsort : List ℝ → List ℕ} (ha : ArgsortSpec argsort) {lstsq : LstsqFn} (hl : LstsqSpec lstsq)
    {y1 y2 x1 x2 : ℝ} (hy : y1 ≠ y2) (hx : x1 ≠ x2) (scale : ScaleOpt) (hs : ∀ f, scale = .float f → f = 1) :
    ∃ s, generate4SourceTarget argsort [⟨y1, x1⟩, ⟨y1, x2⟩, ⟨y2, x1⟩, ⟨y2, x2⟩] false false scale = .ok (s, s) ∧
      calcPerspectiveCoefs lstsq s s "forward" = .ok (List.ofFn ![1, 0, 0, 0, 1, 0, 0, 0]) := by
  obtain ⟨yt, yb, xl, xr, hy, hx, hperm⟩ : ∃ yt yb xl xr : ℝ, yt < yb ∧ xl < xr ∧
      ([⟨y1, x1⟩, ⟨y1, x2⟩, ⟨y2, x1⟩, ⟨y2, x2⟩] : List Pt).Perm [⟨yt, xl⟩, ⟨yt, xr⟩, ⟨yb, xl⟩, ⟨yb, xr⟩] := by
    have hsw : ∀ a b c d : Pt, ([a, b, c, d] : List Pt).Perm [b, a, d, c] := fun a b c d =>
      List.Perm.append (List.Perm.swap b a []) (List.Perm.swap d c [])
    have hud : ∀ a b c d : Pt, ([a, b, c, d] : List Pt).Perm [c, d, a, b] := fun a b c d =>
      List.perm_append_comm (l₁ := [a, b]) (l₂ := [c, d])
    rcases lt_or_gt_of_ne hy with h | h <;> rcases lt_or_gt_of_ne hx with g | g
    · exact ⟨y1, y2, x1, x2, h, g, .refl _⟩
    · exact ⟨y1, y2, x2, x1, h, g, hsw _ _ _ _⟩
    · exact ⟨y2, y1, x1, x2, h, g, hud _ _ _ _⟩
    · exact ⟨y2, y1, x2, x1, h, g, (hsw _ _ _ _).trans (hud _ _ _ _)⟩
  refine ⟨[⟨yt, xl⟩, ⟨yt, xr⟩, ⟨yb, xl⟩, ⟨yb, xr⟩], ?_, ?_⟩
  · refine C21_fixed argsort ha _ false _ _ _ _ (by simpa using hperm) hy hy hx (xr - xl) (yb - yt) ?_ hy scale hs
    constructor <;> simp only [ptDist]
    · ring
    · ring
    · rw [show (xl - xr) ^ 2 + (yt - yt) ^ 2 = (xr - xl) ^ 2 by ring, Real.sqrt_sq_eq_abs]
    · rw [show (xl - xl) ^ 2 + (yt - yb) ^ 2 = (yb - yt) ^ 2 by ring, Real.sqrt_sq_eq_abs]
    · exact hx.le
    · exact hy.le
  · have hone : coefMatrix ![1, 0, 0, 0, 1, 0, 0, 0] = 1 := by
      ext i j; fin_cases i <;> fin_cases j <;> simp [coefMatrix]
    refine C17_recovers lstsq hl _ _ ![1, 0, 0, 0, 1, 0, 0, 0] ?_ (by rw [hone]; simp)
      ![⟨yt, xl⟩, ⟨yt, xr⟩, ⟨yb, xl⟩, ⟨yb, xr⟩] (by intro i; fin_cases i <;> simp) (rect_gen hy hx)
    rw [hone, List.forall₂_same]
    exact fun p _ => isImage_one p

theorem aboutCentre_id (c p : Pt) : aboutCentre c ![1, 0, 0, 0, 1, 0, 0, 0] p = p := by
  simp [aboutCentre, projPt, relTo]

/-- The representative lines of the four groups of an ideally bent pattern about its centre. -/
theorem bent_representative {argsort : List ℝ → List ℕ} (ha : ArgsortSpec argsort) (method : RepMethod) {k : ℝ} (hk : k ≠ 0)
    {us : List ℝ} (hu : BothSigns us) :
    ∃ y1 y2, y1 ≠ y2 ∧ representativeLine argsort method (opensUp (us.map (bentPara k 0 0))) = .ok ⟨0, y1⟩ ∧
      representativeLine argsort method (opensDown (us.map (bentPara k 0 0))) = .ok ⟨0, y2⟩ := by
  obtain ⟨⟨u, mu, pu⟩, v, mv, nv⟩ := hu
  have hk2 : 0 < k * k := mul_self_pos.2 hk
  have mem : ∀ q ∈ us.map (bentPara k 0 0), q.b = 0 ∧ q.a = k * q.c := by
    intro q hq
    obtain ⟨w, _, rfl⟩ := List.mem_map.1 hq
    simp [bentPara, mul_comm]
  have ku : (bentPara k 0 0 u).a = u * k := rfl
  have kv : (bentPara k 0 0 v).a = v * k := rfl
  have hup : opensUp (us.map (bentPara k 0 0)) ≠ [] := by
    rcases lt_or_gt_of_ne hk with h | h
    · exact List.ne_nil_of_mem (mem_opensUp.2 ⟨List.mem_map_of_mem mv, by rw [kv]; nlinarith⟩)
    · exact List.ne_nil_of_mem (mem_opensUp.2 ⟨List.mem_map_of_mem mu, by rw [ku]; positivity⟩)
  have hdown : opensDown (us.map (bentPara k 0 0)) ≠ [] := by
    rcases lt_or_gt_of_ne hk with h | h
    · exact List.ne_nil_of_mem (mem_opensDown.2 ⟨List.mem_map_of_mem mu, by rw [ku]; nlinarith⟩)
    · exact List.ne_nil_of_mem (mem_opensDown.2 ⟨List.mem_map_of_mem mv, by rw [kv]; nlinarith⟩)
  obtain ⟨⟨a1, b1⟩, e1, r1⟩ := representativeLine_ok ha method hup (.inl fun q hq => (mem_opensUp.1 hq).2)
  obtain ⟨⟨a2, b2⟩, e2, r2⟩ := representativeLine_ok ha method hdown (.inr fun q hq => (mem_opensDown.1 hq).2)
  obtain ⟨z1, s1⟩ := representative_sign (s := k) r1 hup (fun q hq => (mem q (mem_opensUp.1 hq).1).1) (fun q hq => by
    rw [← (mem q (mem_opensUp.1 hq).1).2]; exact (mem_opensUp.1 hq).2)
  obtain ⟨z2, s2⟩ := representative_sign (s := -k) r2 hdown (fun q hq => (mem q (mem_opensDown.1 hq).1).1) (fun q hq => by
    have := (mem q (mem_opensDown.1 hq).1).2
    have := (mem_opensDown.1 hq).2
    linarith)
  simp only at z1 z2 s1 s2
  subst z1 z2
  refine ⟨b1, b2, ?_, e1, e2⟩
  rintro rfl
  linarith

/-- **C75** (fixed point). A pattern that has no perspective effect — lines bent in proportion to their distance from the
centre given, on both sides of it in both directions — is returned unchanged, for every method and every scale option but
a factor different from 1. -/
theorem C75_fixed (pf : PolyfitFn) (hpf : PolyfitSpec pf) (lstsq : LstsqFn) (hl : LstsqSpec lstsq)
    (argsort : List ℝ → List ℕ) (ha : ArgsortSpec argsort) (c : Pt) (kh kv : ℝ) (us vs : List ℝ) (hor ver : List (List Pt))
    (h : IsBentPattern c kh kv us vs hor ver) (hkh : kh ≠ 0) (hkv : kv ≠ 0) (hu : BothSigns us) (hv : BothSigns vs)
    (method : RepMethod) (scale : ScaleOpt) (hs : ∀ f, scale = .float f → f = 1) :
    correctPerspectiveEffect pf lstsq argsort hor ver c.x c.y method scale = .ok (hor, ver) := by
  have eh := bent_fitHor hpf h.hor c.x c.y
  have ev := bent_fitVer hpf h.ver c.x c.y
  rw [sub_self, sub_self] at eh ev
  obtain ⟨y1, y2, hy, e1, e2⟩ := bent_representative ha method hkh hu
  obtain ⟨x1, x2, hx, e3, e4⟩ := bent_representative ha method hkv hv
  have hpts : representativePoints argsort method (us.map (bentPara kh 0 0)) (vs.map (bentPara kv 0 0)) =
      .ok [⟨y1, x1⟩, ⟨y1, x2⟩, ⟨y2, x1⟩, ⟨y2, x2⟩] := by
    unfold representativePoints
    rw [e1, e2, e3, e4]
    simp [ok_bind, crossPoint, finDiv]
  obtain ⟨s, hg, hk⟩ := rect_fixed ha hl hy hx scale hs
  have two : ∀ l : List ℝ, BothSigns l → 2 ≤ l.length := by
    rintro l ⟨⟨u, hu, pu⟩, v, hv, nv⟩
    match l with
    | [] => simp at hu
    | [a] => rw [List.mem_singleton] at hu hv; linarith
    | _ :: _ :: _ => simp
  have nil : ∀ {al ac : Pt → ℝ} {k : ℝ} {us : List ℝ} {lines : List (List Pt)}, List.Forall₂ (IsBentLine al ac c k) us lines →
      ∀ l ∈ lines, l ≠ [] := by
    intro al ac k us lines hf
    induction hf with
    | nil => simp
    | cons hd _ ih => simpa using ⟨hd.ne_nil, ih⟩
  rw [effect_of_coefs (nil h.hor) (nil h.ver) eh ev (by simpa using two us hu) (by simpa using two vs hv) hpts hg hk]
  have : (fun l : List Pt => l.map (aboutCentre c ![1, 0, 0, 0, 1, 0, 0, 0])) = id := by
    ext1 l
    rw [show aboutCentre c ![1, 0, 0, 0, 1, 0, 0, 0] = id from funext (aboutCentre_id c), List.map_id, id]
  rw [this, List.map_id, List.map_id]

example (method : RepMethod) (scale : ScaleOpt) := C75_map refPolyfit refPolyfit_spec refLstsq refLstsq_spec refArgsort refArgsort_spec [[⟨0, 0⟩, ⟨1, 1⟩, ⟨4, 2⟩]] [[⟨0, 0⟩, ⟨1, 0⟩]]
  (by simp) (by simp) ⟨1, 2⟩ method scale

example (method : RepMethod) (scale : ScaleOpt) := C75_few refPolyfit refPolyfit_spec refLstsq refArgsort [[⟨0, 0⟩, ⟨1, 1⟩, ⟨4, 2⟩]] [[⟨0, 0⟩, ⟨1, 0⟩]]
  (by simp) (by simp) (.inl (by simp)) 1 2 method scale

end Discorpy
