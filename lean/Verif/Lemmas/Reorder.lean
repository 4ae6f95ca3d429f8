import Verif.Spec.Reorder
import Verif.Lemmas.FitUnique
import Verif.Lemmas.SymmetryFit
import Verif.Lemmas.Except
import Verif.Model.GridPara
import Verif.Model.Vanish
import Verif.Model.Prep
import Verif.Model.Post

/-! # Helper lemmas: fits do not depend on the order of the dots -/


namespace Discorpy

open Spec

theorem fitError_perm {l l' : List Pt} (h : l.Perm l') (f g : Pt → ℝ) (q : List ℝ) :
    fitError (l.map f) (l.map g) q = fitError (l'.map f) (l'.map g) q := by
  unfold fitError
  rw [List.zip_map', List.zip_map', List.map_map, List.map_map]
  exact (h.map _).sum_eq

theorem quadratic_three {p q : List ℝ} (hp : p.length = 3) (hq : q.length = 3) {x y z : ℝ} (hxy : x ≠ y) (hyz : y ≠ z) (hxz : x ≠ z)
    (h0 : polyval p x = polyval q x) (h1 : polyval p y = polyval q y) (h2 : polyval p z = polyval q z) : p = q := by
  obtain ⟨a, b, c, rfl⟩ := List.length_eq_three.1 hp
  obtain ⟨d, e, f, rfl⟩ := List.length_eq_three.1 hq
  simp [polyval] at h0 h1 h2
  have e1 : (a - d) * (x + y) + (b - e) = 0 := by
    apply mul_left_cancel₀ (sub_ne_zero.2 hxy)
    linear_combination h0 - h1
  have e2 : (a - d) * (y + z) + (b - e) = 0 := by
    apply mul_left_cancel₀ (sub_ne_zero.2 hyz)
    linear_combination h1 - h2
  have e3 : a - d = 0 := by
    apply mul_left_cancel₀ (sub_ne_zero.2 hxz)
    linear_combination e1 - e2
  have e4 : b - e = 0 := by rw [e3] at e1; linarith
  have ha : a = d := by linarith
  have hb : b = e := by linarith
  subst ha hb
  simp only [List.cons.injEq, true_and, and_true]
  linarith

theorem linear_two {p q : List ℝ} (hp : p.length = 2) (hq : q.length = 2) {x y : ℝ} (hxy : x ≠ y)
    (h0 : polyval p x = polyval q x) (h1 : polyval p y = polyval q y) : p = q := by
  obtain ⟨a, b, rfl⟩ := List.length_eq_two.1 hp
  obtain ⟨d, e, rfl⟩ := List.length_eq_two.1 hq
  simp [polyval] at h0 h1
  have e1 : a - d = 0 := by
    apply mul_left_cancel₀ (sub_ne_zero.2 hxy)
    linear_combination h0 - h1
  have ha : a = d := by linarith
  subst ha
  simp only [List.cons.injEq, true_and, and_true]
  linarith

/-- Fits of the same dots in another order agree at the dots. -/
theorem polyfit_perm_values {pf : PolyfitFn} (hpf : PolyfitSpec pf) {l l' : List Pt} (h : l.Perm l') (hne : l ≠ []) (f g : Pt → ℝ) (deg : ℕ) :
    ∀ p ∈ l, polyval (pf (l.map f) (l.map g) deg) (f p) = polyval (pf (l'.map f) (l'.map g) deg) (f p) := by
  intro p hp
  have hne' : l' ≠ [] := fun e => hne (by rw [e] at h; exact h.eq_nil)
  refine hpf.unique (by simp) (by simpa using hne) (hpf.length _ _ _ (by simp) (by simpa using hne')) (fun r hr => ?_) _ (List.mem_map.2 ⟨p, hp, rfl⟩)
  rw [fitError_perm h, fitError_perm h]
  exact hpf.minimal _ _ _ (by simp) (by simpa using hne') r hr

theorem polyfit_perm_para {pf : PolyfitFn} (hpf : PolyfitSpec pf) {l l' : List Pt} (h : l.Perm l') (f g : Pt → ℝ)
    (h3 : ∃ p ∈ l, ∃ q ∈ l, ∃ r ∈ l, f p ≠ f q ∧ f p ≠ f r ∧ f q ≠ f r) : pf (l.map f) (l.map g) 2 = pf (l'.map f) (l'.map g) 2 := by
  obtain ⟨p, hp, q, hq, r, hr, h1, h2, h3⟩ := h3
  have hne : l ≠ [] := List.ne_nil_of_mem hp
  have hne' : l' ≠ [] := List.ne_nil_of_mem (h.mem_iff.1 hp)
  have key := polyfit_perm_values hpf h hne f g 2
  exact quadratic_three (hpf.length _ _ _ (by simp) (by simpa using hne)) (hpf.length _ _ _ (by simp) (by simpa using hne')) h1 h3 h2
    (key p hp) (key q hq) (key r hr)

theorem polyfit_perm_lin {pf : PolyfitFn} (hpf : PolyfitSpec pf) {l l' : List Pt} (h : l.Perm l') (f g : Pt → ℝ)
    (h3 : ∃ p ∈ l, ∃ q ∈ l, f p ≠ f q) : pf (l.map f) (l.map g) 1 = pf (l'.map f) (l'.map g) 1 := by
  obtain ⟨p, hp, q, hq, h1⟩ := h3
  have hne : l ≠ [] := List.ne_nil_of_mem hp
  have hne' : l' ≠ [] := List.ne_nil_of_mem (h.mem_iff.1 hp)
  have key := polyfit_perm_values hpf h hne f g 1
  exact linear_two (hpf.length _ _ _ (by simp) (by simpa using hne)) (hpf.length _ _ _ (by simp) (by simpa using hne')) h1 (key p hp) (key q hq)

theorem nil_iff_perm {α : Type} {l l' : List α} (h : l.Perm l') : l = [] ↔ l' = [] :=
  ⟨fun e => (e ▸ h).symm.eq_nil, fun e => (e ▸ h).eq_nil⟩

theorem paraHor_perm {pf : PolyfitFn} (hpf : PolyfitSpec pf) {l l' : List Pt} (h : l.Perm l') (xc yc : ℝ)
    (h3 : ∃ p ∈ l, ∃ q ∈ l, ∃ r ∈ l, p.x ≠ q.x ∧ p.x ≠ r.x ∧ q.x ≠ r.x) : paraHor pf xc yc l = paraHor pf xc yc l' := by
  unfold paraHor
  rw [polyfit_perm_para hpf h (fun p => p.x - xc) (fun p => p.y - yc) (by
    obtain ⟨p, hp, q, hq, r, hr, h1, h2, h3⟩ := h3
    exact ⟨p, hp, q, hq, r, hr, fun e => h1 (by linarith), fun e => h2 (by linarith), fun e => h3 (by linarith)⟩)]
  simp only [nil_iff_perm h]

theorem paraVer_perm {pf : PolyfitFn} (hpf : PolyfitSpec pf) {l l' : List Pt} (h : l.Perm l') (xc yc : ℝ)
    (h3 : ∃ p ∈ l, ∃ q ∈ l, ∃ r ∈ l, p.y ≠ q.y ∧ p.y ≠ r.y ∧ q.y ≠ r.y) : paraVer pf xc yc l = paraVer pf xc yc l' := by
  unfold paraVer
  rw [polyfit_perm_para hpf h (fun p => p.y - yc) (fun p => p.x - xc) (by
    obtain ⟨p, hp, q, hq, r, hr, h1, h2, h3⟩ := h3
    exact ⟨p, hp, q, hq, r, hr, fun e => h1 (by linarith), fun e => h2 (by linarith), fun e => h3 (by linarith)⟩)]
  simp only [nil_iff_perm h]

theorem mapM_reordered {β : Type} {f : List Pt → Except PyErr β} {P : List Pt → Prop} (hf : ∀ l l', l.Perm l' → P l → f l = f l')
    {lines lines' : List (List Pt)} (h : Reordered lines lines') (h3 : ∀ l ∈ lines, P l) : lines.mapM f = lines'.mapM f := by
  induction h with
  | nil => rfl
  | cons hab _ ih =>
    rw [List.mapM_cons, List.mapM_cons, hf _ _ hab (h3 _ List.mem_cons_self), ih fun l hl => h3 l (List.mem_cons_of_mem _ hl)]

theorem reordered_length {lines lines' : List (List Pt)} (h : Reordered lines lines') : lines.length = lines'.length := List.Forall₂.length_eq h

theorem reordered_map {lines lines' : List (List Pt)} (h : Reordered lines lines') (f : Pt → Pt) :
    Reordered (lines.map fun l => l.map f) (lines'.map fun l => l.map f) := by
  unfold Reordered
  rw [List.forall₂_map_left_iff, List.forall₂_map_right_iff]
  exact h.imp fun _ _ hp => hp.map f

theorem reordered_slice {lines lines' : List (List Pt)} (h : Reordered lines lines') (a b : ℕ) : Reordered (npSlice lines a b) (npSlice lines' a b) := by
  unfold npSlice
  first
    | exact List.forall₂_take _ (List.forall₂_drop _ h)
    | exact List.forall₂_drop _ (List.forall₂_take _ h)

theorem threePlaces_slice {along : Pt → ℝ} {lines : List (List Pt)} (h : ThreePlaces along lines) (a b : ℕ) : ThreePlaces along (npSlice lines a b) := by
  intro l hl
  refine h l ?_
  unfold npSlice at hl
  first
    | exact List.mem_of_mem_drop (List.mem_of_mem_take hl)
    | exact List.mem_of_mem_take (List.mem_of_mem_drop hl)

theorem threePlaces_map {along : Pt → ℝ} {lines : List (List Pt)} (h : ThreePlaces along lines) {f : Pt → Pt}
    (hf : ∀ p q, along p ≠ along q → along (f p) ≠ along (f q)) : ThreePlaces along (lines.map fun l => l.map f) := by
  intro l hl
  obtain ⟨m, hm, rfl⟩ := List.mem_map.1 hl
  obtain ⟨p, hp, q, hq, r, hr, h1, h2, h3⟩ := h m hm
  exact ⟨_, List.mem_map.2 ⟨p, hp, rfl⟩, _, List.mem_map.2 ⟨q, hq, rfl⟩, _, List.mem_map.2 ⟨r, hr, rfl⟩, hf _ _ h1, hf _ _ h2, hf _ _ h3⟩

theorem hor_coefs_perm {pf : PolyfitFn} (hpf : PolyfitSpec pf) {lines lines' : List (List Pt)} (h : Reordered lines lines')
    (h3 : ThreePlaces Pt.x lines) (xc yc : ℝ) : lines.mapM (paraHor pf xc yc) = lines'.mapM (paraHor pf xc yc) :=
  mapM_reordered (fun _ _ hp h3 => paraHor_perm hpf hp xc yc h3) h h3

theorem ver_coefs_perm {pf : PolyfitFn} (hpf : PolyfitSpec pf) {lines lines' : List (List Pt)} (h : Reordered lines lines')
    (h3 : ThreePlaces Pt.y lines) (xc yc : ℝ) : lines.mapM (paraVer pf xc yc) = lines'.mapM (paraVer pf xc yc) :=
  mapM_reordered (fun _ _ hp h3 => paraVer_perm hpf hp xc yc h3) h h3


theorem linHor_perm {pf : PolyfitFn} (hpf : PolyfitSpec pf) {l l' : List Pt} (h : l.Perm l') (xc yc : ℝ)
    (h2 : ∃ p ∈ l, ∃ q ∈ l, p.x ≠ q.x) : linHor pf xc yc l = linHor pf xc yc l' := by
  unfold linHor
  rw [polyfit_perm_lin hpf h (fun p => p.x - xc) (fun p => p.y - yc) (by
    obtain ⟨p, hp, q, hq, h1⟩ := h2
    exact ⟨p, hp, q, hq, fun e => h1 (by linarith)⟩)]
  simp only [nil_iff_perm h]

theorem linVer_perm {pf : PolyfitFn} (hpf : PolyfitSpec pf) {l l' : List Pt} (h : l.Perm l') (xc yc : ℝ)
    (h2 : ∃ p ∈ l, ∃ q ∈ l, p.y ≠ q.y) : linVer pf xc yc l = linVer pf xc yc l' := by
  unfold linVer
  rw [polyfit_perm_lin hpf h (fun p => p.y - yc) (fun p => p.x - xc) (by
    obtain ⟨p, hp, q, hq, h1⟩ := h2
    exact ⟨p, hp, q, hq, fun e => h1 (by linarith)⟩)]
  simp only [nil_iff_perm h]

theorem linearCoef_perm {pf : PolyfitFn} (hpf : PolyfitSpec pf) {hor hor' ver ver' : List (List Pt)} (hh : Reordered hor hor')
    (hv : Reordered ver ver') (h2 : TwoPlaces Pt.x hor) (v2 : TwoPlaces Pt.y ver) (xc yc : ℝ) :
    generateLinearCoef pf hor ver xc yc = generateLinearCoef pf hor' ver' xc yc := by
  unfold generateLinearCoef
  rw [mapM_reordered (fun _ _ hp h => linHor_perm hpf hp xc yc h) hh h2, mapM_reordered (fun _ _ hp h => linVer_perm hpf hp xc yc h) hv v2]

/-- The parts of a reordering that the fits see. -/
structure SameFits (pf : PolyfitFn) (hor hor' ver ver' : List (List Pt)) : Prop where
  rh : Reordered hor hor'
  rv : Reordered ver ver'
  hx : ThreePlaces Pt.x hor
  vy : ThreePlaces Pt.y ver
  spec : PolyfitSpec pf

variable {pf : PolyfitFn} {hor hor' ver ver' : List (List Pt)}

theorem SameFits.ch (S : SameFits pf hor hor' ver ver') (xc yc : ℝ) : hor.mapM (paraHor pf xc yc) = hor'.mapM (paraHor pf xc yc) :=
  hor_coefs_perm S.spec S.rh S.hx xc yc

theorem SameFits.cv (S : SameFits pf hor hor' ver ver') (xc yc : ℝ) : ver.mapM (paraVer pf xc yc) = ver'.mapM (paraVer pf xc yc) :=
  ver_coefs_perm S.spec S.rv S.vy xc yc

theorem SameFits.fitHor (S : SameFits pf hor hor' ver ver') {xc yc : ℝ} {ch : List Para} {sh : List (List Pt)} (h : paraFitHor pf hor xc yc = .ok (ch, sh)) :
    paraFitHor pf hor' xc yc = .ok (ch, hor'.map (shiftLine xc yc)) := by
  unfold paraFitHor at h ⊢
  rw [← S.ch]
  rw [bind_ok_iff] at h
  obtain ⟨c, e, h⟩ := h
  cases h
  rw [e, ok_bind]

theorem SameFits.fitVer (S : SameFits pf hor hor' ver ver') {xc yc : ℝ} {cv : List Para} {sv : List (List Pt)} (h : paraFitVer pf ver xc yc = .ok (cv, sv)) :
    paraFitVer pf ver' xc yc = .ok (cv, ver'.map (shiftLine xc yc)) := by
  unfold paraFitVer at h ⊢
  rw [← S.cv]
  rw [bind_ok_iff] at h
  obtain ⟨c, e, h⟩ := h
  cases h
  rw [e, ok_bind]

theorem SameFits.shift (S : SameFits pf hor hor' ver ver') (xc yc : ℝ) :
    SameFits pf (hor.map (shiftLine xc yc)) (hor'.map (shiftLine xc yc)) (ver.map (shiftLine xc yc)) (ver'.map (shiftLine xc yc)) :=
  ⟨reordered_map S.rh _, reordered_map S.rv _, threePlaces_map S.hx fun p q h e => h (by simpa using e),
    threePlaces_map S.vy fun p q h e => h (by simpa using e), S.spec⟩

theorem SameFits.slice (S : SameFits pf hor hor' ver ver') (a b c d : ℕ) :
    SameFits pf (npSlice hor a b) (npSlice hor' a b) (npSlice ver c d) (npSlice ver' c d) :=
  ⟨reordered_slice S.rh _ _, reordered_slice S.rv _ _, threePlaces_slice S.hx _ _, threePlaces_slice S.vy _ _, S.spec⟩

theorem SameFits.coarse (S : SameFits pf hor hor' ver ver') : findCodCoarse pf hor ver = findCodCoarse pf hor' ver' := by
  simp only [findCodCoarse, paraFitHor, paraFitVer, S.ch, S.cv, bind_assoc, ok_bind]

theorem SameFits.step (S : SameFits pf hor hor' ver ver') (c : Pt) : baileyStep pf hor ver c = baileyStep pf hor' ver' c := by
  simp only [baileyStep, paraFitHor, paraFitVer, S.ch, S.cv, bind_assoc, ok_bind]

theorem SameFits.bailey (S : SameFits pf hor hor' ver ver') (n : ℕ) : findCodBailey pf hor ver n = findCodBailey pf hor' ver' n := by
  simp only [findCodBailey, S.coarse, S.step]

theorem SameFits.entry (S : SameFits pf hor hor' ver ver') (minimize : (ℝ → ℝ) → ℝ → ℝ) (x y : ℝ) :
    metricEntry pf minimize hor ver x y = metricEntry pf minimize hor' ver' x y := by
  simp only [metricEntry, paraFitHor, paraFitVer, S.ch, S.cv, bind_assoc, ok_bind]

theorem SameFits.metric (S : SameFits pf hor hor' ver ver') (minimize : (ℝ → ℝ) → ℝ → ℝ) (xc yc : ℝ) (xs ys : List ℝ) :
    calcMetric pf minimize hor ver xc yc xs ys = calcMetric pf minimize hor' ver' xc yc xs ys := by
  have e := fun a b c d x y => ((S.shift xc yc).slice a b c d).entry minimize x y
  simp only [calcMetric, paraFitHor, paraFitVer, S.ch, S.cv, bind_assoc, ok_bind, List.length_map, reordered_length S.rh, reordered_length S.rv, e]

theorem SameFits.fine (S : SameFits pf hor hor' ver ver') (minimize : (ℝ → ℝ) → ℝ → ℝ) (xc yc d : ℝ) :
    findCodFine pf minimize hor ver xc yc d = findCodFine pf minimize hor' ver' xc yc d := by
  simp only [findCodFine, S.metric]

theorem SameFits.vanishing (S : SameFits pf hor hor' ver ver') (cross : List Para → Except PyErr (List (ℝ × ℝ))) :
    vanishingSearch cross pf hor ver = vanishingSearch cross pf hor' ver' := by
  simp only [vanishingSearch, paraFitHor, paraFitVer, S.ch, S.cv, bind_assoc, ok_bind, (S.shift 0 0).bailey]

theorem SameFits.intercept (S : SameFits pf hor hor' ver ver') (minimize : (ℝ → ℝ) → ℝ → ℝ) (xc yc : ℝ) (opt : Bool) (t : ℝ) :
    calcUndistorIntercept pf minimize hor ver xc yc opt t = calcUndistorIntercept pf minimize hor' ver' xc yc opt t := by
  simp only [calcUndistorIntercept, paraFitHor, paraFitVer, S.ch, S.cv, bind_assoc, ok_bind, reordered_length S.rh, reordered_length S.rv]

theorem SameFits.paraCoefs (S : SameFits pf hor hor' ver ver') (p f : Bool) : paraGridCoefs pf hor ver p f = paraGridCoefs pf hor' ver' p f := by
  simp only [paraGridCoefs, paraGridCentre, nonPerspectiveParaCoef, paraFitHor, paraFitVer, S.ch, S.cv, S.bailey, bind_assoc, ok_bind, reordered_length S.rh,
    reordered_length S.rv]

theorem SameFits.parabolaGrid (S : SameFits pf hor hor' ver ver') (fsolve : (ℝ × ℝ → ℝ × ℝ) → ℝ × ℝ → ℝ × ℝ) (p f : Bool) :
    regenerateGridParabola pf fsolve hor ver p f = regenerateGridParabola pf fsolve hor' ver' p f := by
  simp only [regenerateGridParabola, S.paraCoefs]


theorem SameFits.symm (S : SameFits pf hor hor' ver ver') : SameFits pf hor' hor ver' ver := by
  have sym : ∀ {L L' : List (List Pt)} {along : Pt → ℝ}, Reordered L L' → ThreePlaces along L → ThreePlaces along L' := by
    intro L L' along h h3 l' hl'
    induction h with
    | nil => simp at hl'
    | cons hab _ ih =>
      rcases List.mem_cons.1 hl' with rfl | hl'
      · obtain ⟨p, hp, q, hq, r, hr, hpqr⟩ := h3 _ List.mem_cons_self
        exact ⟨p, hab.mem_iff.1 hp, q, hab.mem_iff.1 hq, r, hab.mem_iff.1 hr, hpqr⟩
      · exact ih (fun l hl => h3 l (List.mem_cons_of_mem _ hl)) hl'
  exact ⟨S.rh.flip.imp fun _ _ h => h.symm, S.rv.flip.imp fun _ _ h => h.symm, sym S.rh S.hx, sym S.rv S.vy, S.spec⟩

/-- Rows of reordered dots. -/
theorem mapM_perm {α β : Type} {f : α → Except PyErr β} {l l' : List α} (h : l.Perm l') {r : List β} (e : l.mapM f = .ok r) :
    ∃ r', l'.mapM f = .ok r' ∧ r.Perm r' := by
  induction h generalizing r with
  | nil => exact ⟨r, e, .refl _⟩
  | cons a _ ih =>
    rw [mapM_ok_iff] at e
    cases e with
    | cons ha ht =>
      obtain ⟨r', e', hp⟩ := ih (mapM_ok_iff.2 ht)
      exact ⟨_, mapM_ok_iff.2 (.cons ha (mapM_ok_iff.1 e')), hp.cons _⟩
  | swap a b l =>
    rw [mapM_ok_iff] at e
    cases e with
    | cons ha ht =>
      cases ht with
      | cons hb ht => exact ⟨_, mapM_ok_iff.2 (.cons hb (.cons ha ht)), .swap _ _ _⟩
  | trans _ _ ih1 ih2 =>
    obtain ⟨r1, e1, p1⟩ := ih1 e
    obtain ⟨r2, e2, p2⟩ := ih2 e1
    exact ⟨r2, e2, p1.trans p2⟩

theorem rowsOf_reordered {ρ : Type} {row : Para → ℝ → ℝ → Pt → Except PyErr ρ} {along : Pt → ℝ} {coefs : List Para} {uc : List ℝ}
    {lines lines' : List (List Pt)} (h : Reordered lines lines') {R : List ρ} (e : rowsOf row along coefs uc lines = .ok R) :
    ∃ R', rowsOf row along coefs uc lines' = .ok R' ∧ R.Perm R' := by
  have key : ∀ (Z : List (Para × ℝ)) (lines lines' : List (List Pt)), Reordered lines lines' → ∀ r : List (List ρ),
      (List.zip Z lines).mapM (fun z => z.2.mapM fun p => row z.1.1 z.1.2 (along p) p) = .ok r →
      ∃ r' : List (List ρ), (List.zip Z lines').mapM (fun z => z.2.mapM fun p => row z.1.1 z.1.2 (along p) p) = .ok r' ∧ r.flatten.Perm r'.flatten := by
    intro Z lines lines' h
    induction h generalizing Z with
    | nil => intro r hr; exact ⟨r, hr, .refl _⟩
    | cons hab _ ih =>
      intro r hr
      cases Z with
      | nil => exact ⟨r, hr, .refl _⟩
      | cons z Z =>
        rw [List.zip_cons_cons, mapM_ok_iff] at hr
        cases hr with
        | cons h1 ht =>
          obtain ⟨a', ea, pa⟩ := mapM_perm hab h1
          obtain ⟨r', er, pr⟩ := ih Z _ (mapM_ok_iff.2 ht)
          refine ⟨a' :: r', ?_, by simpa using pa.append pr⟩
          rw [List.zip_cons_cons, mapM_ok_iff]
          exact .cons ea (mapM_ok_iff.1 er)
  unfold rowsOf at e ⊢
  rw [bind_ok_iff] at e
  obtain ⟨r, hr, e⟩ := e
  cases e
  obtain ⟨r', er, hp⟩ := key _ _ _ h r hr
  exact ⟨r'.flatten, by rw [er, ok_bind], hp⟩

theorem radius_id (p : Pt) : √((id p).x * (id p).x + (id p).y * (id p).y) = 1 * √(p.x * p.x + p.y * p.y) := by rw [one_mul]; rfl

theorem samplesOf_reordered {α : Type} (coefs : List Para) (us : List ℝ) {lines lines' : List (List Pt)} (h : Reordered lines lines')
    (s : Para → ℝ → Pt → α) : (samplesOf coefs us lines s).Perm (samplesOf coefs us lines' s) := by
  unfold samplesOf
  generalize List.zip coefs us = Z
  induction h generalizing Z with
  | nil => exact .refl _
  | cons hab _ ih =>
    cases Z with
    | nil => exact .refl _
    | cons z Z =>
      rw [List.zip_cons_cons, List.zip_cons_cons, List.map_cons, List.map_cons, List.flatten_cons, List.flatten_cons]
      exact (hab.map _).append (ih Z)

theorem reordered_flatten {lines lines' : List (List Pt)} (h : Reordered lines lines') : lines.flatten.Perm lines'.flatten := by
  induction h with
  | nil => exact .refl _
  | cons hab _ ih => exact hab.append ih


/-- A line with enough dots is filtered by its parabola. -/
theorem closeDots_eq (hpf : PolyfitSpec pf) (slope residual : ℝ) {l : List Pt} (h : l ≠ []) :
    ∃ P : Pt → Bool, (∀ l' : List Pt, l' ≠ [] → pf (l'.map Pt.x) (l'.map Pt.y) 2 = pf (l.map Pt.x) (l.map Pt.y) 2 →
      closeDots pf slope residual l' = .ok (l'.filter P)) := by
  obtain ⟨a, b, c, e⟩ := List.length_eq_three.1 (hpf.length (l.map Pt.x) (l.map Pt.y) 2 (by simp) (by simpa using h))
  refine ⟨fun p => open Classical in decide (|((a * p.x ^ 2 + b * p.x + c) - p.y) * Real.cos (Real.arctan slope)| < residual), fun l' h' e' => ?_⟩
  unfold closeDots
  rw [if_neg h', e', e]

theorem closeDots_perm (hpf : PolyfitSpec pf) (slope residual : ℝ) {l l' : List Pt} (hp : l.Perm l') (h3 : ThreeAlong Pt.x l) :
    ∃ k k', closeDots pf slope residual l = .ok k ∧ closeDots pf slope residual l' = .ok k' ∧ k.Perm k' := by
  have e := polyfit_perm_para hpf hp Pt.x Pt.y h3
  obtain ⟨p, hm, -⟩ := h3
  have hne : l ≠ [] := List.ne_nil_of_mem hm
  have hne' : l' ≠ [] := List.ne_nil_of_mem (hp.mem_iff.1 hm)
  obtain ⟨P, h⟩ := closeDots_eq hpf slope residual hne
  exact ⟨_, _, h l hne rfl, h l' hne' e.symm, hp.filter P⟩

theorem closeLines_perm (hpf : PolyfitSpec pf) (slope residual : ℝ) {L L' : List (List Pt)} (h : Reordered L L') (h3 : ThreePlaces Pt.x L) :
    ∃ K K', L.mapM (closeDots pf slope residual) = .ok K ∧ L'.mapM (closeDots pf slope residual) = .ok K' ∧ Reordered K K' := by
  induction h with
  | nil => exact ⟨[], [], rfl, rfl, .nil⟩
  | cons hab _ ih =>
    obtain ⟨K, K', e, e', hK⟩ := ih fun l hl => h3 l (List.mem_cons_of_mem _ hl)
    obtain ⟨k, k', f, f', hk⟩ := closeDots_perm hpf slope residual hab (h3 _ List.mem_cons_self)
    exact ⟨k :: K, k' :: K', mapM_ok_iff.2 (.cons f (mapM_ok_iff.1 e)), mapM_ok_iff.2 (.cons f' (mapM_ok_iff.1 e')), .cons hk hK⟩

theorem reordered_filter {K K' : List (List Pt)} (h : Reordered K K') :
    Reordered (K.filter fun l => decide (l.length > 0)) (K'.filter fun l => decide (l.length > 0)) := by
  induction h with
  | nil => exact .nil
  | cons hab _ ih =>
    rw [List.filter_cons, List.filter_cons, hab.length_eq]
    split
    · exact .cons hab ih
    · exact ih

/-- Sorted lists of the same elements with different keys are equal. -/
theorem sorted_keys_unique {α : Type} {key : α → ℝ} {l l' : List α} (hp : l.Perm l') (h : l.Pairwise fun a b => key a ≤ key b)
    (h' : l'.Pairwise fun a b => key a ≤ key b) (hd : ∀ a ∈ l, ∀ b ∈ l, key a = key b → a = b) : l = l' :=
  List.Perm.eq_of_pairwise (fun a b ha hb hab hba => hd a ha b (hp.mem_iff.2 hb) (le_antisymm hab hba)) h h' hp

theorem argsort_reordered {argsort argsort' : List ℝ → List ℕ} (hs : ArgsortSpec argsort) (hs' : ArgsortSpec argsort') {α : Type} (key : α → ℝ)
    {l l' : List α} (hp : l.Perm l') (hd : ∀ a ∈ l, ∀ b ∈ l, key a = key b → a = b) :
    fancyIndex l (argsort (l.map key)) = fancyIndex l' (argsort' (l'.map key)) := by
  have p1 := hs.fancy_perm l key
  have p2 := hs'.fancy_perm l' key
  refine sorted_keys_unique ((p1.trans hp).trans p2.symm) (hs.fancy_sorted l key) (hs'.fancy_sorted l' key) fun a ha b hb => ?_
  exact hd a (p1.mem_iff.1 ha) b (p1.mem_iff.1 hb)

/-- The residuals of one line. -/
theorem residualHor_perm (hpf : PolyfitSpec pf) (xc yc : ℝ) {l l' : List Pt} (hp : l.Perm l') (h2 : ∃ p ∈ l, ∃ q ∈ l, p.x ≠ q.x) :
    ∃ k k', residualLineHor pf xc yc l = .ok k ∧ residualLineHor pf xc yc l' = .ok k' ∧ k.Perm k' ∧ k ≠ [] := by
  have e := polyfit_perm_lin hpf hp (fun p => p.x - xc) (fun p => p.y - yc) (by
    obtain ⟨p, hp, q, hq, h⟩ := h2
    exact ⟨p, hp, q, hq, fun e => h (by linarith)⟩)
  obtain ⟨p, hm, -⟩ := h2
  have hne : l ≠ [] := List.ne_nil_of_mem hm
  have hne' : l' ≠ [] := List.ne_nil_of_mem (hp.mem_iff.1 hm)
  obtain ⟨a, b, hab⟩ := List.length_eq_two.1 (hpf.length (l.map fun p => p.x - xc) (l.map fun p => p.y - yc) 1 (by simp) (by simpa using hne))
  unfold residualLineHor
  simp only [if_neg hne, if_neg hne', ← e, hab]
  refine ⟨_, _, rfl, rfl, ?_, ?_⟩
  · rw [List.zipWith_map, List.zipWith_map, List.zipWith_self, List.zipWith_self]
    exact hp.map _
  · rw [List.zipWith_map, List.zipWith_self]
    simpa using hne

theorem residualVer_perm (hpf : PolyfitSpec pf) (xc yc : ℝ) {l l' : List Pt} (hp : l.Perm l') (h2 : ∃ p ∈ l, ∃ q ∈ l, p.y ≠ q.y) :
    ∃ k k', residualLineVer pf xc yc l = .ok k ∧ residualLineVer pf xc yc l' = .ok k' ∧ k.Perm k' ∧ k ≠ [] := by
  have e := polyfit_perm_lin hpf hp (fun p => p.y - yc) (fun p => p.x - xc) (by
    obtain ⟨p, hp, q, hq, h⟩ := h2
    exact ⟨p, hp, q, hq, fun e => h (by linarith)⟩)
  obtain ⟨p, hm, -⟩ := h2
  have hne : l ≠ [] := List.ne_nil_of_mem hm
  have hne' : l' ≠ [] := List.ne_nil_of_mem (hp.mem_iff.1 hm)
  obtain ⟨a, b, hab⟩ := List.length_eq_two.1 (hpf.length (l.map fun p => p.y - yc) (l.map fun p => p.x - xc) 1 (by simp) (by simpa using hne))
  unfold residualLineVer
  simp only [if_neg hne, if_neg hne', ← e, hab]
  refine ⟨_, _, rfl, rfl, ?_, ?_⟩
  · rw [List.zipWith_map, List.zipWith_map, List.zipWith_self, List.zipWith_self]
    exact hp.map _
  · rw [List.zipWith_map, List.zipWith_self]
    simpa using hne

theorem residualLines_perm {f : List Pt → Except PyErr (List (ℝ × ℝ))} {P : List Pt → Prop}
    (hf : ∀ l l', l.Perm l' → P l → ∃ k k', f l = .ok k ∧ f l' = .ok k' ∧ k.Perm k' ∧ k ≠ []) {L L' : List (List Pt)} (h : Reordered L L')
    (h2 : ∀ l ∈ L, P l) (hne : L ≠ []) :
    ∃ K K', L.mapM f = .ok K ∧ L'.mapM f = .ok K' ∧ K.flatten.Perm K'.flatten ∧ K.flatten ≠ [] := by
  have all : ∃ K K', L.mapM f = .ok K ∧ L'.mapM f = .ok K' ∧ K.flatten.Perm K'.flatten ∧ (L ≠ [] → K.flatten ≠ []) := by
    clear hne
    induction h with
    | nil => exact ⟨[], [], rfl, rfl, .refl _, fun h => absurd rfl h⟩
    | cons hab _ ih =>
      obtain ⟨K, K', e, e', hK, -⟩ := ih fun l hl => h2 l (List.mem_cons_of_mem _ hl)
      obtain ⟨k, k', g, g', hk, hk0⟩ := hf _ _ hab (h2 _ List.mem_cons_self)
      refine ⟨k :: K, k' :: K', mapM_ok_iff.2 (.cons g (mapM_ok_iff.1 e)), mapM_ok_iff.2 (.cons g' (mapM_ok_iff.1 e')), hk.append hK, fun _ h0 => ?_⟩
      rw [List.flatten_cons, List.append_eq_nil_iff] at h0
      exact hk0 h0.1
  obtain ⟨K, K', e, e', hK, h0⟩ := all
  exact ⟨K, K', e, e', hK, h0 hne⟩

/-- The sorted tables of the same residuals. -/
theorem residualTable {argsort : List ℝ → List ℕ} (has : ArgsortSpec argsort) {d d' : List (ℝ × ℝ)} (hp : d.Perm d') (hne : d ≠ []) :
    ∃ out out', sortByRadius argsort d = .ok out ∧ sortByRadius argsort d' = .ok out' ∧ out.Perm out' ∧ out.map Prod.fst = out'.map Prod.fst ∧
      checkDistortion out = checkDistortion out' := by
  have hne' : d' ≠ [] := fun e => hne ((nil_iff_perm hp).2 e)
  have p1 := has.fancy_perm d Prod.fst
  have p2 := has.fancy_perm d' Prod.fst
  have pp := (p1.trans hp).trans p2.symm
  refine ⟨_, _, if_neg hne, if_neg hne', pp, ?_, ?_⟩
  · refine List.Perm.eq_of_pairwise (le := fun a b : ℝ => a ≤ b) (fun a b _ _ => le_antisymm) ?_ ?_ (pp.map _)
    · exact List.pairwise_map.2 (has.fancy_sorted d Prod.fst)
    · exact List.pairwise_map.2 (has.fancy_sorted d' Prod.fst)
  · have h := pp.map Prod.snd
    unfold checkDistortion
    simp only [h.length_eq, (h.filter _).length_eq]

end Discorpy
