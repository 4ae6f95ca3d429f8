import Verif.Lemmas.Undistorted

/-! # Helper lemmas: fits of whole families of lines, the linear systems of the radial model -/

namespace Discorpy

open Spec

theorem paraFitHor_ok {pf : PolyfitFn} (hpf : PolyfitSpec pf) {lines : List (List Pt)} (hne : ∀ l ∈ lines, l ≠ [])
    (xc yc : ℝ) : ∃ ch, paraFitHor pf lines xc yc = .ok (ch, lines.map (shiftLine xc yc)) ∧
      List.Forall₂ (fun l q => IsLsqPara Pt.x Pt.y xc yc l q.a q.b q.c) lines ch := by
  obtain ⟨ch, e⟩ := exists_mapM_ok (f := paraHor pf xc yc) (l := lines) (fun l hl => by
    obtain ⟨q, e, _⟩ := paraHor_ok hpf (hne l hl) xc yc
    exact ⟨q, e⟩)
  refine ⟨ch, by rw [paraFitHor, e]; rfl, ?_⟩
  have := mapM_ok_iff.1 e
  rw [List.forall₂_iff_zip] at this ⊢
  refine ⟨this.1, fun {l q} hm => ?_⟩
  obtain ⟨q', e, h⟩ := paraHor_ok hpf (hne l (List.of_mem_zip hm).1) xc yc
  have := (this.2 hm).symm.trans e
  cases this
  exact h

theorem paraFitVer_ok {pf : PolyfitFn} (hpf : PolyfitSpec pf) {lines : List (List Pt)} (hne : ∀ l ∈ lines, l ≠ [])
    (xc yc : ℝ) : ∃ cv, paraFitVer pf lines xc yc = .ok (cv, lines.map (shiftLine xc yc)) ∧
      List.Forall₂ (fun l q => IsLsqPara Pt.y Pt.x yc xc l q.a q.b q.c) lines cv := by
  obtain ⟨cv, e⟩ := exists_mapM_ok (f := paraVer pf xc yc) (l := lines) (fun l hl => by
    obtain ⟨q, e, _⟩ := paraVer_ok hpf (hne l hl) xc yc
    exact ⟨q, e⟩)
  refine ⟨cv, by rw [paraFitVer, e]; rfl, ?_⟩
  have := mapM_ok_iff.1 e
  rw [List.forall₂_iff_zip] at this ⊢
  refine ⟨this.1, fun {l q} hm => ?_⟩
  obtain ⟨q', e, h⟩ := paraVer_ok hpf (hne l (List.of_mem_zip hm).1) xc yc
  have := (this.2 hm).symm.trans e
  cases this
  exact h

theorem lineDistances_ne {coefs : List Para} (h : 2 ≤ coefs.length) : lineDistances coefs ≠ [] := by
  unfold lineDistances
  rw [ne_eq, List.mapIdx_eq_nil_iff, List.map_eq_nil_iff]
  exact npDiff_ne_nil (by simpa using h)

theorem missingInDir_ok {pf : PolyfitFn} (hpf : PolyfitSpec pf) {coefs : List Para} (h : 2 ≤ coefs.length)
    (threshold : ℝ) : ∃ b, missingInDir pf coefs threshold = .ok b := by
  unfold missingInDir
  have hne := lineDistances_ne h
  obtain ⟨a, b, c, e⟩ := length_three (hpf.length ((lineDistances coefs).map Prod.fst) ((lineDistances coefs).map Prod.snd) 2
    (by simp) (by simpa using hne))
  simp only [if_neg hne, e, Para.ofList, ok_bind]
  split
  · exact ⟨_, rfl⟩
  · split <;> exact ⟨_, rfl⟩

/-- No warning for equidistant lines. -/
theorem missingInDir_arith {pf : PolyfitFn} (hpf : PolyfitSpec pf) {coefs : List Para} (h : 2 ≤ coefs.length) {c0 δ : ℝ}
    (ha : IsArith (coefs.map Para.c) c0 δ) (hδ : δ ≠ 0) {threshold : ℝ} (ht : 0 ≤ threshold) :
    missingInDir pf coefs threshold = .ok false := by
  have hne := lineDistances_ne h
  have hd : ∀ p ∈ lineDistances coefs, p.2 = |δ| := by
    intro p hp
    unfold lineDistances at hp
    obtain ⟨k, hk, rfl⟩ := List.mem_mapIdx.1 hp
    simp only [List.getElem_map]
    have := List.getElem_mem (l := npDiff (coefs.map Para.c)) (n := k) (by simpa using hk)
    obtain ⟨i, x, y, hx, hy, e⟩ := npDiff_mem this
    rw [e, ha _ _ hx, ha _ _ hy]
    congr 1
    push_cast; ring
  obtain ⟨a, b, c, e⟩ := length_three (hpf.length ((lineDistances coefs).map Prod.fst) ((lineDistances coefs).map Prod.snd) 2
    (by simp) (by simpa using hne))
  have hex := hpf.exact (xs := (lineDistances coefs).map Prod.fst) (ys := (lineDistances coefs).map Prod.snd) (deg := 2)
    (by simp) (by simpa using hne) (q := [0, 0, |δ|]) rfl (by
      intro r hr
      rw [List.zip_map', List.mem_map] at hr
      obtain ⟨p, hp, rfl⟩ := hr
      rw [polyval_three, hd p hp]; simp)
  rw [e] at hex
  have hfit : ∀ p ∈ lineDistances coefs, a * p.1 ^ 2 + b * p.1 + c = |δ| := by
    intro p hp
    have := hex (p.1, p.2) (by rw [List.zip_map', List.mem_map]; exact ⟨p, hp, rfl⟩)
    rw [polyval_three] at this
    rw [this, hd p hp]
  have hpos : |δ| ≠ 0 := abs_ne_zero.2 hδ
  unfold missingInDir
  simp only [if_neg hne, e, Para.ofList, ok_bind]
  rw [if_neg (by rintro ⟨p, hp, h1, _⟩; rw [hfit p hp] at h1; exact hpos h1),
    if_neg (by rintro ⟨p, hp, h1⟩; rw [hfit p hp] at h1; exact hpos h1)]
  congr 1
  rw [decide_eq_false_iff_not]
  rintro ⟨p, hp, h1⟩
  rw [hfit p hp, hd p hp] at h1
  simp at h1
  linarith

theorem numFactors_eq {n : ℤ} (h : n ≤ 32767) : numFactors n = (max n 1).toNat := by
  unfold numFactors
  rw [toInt16_of_mem (by omega) (by omega)]

theorem isArith_of_family {along across : Pt → ℝ} {c : Pt} {lines : List (List Pt)} {c0 δ : ℝ}
    (h : IsStraightFamily along across c lines c0 δ) {coefs : List Para}
    (hf : List.Forall₂ (fun l q => IsLsqPara along across (along c) (across c) l q.a q.b q.c) lines coefs) :
    (∀ (i : ℕ) (q : Para), coefs[i]? = some q → q.a = 0 ∧ q.c = c0 + i * δ) ∧ IsArith (coefs.map Para.c) c0 δ := by
  have key : ∀ (i : ℕ) (q : Para), coefs[i]? = some q → q.a = 0 ∧ q.c = c0 + i * δ := by
    intro i q hq
    obtain ⟨hi, e⟩ := List.getElem?_eq_some_iff.1 hq
    have hl : i < lines.length := by rw [hf.length_eq]; exact hi
    have hlsq := List.forall₂_iff_get.1 hf |>.2 i hl hi
    simp only [List.get_eq_getElem, e] at hlsq
    obtain ⟨⟨b, hb⟩, h3⟩ := h i _ (List.getElem?_eq_getElem hl)
    obtain ⟨h1, _, h2⟩ := lsqPara_exact hlsq (a' := 0) (b' := b) (c' := c0 + i * δ) (fun p hp => by rw [hb p hp]; ring) h3
    exact ⟨h1, h2⟩
  refine ⟨key, ?_⟩
  intro i v hv
  rw [List.getElem?_map, Option.map_eq_some_iff] at hv
  obtain ⟨q, hq, rfl⟩ := hv
  exact (key i q hq).2

theorem family_ne_nil {along across : Pt → ℝ} {c : Pt} {lines : List (List Pt)} {c0 δ : ℝ}
    (h : IsStraightFamily along across c lines c0 δ) : ∀ l ∈ lines, l ≠ [] := by
  intro l hl h0
  obtain ⟨i, hi, rfl⟩ := List.getElem_of_mem hl
  obtain ⟨_, p, hp, _⟩ := h i _ (List.getElem?_eq_getElem hi)
  rw [h0] at hp
  simp at hp

theorem shift_radius (xc yc : ℝ) (p : Pt) :
    √((p.x - xc) * (p.x - xc) + (p.y - yc) * (p.y - yc)) = ptDist p ⟨yc, xc⟩ := by
  unfold ptDist; simp only [sq]

theorem zip3_mem {α β γ : Type} {l₁ : List α} {l₂ : List β} {l₃ : List γ} {z : (α × β) × γ} :
    z ∈ List.zip (List.zip l₁ l₂) l₃ ↔ ∃ i : ℕ, l₁[i]? = some z.1.1 ∧ l₂[i]? = some z.1.2 ∧ l₃[i]? = some z.2 := by
  rw [List.mem_iff_getElem?]
  simp only [List.getElem?_zip_eq_some, and_assoc]

theorem rowsOf_ok {ρ : Type} {row : Para → ℝ → ℝ → Pt → Except PyErr ρ} {along : Pt → ℝ} {coefs : List Para}
    {uc : List ℝ} {lines : List (List Pt)}
    (H : ∀ (i : ℕ) q u line p, coefs[i]? = some q → uc[i]? = some u → lines[i]? = some line → p ∈ line →
      ∃ r, row q u (along p) p = .ok r) :
    ∃ R, rowsOf row along coefs uc lines = .ok R ∧
      (∀ r ∈ R, ∃ (i : ℕ) (q : Para) (u : ℝ) (line : List Pt) (p : Pt), coefs[i]? = some q ∧ uc[i]? = some u ∧
        lines[i]? = some line ∧ p ∈ line ∧ row q u (along p) p = .ok r) ∧
      ∀ (i : ℕ) q u line p, coefs[i]? = some q → uc[i]? = some u → lines[i]? = some line → p ∈ line →
        ∃ r ∈ R, row q u (along p) p = .ok r := by
  obtain ⟨rr, e⟩ := exists_mapM_ok (f := fun z : (Para × ℝ) × List Pt => z.2.mapM fun p => row z.1.1 z.1.2 (along p) p)
    (l := List.zip (List.zip coefs uc) lines) (by
      intro z hz
      obtain ⟨i, h1, h2, h3⟩ := zip3_mem.1 hz
      exact exists_mapM_ok fun p hp => H i _ _ _ p h1 h2 h3 hp)
  refine ⟨rr.flatten, by rw [rowsOf, e]; rfl, ?_, ?_⟩
  · intro r hr
    obtain ⟨l, hl, hrl⟩ := List.mem_flatten.1 hr
    have := mapM_ok_iff.1 e
    obtain ⟨k, hk, rfl⟩ := List.getElem_of_mem hl
    have hk' : k < (List.zip (List.zip coefs uc) lines).length := by rw [this.length_eq]; exact hk
    have h2 := (List.forall₂_iff_get.1 this).2 k hk' hk
    simp only [List.get_eq_getElem] at h2
    obtain ⟨i, h1, h3, h4⟩ := zip3_mem.1 (List.getElem_mem hk')
    have h5 := mapM_ok_iff.1 h2
    obtain ⟨m, hm, rfl⟩ := List.getElem_of_mem hrl
    have hm' := h5.length_eq ▸ hm
    have h6 := (List.forall₂_iff_get.1 h5).2 m hm' hm
    simp only [List.get_eq_getElem] at h6
    exact ⟨i, _, _, _, _, h1, h3, h4, List.getElem_mem hm', h6⟩
  · intro i q u line p h1 h2 h3 hp
    have hz : ((q, u), line) ∈ List.zip (List.zip coefs uc) lines := zip3_mem.2 ⟨i, h1, h2, h3⟩
    obtain ⟨k, hk, ek⟩ := List.getElem_of_mem hz
    have := mapM_ok_iff.1 e
    have hk' : k < rr.length := by rw [← this.length_eq]; exact hk
    have h4 := (List.forall₂_iff_get.1 this).2 k hk hk'
    simp only [List.get_eq_getElem, ek] at h4
    have h5 := mapM_ok_iff.1 h4
    obtain ⟨m, hm, rfl⟩ := List.getElem_of_mem hp
    have hm' : m < rr[k].length := by rw [← h5.length_eq]; exact hm
    have h6 := (List.forall₂_iff_get.1 h5).2 m hm hm'
    exact ⟨_, List.mem_flatten.2 ⟨_, List.getElem_mem hk', List.getElem_mem hm'⟩, h6⟩

theorem forwardRow_straight (n : ℕ) {q : Para} (ha : q.a = 0) (t : ℝ) (p : Pt) :
    forwardRow n q q.c t p = .ok (if q.c ≠ 0 then [(powers (√(p.x * p.x + p.y * p.y)) n, 1)] else []) := by
  unfold forwardRow
  by_cases h : q.c = 0
  · simp [h]
  · simp only [ne_eq, h, not_false_eq_true, if_true, ha, zero_mul, zero_add]
    rw [finDiv_ok h, ok_bind, div_self h]
    simp

theorem backwardRow_straight {n : ℕ} {q : Para} (ha : q.a = 0) (hc : q.c ≠ 0) (t : ℝ) (p : Pt) :
    backwardRow n q q.c t p = .ok (powers (√(p.x * p.x + p.y * p.y)) n, 1) := by
  unfold backwardRow
  simp only [ha, zero_mul, zero_add]
  rw [finDiv_ok hc, ok_bind, div_self hc]
  split
  · rename_i h
    interval_cases n <;> simp [powers]
  · rw [finDiv_ok one_ne_zero, ok_bind, div_one]

/-- Rows of a family of straight lines, forward. -/
theorem rowsOf_forward {xc yc : ℝ} {lines : List (List Pt)} {c0 δ : ℝ} {coefs : List Para}
    (hk : ∀ (i : ℕ) (q : Para), coefs[i]? = some q → q.a = 0 ∧ q.c = c0 + i * δ) (hlen : lines.length = coefs.length) (n : ℕ)
    (along : Pt → ℝ) :
    ∃ r, rowsOf (forwardRow n) along coefs (coefs.map Para.c) (lines.map (shiftLine xc yc)) = .ok r ∧
      (∀ q ∈ r.flatten, ∃ t, q = (powers t n, 1)) ∧
      ∀ t ∈ offCentreRadii ⟨yc, xc⟩ lines c0 δ, (powers t n, (1 : ℝ)) ∈ r.flatten := by
  obtain ⟨R, e, h1, h2⟩ := rowsOf_ok (row := forwardRow n) (along := along) (coefs := coefs) (uc := coefs.map Para.c)
    (lines := lines.map (shiftLine xc yc)) (by
      intro i q u line p hq hu _ _
      rw [List.getElem?_map, hq] at hu
      obtain rfl : q.c = u := by simpa using hu
      exact ⟨_, forwardRow_straight n (hk i q hq).1 _ _⟩)
  refine ⟨R, e, ?_, ?_⟩
  · intro z hz
    obtain ⟨r, hr, hzr⟩ := List.mem_flatten.1 hz
    obtain ⟨i, q, u, line, p, hq, hu, _, _, hrow⟩ := h1 r hr
    rw [List.getElem?_map, hq] at hu
    obtain rfl : q.c = u := by simpa using hu
    rw [forwardRow_straight n (hk i q hq).1] at hrow
    obtain rfl := Except.ok.inj hrow
    split at hzr
    · exact ⟨_, List.mem_singleton.1 hzr⟩
    · simp at hzr
  · rintro t ⟨i, line, p, hl, hc, hp, rfl⟩
    obtain ⟨hi, -⟩ := List.getElem?_eq_some_iff.1 hl
    have hq := List.getElem?_eq_getElem (l := coefs) (i := i) (by rw [← hlen]; exact hi)
    obtain ⟨r, hr, hrow⟩ := h2 i _ coefs[i].c _ (⟨p.y - yc, p.x - xc⟩ : Pt) hq (by rw [List.getElem?_map, hq]; rfl)
      (by rw [List.getElem?_map, hl]; rfl) (List.mem_map.2 ⟨p, hp, rfl⟩)
    rw [forwardRow_straight n (hk i _ hq).1] at hrow
    obtain rfl := Except.ok.inj hrow
    refine List.mem_flatten.2 ⟨_, hr, ?_⟩
    rw [if_pos (by rw [(hk i _ hq).2]; exact hc)]
    simp only [shift_radius, List.mem_singleton]

/-- Rows of a family of straight lines, backward. -/
theorem rowsOf_backward {xc yc : ℝ} {lines : List (List Pt)} {c0 δ : ℝ} {coefs : List Para}
    (hk : ∀ (i : ℕ) (q : Para), coefs[i]? = some q → q.a = 0 ∧ q.c = c0 + i * δ) (hlen : lines.length = coefs.length)
    (hc : ∀ i : ℕ, i < lines.length → c0 + i * δ ≠ 0) (n : ℕ) (along : Pt → ℝ) :
    ∃ r, rowsOf (backwardRow n) along coefs (coefs.map Para.c) (lines.map (shiftLine xc yc)) = .ok r ∧
      (∀ q ∈ r, ∃ t, q = (powers t n, 1)) ∧
      ∀ t ∈ offCentreRadii ⟨yc, xc⟩ lines c0 δ, (powers t n, (1 : ℝ)) ∈ r := by
  have hc' : ∀ (i : ℕ) (q : Para), coefs[i]? = some q → q.c ≠ 0 := by
    intro i q hq
    obtain ⟨hi, -⟩ := List.getElem?_eq_some_iff.1 hq
    rw [(hk i q hq).2]
    exact hc i (by rw [hlen]; exact hi)
  obtain ⟨R, e, h1, h2⟩ := rowsOf_ok (row := backwardRow n) (along := along) (coefs := coefs) (uc := coefs.map Para.c)
    (lines := lines.map (shiftLine xc yc)) (by
      intro i q u line p hq hu _ _
      rw [List.getElem?_map, hq] at hu
      obtain rfl : q.c = u := by simpa using hu
      exact ⟨_, backwardRow_straight (hk i q hq).1 (hc' i q hq) _ _⟩)
  refine ⟨R, e, ?_, ?_⟩
  · intro z hz
    obtain ⟨i, q, u, line, p, hq, hu, _, _, hrow⟩ := h1 z hz
    rw [List.getElem?_map, hq] at hu
    obtain rfl : q.c = u := by simpa using hu
    rw [backwardRow_straight (hk i q hq).1 (hc' i q hq)] at hrow
    exact ⟨_, (Except.ok.inj hrow).symm⟩
  · rintro t ⟨i, line, p, hl, hc, hp, rfl⟩
    obtain ⟨hi, -⟩ := List.getElem?_eq_some_iff.1 hl
    have hq := List.getElem?_eq_getElem (l := coefs) (i := i) (by rw [← hlen]; exact hi)
    obtain ⟨r, hr, hrow⟩ := h2 i _ coefs[i].c _ (⟨p.y - yc, p.x - xc⟩ : Pt) hq (by rw [List.getElem?_map, hq]; rfl)
      (by rw [List.getElem?_map, hl]; rfl) (List.mem_map.2 ⟨p, hp, rfl⟩)
    rw [backwardRow_straight (hk i _ hq).1 (hc' i _ hq)] at hrow
    obtain rfl := Except.ok.inj hrow
    simpa only [shift_radius] using hr

/-- The intercepts of straight equidistant families. -/
theorem calcUndistorIntercept_exact {pf : PolyfitFn} (hpf : PolyfitSpec pf) (minimize : (ℝ → ℝ) → ℝ → ℝ)
    {hor ver : List (List Pt)} {xc yc h0 dh v0 dv : ℝ} (hh : IsStraightFamily Pt.x Pt.y ⟨yc, xc⟩ hor h0 dh)
    (hv : IsStraightFamily Pt.y Pt.x ⟨yc, xc⟩ ver v0 dv) (hdh : dh ≠ 0) (hdv : dv ≠ 0) (h4 : 4 ≤ hor.length)
    (v4 : 4 ≤ ver.length) (optimizing : Bool) (hmin : optimizing = true → ExactMin minimize) {threshold : ℝ}
    (ht : 0 ≤ threshold) :
    ∃ ch cv : List Para, paraFitHor pf hor xc yc = .ok (ch, hor.map (shiftLine xc yc)) ∧
      paraFitVer pf ver xc yc = .ok (cv, ver.map (shiftLine xc yc)) ∧
      hor.length = ch.length ∧ ver.length = cv.length ∧
      (∀ (i : ℕ) (q : Para), ch[i]? = some q → q.a = 0 ∧ q.c = h0 + i * dh) ∧
      (∀ (i : ℕ) (q : Para), cv[i]? = some q → q.a = 0 ∧ q.c = v0 + i * dv) ∧
      calcUndistorIntercept pf minimize hor ver xc yc optimizing threshold =
        .ok (ch.map Para.c, cv.map Para.c, false) := by
  obtain ⟨ch, e1, f1⟩ := paraFitHor_ok hpf (family_ne_nil hh) xc yc
  obtain ⟨cv, e2, f2⟩ := paraFitVer_ok hpf (family_ne_nil hv) xc yc
  obtain ⟨k1, a1⟩ := isArith_of_family hh f1
  obtain ⟨k2, a2⟩ := isArith_of_family hv f2
  refine ⟨ch, cv, e1, e2, f1.length_eq, f2.length_eq, k1, k2, ?_⟩
  have l1 := f1.length_eq
  have l2 := f2.length_eq
  unfold calcUndistorIntercept
  rw [e1, ok_bind]
  simp only
  rw [e2, ok_bind]
  simp only
  unfold checkMissingLines
  rw [missingInDir_arith hpf (by omega) a1 hdh ht, missingInDir_arith hpf (by omega) a2 hdv ht]
  simp only [ok_bind]
  rw [undistorted_exact minimize a1 hdh (by omega) (by simp; omega) optimizing hmin,
    undistorted_exact minimize a2 hdv (by omega) (by simp; omega) optimizing hmin]
  rfl

/-- Not all of the lines pass through the centre. -/
theorem offCentreRadii_nonempty {along across : Pt → ℝ} {c : Pt} {lines : List (List Pt)} {c0 δ : ℝ}
    (h : IsStraightFamily along across c lines c0 δ) (hδ : δ ≠ 0) (h2 : 2 ≤ lines.length) :
    ∃ t, t ∈ offCentreRadii c lines c0 δ := by
  have key : ∀ i : ℕ, i < lines.length → c0 + i * δ ≠ 0 → ∃ t, t ∈ offCentreRadii c lines c0 δ := by
    intro i hi hc
    obtain ⟨_, p, hp, _⟩ := h i _ (List.getElem?_eq_getElem hi)
    exact ⟨_, i, _, p, List.getElem?_eq_getElem hi, hc, hp, rfl⟩
  by_cases h0 : c0 + ((0 : ℕ) : ℝ) * δ = 0
  · refine key 1 (by omega) ?_
    push_cast at h0 ⊢
    intro h1
    apply hδ
    linarith
  · exact key 0 (by omega) h0

end Discorpy
