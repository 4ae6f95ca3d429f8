import Verif.Lemmas.GridPhoto
import Verif.Props.C77
import Verif.Props.C107

/-! # C108: correction of the perspective from a grid -/

namespace Discorpy

open Spec Matrix

theorem photo_not_parallel' {M : Matrix (Fin 3) (Fin 3) ℝ} {o w u : Pt} {hor ver : List (List Pt)} (h : IsGridPhoto M o w u hor ver) {l m : List Pt}
    (hl : l ∈ hor) (hm : m ∈ ver) {a b a' b' : ℝ} (h1 : IsLsqHorLine l a b) (h2 : IsLsqVerLine m a' b') : a * a' ≠ 1 := by
  obtain ⟨i, hi, rfl⟩ := List.getElem_of_mem hl
  obtain ⟨j, hj, rfl⟩ := List.getElem_of_mem hm
  have r := h.rows i _ (List.getElem?_eq_getElem hi)
  have c := h.cols j _ (List.getElem?_eq_getElem hj)
  exact photo_not_parallel h.camera h.steps (h.crossings i hi j hj) r.1 r.2 c.1 c.2 h1 h2

theorem photo_nonempty {M : Matrix (Fin 3) (Fin 3) ℝ} {o w u : Pt} {hor ver : List (List Pt)} (h : IsGridPhoto M o w u hor ver) :
    (∀ l ∈ hor, l ≠ []) ∧ ∀ l ∈ ver, l ≠ [] := by
  constructor
  · intro l hl
    obtain ⟨i, hi, rfl⟩ := List.getElem_of_mem hl
    obtain ⟨_, p, hp, _⟩ := h.rows i _ (List.getElem?_eq_getElem hi)
    exact List.ne_nil_of_mem hp
  · intro l hl
    obtain ⟨i, hi, rfl⟩ := List.getElem_of_mem hl
    obtain ⟨_, p, hp, _⟩ := h.cols i _ (List.getElem?_eq_getElem hi)
    exact List.ne_nil_of_mem hp

/-- Sources, and targets in terms of the fitted lines. -/
theorem photo_values {pf : PolyfitFn} (hpf : PolyfitSpec pf) (minimize : (ℝ → ℝ) → ℝ → ℝ) {hor ver : List (List Pt)}
    {M : Matrix (Fin 3) (Fin 3) ℝ} {o w u : Pt} (h : IsGridPhoto M o w u hor ver) (h2 : 2 ≤ hor.length) (v2 : 2 ≤ ver.length)
    (equalDist : Bool) (scale : ScaleOpt) (optimizing : Bool) :
    ∃ (ch cv : List Lin) (source target : List Pt) (a0 eh ev dh dv : ℝ) (o' : Pt),
      List.Forall₂ (fun l q => IsLsqHorLine l q.a q.b) hor ch ∧ List.Forall₂ (fun l q => IsLsqVerLine l q.a q.b) ver cv ∧
      (dh, dv) = commonSpacing equalDist eh ev scale ∧
      (optimizing = false →
        IsSpacing (central (ch.map Lin.b) (hor.length / 2) (min (max (hor.length / 2 - 1) 1) (max (ver.length / 2 - 1) 1))) eh scale ∧
        IsSpacing (central (cv.map Lin.b) (ver.length / 2) (min (max (hor.length / 2 - 1) 1) (max (ver.length / 2 - 1) 1))) ev scale) ∧
      (optimizing = true → ExactMin minimize →
        (∀ x, spacingError (ch.map Lin.b) (hor.length / 2) eh ≤ spacingError (ch.map Lin.b) (hor.length / 2) x) ∧
        (∀ x, spacingError (cv.map Lin.b) (ver.length / 2) ev ≤ spacingError (cv.map Lin.b) (ver.length / 2) x)) ∧
      generateSourceTarget pf minimize hor ver equalDist scale optimizing = .ok (source, target) ∧
      source.length = hor.length * ver.length ∧ target.length = hor.length * ver.length ∧
      ∀ i < hor.length, ∀ j < ver.length,
        (∃ s, source[i * ver.length + j]? = some s ∧ IsImage M (gridPoint o w u i j) s) ∧
        target[i * ver.length + j]? = some (gridPoint o' ⟨dh / (1 + a0 ^ 2), -(a0 * dh) / (1 + a0 ^ 2)⟩ ⟨a0 * dv / (1 + a0 ^ 2), dv / (1 + a0 ^ 2)⟩ i j) := by
  obtain ⟨hh, hv⟩ := photo_nonempty h
  obtain ⟨ch, cv, f1, f2, e⟩ := C19_grid_dots pf hpf hor ver hh hv
  have hp' : ∀ p ∈ ch, ∀ q ∈ cv, p.a * q.a ≠ 1 := by
    intro p mp q mq
    obtain ⟨l, ml, hl⟩ := forall₂_left f1.flip mp
    obtain ⟨m, mm, hm⟩ := forall₂_left f2.flip mq
    exact photo_not_parallel' h ml mm hl hm
  obtain ⟨rows, cols, e', hg, hent⟩ := C19_grid_coef ch cv hp'
  have l1 := f1.length_eq
  have l2 := f2.length_eq
  have onRow : ∀ (i : ℕ) (hi : i < hor.length) (t : ℝ) (q : Pt), IsImage M (gridPoint o w u i t) q →
      onHorLine (ch[i]'(l1 ▸ hi)).a (ch[i]'(l1 ▸ hi)).b q := by
    intro i hi
    have r := h.rows i _ (List.getElem?_eq_getElem hi)
    exact (photo_row h.camera r.1 r.2 (by simpa using f1.get hi (l1 ▸ hi))).2
  have onCol : ∀ (j : ℕ) (hj : j < ver.length) (t : ℝ) (q : Pt), IsImage M (gridPoint o w u t j) q →
      onVerLine (cv[j]'(l2 ▸ hj)).a (cv[j]'(l2 ▸ hj)).b q := by
    intro j hj
    have r := h.cols j _ (List.getElem?_eq_getElem hj)
    exact (photo_col h.camera r.1 r.2 (by simpa using f2.get hj (l2 ▸ hj))).2
  have cross : ∀ i < hor.length, ∀ j < ver.length, ∃ s, entry rows i j = some s ∧ IsImage M (gridPoint o w u i j) s := by
    intro i hi j hj
    obtain ⟨s, es⟩ := exists_image (h.crossings i hi j hj)
    obtain ⟨p, ep, _, _, hu⟩ := hent i j _ _ (List.getElem?_eq_getElem (l1 ▸ hi)) (List.getElem?_eq_getElem (l2 ▸ hj))
    exact ⟨p, ep, hu s (onRow i hi j s es) (onCol j hj i s es) ▸ es⟩
  rw [← l1, ← l2] at hg
  obtain ⟨ch', cv', a0, eh, ev, dh, dv, trows, tcols, f1', f2', _, hc, hsp, hopt, et, hgt, hpt⟩ := C20_values pf hpf minimize rows cols
    (IsGridPair_rows_ne hg (by omega)) (IsGridPair_cols_ne hg (by omega)) (by rw [hg.nrows]; exact h2) (by rw [hg.ncols]; exact v2)
    equalDist scale optimizing
  rw [hg.nrows, hg.ncols] at hgt
  rw [hg.nrows, hg.ncols] at hsp hopt hpt
  -- the lines fitted to the crossings are the lines fitted to the dots
  have ech : ch' = ch := by
    apply List.ext_getElem
    · rw [← f1'.length_eq, hg.nrows, l1]
    · intro i hi hi'
      have hir : i < rows.length := by rw [f1'.length_eq]; exact hi
      have hih : i < hor.length := by rw [l1]; exact hi'
      have hrl : rows[i].length = ver.length := hg.rowLen _ (List.getElem_mem hir)
      have ent : ∀ j (hj : j < ver.length), IsImage M (gridPoint o w u i j) (rows[i][j]'(hrl.symm ▸ hj)) := by
        intro j hj
        obtain ⟨s, hs, es⟩ := cross i hih j hj
        unfold entry at hs
        rw [List.getElem?_eq_getElem hir] at hs
        have hs' : rows[i][j]? = some s := hs
        rw [List.getElem?_eq_getElem (hrl.symm ▸ hj)] at hs'
        rwa [Option.some.inj hs']
      have k0 := ent 0 (by omega)
      have k1 := ent 1 (by omega)
      have on := onRow i hih
      have n01 : (rows[i][0]'(by omega)).x ≠ (rows[i][1]'(by omega)).x := by
        intro hx
        have a1 := on _ _ k0
        have a2 := on _ _ k1
        unfold onHorLine at a1 a2
        have heq : rows[i][0]'(by omega) = rows[i][1]'(by omega) := by
          have hy : (rows[i][0]'(by omega)).y = (rows[i][1]'(by omega)).y := by rw [a1, a2, hx]
          rcases hA : rows[i][0]'(by omega) with ⟨y, x⟩
          rcases hB : rows[i][1]'(by omega) with ⟨y', x'⟩
          rw [hA, hB] at hx hy
          simp only at hx hy
          rw [hx, hy]
        rw [heq] at k0
        have := (gridPoint_inj h.steps (isImage_inj h.camera k0 k1)).2
        norm_num at this
      have q1 : IsLsqHorLine rows[i] ch'[i].a ch'[i].b := by simpa using f1'.get hir hi
      have q2 : ∀ p ∈ rows[i], ∃ t : ℝ, IsImage M (gridPoint o w u i t) p := by
        intro p hp
        obtain ⟨j, hj, rfl⟩ := List.getElem_of_mem hp
        exact ⟨j, ent j (by omega)⟩
      have on' := (photo_row h.camera q2 ⟨_, List.getElem_mem _, _, List.getElem_mem _, n01⟩ q1).2
      obtain ⟨ea, eb⟩ := horLine_unique n01 (on' _ _ k0) (on' _ _ k1) (on _ _ k0) (on _ _ k1)
      rcases hA : ch'[i] with ⟨a, b⟩
      rcases hB : ch[i] with ⟨a', b'⟩
      rw [hA, hB] at ea eb
      simp only at ea eb
      rw [ea, eb]
  have ecv : cv' = cv := by
    apply List.ext_getElem
    · rw [← f2'.length_eq, hg.ncols, l2]
    · intro i hi hi'
      have hir : i < cols.length := by rw [f2'.length_eq]; exact hi
      have hih : i < ver.length := by rw [l2]; exact hi'
      have hrl : cols[i].length = hor.length := hg.colLen _ (List.getElem_mem hir)
      have ent : ∀ j (hj : j < hor.length), IsImage M (gridPoint o w u j i) (cols[i][j]'(hrl.symm ▸ hj)) := by
        intro j hj
        obtain ⟨s, hs, es⟩ := cross j hj i hih
        rw [hg.transpose] at hs
        unfold entry at hs
        rw [List.getElem?_eq_getElem hir] at hs
        have hs' : cols[i][j]? = some s := hs
        rw [List.getElem?_eq_getElem (hrl.symm ▸ hj)] at hs'
        rwa [Option.some.inj hs']
      have k0 := ent 0 (by omega)
      have k1 := ent 1 (by omega)
      have on := onCol i hih
      have n01 : (cols[i][0]'(by omega)).y ≠ (cols[i][1]'(by omega)).y := by
        intro hx
        have a1 := on _ _ k0
        have a2 := on _ _ k1
        unfold onVerLine at a1 a2
        have heq : cols[i][0]'(by omega) = cols[i][1]'(by omega) := by
          have hy : (cols[i][0]'(by omega)).x = (cols[i][1]'(by omega)).x := by rw [a1, a2, hx]
          rcases hA : cols[i][0]'(by omega) with ⟨y, x⟩
          rcases hB : cols[i][1]'(by omega) with ⟨y', x'⟩
          rw [hA, hB] at hx hy
          simp only at hx hy
          rw [hx, hy]
        rw [heq] at k0
        have := (gridPoint_inj h.steps (isImage_inj h.camera k0 k1)).1
        norm_num at this
      have q1 : IsLsqVerLine cols[i] cv'[i].a cv'[i].b := by simpa using f2'.get hir hi
      have q2 : ∀ p ∈ cols[i], ∃ t : ℝ, IsImage M (gridPoint o w u t i) p := by
        intro p hp
        obtain ⟨j, hj, rfl⟩ := List.getElem_of_mem hp
        exact ⟨j, ent j (by omega)⟩
      have on' := (photo_col h.camera q2 ⟨_, List.getElem_mem _, _, List.getElem_mem _, n01⟩ q1).2
      obtain ⟨ea, eb⟩ := verLine_unique n01 (on' _ _ k0) (on' _ _ k1) (on _ _ k0) (on _ _ k1)
      rcases hA : cv'[i] with ⟨a, b⟩
      rcases hB : cv[i] with ⟨a', b'⟩
      rw [hA, hB] at ea eb
      simp only at ea eb
      rw [ea, eb]
  rw [ech, ecv] at hsp hopt hpt
  set B := (ch.map Lin.b).getD (hor.length / 2) 0 with hB
  set C := (cv.map Lin.b).getD (ver.length / 2) 0 with hC
  set P := ((hor.length / 2 : ℕ) : ℝ) with hP
  set Q := ((ver.length / 2 : ℕ) : ℝ) with hQ
  have hden : (1 + a0 ^ 2) ≠ 0 := by positivity
  refine ⟨ch, cv, rows.flatten, trows.flatten, a0, eh, ev, dh, dv,
    ⟨(a0 * (C - Q * dv) + (B - P * dh)) / (1 + a0 ^ 2), ((C - Q * dv) - a0 * (B - P * dh)) / (1 + a0 ^ 2)⟩,
    f1, f2, hc, hsp, hopt, ?_, ?_, ?_, ?_⟩
  · unfold generateSourceTarget
    rw [e, e', ok_bind]
    simp only [et, ok_bind]
  · rw [flatten_length hg.rowLen, hg.nrows]
  · rw [flatten_length hgt.rowLen, hgt.nrows]
  · intro i hi j hj
    rw [flatten_uniform hg.rowLen i hj, flatten_uniform hgt.rowLen i hj]
    refine ⟨cross i hi j hj, ?_⟩
    obtain ⟨p, ep, k1, k2⟩ := hpt i hi j hj
    rw [ep]
    congr 1
    unfold onHorLine at k1
    unfold onVerLine at k2
    rcases p with ⟨y, x⟩
    simp only at k1 k2
    unfold gridPoint
    congr 1
    · field_simp
      linear_combination k1 + a0 * k2
    · field_simp
      linear_combination k2 - a0 * k1

theorem stepUp_rows {hor : List (List Pt)} {ch : List Lin} (hf : List.Forall₂ (fun l q => ∀ p ∈ l, onHorLine q.a q.b p) hor ch)
    (h : RowsInOrder hor) : StepUp (ch.map Lin.b) := by
  intro i hi
  rw [List.length_map] at hi
  have hl := hf.length_eq
  have get : ∀ k (hk : k < ch.length), (ch.map Lin.b).getD k 0 = ch[k].b := by
    intro k hk
    rw [List.getD_eq_getElem?_getD, List.getElem?_map, List.getElem?_eq_getElem hk]
    rfl
  rw [get i (by omega), get (i + 1) hi]
  have q1 := hf.get (by omega : i < hor.length) (by omega)
  have q2 := hf.get (by omega : i + 1 < hor.length) hi
  simp only [List.get_eq_getElem] at q1 q2
  exact h i _ _ (List.getElem?_eq_getElem (by omega)) (List.getElem?_eq_getElem (by omega)) _ _ _ _ q1 q2

theorem stepUp_cols {ver : List (List Pt)} {cv : List Lin} (hf : List.Forall₂ (fun l q => ∀ p ∈ l, onVerLine q.a q.b p) ver cv)
    (h : ColsInOrder ver) : StepUp (cv.map Lin.b) := by
  intro i hi
  rw [List.length_map] at hi
  have hl := hf.length_eq
  have get : ∀ k (hk : k < cv.length), (cv.map Lin.b).getD k 0 = cv[k].b := by
    intro k hk
    rw [List.getD_eq_getElem?_getD, List.getElem?_map, List.getElem?_eq_getElem hk]
    rfl
  rw [get i (by omega), get (i + 1) hi]
  have q1 := hf.get (by omega : i < ver.length) (by omega)
  have q2 := hf.get (by omega : i + 1 < ver.length) hi
  simp only [List.get_eq_getElem] at q1 q2
  exact h i _ _ (List.getElem?_eq_getElem (by omega)) (List.getElem?_eq_getElem (by omega)) _ _ _ _ q1 q2

theorem photo_on {M : Matrix (Fin 3) (Fin 3) ℝ} {o w u : Pt} {hor ver : List (List Pt)} (h : IsGridPhoto M o w u hor ver) {ch cv : List Lin}
    (f1 : List.Forall₂ (fun l q => IsLsqHorLine l q.a q.b) hor ch) (f2 : List.Forall₂ (fun l q => IsLsqVerLine l q.a q.b) ver cv) :
    List.Forall₂ (fun l q => ∀ p ∈ l, onHorLine q.a q.b p) hor ch ∧ List.Forall₂ (fun l q => ∀ p ∈ l, onVerLine q.a q.b p) ver cv := by
  constructor
  · rw [List.forall₂_iff_get] at f1 ⊢
    refine ⟨f1.1, fun i h1 h2 => ?_⟩
    have r := h.rows i _ (List.getElem?_eq_getElem h1)
    exact (photo_row h.camera r.1 r.2 (f1.2 i h1 h2)).1
  · rw [List.forall₂_iff_get] at f2 ⊢
    refine ⟨f2.1, fun i h1 h2 => ?_⟩
    have r := h.cols i _ (List.getElem?_eq_getElem h1)
    exact (photo_col h.camera r.1 r.2 (f2.2 i h1 h2)).1

/-- **C108** (source and target points). For the photograph of a grid with at least two rows and columns, however many dots of each line were
found, the sources are exactly the images of the crossings of the grid, row by row, and the targets form a grid with perpendicular steps, of
equal length with `equal_dist=True`. The target grid is not degenerate if the lines cross the edges of the image in order (and a float `scale` is not 0). -/
theorem C108_points (pf : PolyfitFn) (hpf : PolyfitSpec pf) (minimize : (ℝ → ℝ) → ℝ → ℝ) (hor ver : List (List Pt))
    (M : Matrix (Fin 3) (Fin 3) ℝ) (o w u : Pt) (h : IsGridPhoto M o w u hor ver) (h2 : 2 ≤ hor.length) (v2 : 2 ≤ ver.length)
    (equalDist : Bool) (scale : ScaleOpt) (optimizing : Bool) :
    ∃ (source target : List Pt) (o' w' u' : Pt),
      generateSourceTarget pf minimize hor ver equalDist scale optimizing = .ok (source, target) ∧
      source.length = hor.length * ver.length ∧ target.length = hor.length * ver.length ∧
      (∀ i < hor.length, ∀ j < ver.length, (∃ s, source[i * ver.length + j]? = some s ∧ IsImage M (gridPoint o w u i j) s) ∧
        target[i * ver.length + j]? = some (gridPoint o' w' u' i j)) ∧
      w'.x * u'.x + w'.y * u'.y = 0 ∧ (equalDist = true → ptDist w' ⟨0, 0⟩ = ptDist u' ⟨0, 0⟩) ∧
      (RowsInOrder hor → ColsInOrder ver → (∀ k, scale = .float k → k ≠ 0) → (optimizing = true → ExactMin minimize) →
        w'.x * u'.y ≠ w'.y * u'.x) := by
  obtain ⟨ch, cv, source, target, a0, eh, ev, dh, dv, o', f1, f2, hc, hsp, hopt, e, ls, lt, hpt⟩ :=
    photo_values hpf minimize h h2 v2 equalDist scale optimizing
  have hden : (1 + a0 ^ 2) ≠ 0 := by positivity
  refine ⟨source, target, o', _, _, e, ls, lt, hpt, ?_, ?_, ?_⟩
  · field_simp
    ring
  · rintro rfl
    have hd : dh = dv := by cases scale <;> simp only [commonSpacing, if_true] at hc <;> cases hc <;> rfl
    subst hd
    unfold ptDist
    congr 1
    simp only
    ring
  · intro ro co hf hm
    obtain ⟨g1, g2⟩ := photo_on h f1 f2
    have s1 := stepUp_rows g1 ro
    have s2 := stepUp_cols g2 co
    have k1 : 2 ≤ (ch.map Lin.b).length := by rw [List.length_map, ← f1.length_eq]; exact h2
    have k2 : 2 ≤ (cv.map Lin.b).length := by rw [List.length_map, ← f2.length_eq]; exact v2
    have n1 : 1 ≤ min (max (hor.length / 2 - 1) 1) (max (ver.length / 2 - 1) 1) := by omega
    have hne : dh ≠ 0 ∧ dv ≠ 0 := by
      cases optimizing with
      | false =>
        obtain ⟨p1, p2⟩ := hsp rfl
        have c1 := central_length (ch.map Lin.b) n1 k1
        have c2 := central_length (cv.map Lin.b) n1 k2
        rw [List.length_map, ← f1.length_eq] at c1
        rw [List.length_map, ← f2.length_eq] at c2
        obtain ⟨mh, ph, qh⟩ := spacing_pos c1 (stepUp_central s1 _ _) p1
        obtain ⟨mv, pv, qv⟩ := spacing_pos c2 (stepUp_central s2 _ _) p2
        exact commonSpacing_ne hf ph pv qh qv hc
      | true =>
        obtain ⟨p1, p2⟩ := hopt rfl (hm rfl)
        have q1 := optSpacing_pos k1 s1 (by rw [List.length_map, ← f1.length_eq]; omega) p1
        have q2 := optSpacing_pos k2 s2 (by rw [List.length_map, ← f2.length_eq]; omega) p2
        have hsum : (eh + ev) / 2 ≠ 0 := by positivity
        cases equalDist with
        | false =>
          have : (dh, dv) = (eh, ev) := by cases scale <;> simpa [commonSpacing] using hc
          cases this
          exact ⟨q1.ne', q2.ne'⟩
        | true =>
          cases scale with
          | max => simp only [commonSpacing, if_true] at hc; cases hc; exact ⟨(lt_max_of_lt_left q1).ne', (lt_max_of_lt_left q1).ne'⟩
          | min => simp only [commonSpacing, if_true] at hc; cases hc; exact ⟨(lt_min q1 q2).ne', (lt_min q1 q2).ne'⟩
          | median => simp only [commonSpacing, if_true] at hc; cases hc; exact ⟨hsum, hsum⟩
          | mean => simp only [commonSpacing, if_true] at hc; cases hc; exact ⟨hsum, hsum⟩
          | float k => simp only [commonSpacing, if_true] at hc; cases hc; exact ⟨hsum, hsum⟩
    intro heq
    simp only at heq
    field_simp at heq
    have h0 : dh * dv * (1 + a0 ^ 2) = 0 := by
      rcases hne with ⟨_, _⟩
      linear_combination -heq
    rcases mul_eq_zero.1 h0 with h' | h'
    · rcases mul_eq_zero.1 h' with h'' | h''
      · exact hne.1 h''
      · exact hne.2 h''
    · exact hden h'

theorem forall₂_grid {R : Pt → Pt → Prop} {s t : List Pt} {m n : ℕ} (hs : s.length = m * n) (ht : t.length = m * n)
    (h : ∀ i < m, ∀ j < n, ∃ p q, s[i * n + j]? = some p ∧ t[i * n + j]? = some q ∧ R p q) : List.Forall₂ R s t := by
  rw [List.forall₂_iff_get]
  refine ⟨by rw [hs, ht], fun k h1 h2 => ?_⟩
  have hn : 0 < n := by
    rcases Nat.eq_zero_or_pos n with h0 | h0
    · rw [hs, h0] at h1; simp at h1
    · exact h0
  obtain ⟨p, q, ep, eq, hr⟩ := h (k / n) (by rw [Nat.div_lt_iff_lt_mul hn]; omega) (k % n) (Nat.mod_lt _ hn)
  rw [mul_comm, Nat.div_add_mod] at ep eq
  rw [List.getElem?_eq_getElem h1] at ep
  rw [List.getElem?_eq_getElem h2] at eq
  rw [List.get_eq_getElem, List.get_eq_getElem, Option.some.inj ep, Option.some.inj eq]
  exact hr

/-- The coefficients of aligned source and target points of a photographed grid. -/
theorem grid_coefs {lstsq : LstsqFn} (hl : LstsqSpec lstsq) {source target : List Pt} {m n : ℕ} (hm : 2 ≤ m) (hn : 2 ≤ n)
    (ls : source.length = m * n) (lt : target.length = m * n) {M : Matrix (Fin 3) (Fin 3) ℝ} (hM : M.det ≠ 0) {o w u o' w' u' : Pt}
    (hs : w.x * u.y ≠ w.y * u.x) (hs' : w'.x * u'.y ≠ w'.y * u'.x)
    (hpt : ∀ i < m, ∀ j < n, (∃ s, source[i * n + j]? = some s ∧ IsImage M (gridPoint o w u i j) s) ∧
        target[i * n + j]? = some (gridPoint o' w' u' i j)) :
    ((∀ a b, gridPoint o' w' u' a b = ⟨0, 0⟩ → FiniteAt M (gridPoint o w u a b)) →
      ∃ c : Fin 8 → ℝ, calcPerspectiveCoefs lstsq source target "backward" = .ok (List.ofFn c) ∧
        ∀ a b q, IsImage (coefMatrix c) (gridPoint o' w' u' a b) q ↔ IsImage M (gridPoint o w u a b) q) ∧
    ((∃ a b, gridPoint o' w' u' a b = ⟨0, 0⟩ ∧ ¬ FiniteAt M (gridPoint o w u a b)) →
      ∀ c : Fin 8 → ℝ, ¬ List.Forall₂ (IsImage (coefMatrix c)) target source) ∧
    (FiniteAt M⁻¹ ⟨0, 0⟩ →
      ∃ c : Fin 8 → ℝ, calcPerspectiveCoefs lstsq source target "forward" = .ok (List.ofFn c) ∧
        ∀ a b q, IsImage M (gridPoint o w u a b) q → IsImage (coefMatrix c) q (gridPoint o' w' u' a b)) := by
  have hd := regrid_det (o := o) (o' := o') hM hs hs'
  have im := regrid_image M o w u (o' := o') hs'
  have four : ∃ s1 s2 s3 s4, (s1 ∈ source ∧ s2 ∈ source ∧ s3 ∈ source ∧ s4 ∈ source) ∧
      IsImage M (gridPoint o w u 0 0) s1 ∧ IsImage M (gridPoint o w u 0 1) s2 ∧ IsImage M (gridPoint o w u 1 0) s3 ∧ IsImage M (gridPoint o w u 1 1) s4 := by
    obtain ⟨s1, e1, i1⟩ := (hpt 0 (by omega) 0 (by omega)).1
    obtain ⟨s2, e2, i2⟩ := (hpt 0 (by omega) 1 (by omega)).1
    obtain ⟨s3, e3, i3⟩ := (hpt 1 (by omega) 0 (by omega)).1
    obtain ⟨s4, e4, i4⟩ := (hpt 1 (by omega) 1 (by omega)).1
    refine ⟨s1, s2, s3, s4, ⟨List.mem_of_getElem? e1, List.mem_of_getElem? e2, List.mem_of_getElem? e3, List.mem_of_getElem? e4⟩, ?_, ?_, ?_, ?_⟩
    · simpa using i1
    · simpa using i2
    · simpa using i3
    · simpa using i4
  have tmem : ∀ k, (![gridPoint o' w' u' 0 0, gridPoint o' w' u' 0 1, gridPoint o' w' u' 1 0, gridPoint o' w' u' 1 1] : Fin 4 → Pt) k ∈ target := by
    have t1 := List.mem_of_getElem? (hpt 0 (by omega) 0 (by omega)).2
    have t2 := List.mem_of_getElem? (hpt 0 (by omega) 1 (by omega)).2
    have t3 := List.mem_of_getElem? (hpt 1 (by omega) 0 (by omega)).2
    have t4 := List.mem_of_getElem? (hpt 1 (by omega) 1 (by omega)).2
    intro k
    fin_cases k
    · simpa using t1
    · simpa using t2
    · simpa using t3
    · simpa using t4
  have corner : (∀ a b, gridPoint o' w' u' a b = ⟨0, 0⟩ → (FiniteAt M (gridPoint o w u a b) ↔ (regrid M o w u o' w' u') 2 2 ≠ 0)) := by
    intro a b hab
    rw [← finiteAt_zero, ← hab]
    unfold FiniteAt
    rw [regrid_mulVec M o w u hs']
  refine ⟨?_, ?_, ?_⟩
  · intro hfin
    obtain ⟨a, b, hab⟩ := gridPoint_surj (o := o') hs' ⟨0, 0⟩
    have h22 := (corner a b hab).1 (hfin a b hab)
    refine ⟨_, ?_, fun a b q => (isImage_normCoefs h22 _ _).trans (im a b q)⟩
    rw [C18_backward_is_swapped_forward lstsq _ _ "backward" (by decide)]
    refine C17_recovers lstsq hl target source _ ?_ (det_normCoefs h22 hd) _ tmem (gridPoint_genPos hs')
    apply forall₂_grid lt ls
    intro i hi j hj
    obtain ⟨⟨s, es, is⟩, et⟩ := hpt i hi j hj
    exact ⟨_, s, et, es, (isImage_normCoefs h22 _ _).2 ((im _ _ _).2 is)⟩
  · rintro ⟨a, b, hab, hinf⟩ c hc
    have h22 : (regrid M o w u o' w' u') 2 2 = 0 := by
      by_contra h
      exact hinf ((corner a b hab).2 h)
    obtain ⟨s1, s2, s3, s4, _, i1, i2, i3, i4⟩ := four
    have hz := List.forall₂_iff_zip.1 hc
    have all : ∀ i < m, ∀ j < n, ∀ s, IsImage M (gridPoint o w u i j) s → IsImage (coefMatrix c) (gridPoint o' w' u' i j) s := by
      intro i hi j hj s hs0
      obtain ⟨⟨s', es, is⟩, et⟩ := hpt i hi j hj
      rw [hs0.unique is]
      apply hz.2
      rw [List.mem_iff_getElem?]
      exact ⟨i * n + j, by rw [List.getElem?_zip_eq_some]; exact ⟨et, es⟩⟩
    have hA : ∀ k, IsImage (regrid M o w u o' w' u') ((![gridPoint o' w' u' 0 0, gridPoint o' w' u' 0 1, gridPoint o' w' u' 1 0, gridPoint o' w' u' 1 1] : Fin 4 → Pt) k)
        ((![s1, s2, s3, s4] : Fin 4 → Pt) k) := by
      intro k
      fin_cases k
      · exact (im _ _ _).2 i1
      · exact (im _ _ _).2 i2
      · exact (im _ _ _).2 i3
      · exact (im _ _ _).2 i4
    have hB : ∀ k, IsImage (coefMatrix c) ((![gridPoint o' w' u' 0 0, gridPoint o' w' u' 0 1, gridPoint o' w' u' 1 0, gridPoint o' w' u' 1 1] : Fin 4 → Pt) k)
        ((![s1, s2, s3, s4] : Fin 4 → Pt) k) := by
      intro k
      fin_cases k
      · simpa using all 0 (by omega) 0 (by omega) s1 (by simpa using i1)
      · simpa using all 0 (by omega) 1 (by omega) s2 (by simpa using i2)
      · simpa using all 1 (by omega) 0 (by omega) s3 (by simpa using i3)
      · simpa using all 1 (by omega) 1 (by omega) s4 (by simpa using i4)
    obtain ⟨k, hk⟩ := homography_unique hd (gridPoint_genPos hs') hA (fun i => ((isImage_iff_solvesAt _ _ _).1 (hB i)).2)
    have := congrFun (congrFun hk 2) 2
    rw [Matrix.smul_apply, h22] at this
    simp [coefMatrix] at this
  · intro hfin
    rw [finiteAt_zero] at hfin
    have h22 : (ungrid M o w u o' w' u') 2 2 ≠ 0 := by rw [ungrid_corner hs]; exact hfin
    obtain ⟨s1, s2, s3, s4, ⟨m1, m2, m3, m4⟩, i1, i2, i3, i4⟩ := four
    have gs : GeneralPosition ![s1, s2, s3, s4] := by
      have g := gridPoint_genPos (o := o) hs
      intro i j k hij hjk hik hc
      apply g i j k hij hjk hik
      refine (collinear_images hM (p := (![s1, s2, s3, s4] : Fin 4 → Pt) i) (q := (![s1, s2, s3, s4] : Fin 4 → Pt) j) (r := (![s1, s2, s3, s4] : Fin 4 → Pt) k)
        ?_ ?_ ?_).1 hc
      all_goals
        first
          | (fin_cases i <;> assumption)
          | (fin_cases j <;> assumption)
          | (fin_cases k <;> assumption)
    refine ⟨_, ?_, fun a b q hq => (isImage_normCoefs h22 _ _).2 (ungrid_image hM hs o' w' u' hq)⟩
    refine C17_recovers lstsq hl source target _ ?_ (det_normCoefs h22 (ungrid_det hM hs hs')) ![s1, s2, s3, s4] ?_ gs
    · apply forall₂_grid ls lt
      intro i hi j hj
      obtain ⟨⟨s, es, is⟩, et⟩ := hpt i hi j hj
      exact ⟨s, _, es, et, (isImage_normCoefs h22 _ _).2 (ungrid_image hM hs o' w' u' is)⟩
    · intro k
      fin_cases k <;> assumption

/-- **C108** (the coefficients). A camera takes a picture of a flat grid; its rows and columns cross the edges of the image in order. Then the targets
are a rectangular grid, a square one with `equal_dist=True`, and the coefficients are exact, for every place of the plane and not only at the dots: the
backward ones take the place with grid coordinates `(a, b)` among the targets to where the camera sees the place `(a, b)` of the plane, the forward ones
take it back. Exceptions: backward, if the corner `(0, 0)` of the corrected image belongs to a place the camera does not see, no coefficients fit
the points at all; forward, if the corner of the photograph is on the horizon. A square grid with `equal_dist=True` is shown true to scale. -/
theorem C108_rectifies (pf : PolyfitFn) (hpf : PolyfitSpec pf) (lstsq : LstsqFn) (hl : LstsqSpec lstsq) (minimize : (ℝ → ℝ) → ℝ → ℝ)
    (hor ver : List (List Pt)) (M : Matrix (Fin 3) (Fin 3) ℝ) (o w u : Pt) (h : IsGridPhoto M o w u hor ver) (h2 : 2 ≤ hor.length)
    (v2 : 2 ≤ ver.length) (hro : RowsInOrder hor) (hco : ColsInOrder ver) (equalDist : Bool) (scale : ScaleOpt) (optimizing : Bool)
    (hf : ∀ k, scale = .float k → k ≠ 0) (hm : optimizing = true → ExactMin minimize) :
    ∃ (source target : List Pt) (o' w' u' : Pt),
      generateSourceTarget pf minimize hor ver equalDist scale optimizing = .ok (source, target) ∧
      w'.x * u'.y ≠ w'.y * u'.x ∧ w'.x * u'.x + w'.y * u'.y = 0 ∧
      ((∀ a b, gridPoint o' w' u' a b = ⟨0, 0⟩ → FiniteAt M (gridPoint o w u a b)) →
        ∃ c : Fin 8 → ℝ, calcPerspectiveCoefs lstsq source target "backward" = .ok (List.ofFn c) ∧
          ∀ a b q, IsImage (coefMatrix c) (gridPoint o' w' u' a b) q ↔ IsImage M (gridPoint o w u a b) q) ∧
      ((∃ a b, gridPoint o' w' u' a b = ⟨0, 0⟩ ∧ ¬ FiniteAt M (gridPoint o w u a b)) →
        ∀ c : Fin 8 → ℝ, ¬ List.Forall₂ (IsImage (coefMatrix c)) target source) ∧
      (FiniteAt M⁻¹ ⟨0, 0⟩ →
        ∃ c : Fin 8 → ℝ, calcPerspectiveCoefs lstsq source target "forward" = .ok (List.ofFn c) ∧
          ∀ a b q, IsImage M (gridPoint o w u a b) q → IsImage (coefMatrix c) q (gridPoint o' w' u' a b)) ∧
      (equalDist = true → w.x * u.x + w.y * u.y = 0 → ptDist w ⟨0, 0⟩ = ptDist u ⟨0, 0⟩ →
        ∃ k > 0, ∀ a b a' b', ptDist (gridPoint o' w' u' a b) (gridPoint o' w' u' a' b') =
          k * ptDist (gridPoint o w u a b) (gridPoint o w u a' b')) := by
  obtain ⟨source, target, o', w', u', e, ls, lt, hpt, hperp, heq, hnd⟩ := C108_points pf hpf minimize hor ver M o w u h h2 v2 equalDist scale optimizing
  have hnd' := hnd hro hco hf hm
  obtain ⟨c1, c2, c3⟩ := grid_coefs hl h2 v2 ls lt h.camera h.steps hnd' hpt
  refine ⟨source, target, o', w', u', e, hnd', hperp, c1, c2, c3, ?_⟩
  intro he hp hd
  have hd' := heq he
  have len : ∀ (o w u : Pt), w.x * u.x + w.y * u.y = 0 → ptDist w ⟨0, 0⟩ = ptDist u ⟨0, 0⟩ → ∀ a b a' b',
      ptDist (gridPoint o w u a b) (gridPoint o w u a' b') = √((a - a') ^ 2 + (b - b') ^ 2) * ptDist w ⟨0, 0⟩ := by
    intro o w u hp hd a b a' b'
    have hsq : w.x ^ 2 + w.y ^ 2 = u.x ^ 2 + u.y ^ 2 := by
      have := congrArg (· ^ 2) hd
      unfold ptDist at this
      simp only at this
      rw [Real.sq_sqrt (by positivity), Real.sq_sqrt (by positivity)] at this
      simpa using this
    unfold ptDist gridPoint
    rw [← Real.sqrt_mul (by positivity)]
    congr 1
    simp only
    linear_combination 2 * (a - a') * (b - b') * hp - (b - b') ^ 2 * hsq
  have pos : ∀ (w u : Pt), w.x * u.y ≠ w.y * u.x → 0 < ptDist w ⟨0, 0⟩ := by
    intro w u hne
    unfold ptDist
    apply Real.sqrt_pos.2
    simp only [sub_zero]
    rcases eq_or_ne w.x 0 with hx | hx
    · rcases eq_or_ne w.y 0 with hy | hy
      · rw [hx, hy, zero_mul, zero_mul] at hne
        exact absurd rfl hne
      · positivity
    · positivity
  have p1 := pos w u h.steps
  refine ⟨ptDist w' ⟨0, 0⟩ / ptDist w ⟨0, 0⟩, div_pos (pos w' u' hnd') p1, fun a b a' b' => ?_⟩
  rw [len o w u hp hd, len o' w' u' hperp hd']
  field_simp

/-- **C108** (the image). The corrected image shows at every pixel the place of the plane with the same grid coordinates, as seen by the camera. -/
theorem C108_image (pf : PolyfitFn) (hpf : PolyfitSpec pf) (lstsq : LstsqFn) (hl : LstsqSpec lstsq) (minimize : (ℝ → ℝ) → ℝ → ℝ)
    (hor ver : List (List Pt)) (M : Matrix (Fin 3) (Fin 3) ℝ) (o w u : Pt) (h : IsGridPhoto M o w u hor ver) (h2 : 2 ≤ hor.length)
    (v2 : 2 ≤ ver.length) (hro : RowsInOrder hor) (hco : ColsInOrder ver) (equalDist : Bool) (scale : ScaleOpt) (optimizing : Bool)
    (hf : ∀ k, scale = .float k → k ≠ 0) (hm : optimizing = true → ExactMin minimize) (S : Sampler) (rnd : ℝ → ℝ) (m : Mat ℝ) :
    ∃ (source target : List Pt) (o' w' u' : Pt),
      generateSourceTarget pf minimize hor ver equalDist scale optimizing = .ok (source, target) ∧
      (∀ P : Pt, ∃! ab : ℝ × ℝ, gridPoint o' w' u' ab.1 ab.2 = P) ∧
      ((∀ a b, gridPoint o' w' u' a b = ⟨0, 0⟩ → FiniteAt M (gridPoint o w u a b)) →
        ∃ coef out, calcPerspectiveCoefs lstsq source target "backward" = .ok coef ∧ correctPerspectiveImage S rnd m coef none = .ok out ∧
          out.height = m.height ∧ out.width = m.width ∧
          ∀ i < m.height, ∀ j < m.width, ∀ a b q, gridPoint o' w' u' a b = ⟨(i : ℝ), (j : ℝ)⟩ → IsImage M (gridPoint o w u a b) q →
            out.get i j = S m (rnd (clampTo ((m.height : ℝ) - 1) q.y)) (rnd (clampTo ((m.width : ℝ) - 1) q.x))) := by
  obtain ⟨source, target, o', w', u', e, hnd, _, c1, _⟩ :=
    C108_rectifies pf hpf lstsq hl minimize hor ver M o w u h h2 v2 hro hco equalDist scale optimizing hf hm
  refine ⟨source, target, o', w', u', e, ?_, ?_⟩
  · intro P
    obtain ⟨a, b, hab⟩ := gridPoint_surj (o := o') hnd P
    refine ⟨(a, b), hab, ?_⟩
    rintro ⟨a', b'⟩ hab'
    obtain ⟨r1, r2⟩ := gridPoint_inj hnd (Eq.trans hab' hab.symm)
    exact Prod.ext r1 r2
  · intro hfin
    obtain ⟨c, ec, hc⟩ := c1 hfin
    obtain ⟨out, eo, hh, hw, hr⟩ := correctPerspectiveImage_reads S rnd m c
    refine ⟨_, out, ec, eo, hh, hw, ?_⟩
    intro i hi j hj a b q hab hq
    exact hr i hi j hj q (hab ▸ (hc a b q).2 hq)

theorem spacing_zero {l : List ℝ} (hl : 2 ≤ l.length) (hg : ∀ g ∈ gaps l, g = 0) {d : ℝ} {scale : ScaleOpt} (h : IsSpacing l d scale) : d = 0 := by
  cases scale with
  | float s =>
    obtain ⟨m, hm, rfl⟩ := h
    have : m = 0 := isSpacing_arith (scale := .mean) hl hg (by simp) hm
    rw [this, mul_zero]
  | max => exact isSpacing_arith hl hg (by simp) h
  | min => exact isSpacing_arith hl hg (by simp) h
  | median => exact isSpacing_arith hl hg (by simp) h
  | mean => exact isSpacing_arith hl hg (by simp) h

/-- **C108** (rows meeting on the left edge). If the rows of the photograph, prolonged, meet in a point of the edge `x = 0`, the default
`equal_dist=False` puts the targets of all rows in one place, for every `scale` and with or without optimisation, and no coefficients fit. -/
theorem C108_collapse (pf : PolyfitFn) (hpf : PolyfitSpec pf) (minimize : (ℝ → ℝ) → ℝ → ℝ) (hor ver : List (List Pt))
    (M : Matrix (Fin 3) (Fin 3) ℝ) (o w u : Pt) (h : IsGridPhoto M o w u hor ver) (h2 : 2 ≤ hor.length) (v2 : 2 ≤ ver.length)
    (y0 : ℝ) (hmeet : ∀ l ∈ hor, ∃ a, ∀ p ∈ l, onHorLine a y0 p) (scale : ScaleOpt) (optimizing : Bool)
    (hm : optimizing = true → ExactMin minimize) :
    ∃ source target : List Pt, generateSourceTarget pf minimize hor ver false scale optimizing = .ok (source, target) ∧
      (∀ i < hor.length, ∀ i' < hor.length, ∀ j < ver.length, target[i * ver.length + j]? = target[i' * ver.length + j]?) ∧
      ∀ c : Fin 8 → ℝ, ¬ List.Forall₂ (IsImage (coefMatrix c)) target source := by
  obtain ⟨ch, cv, source, target, a0, eh, ev, dh, dv, o', f1, f2, hc, hsp, hopt, e, ls, lt, hpt⟩ :=
    photo_values hpf minimize h h2 v2 false scale optimizing
  have hint : ch.map Lin.b = (List.range hor.length).map fun i : ℕ => y0 + (i : ℝ) * 0 := by
    apply List.ext_getElem
    · simp [f1.length_eq]
    · intro i h1 h2'
      simp only [List.length_map] at h1
      have hi : i < hor.length := by rw [f1.length_eq]; exact h1
      simp only [List.getElem_map, mul_zero, add_zero]
      obtain ⟨a, ha⟩ := hmeet _ (List.getElem_mem hi)
      have r := h.rows i _ (List.getElem?_eq_getElem hi)
      obtain ⟨p, hp, q, hq, hpq⟩ := r.2
      have on := (photo_row h.camera r.1 r.2 (by simpa using f1.get hi h1)).1
      exact (horLine_unique hpq (on p hp) (on q hq) (ha p hp) (ha q hq)).2
  have hdh : dh = 0 := by
    have : dh = eh := by cases scale <;> simp [commonSpacing] at hc <;> exact hc.1
    rw [this]
    rw [hint] at hsp hopt
    cases optimizing with
    | false =>
      refine spacing_zero ?_ (fun g hg => by simpa using gaps_central_arith g hg) (hsp rfl).1
      have := central_length ((List.range hor.length).map fun i : ℕ => y0 + (i : ℝ) * 0)
        (n := min (max (hor.length / 2 - 1) 1) (max (ver.length / 2 - 1) 1)) (by omega) (by simpa using h2)
      rwa [List.length_map, List.length_range] at this
    | true =>
      refine spacingError_unique (l := (List.range hor.length).map fun i : ℕ => y0 + (i : ℝ) * 0) (by simpa using h2) (hopt rfl (hm rfl)).1 ?_
      intro x
      rw [spacingError_arith (by omega)]
      exact spacingError_nonneg _ _ _
  subst hdh
  have same : ∀ i < hor.length, ∀ i' < hor.length, ∀ j < ver.length, target[i * ver.length + j]? = target[i' * ver.length + j]? := by
    intro i hi i' hi' j hj
    rw [(hpt i hi j hj).2, (hpt i' hi' j hj).2]
    simp [gridPoint]
  refine ⟨source, target, e, same, ?_⟩
  intro c hcc
  have hz := List.forall₂_iff_zip.1 hcc
  obtain ⟨⟨s, es, is⟩, et⟩ := hpt 0 (by omega) 0 (by omega)
  obtain ⟨⟨s', es', is'⟩, et'⟩ := hpt 1 (by omega) 0 (by omega)
  rw [← same 0 (by omega) 1 (by omega) 0 (by omega)] at et'
  rw [et] at et'
  have m1 := hz.2 (List.mem_iff_getElem?.2 ⟨_, by rw [List.getElem?_zip_eq_some]; exact ⟨et, es⟩⟩)
  have m2 := hz.2 (List.mem_iff_getElem?.2 ⟨_, by rw [List.getElem?_zip_eq_some]; exact ⟨(hpt 1 (by omega) 0 (by omega)).2, es'⟩⟩)
  have hss : s = s' := m1.unique (by
    have hT := Option.some.inj et'
    exact (congrArg (fun P => IsImage (coefMatrix c) P s') hT).mpr m2)
  rw [hss] at is
  have := (gridPoint_inj h.steps (isImage_inj h.camera is is')).1
  norm_num at this

/-- The photograph of a grid with two rows and two columns. -/
theorem photo_two {M : Matrix (Fin 3) (Fin 3) ℝ} {o w u p1 p2 p3 p4 : Pt} (hM : M.det ≠ 0) (hs : w.x * u.y ≠ w.y * u.x)
    (i1 : IsImage M (gridPoint o w u 0 0) p1) (i2 : IsImage M (gridPoint o w u 0 1) p2) (i3 : IsImage M (gridPoint o w u 1 0) p3)
    (i4 : IsImage M (gridPoint o w u 1 1) p4) (h12 : p1.x ≠ p2.x) (h34 : p3.x ≠ p4.x) (h13 : p1.y ≠ p3.y) (h24 : p2.y ≠ p4.y) :
    IsGridPhoto M o w u [[p1, p2], [p3, p4]] [[p1, p3], [p2, p4]] := by
  have two : ∀ {i : ℕ}, i < 2 → i = 0 ∨ i = 1 := by intro i h; omega
  refine ⟨hM, hs, ?_, ?_, ?_⟩
  · intro i hi j hj
    unfold FiniteAt
    rcases two hi with rfl | rfl <;> rcases two hj with rfl | rfl
    · simpa using ((isImage_iff _ _ _).1 i1).1
    · simpa using ((isImage_iff _ _ _).1 i2).1
    · simpa using ((isImage_iff _ _ _).1 i3).1
    · simpa using ((isImage_iff _ _ _).1 i4).1
  · intro i l hl
    rcases two (by simpa using (List.getElem?_eq_some_iff.1 hl).1) with rfl | rfl
    · obtain rfl : [p1, p2] = l := by simpa using hl
      exact ⟨by simpa using ⟨⟨0, i1⟩, ⟨1, i2⟩⟩, p1, by simp, p2, by simp, h12⟩
    · obtain rfl : [p3, p4] = l := by simpa using hl
      exact ⟨by simpa using ⟨⟨0, i3⟩, ⟨1, i4⟩⟩, p3, by simp, p4, by simp, h34⟩
  · intro i l hl
    rcases two (by simpa using (List.getElem?_eq_some_iff.1 hl).1) with rfl | rfl
    · obtain rfl : [p1, p3] = l := by simpa using hl
      exact ⟨by simpa using ⟨⟨0, i1⟩, ⟨1, i3⟩⟩, p1, by simp, p3, by simp, h13⟩
    · obtain rfl : [p2, p4] = l := by simpa using hl
      exact ⟨by simpa using ⟨⟨0, i2⟩, ⟨1, i4⟩⟩, p2, by simp, p4, by simp, h24⟩

/-- Non-vacuity of the hypotheses of `C108_points`, `C108_rectifies` and `C108_image`: a trapezoid whose rows meet left of the image. -/
example : IsGridPhoto !![-1, 0, 9; 5, 2, 5; 1, 0, 1] ⟨0, 1⟩ ⟨1, 0⟩ ⟨0, -1⟩ [[⟨5, 4⟩, ⟨5, 9⟩], [⟨6, 4⟩, ⟨7, 9⟩]] [[⟨5, 4⟩, ⟨6, 4⟩], [⟨5, 9⟩, ⟨7, 9⟩]] ∧
    RowsInOrder [[⟨5, 4⟩, ⟨5, 9⟩], [⟨6, 4⟩, ⟨7, 9⟩]] ∧ ColsInOrder [[⟨5, 4⟩, ⟨6, 4⟩], [⟨5, 9⟩, ⟨7, 9⟩]] := by
  refine ⟨photo_two ?_ (by norm_num) ?_ ?_ ?_ ?_ (by norm_num) (by norm_num) (by norm_num) (by norm_num), ?_, ?_⟩
  · rw [Matrix.det_fin_three]; simp; norm_num
  · rw [isImage_iff]; simp [gridPoint, homog, Matrix.mulVec, dotProduct, Fin.sum_univ_three] <;> norm_num
  · rw [isImage_iff]; simp [gridPoint, homog, Matrix.mulVec, dotProduct, Fin.sum_univ_three]
  · rw [isImage_iff]; simp [gridPoint, homog, Matrix.mulVec, dotProduct, Fin.sum_univ_three] <;> norm_num
  · rw [isImage_iff]; simp [gridPoint, homog, Matrix.mulVec, dotProduct, Fin.sum_univ_three] <;> norm_num
  all_goals
    intro i l l' h1 h2 a b a' b' q1 q2
    have hi : i = 0 := by
      have := (List.getElem?_eq_some_iff.1 h2).1
      simp at this
      omega
    subst hi
    simp at h1 h2
    subst h1 h2
    simp [onHorLine, onVerLine] at q1 q2
    linarith

/-- Non-vacuity of the condition on the corner: a slanted parallel projection sends no place to infinity. -/
example (P : Pt) : FiniteAt !![2, 1, 3; 1, 4, 5; 0, 0, 1] P := by
  unfold FiniteAt homog
  simp [Matrix.mulVec, dotProduct, Fin.sum_univ_three]

/-- Non-vacuity of `C108_collapse`: the same trapezoid moved left by one pixel less; its rows meet in the point `(0, 5)` of the left edge. -/
example : IsGridPhoto !![0, 0, 10; 5, 2, 5; 1, 0, 1] ⟨0, 1⟩ ⟨1, 0⟩ ⟨0, -1⟩ [[⟨5, 5⟩, ⟨5, 10⟩], [⟨6, 5⟩, ⟨7, 10⟩]] [[⟨5, 5⟩, ⟨6, 5⟩], [⟨5, 10⟩, ⟨7, 10⟩]] ∧
    ∀ l ∈ ([[⟨5, 5⟩, ⟨5, 10⟩], [⟨6, 5⟩, ⟨7, 10⟩]] : List (List Pt)), ∃ a, ∀ p ∈ l, onHorLine a 5 p := by
  refine ⟨photo_two ?_ (by norm_num) ?_ ?_ ?_ ?_ (by norm_num) (by norm_num) (by norm_num) (by norm_num), ?_⟩
  · rw [Matrix.det_fin_three]; simp
  · rw [isImage_iff]; simp [gridPoint, homog, Matrix.mulVec, dotProduct, Fin.sum_univ_three] <;> norm_num
  · rw [isImage_iff]; simp [gridPoint, homog, Matrix.mulVec, dotProduct, Fin.sum_univ_three]
  · rw [isImage_iff]; simp [gridPoint, homog, Matrix.mulVec, dotProduct, Fin.sum_univ_three] <;> norm_num
  · rw [isImage_iff]; simp [gridPoint, homog, Matrix.mulVec, dotProduct, Fin.sum_univ_three] <;> norm_num
  · intro l hl
    simp at hl
    rcases hl with rfl | rfl
    · exact ⟨0, by simp [onHorLine]⟩
    · exact ⟨1 / 5, by simp [onHorLine]; norm_num⟩

end Discorpy
