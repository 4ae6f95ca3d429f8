import Verif.Lemmas.RadialFit
import Verif.Spec.Centre

/-! # Helper lemmas: the fine search for the centre -/

namespace Discorpy

open Spec

theorem flatMap_grid {β : Type} (f : ℕ → ℕ → β) (a n k : ℕ) (hk : k < a * n) :
    ((List.range a).flatMap fun i => (List.range n).map (f i))[k]? = some (f (k / n) (k % n)) := by
  have hlen : ∀ a, ((List.range a).flatMap fun i => (List.range n).map (f i)).length = a * n := by
    intro a
    rw [List.length_flatMap]
    simp
  induction a with
  | zero => simp at hk
  | succ a ih =>
    rw [List.range_succ, List.flatMap_append]
    by_cases h : k < a * n
    · rw [List.getElem?_append_left (by rw [hlen]; exact h), ih h]
    · push Not at h
      rw [List.getElem?_append_right (by rw [hlen]; exact h), hlen]
      have hn : 0 < n := by
        rcases Nat.eq_zero_or_pos n with rfl | h'
        · simp at hk
        · exact h'
      have hlt : k - a * n < n := by rw [Nat.succ_mul] at hk; omega
      have e : k = n * a + (k - a * n) := by rw [Nat.mul_comm n a]; omega
      have e1 : k / n = a := by
        rw [e, Nat.mul_add_div hn, Nat.div_eq_of_lt hlt, Nat.add_zero]
      have e2 : k % n = k - a * n := by
        conv_lhs => rw [e]
        rw [Nat.mul_add_mod, Nat.mod_eq_of_lt hlt]
      rw [e1, e2]
      simp [hlt]

theorem mem_arange {start stop step s : ℝ} (hs : 0 < step) :
    s ∈ arange start stop step ↔ ∃ k : ℕ, s = start + k * step ∧ s < stop := by
  unfold arange
  simp only [List.mem_map, List.mem_range]
  constructor
  · rintro ⟨k, hk, rfl⟩
    refine ⟨k, rfl, ?_⟩
    have : (k : ℤ) < ⌈(stop - start) / step⌉ := by omega
    rw [Int.lt_ceil, Int.cast_natCast, lt_div_iff₀ hs] at this
    linarith
  · rintro ⟨k, rfl, h⟩
    refine ⟨k, ?_, rfl⟩
    have : (k : ℤ) < ⌈(stop - start) / step⌉ := by
      rw [Int.lt_ceil, Int.cast_natCast, lt_div_iff₀ hs]
      linarith
    omega

theorem polyval_zero_getLast {p : List ℝ} {v : ℝ} (h : p.getLast? = some v) : polyval p 0 = v := by
  obtain ⟨l, rfl⟩ := List.getLast?_eq_some_iff.1 h
  simp [polyval, List.foldl_append]

/-- The fits of a family of lines are `pf` of the relative coordinates. -/
theorem fits_eq {pf : PolyfitFn} (hpf : PolyfitSpec pf) {along across : Pt → ℝ} {c : Pt} {lines : List (List Pt)}
    (hne : ∀ l ∈ lines, l ≠ []) :
    ∃ g : List Pt → Para, ∀ l ∈ lines, Para.ofList (relFit pf along across c l) = .ok (g l) ∧
      relFit pf along across c l = [(g l).a, (g l).b, (g l).c] := by
  refine ⟨fun l => ⟨(relFit pf along across c l).getD 0 0, (relFit pf along across c l).getD 1 0,
    (relFit pf along across c l).getD 2 0⟩, fun l hl => ?_⟩
  obtain ⟨x, y, z, e⟩ := length_three (hpf.length (l.map fun p => along p - along c) (l.map fun p => across p - across c) 2
    (by simp) (by simpa using hne l hl))
  have e' : relFit pf along across c l = [x, y, z] := e
  simp [e', Para.ofList]

theorem paraFitHor_map {pf : PolyfitFn} (hpf : PolyfitSpec pf) {lines : List (List Pt)} (hne : ∀ l ∈ lines, l ≠ [])
    (c : Pt) : ∃ g : List Pt → Para, paraFitHor pf lines c.x c.y = .ok (lines.map g, lines.map (shiftLine c.x c.y)) ∧
      ∀ l ∈ lines, relFit pf Pt.x Pt.y c l = [(g l).a, (g l).b, (g l).c] := by
  obtain ⟨g, hg⟩ := fits_eq hpf (along := Pt.x) (across := Pt.y) (c := c) hne
  refine ⟨g, ?_, fun l hl => (hg l hl).2⟩
  unfold paraFitHor
  rw [mapM_eq_map (g := g)]
  · rfl
  · intro l hl
    rw [paraHor, if_neg (hne l hl)]
    exact (hg l hl).1

theorem paraFitVer_map {pf : PolyfitFn} (hpf : PolyfitSpec pf) {lines : List (List Pt)} (hne : ∀ l ∈ lines, l ≠ [])
    (c : Pt) : ∃ g : List Pt → Para, paraFitVer pf lines c.x c.y = .ok (lines.map g, lines.map (shiftLine c.x c.y)) ∧
      ∀ l ∈ lines, relFit pf Pt.y Pt.x c l = [(g l).a, (g l).b, (g l).c] := by
  obtain ⟨g, hg⟩ := fits_eq hpf (along := Pt.y) (across := Pt.x) (c := c) hne
  refine ⟨g, ?_, fun l hl => (hg l hl).2⟩
  unfold paraFitVer
  rw [mapM_eq_map (g := g)]
  · rfl
  · intro l hl
    rw [paraVer, if_neg (hne l hl)]
    exact (hg l hl).1

/-- The intercept of the line through the nearest points. -/
theorem interceptOf_miss {pf : PolyfitFn} (hpf : PolyfitSpec pf) (minimize : (ℝ → ℝ) → ℝ → ℝ) {along across : Pt → ℝ}
    {c : Pt} {lines : List (List Pt)} (hne : lines ≠ []) {g : List Pt → Para}
    (hg : ∀ l ∈ lines, relFit pf along across c l = [(g l).a, (g l).b, (g l).c]) :
    ∃ e, interceptOf pf ((lines.map g).map (nearestPoint minimize)) = .ok e ∧
      |e| = missDistance pf minimize along across c lines := by
  have hm : (lines.map g).map (nearestPoint minimize) = lines.map fun l =>
      (nearestAlong pf minimize along across c l,
        polyval (relFit pf along across c l) (nearestAlong pf minimize along across c l)) := by
    rw [List.map_map]
    apply List.map_congr_left
    intro l hl
    have hfun : funcDist (g l) = fun t => t ^ 2 + polyval (relFit pf along across c l) t ^ 2 := by
      funext t
      rw [hg l hl, polyval_three, funcDist]
    simp only [Function.comp_apply, nearestPoint, nearestAlong]
    rw [← hfun, hg l hl, polyval_three]
  rw [hm]
  unfold interceptOf
  rw [if_neg (by simpa using hne)]
  have hlen := hpf.length (lines.map (nearestAlong pf minimize along across c))
    (lines.map fun l => polyval (relFit pf along across c l) (nearestAlong pf minimize along across c l)) 1 (by simp)
    (by simpa using hne)
  simp only [List.map_map, Function.comp_def]
  obtain ⟨v, hv⟩ : ∃ v, (pf (lines.map (nearestAlong pf minimize along across c))
    (lines.map fun l => polyval (relFit pf along across c l) (nearestAlong pf minimize along across c l)) 1).getLast? = some v := by
    cases h : (pf (lines.map (nearestAlong pf minimize along across c))
      (lines.map fun l => polyval (relFit pf along across c l) (nearestAlong pf minimize along across c l)) 1).getLast? with
    | none => rw [List.getLast?_eq_none_iff] at h; rw [h] at hlen; simp at hlen
    | some v => exact ⟨v, rfl⟩
  refine ⟨v, by rw [hv], ?_⟩
  unfold missDistance
  rw [polyval_zero_getLast hv]

theorem metricEntry_ok {pf : PolyfitFn} (hpf : PolyfitSpec pf) (minimize : (ℝ → ℝ) → ℝ → ℝ) {hor ver : List (List Pt)}
    (hh : hor ≠ []) (hv : ver ≠ []) (hhl : ∀ l ∈ hor, l ≠ []) (hvl : ∀ l ∈ ver, l ≠ []) (c : Pt) :
    metricEntry pf minimize hor ver c.x c.y = .ok (centreMetric pf minimize hor ver c) := by
  obtain ⟨g, e, hg⟩ := paraFitHor_map hpf hhl c
  obtain ⟨g', e', hg'⟩ := paraFitVer_map hpf hvl c
  obtain ⟨a, ha, ha'⟩ := interceptOf_miss hpf minimize hh hg
  obtain ⟨b, hb, hb'⟩ := interceptOf_miss hpf minimize hv hg'
  unfold metricEntry
  rw [e, ok_bind]
  simp only
  rw [e', ok_bind]
  simp only [calcError]
  rw [ha, ok_bind, hb, ok_bind, ha', hb']
  rfl

theorem npSlice_map {α β : Type} (f : α → β) (l : List α) (a b : ℕ) : npSlice (l.map f) a b = (npSlice l a b).map f := by
  simp [npSlice, List.map_take, List.map_drop]

theorem relFit_shift (pf : PolyfitFn) (c s : Pt) (l : List Pt) :
    relFit pf Pt.x Pt.y s (shiftLine c.x c.y l) = relFit pf Pt.x Pt.y ⟨c.y + s.y, c.x + s.x⟩ l ∧
    relFit pf Pt.y Pt.x s (shiftLine c.x c.y l) = relFit pf Pt.y Pt.x ⟨c.y + s.y, c.x + s.x⟩ l := by
  unfold relFit shiftLine
  simp only [List.map_map, Function.comp_def, sub_sub]
  exact ⟨trivial, trivial⟩

theorem centreMetric_shift (pf : PolyfitFn) (minimize : (ℝ → ℝ) → ℝ → ℝ) (c s : Pt) (hor ver : List (List Pt)) :
    centreMetric pf minimize (hor.map (shiftLine c.x c.y)) (ver.map (shiftLine c.x c.y)) s =
      centreMetric pf minimize hor ver ⟨c.y + s.y, c.x + s.x⟩ := by
  unfold centreMetric missDistance nearestAlong
  simp only [List.map_map, Function.comp_def, (relFit_shift pf c s _).1, (relFit_shift pf c s _).2]

theorem npSlice_infix {α : Type} (l : List α) (a b : ℕ) : npSlice l a b <:+: l := by
  unfold npSlice
  exact (List.drop_suffix _ _).isInfix.trans (List.take_prefix _ _).isInfix

theorem window_props {α : Type} {l : List α} {pos : ℕ} (hp : pos < l.length) {u : ℤ} (hu : 0 ≤ u) (h5 : u ≤ 5) :
    (npSlice l (window pos l.length u).1 (window pos l.length u).2).length ≤ 11 ∧
    l[pos] ∈ npSlice l (window pos l.length u).1 (window pos l.length u).2 := by
  unfold window npSlice
  constructor
  · simp only [List.length_drop, List.length_take]
    omega
  · apply List.mem_of_getElem? (i := pos - (max 0 ((pos : ℤ) - u)).toNat)
    rw [List.getElem?_drop, List.getElem?_take, if_pos (by omega)]
    have : (max 0 ((pos : ℤ) - u)).toNat + (pos - (max 0 ((pos : ℤ) - u)).toNat) = pos := by omega
    rw [this, List.getElem?_eq_getElem hp]

theorem mapM_grid {α β : Type} {L : List ℕ} {f : ℕ → Except PyErr β} {g : ℕ → β} (h : ∀ i ∈ L, f i = .ok (g i)) :
    L.mapM f = .ok (L.map g) := mapM_eq_map h

/-- The line at the `argmin` of the absolute intercepts. -/
theorem argmin_fit {pf : PolyfitFn} {along across : Pt → ℝ} {c : Pt} {lines : List (List Pt)} (hne : lines ≠ [])
    {g : List Pt → Para} (hg : ∀ l ∈ lines, relFit pf along across c l = [(g l).a, (g l).b, (g l).c]) :
    ∃ k, npArgmin ((lines.map g).map fun q => |q.c|) = .ok k ∧ ∃ h : k < lines.length, ∀ l' ∈ lines,
      |polyval (relFit pf along across c lines[k]) 0| ≤ |polyval (relFit pf along across c l') 0| := by
  obtain ⟨k, e, hk, hm, _⟩ := npArgmin_ok (l := (lines.map g).map fun q => |q.c|) (by simpa using hne)
  simp only [List.length_map] at hk
  refine ⟨k, e, hk, fun l' hl' => ?_⟩
  have hp : ∀ l ∈ lines, polyval (relFit pf along across c l) 0 = (g l).c := by
    intro l hl
    rw [hg l hl, polyval_three]; ring
  rw [hp _ (List.getElem_mem hk), hp _ hl']
  have := hm |(g l').c| (by
    rw [List.map_map]
    exact List.mem_map.2 ⟨l', hl', rfl⟩)
  simpa using this

theorem calcMetric_ok {pf : PolyfitFn} (hpf : PolyfitSpec pf) (minimize : (ℝ → ℝ) → ℝ → ℝ) {hor ver : List (List Pt)}
    (hh : 2 ≤ hor.length) (hv : 2 ≤ ver.length) (hhl : ∀ l ∈ hor, l ≠ []) (hvl : ∀ l ∈ ver, l ≠ []) (c : Pt)
    {S : List ℝ} (hS : S ≠ []) :
    ∃ sx sy, calcMetric pf minimize hor ver c.x c.y S S = .ok (sx, sy) ∧ sx ∈ S ∧ sy ∈ S ∧
      ∃ H V, IsCentralWindow pf Pt.x Pt.y c hor H ∧ IsCentralWindow pf Pt.y Pt.x c ver V ∧
        ∀ tx ∈ S, ∀ ty ∈ S, centreMetric pf minimize H V ⟨c.y + sy, c.x + sx⟩ ≤
          centreMetric pf minimize H V ⟨c.y + ty, c.x + tx⟩ := by
  have hh0 : hor ≠ [] := by rintro rfl; simp at hh
  have hv0 : ver ≠ [] := by rintro rfl; simp at hv
  obtain ⟨g, e, hg⟩ := paraFitHor_map hpf hhl c
  obtain ⟨g', e', hg'⟩ := paraFitVer_map hpf hvl c
  obtain ⟨ph, eh, hph, hmh⟩ := argmin_fit hh0 hg
  obtain ⟨pv, ev, hpv, hmv⟩ := argmin_fit hv0 hg'
  obtain ⟨u, hu⟩ : ∃ u : ℤ, u = min 5 (min (((hor.length / 2 : ℕ) : ℤ) - 1) (((ver.length / 2 : ℕ) : ℤ) - 1)) := ⟨_, rfl⟩
  have hu0 : 0 ≤ u := by omega
  have hu5 : u ≤ 5 := by omega
  obtain ⟨H, hH⟩ : ∃ H, H = npSlice hor (window ph hor.length u).1 (window ph hor.length u).2 := ⟨_, rfl⟩
  obtain ⟨V, hV⟩ : ∃ V, V = npSlice ver (window pv ver.length u).1 (window pv ver.length u).2 := ⟨_, rfl⟩
  obtain ⟨wh1, wh2⟩ := window_props hph hu0 hu5
  obtain ⟨wv1, wv2⟩ := window_props hpv hu0 hu5
  rw [← hH] at wh1 wh2
  rw [← hV] at wv1 wv2
  have iH : H <:+: hor := by rw [hH]; exact npSlice_infix _ _ _
  have iV : V <:+: ver := by rw [hV]; exact npSlice_infix _ _ _
  have hn : 0 < S.length := List.length_pos_iff.2 hS
  -- the entries
  obtain ⟨m, hm⟩ : ∃ m : ℕ → ℕ → ℝ, m = fun j i => centreMetric pf minimize H V ⟨c.y + S.getD i 0, c.x + S.getD j 0⟩ := ⟨_, rfl⟩
  have hentry : ∀ j ∈ List.range S.length, ∀ i ∈ List.range S.length, (do
      let x ← npGet S j
      let y ← npGet S i
      let e ← metricEntry pf minimize (npSlice (hor.map (shiftLine c.x c.y)) (window ph hor.length u).1 (window ph hor.length u).2)
        (npSlice (ver.map (shiftLine c.x c.y)) (window pv ver.length u).1 (window pv ver.length u).2) x y
      if i < S.length ∧ j < S.length then .ok e else .error .indexError) = .ok (m j i) := by
    intro j hj i hi
    rw [List.mem_range] at hi hj
    rw [npGet_of_lt hj, ok_bind, npGet_of_lt hi, ok_bind, npSlice_map, npSlice_map, ← hH, ← hV]
    have := metricEntry_ok hpf minimize (hor := H.map (shiftLine c.x c.y)) (ver := V.map (shiftLine c.x c.y))
      (by rw [ne_eq, List.map_eq_nil_iff]; exact List.ne_nil_of_mem wh2)
      (by rw [ne_eq, List.map_eq_nil_iff]; exact List.ne_nil_of_mem wv2)
      (by
        intro l hl
        obtain ⟨l', hl', rfl⟩ := List.mem_map.1 hl
        simpa [shiftLine] using hhl l' (iH.subset hl'))
      (by
        intro l hl
        obtain ⟨l', hl', rfl⟩ := List.mem_map.1 hl
        simpa [shiftLine] using hvl l' (iV.subset hl')) ⟨S[i], S[j]⟩
    simp only at this
    rw [this, ok_bind, if_pos ⟨hi, hj⟩, centreMetric_shift, hm]
    simp [hi, hj]
  have htable : ((List.range S.length).flatMap fun i => (List.range S.length).map fun j =>
      ((((List.range S.length).map fun j => (List.range S.length).map fun i => m j i).getD j []).getD i 0)) =
      (List.range S.length).flatMap fun i => (List.range S.length).map fun j => m j i := by
    apply List.flatMap_congr
    intro i hi
    apply List.map_congr_left
    intro j hj
    rw [List.mem_range] at hi hj
    simp [hi, hj]
  obtain ⟨k, ek, hk, hmin, _⟩ := npArgmin_ok (l := (List.range S.length).flatMap fun i => (List.range S.length).map fun j => m j i)
    (by
      intro h
      rw [List.flatMap_eq_nil_iff] at h
      have := h 0 (List.mem_range.2 hn)
      simp at this
      exact hS this)
  have hk' : k < S.length * S.length := by
    have h1 := hk
    rw [List.length_flatMap] at h1
    simpa using h1
  have hkx : k % S.length < S.length := Nat.mod_lt _ hn
  have hky : k / S.length < S.length := Nat.div_lt_of_lt_mul hk'
  have hval := flatMap_grid (fun i j => m j i) S.length S.length k hk'
  rw [List.getElem?_eq_getElem hk, Option.some_inj] at hval
  have hcomp : calcMetric pf minimize hor ver c.x c.y S S = .ok (S[k % S.length], S[k / S.length]) := by
    unfold calcMetric
    rw [e, ok_bind]
    simp only
    rw [e', ok_bind]
    simp only
    rw [eh, ok_bind, ev, ok_bind]
    simp only [List.length_map]
    rw [← hu]
    rw [mapM_eq_map (g := fun j => (List.range S.length).map fun i => m j i)
      (fun j hj => mapM_eq_map (fun i hi => hentry j hj i hi)), ok_bind, htable, ek, ok_bind, npGet_of_lt hkx, ok_bind,
      npGet_of_lt hky, ok_bind]
  refine ⟨_, _, hcomp, List.getElem_mem _, List.getElem_mem _, H, V, ⟨iH, wh1, _, wh2, hmh⟩, ⟨iV, wv1, _, wv2, hmv⟩, ?_⟩
  intro tx htx ty hty
  obtain ⟨j, hj, rfl⟩ := List.getElem_of_mem htx
  obtain ⟨i, hi, rfl⟩ := List.getElem_of_mem hty
  have := hmin (m j i) (by
    rw [List.mem_flatMap]
    exact ⟨i, List.mem_range.2 hi, List.mem_map.2 ⟨j, List.mem_range.2 hj, rfl⟩⟩)
  rw [hval, hm] at this
  simpa [hi, hj, hkx, hky] using this

end Discorpy
