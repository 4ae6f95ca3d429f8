import Verif.Lemmas.Ranking
import Verif.Props.C43
import Verif.Props.C84

/-! # C86 — filters of `get_local_extrema_points` -/

namespace Discorpy

open Spec

theorem extrema_norm {E : Ext} {l out : List ℝ} (h : normBackground E l = .ok out) (hlen : out.length = l.length) (radius : ℤ) (s : ℝ)
    (sub : Bool) (sel : Option PeakParams) :
    getLocalExtremaPoints E l "min" radius s false true sub sel = getLocalExtremaPoints E out "min" radius s false false sub sel := by
  unfold getLocalExtremaPoints
  simp only [Bool.false_eq_true, if_false, if_true, String.reduceEq, ok_bind, h, hlen]

/-- **C86 (normalization).** With `norm=True`, for at least five samples: the search is done on the samples divided by a line over
their ranks, `a * rank + b`, the least-squares line of the middle part of the sorted samples; `a` is never negative. Where the line
vanishes, its mean magnitude is used as result. -/
theorem C86_norm (E : Ext) (hpf : PolyfitSpec E.pf) (has : ArgsortSpec E.argsort) (l : List ℝ) (hn : 5 ≤ l.length) :
    ∃ a b rank out, IsRanking l rank ∧ 0 ≤ a ∧
      (∀ s : List ℝ, s.Perm l → s.Pairwise (· ≤ ·) → IsLsqHorLine (middleSamples s) a b) ∧ IsFlattened l rank a b out ∧
      ∀ (radius : ℤ) (s : ℝ) (sub : Bool) (sel : Option PeakParams),
        getLocalExtremaPoints E l "min" radius s false true sub sel = getLocalExtremaPoints E out "min" radius s false false sub sel := by
  obtain ⟨a, b, rank, out, h1, h2, h3, h4, h5⟩ := normBackground_ok hpf has hn
  exact ⟨a, b, rank, out, h2, h3, h4, h5, fun radius s sub sel => extrema_norm h1 h5.length radius s sub sel⟩

/-- **C86 (smoothing).** With `denoise=True` the search is done on the smoothed samples (width 3). -/
theorem C86_denoise (E : Ext) (l : List ℝ) (option : String) (radius : ℤ) (s : ℝ) (norm sub : Bool) (sel : Option PeakParams) :
    getLocalExtremaPoints E l option radius s true norm sub sel =
      getLocalExtremaPoints E (E.gaussFilter l 3) option radius s false norm sub sel := by
  unfold getLocalExtremaPoints
  simp only [Bool.false_eq_true, if_false, if_true]

/-- **C86 (maxima).** Maxima are the minima of the samples subtracted from their largest value, before the normalization. -/
theorem C86_max (E : Ext) (l : List ℝ) (M : ℝ) (hM : M ∈ l) (hmax : ∀ x ∈ l, x ≤ M) (radius : ℤ) (s : ℝ) (norm sub : Bool)
    (sel : Option PeakParams) :
    getLocalExtremaPoints E l "max" radius s false norm sub sel =
      getLocalExtremaPoints E (l.map fun x => M - x) "min" radius s false norm sub sel := by
  obtain ⟨M', h1, h2, h3⟩ := npMax_ok (List.ne_nil_of_mem hM)
  obtain rfl : M' = M := le_antisymm (hmax _ h2) (h3 _ hM)
  exact extrema_max E l radius s h1 norm sub sel

/-- The rank is the number of smaller samples if all samples are different. -/
theorem ranking_unique {l : List ℝ} (hd : l.Nodup) {rank rank' : ℕ → ℕ} (h : IsRanking l rank) (h' : IsRanking l rank') :
    ∀ i < l.length, rank i = rank' i := by
  have key : ∀ {r : ℕ → ℕ}, IsRanking l r → ∀ i < l.length,
      r i = ((Finset.range l.length).filter fun j => l.getD j 0 < l.getD i 0).card := by
    intro r hr i hi
    have himg : ((Finset.range l.length).filter fun j => l.getD j 0 < l.getD i 0).image r = Finset.range (r i) := by
      have hsurj : (Finset.range l.length).image r = Finset.range l.length := by
        apply Finset.eq_of_subset_of_card_le
        · intro x hx
          obtain ⟨j, hj, rfl⟩ := Finset.mem_image.1 hx
          exact Finset.mem_range.2 (hr.range j (Finset.mem_range.1 hj))
        · rw [Finset.card_image_of_injOn]
          intro x hx y hy e
          exact hr.inj x (Finset.mem_range.1 hx) y (Finset.mem_range.1 hy) e
      ext x
      simp only [Finset.mem_image, Finset.mem_filter, Finset.mem_range]
      constructor
      · rintro ⟨j, ⟨hj, hlt⟩, rfl⟩
        exact hr.mono j hj i hi hlt
      · intro hx
        have hx' : x ∈ (Finset.range l.length).image r := by
          rw [hsurj]
          exact Finset.mem_range.2 (lt_trans hx (hr.range i hi))
        obtain ⟨j, hj, rfl⟩ := Finset.mem_image.1 hx'
        have hj' := Finset.mem_range.1 hj
        refine ⟨j, ⟨hj', ?_⟩, rfl⟩
        rcases lt_trichotomy (l.getD j 0) (l.getD i 0) with hlt | heq | hgt
        · exact hlt
        · have e : j = i := by
            rw [List.getD_eq_getElem?_getD, List.getD_eq_getElem?_getD, List.getElem?_eq_getElem hj', List.getElem?_eq_getElem hi] at heq
            exact (List.Nodup.getElem_inj_iff hd).1 heq
          subst e
          exact absurd hx (lt_irrefl _)
        · exact absurd (hr.mono i hi j hj' hgt) (by omega)
    have hc := congrArg Finset.card himg
    rw [Finset.card_range, Finset.card_image_of_injOn] at hc
    · exact hc.symm
    · intro x hx y hy e
      have hx' := (Finset.mem_filter.1 hx).1
      have hy' := (Finset.mem_filter.1 hy).1
      exact hr.inj x (Finset.mem_range.1 hx') y (Finset.mem_range.1 hy') e
  intro i hi
  rw [key h i hi, key h' i hi]

theorem ranking_scale {l : List ℝ} {c : ℝ} (hc : 0 < c) {rank : ℕ → ℕ} (h : IsRanking (l.map fun x => c * x) rank) : IsRanking l rank := by
  have e : ∀ i < l.length, (l.map fun x => c * x).getD i 0 = c * l.getD i 0 := by
    intro i hi
    simp [List.getD_eq_getElem?_getD, List.getElem?_eq_getElem hi]
  refine ⟨fun i hi => ?_, fun i hi j hj hij => ?_, fun i hi j hj hij => ?_⟩
  · have := h.range i (by simpa using hi)
    simpa using this
  · exact h.inj i (by simpa using hi) j (by simpa using hj) hij
  · refine h.mono i (by simpa using hi) j (by simpa using hj) ?_
    rw [e i hi, e j hj]
    exact mul_lt_mul_of_pos_left hij hc

/-- **C86 (contrast).** If all samples are different and the background vanishes nowhere, a positive factor does not change the
result. -/
theorem C86_scale (E : Ext) (hpf : PolyfitSpec E.pf) (has : ArgsortSpec E.argsort) (l : List ℝ) (hn : 5 ≤ l.length) (hd : l.Nodup)
    (c : ℝ) (hc : 0 < c)
    (hne : ∀ s : List ℝ, s.Perm l → s.Pairwise (· ≤ ·) → ∀ a b, IsLsqHorLine (middleSamples s) a b → ∀ k < l.length, a * k + b ≠ 0)
    (radius : ℤ) (s : ℝ) (sub : Bool) (sel : Option PeakParams) :
    getLocalExtremaPoints E (l.map fun x => c * x) "min" radius s false true sub sel =
      getLocalExtremaPoints E l "min" radius s false true sub sel := by
  obtain ⟨a, b, rank, out, h1, _, h3, h4, h5⟩ := C86_norm E hpf has l hn
  obtain ⟨a', b', rank', out', h1', _, h3', h4', h5'⟩ := C86_norm E hpf has (l.map fun x => c * x) (by simpa using hn)
  rw [h5, h5']
  congr 1
  set t := l.mergeSort fun a b => decide (a ≤ b) with ht
  have htp : t.Perm l := List.mergeSort_perm _ _
  have hts : t.Pairwise (· ≤ ·) := by
    have := List.pairwise_mergeSort (le := fun a b : ℝ => decide (a ≤ b)) (by intro a b c; simp; exact le_trans)
      (by intro a b; simp; exact le_total a b) l
    exact this.imp (by simp)
  have hl := h3 t htp hts
  have hl' := h3' (t.map fun x => c * x) (htp.map _) (by
    rw [List.pairwise_map]
    exact hts.imp fun h => mul_le_mul_of_nonneg_left h hc.le)
  have hm := middleSamples_map t c 0
  simp only [add_zero] at hm
  rw [hm] at hl'
  have hl2 : IsLsqHorLine ((middleSamples t).map fun p => (⟨c * p.y, p.x⟩ : Pt)) (c * a) (c * b) := by
    intro u w
    rw [List.map_map, List.map_map]
    have hq := hl (u / c) (w / c)
    have scale : ∀ (l : List Pt) (u w : ℝ), (l.map fun p => (u / c * p.x + w / c - p.y) ^ 2).sum * c ^ 2 =
        (l.map ((fun p : Pt => (u * p.x + w - p.y) ^ 2) ∘ fun p : Pt => (⟨c * p.y, p.x⟩ : Pt))).sum := by
      intro l u w
      induction l with
      | nil => simp
      | cons p l ih =>
        simp only [List.map_cons, List.sum_cons, add_mul, ih, Function.comp_apply]
        congr 1
        field_simp
    rw [← scale, ← scale]
    have e1 : c * a / c = a := by field_simp
    have e2 : c * b / c = b := by field_simp
    rw [e1, e2]
    exact mul_le_mul_of_nonneg_right hq (by positivity)
  obtain ⟨e1, e2⟩ := lsqHor_unique hl' hl2 (by
    obtain ⟨p, hp, q, hq, hpq⟩ := middleSamples_two (v := t) (by rw [htp.length_eq]; exact hn)
    exact ⟨_, List.mem_map.2 ⟨p, hp, rfl⟩, _, List.mem_map.2 ⟨q, hq, rfl⟩, hpq⟩)
  subst e1 e2
  have hrk := ranking_unique hd h1 (ranking_scale hc h1')
  have hlen : out'.length = out.length := by rw [h4'.length, h4.length, List.length_map]
  apply List.ext_getElem hlen
  intro i hi hi'
  have hil : i < l.length := by rw [← h4.length]; exact hi'
  have hz := hne t htp hts a b hl (rank i) (h1.range i hil)
  have o1 := h4.ratio i hil hz
  have o2 := h4'.ratio i (by simpa using hil) (by
    rw [← hrk i hil]
    intro e
    apply hz
    have : c * (a * (rank i : ℝ) + b) = 0 := by rw [← e]; ring
    rcases mul_eq_zero.1 this with hh | hh
    · exact absurd hh hc.ne'
    · exact hh)
  rw [List.getD_eq_getElem?_getD, List.getElem?_eq_getElem hi', Option.getD_some] at o1
  rw [List.getD_eq_getElem?_getD, List.getElem?_eq_getElem hi, Option.getD_some, ← hrk i hil] at o2
  rw [o1, o2]
  simp only [List.getD_eq_getElem?_getD, List.getElem?_map, List.getElem?_eq_getElem hil, Option.map_some, Option.getD_some]
  rw [show c * a * (rank i : ℝ) + c * b = c * (a * rank i + b) by ring]
  exact mul_div_mul_left _ _ hc.ne'

/-- **C86 (equal samples).** Samples that are equal before the normalization are different afterwards, if the line rises and does
not vanish at their ranks. -/
theorem C86_ties (l : List ℝ) (rank : ℕ → ℕ) (hr : IsRanking l rank) (a b : ℝ) (ha : 0 < a) (out : List ℝ)
    (ho : IsFlattened l rank a b out) (i j : ℕ) (hi : i < l.length) (hj : j < l.length) (hij : i ≠ j) (he : l.getD i 0 = l.getD j 0)
    (hz : l.getD i 0 ≠ 0) (h1 : a * rank i + b ≠ 0) (h2 : a * rank j + b ≠ 0) : out.getD i 0 ≠ out.getD j 0 := by
  rw [ho.ratio i hi h1, ho.ratio j hj h2, ← he]
  intro e
  rw [div_eq_div_iff h1 h2] at e
  have e' := mul_left_cancel₀ hz e
  have e3 : a * ((rank i : ℝ) - rank j) = 0 := by linarith
  rcases mul_eq_zero.1 e3 with h | h
  · exact absurd h ha.ne'
  · apply hij
    refine hr.inj i hi j hj ?_
    have : (rank i : ℝ) = rank j := by linarith
    exact_mod_cast this

/-- **C86 (flat profiles).** A constant profile has no extremum after the normalization. -/
theorem C86_flat (E : Ext) (hpf : PolyfitSpec E.pf) (has : ArgsortSpec E.argsort) (l : List ℝ) (hn : 5 ≤ l.length) (c : ℝ) (hc : c ≠ 0)
    (hl : ∀ x ∈ l, x = c) (radius : ℤ) (s : ℝ) (hs : 0 ≤ s) :
    getLocalExtremaPoints E l "min" radius s false true false none = .ok [] := by
  obtain ⟨a, b, rank, out, h1, _, h3, h4, h5⟩ := C86_norm E hpf has l hn
  have hll := h3 l (List.Perm.refl _) (List.pairwise_iff_getElem.2 fun i j hi hj _ => by
    rw [hl _ (List.getElem_mem hi), hl _ (List.getElem_mem hj)])
  have hex : ∀ d ∈ middleSamples l, onHorLine 0 c d := by
    intro d hd
    obtain ⟨k, hk, _, _, rfl⟩ := mem_middleSamples.1 hd
    unfold onHorLine
    simp only
    rw [hl _ (List.getElem_mem hk)]
    ring
  have hall := lsqHor_exact hll hex
  obtain ⟨d, hd, e, he, hne⟩ := middleSamples_two (v := l) hn
  have d1 := hall d hd
  have d2 := hex d hd
  have e1 := hall e he
  have e2 := hex e he
  unfold onHorLine at d1 d2 e1 e2
  have ha : a = 0 := by
    have : a * (d.x - e.x) = 0 := by linarith
    rcases mul_eq_zero.1 this with h | h
    · exact h
    · exact absurd (by linarith) hne
  subst ha
  have hb : b = c := by linarith
  subst hb
  have hout : ∀ i < l.length, out.getD i 0 = 1 := by
    intro i hi
    rw [h4.ratio i hi (by simpa using hc)]
    rw [List.getD_eq_getElem?_getD, List.getElem?_eq_getElem hi, Option.getD_some, hl _ (List.getElem_mem hi)]
    rw [zero_mul, zero_add]
    exact div_self hc
  have hol : out.length = l.length := h4.length
  obtain ⟨pts, p1, _, p3⟩ := C43_min E out radius s (by omega) ((min (max radius 1) ((out.length / 4 : ℕ) : ℤ)).toNat) (by omega)
  rw [h5, p1]
  have : pts = [] := by
    rw [List.eq_nil_iff_forall_not_mem]
    intro i hi
    obtain ⟨q1, q2, _, m, ⟨rest, top, t1, t2, _, t4⟩, q4⟩ := (p3 i).1 hi
    set r := (min (max radius 1) ((out.length / 4 : ℕ) : ℤ)).toNat with hr
    have hr0 : 0 < r := by omega
    have htop : ∀ x ∈ top, x = 1 := by
      intro x hx
      have hx' : x ∈ around (fun k => out.getD k 0) r i := t1.mem_iff.2 (List.mem_append_right _ hx)
      unfold around at hx'
      obtain ⟨k, hk, rfl⟩ := List.mem_map.1 hx'
      have hk' := List.mem_range.1 hk
      exact hout _ (by omega)
    have hm : m = 1 := by
      have hsum : top.sum = r := by
        rw [← t2, List.eq_replicate_of_mem htop]
        simp
      rw [t4, hsum]
      have : (r : ℝ) ≠ 0 := by exact_mod_cast hr0.ne'
      exact div_self this
    rw [hm] at q4
    unfold contrast at q4
    rw [if_neg one_ne_zero] at q4
    simp only at q4
    rw [hout i (by omega)] at q4
    simp at q4
    linarith
  rw [this]
  rfl

/-- **C86 (errors).** Fewer than two samples raise `TypeError`, two samples `LinAlgError`. -/
theorem C86_errors (E : Ext) (l : List ℝ) (radius : ℤ) (s : ℝ) (sub : Bool) (sel : Option PeakParams) :
    (l.length ≤ 1 → getLocalExtremaPoints E l "min" radius s false true sub sel = .error .typeError) ∧
    (l.length = 2 → getLocalExtremaPoints E l "min" radius s false true sub sel = .error .linAlgError) := by
  constructor
  · intro hn
    have e : normBackground E l = .error .typeError := by
      unfold normBackground
      simp only [floor_quarter]
      rw [if_pos]
      unfold npSlice
      rw [show l.length - l.length / 4 - 1 = 0 by omega]
      simp
    unfold getLocalExtremaPoints
    simp only [Bool.false_eq_true, if_false, if_true, String.reduceEq, ok_bind, e]
    rfl
  · intro hn
    have e : normBackground E l = .error .linAlgError := by
      unfold normBackground
      simp only [floor_quarter, hn]
      rw [if_neg, if_pos]
      · simp [npSlice, List.range_succ]
      · simp [npSlice, List.range_succ]
    unfold getLocalExtremaPoints
    simp only [Bool.false_eq_true, if_false, if_true, String.reduceEq, ok_bind, e]
    rfl

/-- The contrast theorem applied: the background of five samples in an order of their own is `k + 1`. -/
example (g : List ℝ → ℝ → List ℝ) (f : List ℝ → GaussFit) (radius : ℤ) (s : ℝ) (sub : Bool) (sel : Option PeakParams) :
    getLocalExtremaPoints ⟨refPolyfit, refArgsort, g, f⟩ ([4, 2, 1, 3, 5].map fun x => 7 * x) "min" radius s false true sub sel =
      getLocalExtremaPoints ⟨refPolyfit, refArgsort, g, f⟩ [4, 2, 1, 3, 5] "min" radius s false true sub sel := by
  refine C86_scale _ refPolyfit_spec refArgsort_spec _ (by simp) (by norm_num) 7 (by norm_num) ?_ radius s sub sel
  intro t ht hs a b hl k hk
  have hp : ([1, 2, 3, 4, 5] : List ℝ).Perm [4, 2, 1, 3, 5] := by
    refine List.Perm.trans (List.Perm.swap 2 1 _) ?_
    refine List.Perm.trans ?_ (List.Perm.swap 4 2 _)
    exact List.Perm.cons 2 (List.Perm.trans (List.Perm.cons 1 (List.Perm.swap 4 3 _)) (List.Perm.swap 4 1 _))
  obtain rfl := sortedOf_unique ⟨ht, hs⟩ ⟨hp, by norm_num⟩
  have hex : ∀ d ∈ middleSamples [1, 2, 3, 4, 5], onHorLine 1 1 d := by
    intro d hd
    obtain ⟨k, hk, h1, h2, rfl⟩ := mem_middleSamples.1 hd
    have h1' : 1 ≤ k := h1
    have h2' : k + 1 + 1 < 5 := h2
    have : k = 1 ∨ k = 2 := by omega
    rcases this with rfl | rfl <;> norm_num [onHorLine]
  have hall := lsqHor_exact hl hex
  have e1 := hall _ (mem_middleSamples.2 ⟨1, by simp, by simp, by simp, rfl⟩)
  have e2 := hall _ (mem_middleSamples.2 ⟨2, by simp, by simp, by simp, rfl⟩)
  norm_num [onHorLine] at e1 e2
  have ha : a = 1 := by linarith
  have hb : b = 1 := by linarith
  subst ha hb
  positivity

example (g : List ℝ → ℝ → List ℝ) (f : List ℝ → GaussFit) := C86_norm ⟨refPolyfit, refArgsort, g, f⟩ refPolyfit_spec refArgsort_spec [4, 2, 1, 3, 5] (by simp)
example (E : Ext) (radius : ℤ) (s : ℝ) (norm sub : Bool) (sel : Option PeakParams) := C86_max E [4, 2, 1, 3, 5] 5 (by simp) (by norm_num) radius s norm sub sel
example (g : List ℝ → ℝ → List ℝ) (f : List ℝ → GaussFit) (radius : ℤ) := C86_flat ⟨refPolyfit, refArgsort, g, f⟩ refPolyfit_spec refArgsort_spec [3, 3, 3, 3, 3] (by simp) 3
  (by norm_num) (by simp) radius 0.1 (by norm_num)
/-- Two equal samples become different. -/
example := C86_ties [2, 2] id ⟨fun _ h => h, fun _ _ _ _ h => h, by
    intro i hi j hj h
    have hi : i < 2 := hi
    have hj : j < 2 := hj
    interval_cases i <;> interval_cases j <;> norm_num at h⟩ 1 1 (by norm_num) [2, 1] ⟨rfl, by
    intro i hi _
    have hi : i < 2 := hi
    interval_cases i <;> norm_num, by
    intro i hi h
    have : (0 : ℝ) ≤ i := Nat.cast_nonneg i
    simp only [id, one_mul] at h
    linarith⟩ 0 1 (by simp) (by simp) (by simp) rfl (by norm_num) (by norm_num) (by norm_num)

end Discorpy
