import Verif.Lemmas.IntProfile
import Verif.Props.C86

/-! # C122 — line positions in profiles of integers -/

namespace Discorpy

open Spec

theorem npMax_cast (l : List ℤ) : npMax (l.map fun v : ℤ => (v : ℝ)) = (npMaxInt l).map fun v : ℤ => (v : ℝ) := by
  rcases hl : l.max? with _ | m
  · rw [List.max?_eq_none_iff] at hl
    subst hl
    rfl
  · have hm := List.max?_eq_some_iff.1 hl
    have hne : l.map (fun v : ℤ => (v : ℝ)) ≠ [] := by
      simpa using List.ne_nil_of_mem hm.1
    obtain ⟨M, h1, h2, h3⟩ := npMax_ok hne
    obtain ⟨v, hv, rfl⟩ := List.mem_map.1 h2
    have e : v = m := by
      have a1 := hm.2 v hv
      have a2 : (m : ℝ) ≤ v := h3 _ (List.mem_map.2 ⟨m, hm.1, rfl⟩)
      exact le_antisymm a1 (by exact_mod_cast a2)
    rw [h1, e]
    simp [npMaxInt, hl, Except.map]

/-- **C122 (without normalization).** With `norm=False` and `denoise=False` a profile of integers gives exactly the result of the same
numbers as floats, for minima and maxima, including the exception for an empty profile. -/
theorem C122_plain (E : Ext) (smooth : List ℤ → List ℤ) (l : List ℤ) (option : String) (radius : ℤ) (s : ℝ) (sub : Bool) :
    getLocalExtremaPointsInt E smooth l option radius s false false sub =
      getLocalExtremaPoints E (l.map fun v : ℤ => (v : ℝ)) option radius s false false sub none := by
  unfold getLocalExtremaPointsInt
  by_cases ho : option = "max"
  · subst ho
    have h := npMax_cast l
    rcases hm : npMaxInt l with e | m
    · rw [hm] at h
      have h' : npMax (l.map fun v : ℤ => (v : ℝ)) = .error e := h
      unfold getLocalExtremaPoints
      simp only [Bool.false_eq_true, if_false, if_true, h', hm]
      rfl
    · rw [hm] at h
      have h' : npMax (l.map fun v : ℤ => (v : ℝ)) = .ok (m : ℝ) := h
      rw [extrema_max E _ radius s h' false sub none]
      simp only [Bool.false_eq_true, if_false, if_true, hm, ok_bind, List.map_map]
      congr 1
      apply List.map_congr_left
      intro v _
      simp
  · simp only [Bool.false_eq_true, if_false, ho, ok_bind]
    unfold getLocalExtremaPoints
    simp only [Bool.false_eq_true, if_false, ho, ok_bind, String.reduceEq]

/-- Four integers with a minimum at index 1. -/
example (E : Ext) (smooth : List ℤ → List ℤ) : ∃ pts : List ℕ,
    getLocalExtremaPointsInt E smooth [5, 1, 5, 5] "min" 1 (1 / 10) false false false = .ok (pts.map fun i : ℕ => (i : ℝ)) ∧
      pts.Pairwise (· < ·) ∧ ∀ i, i ∈ pts ↔ 1 ≤ i ∧ i + 1 + 1 < 4 ∧ Minimum (fun k => ([5, 1, 5, 5] : List ℝ).getD k 0) 1 (1 / 10) i := by
  rw [C122_plain]
  simpa using C43_min E [5, 1, 5, 5] 1 (1 / 10) (by simp) 1 (by simp)

theorem extremaInt_norm {E : Ext} {smooth : List ℤ → List ℤ} {l : List ℤ} {out : List ℝ} (h : normBackgroundInt E l = .ok out) (radius : ℤ)
    (s : ℝ) (sub : Bool) :
    getLocalExtremaPointsInt E smooth l "min" radius s false true sub =
      getLocalExtremaPoints E out "min" radius s false false sub none := by
  unfold getLocalExtremaPointsInt
  simp only [Bool.false_eq_true, if_false, if_true, String.reduceEq, ok_bind, h]

/-- **C122 (with normalization).** With `norm=True`, for at least five integers: the ranks and the line `a * rank + b` are those of the same
numbers as floats, but each integer is divided by the whole part of the line; where the whole part is 0, the mean magnitude of the line
is used as result. -/
theorem C122_norm (E : Ext) (hpf : PolyfitSpec E.pf) (has : ArgsortSpec E.argsort) (smooth : List ℤ → List ℤ) (l : List ℤ) (hn : 5 ≤ l.length) :
    ∃ a b rank outF outI, IsRanking (l.map fun v : ℤ => (v : ℝ)) rank ∧ 0 ≤ a ∧
      (∀ s : List ℝ, s.Perm (l.map fun v : ℤ => (v : ℝ)) → s.Pairwise (· ≤ ·) → IsLsqHorLine (middleSamples s) a b) ∧
      IsFlattened (l.map fun v : ℤ => (v : ℝ)) rank a b outF ∧ IsFlattenedInt l rank a b outI ∧
      ∀ (radius : ℤ) (s : ℝ) (sub : Bool),
        getLocalExtremaPoints E (l.map fun v : ℤ => (v : ℝ)) "min" radius s false true sub none =
          getLocalExtremaPoints E outF "min" radius s false false sub none ∧
        getLocalExtremaPointsInt E smooth l "min" radius s false true sub =
          getLocalExtremaPoints E outI "min" radius s false false sub none := by
  obtain ⟨a, b, rank, outF, outI, h1, h2, h3, h4, h5, h6, h7⟩ := normBackgroundInt_ok hpf has hn
  exact ⟨a, b, rank, outF, outI, h3, h4, h5, h6, h7, fun radius s sub =>
    ⟨extrema_norm h1 h6.length radius s sub none, extremaInt_norm h2 radius s sub⟩⟩

example (f : List ℝ → ℝ → List ℝ) (g : List ℝ → GaussFit) (smooth : List ℤ → List ℤ) :=
  C122_norm ⟨refPolyfit, refArgsort, f, g⟩ refPolyfit_spec refArgsort_spec smooth [1, 2, 3, 6, 5, 7] (by simp)

/-- **C122 (maxima and smoothing).** Maxima are the minima of the integers subtracted from the largest one, before the normalization;
with `denoise=True` the smoothed integers are searched. -/
theorem C122_options (E : Ext) (smooth : List ℤ → List ℤ) (l : List ℤ) (option : String) (radius : ℤ) (s : ℝ) (norm sub : Bool) :
    getLocalExtremaPointsInt E smooth l option radius s true norm sub =
      getLocalExtremaPointsInt E smooth (smooth l) option radius s false norm sub ∧
    ∀ M ∈ l, (∀ x ∈ l, x ≤ M) → getLocalExtremaPointsInt E smooth l "max" radius s false norm sub =
      getLocalExtremaPointsInt E smooth (l.map fun x => M - x) "min" radius s false norm sub := by
  constructor
  · unfold getLocalExtremaPointsInt
    simp only [Bool.false_eq_true, if_false, if_true]
  · intro M hM hmax
    have e : npMaxInt l = .ok M := by
      have : l.max? = some M := List.max?_eq_some_iff.2 ⟨hM, hmax⟩
      unfold npMaxInt
      rw [this]
    unfold getLocalExtremaPointsInt
    simp only [Bool.false_eq_true, if_false, if_true, String.reduceEq, ok_bind, e]

example (E : Ext) (smooth : List ℤ → List ℤ) := (C122_options E smooth [1, 5, 1, 1] "min" 1 (1 / 10) true false).2 5 (by simp) (by simp)

/-- **C122 (size of the error).** Where the background `β` is at least 1 and the integer is not negative, the value that is searched is
not smaller than the one of the floats, and larger by at most the factor `1 + 1 / k` if `k ≤ β` for a whole number `k ≥ 1`; at most twice
as large in any case. -/
theorem C122_error (l : List ℤ) (rank : ℕ → ℕ) (a b : ℝ) (outF outI : List ℝ) (hF : IsFlattened (l.map fun v : ℤ => (v : ℝ)) rank a b outF)
    (hI : IsFlattenedInt l rank a b outI) (i : ℕ) (v : ℤ) (hv : l[i]? = some v) (h0 : 0 ≤ v) (k : ℕ) (hk : 1 ≤ k)
    (hβ : (k : ℝ) ≤ a * rank i + b) :
    ∃ f g, outF[i]? = some f ∧ outI[i]? = some g ∧ f ≤ g ∧ g ≤ f * (1 + 1 / k) ∧ g ≤ 2 * f := by
  have hi : i < l.length := (List.getElem?_eq_some_iff.1 hv).1
  have hk1 : (1 : ℝ) ≤ k := by exact_mod_cast hk
  set β := a * (rank i : ℝ) + b with hβd
  have hβ0 : 0 < β := by linarith
  have hz : IsTrunc β ⌊β⌋ := ⟨fun _ => ⟨Int.floor_le β, Int.lt_floor_add_one β⟩, fun h => absurd hβ0 (not_lt.2 h.le)⟩
  have hkz : (k : ℤ) ≤ ⌊β⌋ := Int.le_floor.2 (by exact_mod_cast hβ)
  have hz1 : (k : ℝ) ≤ ⌊β⌋ := by exact_mod_cast hkz
  have hzle : ((⌊β⌋ : ℤ) : ℝ) ≤ β := Int.floor_le β
  have hzlt : β < (⌊β⌋ : ℝ) + 1 := Int.lt_floor_add_one β
  have hv0 : (0 : ℝ) ≤ v := by exact_mod_cast h0
  have eF : outF[i]? = some ((v : ℝ) / β) := by
    have h := hF.ratio i (by simpa using hi) (by rw [← hβd]; exact hβ0.ne')
    have hl : i < outF.length := by rw [hF.length]; simpa using hi
    rw [List.getD_eq_getElem?_getD, List.getElem?_eq_getElem hl, Option.getD_some] at h
    rw [List.getElem?_eq_getElem hl, h]
    simp [List.getD_eq_getElem?_getD, hv, ← hβd]
  have eI := hI.ratio i v ⌊β⌋ hv (by rw [← hβd]; exact hz) (by omega)
  have hz0 : (0 : ℝ) < ⌊β⌋ := by linarith
  have key : (v : ℝ) / ⌊β⌋ ≤ v / β * (1 + 1 / k) := by
    rw [div_mul_eq_mul_div, div_le_div_iff₀ hz0 hβ0, mul_assoc]
    apply mul_le_mul_of_nonneg_left _ hv0
    have h1 : (1 : ℝ) ≤ 1 / k * ⌊β⌋ := by
      rw [div_mul_eq_mul_div, one_mul, le_div_iff₀ (by linarith)]
      linarith
    linarith
  refine ⟨_, _, eF, eI, ?_, key, ?_⟩
  · exact div_le_div_of_nonneg_left hv0 hz0 hzle
  · refine key.trans ?_
    have h1 : (1 : ℝ) / k ≤ 1 := by rw [div_le_one (by linarith)]; exact hk1
    have h2 : 0 ≤ (v : ℝ) / β := div_nonneg hv0 hβ0.le
    nlinarith

/-- The integer 3 over the background 5/2: 6/5 for floats, 3/2 for integers. -/
example : ∃ f g : ℝ, ([6 / 5] : List ℝ)[0]? = some f ∧ ([3 / 2] : List ℝ)[0]? = some g ∧ f ≤ g ∧ g ≤ f * (1 + 1 / (2 : ℕ)) ∧ g ≤ 2 * f := by
  refine C122_error [3] (fun _ => 0) 0 (5 / 2) [6 / 5] [3 / 2] ⟨rfl, ?_, ?_⟩ ⟨rfl, ?_, ?_⟩ 0 3 rfl (by norm_num) 2 (by norm_num) (by norm_num)
  · intro i hi _
    obtain rfl : i = 0 := by simpa using hi
    norm_num
  · intro i hi h
    norm_num at h
  · intro i v z hv hz _
    rcases i with _ | i
    · obtain rfl : 3 = v := by simpa using hv
      have hz2 : z = 2 := wholePart_unique hz ⟨fun _ => by norm_num, fun h => by norm_num at h⟩
      subst hz2
      norm_num
    · simp at hv
  · intro i hi h
    norm_num [abs_lt] at h

/-- **C122 (flat profiles).** A constant profile of integers, zero included, has no extremum after the normalization. -/
theorem C122_flat (E : Ext) (hpf : PolyfitSpec E.pf) (has : ArgsortSpec E.argsort) (smooth : List ℤ → List ℤ) (l : List ℤ)
    (hn : 5 ≤ l.length) (c : ℤ) (hl : ∀ x ∈ l, x = c) (radius : ℤ) (s : ℝ) (hs : 0 ≤ s) :
    getLocalExtremaPointsInt E smooth l "min" radius s false true false = .ok [] := by
  obtain ⟨a, b, rank, outF, out, h1, _, h3, -, h4, h5⟩ := C122_norm E hpf has smooth l hn
  set L := l.map fun v : ℤ => (v : ℝ) with hL
  have hLc : ∀ x ∈ L, x = (c : ℝ) := by
    intro x hx
    obtain ⟨v, hv, rfl⟩ := List.mem_map.1 hx
    rw [hl v hv]
  have hll := h3 L (List.Perm.refl _) (List.pairwise_iff_getElem.2 fun i j hi hj _ => by
    rw [hLc _ (List.getElem_mem hi), hLc _ (List.getElem_mem hj)])
  have hex : ∀ d ∈ middleSamples L, onHorLine 0 c d := by
    intro d hd
    obtain ⟨k, hk, _, _, rfl⟩ := mem_middleSamples.1 hd
    unfold onHorLine
    simp only
    rw [hLc _ (List.getElem_mem hk)]
    ring
  have hall := lsqHor_exact hll hex
  obtain ⟨d, hd, e, he, hne⟩ := middleSamples_two (v := L) (by simpa [hL] using hn)
  have d1 := hall d hd
  have d2 := hex d hd
  have e1 := hall e he
  have e2 := hex e he
  unfold onHorLine at d1 d2 e1 e2
  have ha : a = 0 := by
    have : a * (d.x - e.x) = 0 := by linarith
    rcases mul_eq_zero.1 this with h | h
    · exact h
    · exact absurd (by linarith) hne
  subst ha
  have hb : b = c := by linarith
  subst hb
  obtain ⟨t, hout⟩ : ∃ t : ℝ, ∀ i < l.length, out.getD i 0 = t := by
    by_cases hc : c = 0
    · subst hc
      refine ⟨0, fun i hi => ?_⟩
      have := h4.zero i hi (by simp)
      rw [List.getD_eq_getElem?_getD, this]
      simp
    · refine ⟨1, fun i hi => ?_⟩
      have hv : l[i]? = some c := by rw [List.getElem?_eq_getElem hi, hl _ (List.getElem_mem hi)]
      have ht : IsTrunc (0 * (rank i : ℝ) + c) c := by
        rw [zero_mul, zero_add]
        exact ⟨fun _ => ⟨le_rfl, by linarith⟩, fun _ => ⟨by linarith, le_rfl⟩⟩
      have := h4.ratio i c c hv ht hc
      rw [List.getD_eq_getElem?_getD, this, Option.getD_some]
      exact div_self (by exact_mod_cast hc)
  have hol : out.length = l.length := h4.length
  obtain ⟨pts, p1, _, p3⟩ := C43_min E out radius s (by omega) ((min (max radius 1) ((out.length / 4 : ℕ) : ℤ)).toNat) (by omega)
  rw [(h5 radius s false).2, p1]
  have : pts = [] := by
    rw [List.eq_nil_iff_forall_not_mem]
    intro i hi
    obtain ⟨q1, q2, _, m, ⟨rest, top, t1, t2, _, t4⟩, q4⟩ := (p3 i).1 hi
    set r := (min (max radius 1) ((out.length / 4 : ℕ) : ℤ)).toNat with hr
    have hr0 : 0 < r := by omega
    have htop : ∀ x ∈ top, x = t := by
      intro x hx
      have hx' : x ∈ around (fun k => out.getD k 0) r i := t1.mem_iff.2 (List.mem_append_right _ hx)
      unfold around at hx'
      obtain ⟨k, hk, rfl⟩ := List.mem_map.1 hx'
      have hk' := List.mem_range.1 hk
      exact hout _ (by omega)
    have hm : m = t := by
      have hsum : top.sum = r * t := by
        rw [← t2, List.eq_replicate_of_mem htop]
        simp
      rw [t4, hsum]
      have : (r : ℝ) ≠ 0 := by exact_mod_cast hr0.ne'
      field_simp
    rw [hm] at q4
    unfold contrast at q4
    simp only at q4
    rw [hout i (by omega)] at q4
    split_ifs at q4 with h0
    · linarith
    · simp at q4
      linarith
  rw [this]
  rfl

example (f : List ℝ → ℝ → List ℝ) (g : List ℝ → GaussFit) (smooth : List ℤ → List ℤ) :=
  C122_flat ⟨refPolyfit, refArgsort, f, g⟩ refPolyfit_spec refArgsort_spec smooth [7, 7, 7, 7, 7] (by simp) 7 (by simp) 1 (1 / 10) (by norm_num)

theorem out_six {out : List ℝ} (h : out.length = 6) {a b c d e f : ℝ} (h0 : out[0]? = some a) (h1 : out[1]? = some b) (h2 : out[2]? = some c)
    (h3 : out[3]? = some d) (h4 : out[4]? = some e) (h5 : out[5]? = some f) : out = [a, b, c, d, e, f] := by
  apply List.ext_getElem?
  intro i
  rcases i with _ | _ | _ | _ | _ | _ | i
  · simpa using h0
  · simpa using h1
  · simpa using h2
  · simpa using h3
  · simpa using h4
  · simpa using h5
  · rw [List.getElem?_eq_none (by omega), List.getElem?_eq_none (by simp)]

theorem topMean_one {u v w m : ℝ} (hm : m ∈ [u, v, w]) (h : ∀ x ∈ [u, v, w], x ≤ m) : TopMean [u, v, w] 1 m := by
  refine ⟨[u, v, w].erase m, [m], ?_, rfl, ?_, by simp⟩
  · exact (List.perm_cons_erase hm).trans (List.perm_append_comm (l₁ := [m]))
  · intro x hx y hy
    rw [List.mem_singleton.1 hy]
    exact h x (List.mem_of_mem_erase hx)

/-- **C122 (difference).** The integers `1, 2, 3, 6, 5, 7` with `norm=True`: as floats they have the single minimum 2, as integers also
the minimum 3, although the profile has a maximum there. -/
theorem C122_differs (E : Ext) (hpf : PolyfitSpec E.pf) (has : ArgsortSpec E.argsort) (smooth : List ℤ → List ℤ) :
    getLocalExtremaPoints E [1, 2, 3, 6, 5, 7] "min" 1 (1 / 10) false true false none = .ok [2] ∧
      getLocalExtremaPointsInt E smooth [1, 2, 3, 6, 5, 7] "min" 1 (1 / 10) false true false = .ok [2, 3] := by
  obtain ⟨a, b, rank, outF, outI, h1, _, h3, hF, hI, h5⟩ := C122_norm E hpf has smooth [1, 2, 3, 6, 5, 7] (by simp)
  have eL : (([1, 2, 3, 6, 5, 7] : List ℤ).map fun v : ℤ => (v : ℝ)) = [1, 2, 3, 6, 5, 7] := by simp
  rw [eL] at h1 h3 hF h5
  have hlsq := h3 [1, 2, 3, 5, 6, 7] (by
    refine List.Perm.cons _ (List.Perm.cons _ (List.Perm.cons _ ?_))
    exact List.Perm.swap _ _ _) (by simp; norm_num)
  have hms : middleSamples [1, 2, 3, 5, 6, 7] = [⟨2, 1⟩, ⟨3, 2⟩, ⟨5, 3⟩] := by
    unfold middleSamples
    simp [List.zipIdx]
  rw [hms] at hlsq
  have hlsq' : IsLsqHorLine [⟨2, 1⟩, ⟨3, 2⟩, ⟨5, 3⟩] (3 / 2) (1 / 3) := by
    intro u w
    simp only [List.map_cons, List.map_nil, List.sum_cons, List.sum_nil]
    nlinarith [sq_nonneg (u - 3 / 2), sq_nonneg (3 * (w - 1 / 3) + 6 * (u - 3 / 2))]
  obtain ⟨ea, eb⟩ := lsqHor_unique hlsq hlsq' ⟨⟨2, 1⟩, by simp, ⟨3, 2⟩, by simp, by norm_num⟩
  subst ea eb
  have hrk : ∀ i < 6, rank i = (fun i => if i = 3 then 4 else if i = 4 then 3 else i) i := by
    refine ranking_unique (l := [1, 2, 3, 6, 5, 7]) (by norm_num) h1 ⟨?_, ?_, ?_⟩
    · intro i hi
      simp at hi ⊢
      split_ifs <;> omega
    · intro i hi j hj
      simp at hi hj ⊢
      split_ifs <;> omega
    · intro i hi j hj
      simp at hi hj
      interval_cases i <;> interval_cases j <;> norm_num
  have r0 := hrk 0 (by norm_num)
  have r1 := hrk 1 (by norm_num)
  have r2 := hrk 2 (by norm_num)
  have r3 := hrk 3 (by norm_num)
  have r4 := hrk 4 (by norm_num)
  have r5 := hrk 5 (by norm_num)
  norm_num at r0 r1 r2 r3 r4 r5
  have hFl : outF.length = 6 := by rw [hF.length]; rfl
  have getF : ∀ i < 6, ∀ β : ℝ, (3 / 2 : ℝ) * rank i + 1 / 3 = β → β ≠ 0 →
      outF[i]? = some (([1, 2, 3, 6, 5, 7] : List ℝ).getD i 0 / β) := by
    intro i hi β hβ h0
    have h := hF.ratio i (by simpa using hi) (by rw [hβ]; exact h0)
    rw [List.getD_eq_getElem?_getD, List.getElem?_eq_getElem (by omega), Option.getD_some, hβ] at h
    rw [List.getElem?_eq_getElem (by omega), h]
  have eF := out_six hFl (getF 0 (by norm_num) (1 / 3) (by rw [r0]; norm_num) (by norm_num))
    (getF 1 (by norm_num) (11 / 6) (by rw [r1]; norm_num) (by norm_num)) (getF 2 (by norm_num) (10 / 3) (by rw [r2]; norm_num) (by norm_num))
    (getF 3 (by norm_num) (19 / 3) (by rw [r3]; norm_num) (by norm_num)) (getF 4 (by norm_num) (29 / 6) (by rw [r4]; norm_num) (by norm_num))
    (getF 5 (by norm_num) (47 / 6) (by rw [r5]; norm_num) (by norm_num))
  norm_num at eF
  have tr : ∀ (β : ℝ) (z : ℤ), 0 ≤ β → (z : ℝ) ≤ β → β < z + 1 → IsTrunc β z := fun β z h0 h1 h2 =>
    ⟨fun _ => ⟨h1, h2⟩, fun h => absurd h0 (not_le.2 h)⟩
  have i0 := hI.zero 0 (by simp) (by rw [r0]; norm_num [abs_lt])
  have i1 := hI.ratio 1 2 1 rfl (tr _ _ (by rw [r1]; norm_num) (by rw [r1]; norm_num) (by rw [r1]; norm_num)) (by norm_num)
  have i2 := hI.ratio 2 3 3 rfl (tr _ _ (by rw [r2]; norm_num) (by rw [r2]; norm_num) (by rw [r2]; norm_num)) (by norm_num)
  have i3 := hI.ratio 3 6 6 rfl (tr _ _ (by rw [r3]; norm_num) (by rw [r3]; norm_num) (by rw [r3]; norm_num)) (by norm_num)
  have i4 := hI.ratio 4 5 4 rfl (tr _ _ (by rw [r4]; norm_num) (by rw [r4]; norm_num) (by rw [r4]; norm_num)) (by norm_num)
  have i5 := hI.ratio 5 7 7 rfl (tr _ _ (by rw [r5]; norm_num) (by rw [r5]; norm_num) (by rw [r5]; norm_num)) (by norm_num)
  have eI := out_six (by rw [hI.length]; rfl) i0 i1 i2 i3 i4 i5
  norm_num [-one_div] at eI
  have hw : ∀ (o : List ℝ) (i : ℕ), 1 ≤ i → around (fun k => o.getD k 0) 1 i = [o.getD (i - 1) 0, o.getD i 0, o.getD (i + 1) 0] := by
    intro o i hi
    have : i - 1 + 1 = i := by omega
    have h' : i - 1 + 2 = i + 1 := by omega
    simp [around, List.range_succ, this, h']
  have hmin : ∀ (o : List ℝ) (i : ℕ), 1 ≤ i → o.getD i 0 ≤ o.getD (i - 1) 0 → o.getD i 0 ≤ o.getD (i + 1) 0 →
      ∀ j, i ≤ j + 1 → j ≤ i + 1 → o.getD i 0 ≤ o.getD j 0 := by
    intro o i h1 h2 h3 j h4 h5
    have : j = i - 1 ∨ j = i ∨ j = i + 1 := by omega
    rcases this with rfl | rfl | rfl
    · exact h2
    · exact le_rfl
    · exact h3
  have hidx : npSlice (List.range 6) 1 (6 - 1 - 1) = [1, 2, 3] := rfl
  classical
  constructor
  · rw [(h5 1 (1 / 10) false).1, extrema_plain E outF 1 (1 / 10) (by omega)]
    have hu : usedRadius 1 outF.length = 1 := by rw [hFl]; rfl
    have n1 : ¬ Minimum (fun k => outF.getD k 0) 1 (1 / 10) 1 := fun h => by
      have := h.1 2 (by norm_num) (by norm_num)
      rw [eF] at this
      norm_num at this
    have n3 : ¬ Minimum (fun k => outF.getD k 0) 1 (1 / 10) 3 := fun h => by
      have := h.1 2 (by norm_num) (by norm_num)
      rw [eF] at this
      norm_num at this
    have n2 : Minimum (fun k => outF.getD k 0) 1 (1 / 10) 2 := by
      refine ⟨hmin outF 2 (by norm_num) (by rw [eF]; norm_num) (by rw [eF]; norm_num), 12 / 11, ?_, ?_⟩
      · rw [hw outF 2 (by norm_num), eF]
        exact topMean_one (by norm_num) (by norm_num)
      · unfold contrast
        rw [eF]
        norm_num [abs_of_neg]
    unfold extremaIdx
    rw [hu, hFl, hidx]
    simp only [List.filter_cons, n1, n2, n3, decide_true, decide_false, Bool.false_eq_true, if_true, if_false, List.filter_nil]
    norm_num
  · rw [(h5 1 (1 / 10) false).2, extrema_plain E outI 1 (1 / 10) (by rw [hI.length]; simp)]
    have hIl : outI.length = 6 := by rw [hI.length]; rfl
    have hu : usedRadius 1 outI.length = 1 := by rw [hIl]; rfl
    have n1 : ¬ Minimum (fun k => outI.getD k 0) 1 (1 / 10) 1 := fun h => by
      have := h.1 2 (by norm_num) (by norm_num)
      rw [eI] at this
      norm_num at this
    have n2 : Minimum (fun k => outI.getD k 0) 1 (1 / 10) 2 := by
      refine ⟨hmin outI 2 (by norm_num) (by rw [eI]; norm_num) (by rw [eI]; norm_num), 2, ?_, ?_⟩
      · rw [hw outI 2 (by norm_num), eI]
        exact topMean_one (by norm_num) (by norm_num)
      · unfold contrast
        rw [eI]
        norm_num [abs_of_neg]
    have n3 : Minimum (fun k => outI.getD k 0) 1 (1 / 10) 3 := by
      refine ⟨hmin outI 3 (by norm_num) (by rw [eI]; norm_num) (by rw [eI]; norm_num), 5 / 4, ?_, ?_⟩
      · rw [hw outI 3 (by norm_num), eI]
        exact topMean_one (by norm_num) (by norm_num)
      · unfold contrast
        rw [eI]
        norm_num [abs_of_neg]
    unfold extremaIdx
    rw [hu, hIl, hidx]
    simp only [List.filter_cons, n1, n2, n3, decide_true, decide_false, Bool.false_eq_true, if_true, if_false, List.filter_nil]
    norm_num

example (f : List ℝ → ℝ → List ℝ) (g : List ℝ → GaussFit) (smooth : List ℤ → List ℤ) :=
  C122_differs ⟨refPolyfit, refArgsort, f, g⟩ refPolyfit_spec refArgsort_spec smooth

end Discorpy
