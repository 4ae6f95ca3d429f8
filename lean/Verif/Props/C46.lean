import Verif.Lemmas.Peak
import Verif.Props.C43

/-! # C46 — selection of good peaks -/

namespace Discorpy

open Spec

theorem npPercentile_ok {l : List ℝ} (h : l ≠ []) (q : ℝ) : ∃ v, npPercentile l q = .ok v := by
  unfold npPercentile
  rw [if_neg h]
  exact ⟨_, rfl⟩

theorem peakWindow_ne {l : List ℝ} {radius p : ℤ} {w : List ℝ} (h : peakWindow l radius p = some w) : w ≠ [] := by
  simp only [peakWindow] at h
  split_ifs at h with h1 h2
  · split at h
    · rename_i m hm
      injection h with h
      rw [← h]
      intro h0
      rw [List.map_eq_nil_iff] at h0
      rw [h0] at hm
      cases hm
    · cases h

/-- The judgement of one peak, as a Boolean. -/
theorem goodPeak_ok {gaussFit : List ℝ → GaussFit} (hfit : ∀ l, (gaussFit l).fit.length = l.length) (l : List ℝ) (tol : ℝ)
    (radius : ℤ) (useOffset : Bool) (p : ℤ) : ∃ b, goodPeak gaussFit l tol radius useOffset p = .ok b := by
  unfold goodPeak
  split
  · exact ⟨_, rfl⟩
  · rename_i w hw
    have hne : List.zipWith (fun a b => |a - b|) (gaussFit w).fit w ≠ [] := by
      rw [← List.length_pos_iff, List.length_zipWith, hfit, min_self]
      exact List.length_pos_iff.2 (peakWindow_ne hw)
    obtain ⟨v, hv⟩ := npPercentile_ok hne 80
    simp only
    rw [hv, ok_bind]
    split_ifs <;> exact ⟨_, rfl⟩

theorem select_eq_filter {gaussFilter : List ℝ → ℝ → List ℝ} {gaussFit : List ℝ → GaussFit} {l : List ℝ} {tol : ℝ} {radius : ℤ}
    {sigma : ℝ} {useOffset : Bool} {P : ℤ → Bool}
    (hP : ∀ p, goodPeak gaussFit (if sigma > 0 then gaussFilter l sigma else l) tol radius useOffset p = .ok (P p)) (peaks : List ℤ) :
    selectGoodPeaks gaussFilter gaussFit l peaks tol radius sigma useOffset = .ok (peaks.filter P) := by
  unfold selectGoodPeaks
  have hm : (peaks.mapM fun p => (do
      let ok ← goodPeak gaussFit (if sigma > 0 then gaussFilter l sigma else l) tol radius useOffset p
      return (p, ok) : Except PyErr (ℤ × Bool))) = .ok (peaks.map fun p => (p, P p)) := by
    apply mapM_eq_map
    intro p _
    rw [hP p, ok_bind]
    rfl
  simp only
  rw [hm, ok_bind, List.filter_map, List.map_map]
  congr 1
  exact List.map_id _

/-- **C46 (independent judgement).** Whatever the filter and the curve fitter: each candidate is kept or dropped by a rule that
depends only on the data and the settings, not on the other candidates; the order is kept. -/
theorem C46_filter (gaussFilter : List ℝ → ℝ → List ℝ) (gaussFit : List ℝ → GaussFit)
    (hfit : ∀ l, (gaussFit l).fit.length = l.length) (l : List ℝ) (tol : ℝ) (radius : ℤ) (sigma : ℝ) (useOffset : Bool) :
    ∃ P : ℤ → Bool, ∀ peaks, selectGoodPeaks gaussFilter gaussFit l peaks tol radius sigma useOffset = .ok (peaks.filter P) := by
  choose P hP using goodPeak_ok hfit (if sigma > 0 then gaussFilter l sigma else l) tol radius useOffset
  exact ⟨P, select_eq_filter hP⟩

example (gf : List ℝ → ℝ → List ℝ) := C46_filter gf (fun w => ⟨w, 0, 0, true⟩) (fun _ => rfl) [0, 1, 2, 1, 0] (1 / 5) 2 0 true

/-- A peak that is good is good for every looser tolerance. -/
theorem goodPeak_mono {gaussFit : List ℝ → GaussFit} {l : List ℝ} {tol tol' : ℝ} (h : tol ≤ tol') {radius : ℤ} {useOffset : Bool} {p : ℤ}
    (hg : goodPeak gaussFit l tol radius useOffset p = .ok true) : goodPeak gaussFit l tol' radius useOffset p = .ok true := by
  unfold goodPeak at hg ⊢
  split at hg
  · cases hg
  · rename_i w hw
    simp only at hg ⊢
    rw [bind_ok_iff] at hg
    obtain ⟨v, hv, hg⟩ := hg
    rw [hv, ok_bind]
    split_ifs at hg with h1 h2
    · rw [if_pos ⟨h1.1, h1.2.1, lt_of_lt_of_le h1.2.2 h⟩, if_pos h2]
      injection hg with hg
      rw [decide_eq_true_eq] at hg
      simp [lt_of_lt_of_le hg h]
    · rw [if_pos ⟨h1.1, h1.2.1, lt_of_lt_of_le h1.2.2 h⟩, if_neg h2]
    · cases hg

/-- **C46 (monotone).** A looser tolerance keeps every peak that was selected before. -/
theorem C46_mono (gaussFilter : List ℝ → ℝ → List ℝ) (gaussFit : List ℝ → GaussFit)
    (hfit : ∀ l, (gaussFit l).fit.length = l.length) (l : List ℝ) (peaks : List ℤ) (tol tol' : ℝ) (h : tol ≤ tol') (radius : ℤ)
    (sigma : ℝ) (useOffset : Bool) :
    ∃ r r', selectGoodPeaks gaussFilter gaussFit l peaks tol radius sigma useOffset = .ok r ∧
      selectGoodPeaks gaussFilter gaussFit l peaks tol' radius sigma useOffset = .ok r' ∧ r.Sublist r' ∧ r'.Sublist peaks := by
  choose P hP using goodPeak_ok hfit (if sigma > 0 then gaussFilter l sigma else l) tol radius useOffset
  choose P' hP' using goodPeak_ok hfit (if sigma > 0 then gaussFilter l sigma else l) tol' radius useOffset
  refine ⟨_, _, select_eq_filter hP peaks, select_eq_filter hP' peaks, ?_, List.filter_sublist⟩
  have : peaks.filter P = (peaks.filter P').filter P := by
    rw [List.filter_filter]
    apply List.filter_congr
    intro p _
    by_cases hp : P p = true
    · have := hP p
      rw [hp] at this
      have := goodPeak_mono h this
      rw [hP' p] at this
      injection this with this
      rw [hp, this]; rfl
    · simp [hp]
  rw [this]
  exact List.filter_sublist

example (gf : List ℝ → ℝ → List ℝ) := C46_mono gf (fun w => ⟨w, 0, 0, true⟩) (fun _ => rfl) [0, 1, 2, 1, 0] [2, 3] (1 / 5) (2 / 5) (by norm_num) 2 0 true

/-- **C46 (without offset).** Ignoring the fitted offset keeps every peak that is selected when it is used. -/
theorem C46_offset (gaussFilter : List ℝ → ℝ → List ℝ) (gaussFit : List ℝ → GaussFit)
    (hfit : ∀ l, (gaussFit l).fit.length = l.length) (l : List ℝ) (peaks : List ℤ) (tol : ℝ) (radius : ℤ) (sigma : ℝ) :
    ∃ r r', selectGoodPeaks gaussFilter gaussFit l peaks tol radius sigma true = .ok r ∧
      selectGoodPeaks gaussFilter gaussFit l peaks tol radius sigma false = .ok r' ∧ r.Sublist r' := by
  choose P hP using goodPeak_ok hfit (if sigma > 0 then gaussFilter l sigma else l) tol radius true
  choose P' hP' using goodPeak_ok hfit (if sigma > 0 then gaussFilter l sigma else l) tol radius false
  refine ⟨_, _, select_eq_filter hP peaks, select_eq_filter hP' peaks, ?_⟩
  have : peaks.filter P = (peaks.filter P').filter P := by
    rw [List.filter_filter]
    apply List.filter_congr
    intro p _
    by_cases hp : P p = true
    · have h1 := hP p
      have h2 := hP' p
      rw [hp] at h1
      unfold goodPeak at h1 h2
      split at h1
      · cases h1
      · rename_i w hw
        rw [hw] at h2
        simp only at h1 h2
        rw [bind_ok_iff] at h1 h2
        obtain ⟨v, hv, h1⟩ := h1
        obtain ⟨v', hv', h2⟩ := h2
        rw [hv] at hv'
        injection hv' with hv'
        subst hv'
        split_ifs at h1 with hc
        · rw [if_pos hc, if_neg (by simp)] at h2
          injection h2 with h2
          rw [hp, ← h2]; rfl
        · cases h1
    · simp [hp]
  rw [this]
  exact List.filter_sublist

example (gf : List ℝ → ℝ → List ℝ) := C46_offset gf (fun w => ⟨w, 0, 0, true⟩) (fun _ => rfl) [0, 1, 2, 1, 0] [2, 3] (1 / 5) 2 0

theorem npStd_const {l : List ℝ} {v : ℝ} (h : ∀ x ∈ l, x = v) : npStd l = 0 := by
  unfold npStd
  rcases eq_or_ne l [] with rfl | hne
  · simp
  · have hl : (l.length : ℝ) ≠ 0 := by
      have := List.length_pos_iff.2 hne
      positivity
    have hsum : l.sum = l.length * v := by
      rw [List.eq_replicate_iff.2 ⟨rfl, h⟩]; simp
    have : (l.map fun x => (x - l.sum / l.length) ^ 2).sum = 0 := by
      rw [List.sum_eq_zero]
      intro y hy
      obtain ⟨x, hx, rfl⟩ := List.mem_map.1 hy
      rw [h x hx, hsum, mul_div_cancel_left₀ _ hl, sub_self, zero_pow two_ne_zero]
    rw [this, zero_div, Real.sqrt_zero]

theorem mem_npSlice {l : List ℝ} {a b : ℕ} {x : ℝ} (h : x ∈ npSlice l a b) : ∃ j, a ≤ j ∧ j < b ∧ l[j]? = some x := by
  unfold npSlice at h
  obtain ⟨k, hk, e⟩ := List.getElem_of_mem h
  rw [List.length_drop, List.length_take] at hk
  refine ⟨a + k, by omega, by omega, ?_⟩
  rw [List.getElem_drop, List.getElem_take] at e
  rw [List.getElem?_eq_getElem (by omega), e]

/-- **C46 (dropped).** Without smoothing, a peak is dropped if at most three samples lie within `radius` of it, or if all samples
there are equal. -/
theorem C46_dropped (gaussFilter : List ℝ → ℝ → List ℝ) (gaussFit : List ℝ → GaussFit)
    (hfit : ∀ l, (gaussFit l).fit.length = l.length) (l : List ℝ) (peaks : List ℤ) (tol : ℝ) (radius : ℤ) (useOffset : Bool)
    (p : ℤ) (h : min (l.length : ℤ) (p + radius + 1) - max 0 (p - radius) ≤ 3 ∨
      ∃ v, ∀ (j : ℕ) x, |(j : ℤ) - p| ≤ radius → l[j]? = some x → x = v) :
    ∃ r, selectGoodPeaks gaussFilter gaussFit l peaks tol radius 0 useOffset = .ok r ∧ p ∉ r := by
  choose P hP using goodPeak_ok hfit (if (0 : ℝ) > 0 then gaussFilter l 0 else l) tol radius useOffset
  refine ⟨_, select_eq_filter hP peaks, fun hp => ?_⟩
  have h1 := (List.mem_filter.1 hp).2
  have h2 := hP p
  rw [h1, if_neg (lt_irrefl _)] at h2
  have hw : peakWindow l radius p = none := by
    simp only [peakWindow]
    rcases h with h | ⟨v, hv⟩
    · rw [if_neg (by omega)]
    · split_ifs with h3 h4
      · exfalso
        apply h4
        apply npStd_const (v := v)
        intro x hx
        obtain ⟨j, ha, hb, hj⟩ := mem_npSlice hx
        exact hv j x (by rw [abs_le]; omega) hj
      · rfl
      · rfl
  unfold goodPeak at h2
  rw [hw] at h2
  cases h2

/-- A peak outside of the samples. -/
example (gf : List ℝ → ℝ → List ℝ) := C46_dropped gf (fun w => ⟨w, 0, 0, true⟩) (fun _ => rfl) [0, 1, 2, 1, 0] [2, 9] (1 / 5) 2 true 9 (.inl (by simp))

theorem npStd_affine (l : List ℝ) {c : ℝ} (hc : 0 < c) (d : ℝ) : npStd (l.map fun x => c * x + d) = c * npStd l := by
  rcases eq_or_ne l [] with rfl | hne
  · simp [npStd]
  have hl : (l.length : ℝ) ≠ 0 := by
    have := List.length_pos_iff.2 hne
    positivity
  have hs : (l.map fun x => c * x + d).sum = c * l.sum + l.length * d := by
    rw [List.sum_map_add, List.sum_map_mul_left]
    simp
  unfold npStd
  rw [List.length_map, hs, List.map_map]
  have : (l.map ((fun x => (x - (c * l.sum + l.length * d) / l.length) ^ 2) ∘ fun x => c * x + d)) =
      l.map fun x => c ^ 2 * (x - l.sum / l.length) ^ 2 := by
    apply List.map_congr_left
    intro x _
    simp only [Function.comp]
    field_simp
    ring
  rw [this, List.sum_map_mul_left, mul_div_assoc, Real.sqrt_mul (by positivity), Real.sqrt_sq hc.le]

theorem peakWindow_affine (l : List ℝ) {c : ℝ} (hc : 0 < c) (d : ℝ) (radius p : ℤ) :
    peakWindow (l.map fun x => c * x + d) radius p = peakWindow l radius p := by
  simp only [peakWindow]
  have hsl : ∀ a b, npSlice (l.map fun x => c * x + d) a b = (npSlice l a b).map fun x => c * x + d := by
    intro a b
    simp [npSlice, List.map_take, List.map_drop]
  rw [List.length_map, hsl, npStd_affine _ hc d]
  generalize npSlice l _ _ = sub
  split_ifs with h1 h2 h3 h3
  · have hmin : ∀ m, sub.min? = some m → (sub.map fun x => c * x + d).min? = some (c * m + d) := by
      intro m hm
      rw [List.min?_eq_some_iff] at hm ⊢
      refine ⟨List.mem_map.2 ⟨m, hm.1, rfl⟩, fun y hy => ?_⟩
      obtain ⟨x, hx, rfl⟩ := List.mem_map.1 hy
      have := mul_le_mul_of_nonneg_left (hm.2 x hx) hc.le
      linarith
    rcases hm : sub.min? with _ | m
    · rw [List.min?_eq_none_iff] at hm
      subst hm
      rfl
    · rw [hmin m hm]
      simp only [Option.some.injEq, List.map_map]
      apply List.map_congr_left
      intro x _
      simp only [Function.comp]
      rw [show c * x + d - (c * m + d) = c * (x - m) by ring, mul_div_mul_left _ _ hc.ne']
  · exact absurd (by intro h; exact h2 (by rw [h, mul_zero])) h3
  · exact absurd h3 (fun h => h2 (mul_ne_zero hc.ne' h))
  · rfl
  · rfl

/-- **C46 (affine).** Scaling the data by a positive factor and adding a constant does not change the selection (no smoothing). -/
theorem C46_affine (gaussFilter : List ℝ → ℝ → List ℝ) (gaussFit : List ℝ → GaussFit) (l : List ℝ) (c d : ℝ) (hc : 0 < c)
    (peaks : List ℤ) (tol : ℝ) (radius : ℤ) (useOffset : Bool) :
    selectGoodPeaks gaussFilter gaussFit (l.map fun x => c * x + d) peaks tol radius 0 useOffset =
      selectGoodPeaks gaussFilter gaussFit l peaks tol radius 0 useOffset := by
  unfold selectGoodPeaks
  simp only [gt_iff_lt, lt_irrefl, if_false]
  congr 1
  apply mapM_congr'
  intro p _
  unfold goodPeak
  rw [peakWindow_affine l hc d]

example (gf : List ℝ → ℝ → List ℝ) (g : List ℝ → GaussFit) := C46_affine gf g [0, 1, 2, 1, 0] 3 7 (by norm_num) [2, 3] (1 / 5) 2 true

/-- **C46 (rule).** The selection returns, in their order, exactly the candidates that are accepted on the data, which are smoothed
first if the width of the filter is positive. -/
theorem C46_rule (gaussFilter : List ℝ → ℝ → List ℝ) (gaussFit : List ℝ → GaussFit)
    (hfit : ∀ l, (gaussFit l).fit.length = l.length) (l : List ℝ) (peaks : List ℤ) (tol : ℝ) (radius : ℤ) (sigma : ℝ) (useOffset : Bool)
    (data : List ℝ) (h1 : 0 < sigma → data = gaussFilter l sigma) (h2 : sigma ≤ 0 → data = l) :
    ∃ r, selectGoodPeaks gaussFilter gaussFit l peaks tol radius sigma useOffset = .ok r ∧ r.Sublist peaks ∧
      (∀ p, p ∈ r ↔ p ∈ peaks ∧ PeakAccepted gaussFit data tol radius useOffset p) ∧
      ∀ p, PeakAccepted gaussFit data tol radius useOffset p → r.count p = peaks.count p := by
  have hd : (if sigma > 0 then gaussFilter l sigma else l) = data := by
    split_ifs with h
    · exact (h1 h).symm
    · exact (h2 (not_lt.1 h)).symm
  choose P hP using goodPeak_ok hfit data tol radius useOffset
  refine ⟨_, select_eq_filter (P := P) (by rw [hd]; exact hP) peaks, List.filter_sublist, fun p => ?_, fun p hp => ?_⟩
  · rw [List.mem_filter, goodPeak_iff (hP p)]
  · exact List.count_filter ((goodPeak_iff (hP p)).2 hp)

example (gf : List ℝ → ℝ → List ℝ) := C46_rule gf (fun w => ⟨w, 0, 0, true⟩) (fun _ => rfl) [0, 1, 2, 1, 0] [2, 3] (1 / 5) 2 0 true [0, 1, 2, 1, 0]
  (by norm_num) (fun _ => rfl)

/-- **C46 (inside the search for extrema).** With the selection of peaks, `get_local_extrema_points` returns those minima `i` of the
plain search that are accepted as peaks of the data turned upside down, with the clipped radius. -/
theorem C46_extrema (E : Ext) (hfit : ∀ l, (E.gaussFit l).fit.length = l.length) (l : List ℝ) (radius : ℤ) (s : ℝ) (k : PeakParams)
    (hn : 4 ≤ l.length) (r : ℕ) (hr : (r : ℤ) = min (max radius 1) ((l.length / 4 : ℕ) : ℤ)) :
    ∃ M ∈ l, (∀ x ∈ l, x ≤ M) ∧ ∀ data : List ℝ, (0 < k.sigma → data = E.gaussFilter (l.map fun x => M - x) k.sigma) →
      (k.sigma ≤ 0 → data = l.map fun x => M - x) →
    ∃ pts : List ℕ, getLocalExtremaPoints E l "min" radius s false false false (some k) = .ok (pts.map fun i : ℕ => (i : ℝ)) ∧
      pts.Pairwise (· < ·) ∧
      ∀ i, i ∈ pts ↔ (r ≤ i ∧ i + r + 1 < l.length ∧ Minimum (fun k => l.getD k 0) r s i) ∧
        PeakAccepted E.gaussFit data k.tol r k.useOffset i := by
  have hne : l ≠ [] := by rw [← List.length_pos_iff]; omega
  obtain ⟨M, hM, hmem, hmax⟩ := npMax_ok hne
  refine ⟨M, hmem, hmax, fun data hd1 hd2 => ?_⟩
  have hd : (if k.sigma > 0 then E.gaussFilter (l.map fun x => M - x) k.sigma else l.map fun x => M - x) = data := by
    split_ifs with h
    · exact (hd1 h).symm
    · exact (hd2 (not_lt.1 h)).symm
  have e : usedRadius radius l.length = r := by unfold usedRadius; omega
  obtain ⟨flags, h1, h2⟩ := flags_eq l (usedRadius_pos hn (radius := radius)) s
  choose P hP using goodPeak_ok hfit data k.tol r k.useOffset
  refine ⟨(extremaIdx l r s).filter fun i : ℕ => P i, ?_, (extremaIdx_sorted l r s).sublist List.filter_sublist, fun i => ?_⟩
  · unfold getLocalExtremaPoints
    simp only [Bool.false_eq_true, if_false, String.reduceEq, ok_bind]
    unfold usedRadius at h1 h2 e
    rw [h1, ok_bind, h2, hM, ok_bind, e, select_eq_filter (P := P) (by rw [hd]; exact hP), ok_bind, List.filter_map, List.map_map]
    rfl
  · rw [List.mem_filter, mem_extremaIdx, goodPeak_iff (hP i)]

example (gf : List ℝ → ℝ → List ℝ) := C46_extrema ⟨refPolyfit, refArgsort, gf, fun w => ⟨w, 0, 0, true⟩⟩ (fun _ => rfl) [5, 1, 5, 5] 1 (1 / 10)
  ⟨1 / 5, 0, true⟩ (by simp) 1 (by simp)

/-- The hypotheses can be met, and the selection is not trivially empty: with a fitter that reproduces its data, a peak in the
middle of a bump is kept. -/
example : selectGoodPeaks (fun l _ => l) (fun w => ⟨w, 0, 0, true⟩) [0, 1, 2, 1, 0] [2] (1 / 5) 2 0 true = .ok [2] := by
  have hfit : ∀ l : List ℝ, ((fun w : List ℝ => (⟨w, 0, 0, true⟩ : GaussFit)) l).fit.length = l.length := fun l => rfl
  have hg : goodPeak (fun w => ⟨w, 0, 0, true⟩) [0, 1, 2, 1, 0] (1 / 5) 2 true 2 = .ok true := by
    have hstd : npStd [0, 1, 2, 1, 0] ≠ 0 := by
      unfold npStd
      rw [Real.sqrt_ne_zero']
      norm_num
    have hmin : [(0 : ℝ), 1, 2, 1, 0].min? = some 0 := by
      rw [List.min?_eq_some_iff]; simp
    have hw : peakWindow [0, 1, 2, 1, 0] 2 2 = some ([0, 1, 2, 1, 0].map fun x => (x - 0) / npStd [0, 1, 2, 1, 0]) := by
      simp only [peakWindow]
      have e : npSlice [(0 : ℝ), 1, 2, 1, 0] (max 0 (2 - 2 : ℤ)).toNat
          (min (([(0 : ℝ), 1, 2, 1, 0].length : ℕ) : ℤ) (2 + 2 + 1)).toNat = [0, 1, 2, 1, 0] := by
        simp [npSlice]
      rw [e, if_pos (by norm_num), if_pos hstd, hmin]
    unfold goodPeak
    rw [hw]
    generalize [(0 : ℝ), 1, 2, 1, 0].map (fun x => (x - 0) / npStd [0, 1, 2, 1, 0]) = w at hw
    have hne : w ≠ [] := peakWindow_ne hw
    have hz : ∀ v : List ℝ, List.zipWith (fun a b => |a - b|) v v = List.replicate v.length 0 := by
      intro v
      induction v with
      | nil => rfl
      | cons a v ih => simp [List.replicate_succ]
    have hp : npPercentile (List.zipWith (fun a b => |a - b|) w w) 80 = .ok 0 := by
      rw [hz]
      unfold npPercentile
      rw [if_neg (by simpa using hne)]
      have hs : (List.replicate w.length (0 : ℝ)).mergeSort (fun a b => decide (a ≤ b)) = List.replicate w.length 0 := by
        apply List.mergeSort_of_pairwise
        rw [List.pairwise_replicate]
        simp
      simp only [hs]
      have hd : ∀ k, (List.replicate w.length (0 : ℝ)).getD k 0 = 0 := by
        intro k
        rw [List.getD_eq_getElem?_getD, List.getElem?_replicate]
        split <;> rfl
      rw [hd, hd]
      simp
    simp only
    rw [hp, ok_bind]
    norm_num
  unfold selectGoodPeaks
  simp only [gt_iff_lt, lt_irrefl, if_false]
  simp only [List.mapM_cons, List.mapM_nil]
  rw [hg]
  rfl

end Discorpy
