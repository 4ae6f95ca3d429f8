import Verif.Lemmas.InnerMask

/-! # C67: size of the dots, distance between the dots, number of dots -/

namespace Discorpy

open Spec

theorem dots_encard (m : Mat ℤ) : {D | IsDot m D}.encard = ((dotReps m).length : ℕ∞) := by
  classical
  have : {D | IsDot m D} = dotSet m '' ((dotReps m).toFinset : Set Pix) := by
    ext D
    rw [Set.mem_image]
    simp only [List.coe_toFinset]
    exact isDot_iff.trans ⟨fun ⟨p, hp, e⟩ => ⟨p, hp, e.symm⟩, fun ⟨p, hp, e⟩ => ⟨p, hp, e.symm⟩⟩
  rw [this, Set.InjOn.encard_image, Set.encard_coe_eq_coe_finsetCard, List.toFinset_card_of_nodup (dotReps_nodup m)]
  intro a ha b hb e
  rw [List.coe_toFinset] at ha hb
  exact dotSet_inj ha hb e

/-- Counting dots through their representatives. -/
theorem dots_encard_filter (m : Mat ℤ) (P : Pix → Bool) (Q : Set Pix → Prop) (h : ∀ p ∈ dotReps m, (P p = true → Q (dotSet m p))) :
    (((dotReps m).filter P).length : ℕ∞) ≤ {D | IsDot m D ∧ Q D}.encard := by
  classical
  have hsub : dotSet m '' (((dotReps m).filter P).toFinset : Set Pix) ⊆ {D | IsDot m D ∧ Q D} := by
    rintro _ ⟨p, hp, rfl⟩
    rw [List.coe_toFinset] at hp
    obtain ⟨h1, h2⟩ := List.mem_filter.1 hp
    exact ⟨isDot_iff.2 ⟨p, h1, rfl⟩, h p h1 h2⟩
  refine le_trans (le_of_eq ?_) (Set.encard_le_encard hsub)
  rw [Set.InjOn.encard_image, Set.encard_coe_eq_coe_finsetCard, List.toFinset_card_of_nodup ((dotReps_nodup m).filter _)]
  intro a ha b hb e
  rw [List.coe_toFinset] at ha hb
  exact dotSet_inj (List.mem_of_mem_filter ha) (List.mem_of_mem_filter hb) e

/-- **C67** (number of dots): `check_num_dots` returns `True` exactly if there are fewer than 25 dots. -/
theorem C67_count (m : Mat ℤ) : checkNumDots m = true ↔ {D | IsDot m D}.encard < 25 := by
  rw [dots_encard, checkNumDots, decide_eq_true_eq]
  norm_cast

theorem median_dots {m : Mat ℤ} {g : Pix → ℝ} {f : Set Pix → ℝ → Prop} {v : ℝ} (h : npMedian ((dotReps m).map g) = .ok v)
    (hf : ∀ p ∈ dotReps m, f (dotSet m p) (g p)) : DotMedian m f v := by
  obtain ⟨_, h1, h2⟩ := npMedian_halves h
  rw [List.length_map, List.filter_map, List.length_map] at h1 h2
  unfold DotMedian
  rw [dots_encard]
  constructor
  · calc ((dotReps m).length : ℕ∞) ≤ ((2 * ((dotReps m).filter ((fun x => decide (x ≤ v)) ∘ g)).length : ℕ) : ℕ∞) := by exact_mod_cast h1
      _ = 2 * (((dotReps m).filter ((fun x => decide (x ≤ v)) ∘ g)).length : ℕ∞) := by norm_cast
      _ ≤ _ := by
        gcongr
        exact dots_encard_filter m _ _ fun p hp h => ⟨g p, by simpa using h, hf p hp⟩
  · calc ((dotReps m).length : ℕ∞) ≤ ((2 * ((dotReps m).filter ((fun x => decide (v ≤ x)) ∘ g)).length : ℕ) : ℕ∞) := by exact_mod_cast h2
      _ = 2 * (((dotReps m).filter ((fun x => decide (v ≤ x)) ∘ g)).length : ℕ∞) := by norm_cast
      _ ≤ _ := by
        gcongr
        exact dots_encard_filter m _ _ fun p hp h => ⟨g p, by simpa using h, hf p hp⟩

/-- `np.sort(…)[1]` of the distances of a dot. -/
theorem nearest_of_sorted {m : Mat ℤ} {cent : Pix → Pt} (hc : ∀ p ∈ dotReps m, IsCentre m (dotSet m p) (cent p)) {p : Pix}
    (hp : p ∈ dotReps m) {d : ℝ} (h : npGet (sortedDists ((dotReps m).map cent) (cent p)) 1 = .ok d) :
    NearestDist m (dotSet m p) d := by
  classical
  have hnd := dotReps_nodup m
  have hperm : (dotReps m).Perm (p :: (dotReps m).erase p) := List.perm_cons_erase hp
  have hl : (((dotReps m).map cent).map fun c => √(((cent p).y - c.y) ^ 2 + ((cent p).x - c.x) ^ 2)).Perm
      (0 :: ((dotReps m).erase p).map fun q => centreDist (cent p) (cent q)) := by
    rw [List.map_map]
    refine (hperm.map _).trans ?_
    rw [List.map_cons]
    have : ((fun c : Pt => √(((cent p).y - c.y) ^ 2 + ((cent p).x - c.x) ^ 2)) ∘ cent) p = 0 := by simp
    rw [this]
    exact .rfl
  rw [sortedDists, mergeSort_cons_zero hl (fun x hx => by
    obtain ⟨q, _, rfl⟩ := List.mem_map.1 hx
    exact Real.sqrt_nonneg _), npGet_ok_iff, List.getElem?_cons_succ] at h
  have hs := sorted_mergeSort (((dotReps m).erase p).map fun q => centreDist (cent p) (cent q))
  have hp' := List.mergeSort_perm (((dotReps m).erase p).map fun q => centreDist (cent p) (cent q)) fun a b => decide (a ≤ b)
  generalize (((dotReps m).erase p).map fun q => centreDist (cent p) (cent q)).mergeSort (fun a b => decide (a ≤ b)) = s at *
  cases s with
  | nil => simp at h
  | cons a t =>
    simp only [List.getElem?_cons_zero, Option.some.injEq] at h
    subst h
    rw [List.pairwise_cons] at hs
    have hmin : ∀ x ∈ ((dotReps m).erase p).map fun q => centreDist (cent p) (cent q), a ≤ x := by
      intro x hx
      rcases List.mem_cons.1 (hp'.mem_iff.2 hx) with rfl | hx
      · exact le_rfl
      · exact hs.1 x hx
    refine ⟨cent p, hc p hp, ?_, ?_⟩
    · obtain ⟨q, hq, e⟩ := List.mem_map.1 (hp'.mem_iff.1 (List.mem_cons_self))
      obtain ⟨hqp, hq⟩ := (hnd.mem_erase_iff).1 hq
      exact ⟨_, cent q, isDot_iff.2 ⟨q, hq, rfl⟩, fun e => hqp (dotSet_inj hq hp e), hc q hq, e.symm⟩
    · intro E c' hE hne hc'
      obtain ⟨q, hq, rfl⟩ := isDot_iff.1 hE
      rw [← (hc q hq).unique hc']
      exact hmin _ (List.mem_map.2 ⟨q, (hnd.mem_erase_iff).2 ⟨fun e => hne (by rw [e]), hq⟩, rfl⟩)

/-- The returned size is a median of the sizes of the dots of the (cleared) region of interest; the returned distance
is a median of the distances to the nearest other dot. -/
theorem sizeDistance_median (size dist : ℝ) (roi : Mat ℤ)
    (h : sizeDistanceOf roi = .ok (size, dist)) :
    DotMedian roi (fun D x => x = dotSum roi D) size ∧ DotMedian roi (NearestDist roi) dist := by
  unfold sizeDistanceOf at h
  obtain ⟨s, hs, h⟩ := bind_ok_iff.1 h
  obtain ⟨cents, hcents, h⟩ := bind_ok_iff.1 h
  obtain ⟨dists, hdists, h⟩ := bind_ok_iff.1 h
  obtain ⟨d, hd, h⟩ := bind_ok_iff.1 h
  cases h
  refine ⟨median_dots hs fun p hp => ?_, ?_⟩
  · unfold dotSum
    rw [dotPixels_sum p fun q => (roi.get q.1 q.2 : ℝ)]
  · obtain ⟨cent, rfl, hc⟩ := dotCentres_ok hcents
    rw [mapM_map'] at hdists
    rw [mapM_ok_iff] at hdists
    classical
    have hval : ∀ p ∈ dotReps roi, ∃ d, npGet (sortedDists ((dotReps roi).map cent) (cent p)) 1 = .ok d := by
      intro p hp
      obtain ⟨d, _, h⟩ := forall₂_mem_left hdists hp
      exact ⟨d, h⟩
    have e : dists = (dotReps roi).map fun p => (npGet (sortedDists ((dotReps roi).map cent) (cent p)) 1).toOption.getD 0 := by
      rw [← List.forall₂_eq_eq_eq, List.forall₂_map_right_iff]
      refine hdists.flip.imp fun d p h => ?_
      rw [h]; rfl
    rw [e] at hd
    refine median_dots hd fun p hp => ?_
    obtain ⟨d, h⟩ := hval p hp
    rw [h]
    exact nearest_of_sorted hc hp h

/-- (regular pattern): if all dots have the same size and the same distance to the nearest other dot, exactly these
are returned. -/
theorem sizeDistance_regular (size dist size' dist' : ℝ) (roi : Mat ℤ)
    (h : sizeDistanceOf roi = .ok (size, dist))
    (hsize : ∀ D, IsDot roi D → dotSum roi D = size') (hdist : ∀ D d, IsDot roi D → NearestDist roi D d → d = dist') :
    size = size' ∧ dist = dist' := by
  obtain ⟨h1, h2⟩ := sizeDistance_median size dist roi h
  have hpos : 0 < {D | IsDot roi D}.encard := by
    rw [dots_encard]
    have : dotReps roi ≠ [] := by
      intro e
      simp only [sizeDistanceOf, e] at h
      simp [npMedian] at h
    exact_mod_cast List.length_pos_iff.2 this
  have key : ∀ (f : Set (ℕ × ℕ) → ℝ → Prop) (v w : ℝ), DotMedian roi f v → (∀ D x, IsDot roi D → f D x → x = w) → v = w := by
    intro f v w hm hf
    have hne : ∀ Q : Set (ℕ × ℕ) → Prop, {D | IsDot roi D}.encard ≤ 2 * {D | IsDot roi D ∧ Q D}.encard → ∃ D, IsDot roi D ∧ Q D := by
      intro Q hle
      by_contra hcon
      have : {D | IsDot roi D ∧ Q D} = ∅ := Set.eq_empty_iff_forall_notMem.2 fun D hD => hcon ⟨D, hD⟩
      rw [this, Set.encard_empty, mul_zero] at hle
      exact absurd (lt_of_lt_of_le hpos hle) (lt_irrefl _)
    obtain ⟨D, hD, x, hx, hfx⟩ := hne _ hm.1
    obtain ⟨D', hD', y, hy, hfy⟩ := hne _ hm.2
    have e1 := hf D x hD hfx
    have e2 := hf D' y hD' hfy
    linarith
  exact ⟨key _ _ _ h1 fun D x hD hx => hx.trans (hsize D hD), key _ _ _ h2 fun D x hD hx => hdist D x hD hx⟩

/-- Without dots there is no median. -/
theorem sizeDistance_none (roi : Mat ℤ) (h : {D | IsDot roi D}.encard = 0) : sizeDistanceOf roi = .error .nonFinite := by
  rw [dots_encard] at h
  have e : dotReps roi = [] := List.length_eq_zero_iff.1 (by exact_mod_cast h)
  simp only [sizeDistanceOf, e]
  simp [npMedian]

/-- A single dot has no other dot. -/
theorem sizeDistance_single (roi : Mat ℤ) (h : {D | IsDot roi D}.encard = 1) (hc : ∃ pts, dotCentres roi = .ok pts ∧ MiddlesOf roi pts) :
    sizeDistanceOf roi = .error .indexError := by
  rw [dots_encard] at h
  obtain ⟨p, e⟩ := List.length_eq_one_iff.1 (by exact_mod_cast h : (dotReps roi).length = 1)
  obtain ⟨cents, hcents, _⟩ := hc
  have hl : cents.length = 1 := by
    unfold dotCentres at hcents
    rw [← (mapM_ok_iff.1 hcents).length_eq, e]; rfl
  obtain ⟨c, rfl⟩ := List.length_eq_one_iff.1 hl
  obtain ⟨v, hv⟩ := npMedian_ok (l := (dotReps roi).map fun p => ((dotPixels roi p).map fun q => (roi.get q.1 q.2 : ℝ)).sum) (by rw [e]; simp)
  unfold sizeDistanceOf
  simp only [hv, hcents, ok_bind]
  simp [sortedDists, npGet]

theorem dotSum_card {roi : Mat ℝ} {mask : Mat ℤ} (hm : IsInnerMask roi mask) {D : Set (ℕ × ℕ)} (hD : IsDot mask D) :
    dotSum mask D = D.ncard := by
  classical
  have e : D = ((Finset.range mask.height ×ˢ Finset.range mask.width).filter fun q => q ∈ D : Finset (ℕ × ℕ)) := by
    ext q
    simp only [Finset.coe_filter, Finset.mem_product, Finset.mem_range, Set.mem_ofPred_eq]
    exact ⟨fun hq => ⟨⟨(hD.lit q hq).1, (hD.lit q hq).2.1⟩, hq⟩, fun hq => hq.2⟩
  have hs : dotSum mask D = ∑ q ∈ (Finset.range mask.height ×ˢ Finset.range mask.width).filter (fun q => q ∈ D), (1 : ℝ) := by
    unfold dotSum
    refine Finset.sum_congr (by congr) fun q hq => ?_
    rw [Finset.mem_filter] at hq
    rw [innerMask_one hm (hD.lit q hq.2)]
    norm_num
  rw [hs, Finset.sum_const, nsmul_eq_mul, mul_one]
  conv_rhs => rw [e, Set.ncard_coe_finset]

/-- **C67.** For a binary image the function looks at the objects in the middle part of the image that do not reach the border
of this part. The returned size is a median of their numbers of pixels, the returned distance a median of the distances to the
nearest other dot. -/
theorem C67_median (m : Mat ℝ) (hb : IsBinary m) (h0 : 0 < m.height) (h1 : 0 < m.width) (ratio size dist : ℝ)
    (h : calcSizeDistance m ratio = .ok (size, dist)) :
    ∃ roi mask, IsMiddlePart m ratio roi ∧ IsInnerMask roi mask ∧
      DotMedian mask (fun D x => x = D.ncard) size ∧ DotMedian mask (NearestDist mask) dist := by
  obtain ⟨roi, mask, e, hp, hm⟩ := innerMask_ok hb h0 h1 ratio
  unfold calcSizeDistance at h
  rw [e, ok_bind] at h
  obtain ⟨a, b⟩ := sizeDistance_median size dist mask h
  refine ⟨roi, mask, hp, hm, ?_, b⟩
  have hs : ∀ D, IsDot mask D → dotSum mask D = D.ncard := fun D hD => dotSum_card hm hD
  have hset : ∀ P : ℝ → Prop, {D | IsDot mask D ∧ ∃ x, P x ∧ x = dotSum mask D} = {D | IsDot mask D ∧ ∃ x, P x ∧ x = (D.ncard : ℝ)} := by
    intro P
    ext D
    simp only [Set.mem_ofPred_eq]
    exact ⟨fun ⟨h1, x, h2, h3⟩ => ⟨h1, x, h2, by rw [h3, hs D h1]⟩, fun ⟨h1, x, h2, h3⟩ => ⟨h1, x, h2, by rw [h3, hs D h1]⟩⟩
  obtain ⟨a1, a2⟩ := a
  rw [hset fun x => x ≤ size] at a1
  rw [hset fun x => x ≥ size] at a2
  exact ⟨a1, a2⟩

/-- **C67** (regular pattern): if all these dots have the same number of pixels and the same distance to the nearest other dot,
exactly these values are returned. -/
theorem C67_regular (m : Mat ℝ) (hb : IsBinary m) (h0 : 0 < m.height) (h1 : 0 < m.width) (ratio : ℝ) :
    ∃ roi mask, IsMiddlePart m ratio roi ∧ IsInnerMask roi mask ∧
      ∀ size dist size' dist' : ℝ, calcSizeDistance m ratio = .ok (size, dist) → (∀ D, IsDot mask D → (D.ncard : ℝ) = size') →
        (∀ D d, IsDot mask D → NearestDist mask D d → d = dist') → size = size' ∧ dist = dist' := by
  obtain ⟨roi, mask, e, hp, hm⟩ := innerMask_ok hb h0 h1 ratio
  refine ⟨roi, mask, hp, hm, fun size dist size' dist' h hs hd => ?_⟩
  unfold calcSizeDistance at h
  rw [e, ok_bind] at h
  exact sizeDistance_regular size dist size' dist' mask h (fun D hD => by rw [dotSum_card hm hD]; exact hs D hD) hd

/-- **C67** (outcome): without such dots there is no median; a single dot raises `IndexError`; with two or more the function
succeeds. -/
theorem C67_outcome (m : Mat ℝ) (hb : IsBinary m) (h0 : 0 < m.height) (h1 : 0 < m.width) (ratio : ℝ) :
    ∃ roi mask, IsMiddlePart m ratio roi ∧ IsInnerMask roi mask ∧
      ({D | IsDot mask D}.encard = 0 → calcSizeDistance m ratio = .error .nonFinite) ∧
      ({D | IsDot mask D}.encard = 1 → calcSizeDistance m ratio = .error .indexError) ∧
      (2 ≤ {D | IsDot mask D}.encard → ∃ v, calcSizeDistance m ratio = .ok v) := by
  obtain ⟨roi, mask, e, hp, hm⟩ := innerMask_ok hb h0 h1 ratio
  have hred : calcSizeDistance m ratio = sizeDistanceOf mask := by
    unfold calcSizeDistance
    rw [e, ok_bind]
  rw [hred]
  refine ⟨roi, mask, hp, hm, sizeDistance_none mask, fun h => ?_, fun h => ?_⟩
  · exact sizeDistance_single mask h (innerMask_centres hm)
  · rw [dots_encard] at h
    have h2 : 2 ≤ (dotReps mask).length := by exact_mod_cast h
    have hne : dotReps mask ≠ [] := by
      intro e
      rw [e] at h2
      simp at h2
    obtain ⟨cents, hc, _⟩ := innerMask_centres hm
    have hcl : cents.length = (dotReps mask).length := by
      unfold dotCentres at hc
      exact (mapM_ok_iff.1 hc).length_eq.symm
    obtain ⟨v, hv⟩ := npMedian_ok (l := (dotReps mask).map fun p => ((dotPixels mask p).map fun q => (mask.get q.1 q.2 : ℝ)).sum)
      (by simpa using hne)
    have hd : ∀ dot, ∃ d, npGet (sortedDists cents dot) 1 = .ok d := by
      intro dot
      have hl : 1 < (sortedDists cents dot).length := by
        unfold sortedDists
        rw [List.length_mergeSort, List.length_map]
        omega
      exact ⟨_, npGet_of_lt hl⟩
    obtain ⟨ds, hds⟩ := exists_mapM_ok (l := cents) (fun dot _ => hd dot)
    have hdl : ds.length = cents.length := (mapM_ok_iff.1 hds).length_eq.symm
    obtain ⟨w, hw⟩ := npMedian_ok (l := ds) (by rintro rfl; simp at hdl; omega)
    unfold sizeDistanceOf
    simp only [hv, hc, hds, hw, ok_bind]
    exact ⟨_, rfl⟩

/-- Two dots at distance 3, away from the border. -/
noncomputable def twoInner : Mat ℝ := ⟨3, 6, fun i j => if i = 1 ∧ (j = 1 ∨ j = 4) then 1 else 0⟩

theorem twoInner_binary : IsBinary twoInner := by
  intro i _ j _
  unfold twoInner
  simp only
  split_ifs
  · right; rfl
  · left; rfl

theorem twoInner_roi {roi : Mat ℝ} (h : IsMiddlePart twoInner 1 roi) :
    roi.height = 3 ∧ roi.width = 6 ∧ ∀ i j, roi.get i j = twoInner.get i j := by
  obtain ⟨a, b, hp, h1, h2, h3⟩ := h
  obtain ⟨s1, s2, s3, s4⟩ := h3 1 (by norm_num)
  have e1 : twoInner.height = 3 := rfl
  have e2 : twoInner.width = 6 := rfl
  rw [e1] at h1 s1 s2
  rw [e2] at h2 s3 s4
  have t1 : (3 : ℝ) ≤ roi.height := by push_cast at s1; linarith
  have t2 : (6 : ℝ) ≤ roi.width := by push_cast at s3; linarith
  have t1' : 3 ≤ roi.height := by exact_mod_cast t1
  have t2' : 6 ≤ roi.width := by exact_mod_cast t2
  obtain rfl : a = 0 := by omega
  obtain rfl : b = 0 := by omega
  refine ⟨by omega, by omega, fun i j => ?_⟩
  rw [hp.get, zero_add, zero_add]

theorem twoInner_lit {roi : Mat ℝ} {mask : Mat ℤ} (h : IsMiddlePart twoInner 1 roi) (hm : IsInnerMask roi mask) (p : ℕ × ℕ) :
    Lit mask p ↔ p = (1, 1) ∨ p = (1, 4) := by
  obtain ⟨e1, e2, e3⟩ := twoInner_roi h
  obtain ⟨m1, m2, m3⟩ := hm
  have hA : ∀ p, p ∈ {q ∈ frame roi.height roi.width | roi.get q.1 q.2 = 1} ↔ p = (1, 1) ∨ p = (1, 4) := by
    rintro ⟨i, j⟩
    simp only [Set.mem_ofPred_eq, frame, e1, e2, e3, twoInner, Prod.mk.injEq]
    constructor
    · rintro ⟨_, h⟩
      split_ifs at h with hc
      · omega
      · norm_num at h
    · rintro (⟨rfl, rfl⟩ | ⟨rfl, rfl⟩) <;> simp
  have haw : awayFromRim roi.height roi.width {q ∈ frame roi.height roi.width | roi.get q.1 q.2 = 1} =
      {q ∈ frame roi.height roi.width | roi.get q.1 q.2 = 1} := by
    apply awayFromRim_single
    · intro p hp q hq
      rw [hA] at hp hq
      rcases hp with rfl | rfl <;> rcases hq with rfl | rfl <;> simp [CornerTouch]
    · intro p hp
      rw [hA] at hp
      rcases hp with rfl | rfl <;> simp [rim, frame, e1, e2]
  rw [haw] at m3
  constructor
  · rintro ⟨h1, h2, h3⟩
    by_contra hc
    exact h3 ((m3 p ⟨by rw [← m1]; exact h1, by rw [← m2]; exact h2⟩).2 fun hp => hc ((hA p).1 hp))
  · intro hp
    have hin := (hA p).2 hp
    refine ⟨by rw [m1]; exact hin.1.1, by rw [m2]; exact hin.1.2, ?_⟩
    rw [(m3 p hin.1).1 hin]
    norm_num

theorem twoInner_apart {roi : Mat ℝ} {mask : Mat ℤ} (h : IsMiddlePart twoInner 1 roi) (hm : IsInnerMask roi mask) :
    ∀ p q, Lit mask p → Lit mask q → ¬ ShareEdge p q := by
  intro p q hp hq
  rw [twoInner_lit h hm] at hp hq
  rcases hp with rfl | rfl <;> rcases hq with rfl | rfl <;> simp [ShareEdge]

/-- Non-vacuity: two dots of one pixel at distance 3; the result is `(1, 3)`. -/
theorem twoInner_calc : calcSizeDistance twoInner 1 = .ok (1, 3) := by
  obtain ⟨roi, mask, hp, hm, hreg⟩ := C67_regular twoInner twoInner_binary (by norm_num [twoInner]) (by norm_num [twoInner]) 1
  obtain ⟨roi', mask', hp', hm', _, _, hok⟩ := C67_outcome twoInner twoInner_binary (by norm_num [twoInner]) (by norm_num [twoInner]) 1
  obtain ⟨v, hv⟩ := hok (by
    have h1 : IsDot mask' {(1, 1)} := (isDot_single (twoInner_apart hp' hm')).2 ⟨_, (twoInner_lit hp' hm' _).2 (Or.inl rfl), rfl⟩
    have h2 : IsDot mask' {(1, 4)} := (isDot_single (twoInner_apart hp' hm')).2 ⟨_, (twoInner_lit hp' hm' _).2 (Or.inr rfl), rfl⟩
    have hsub : ({{(1, 1)}, {(1, 4)}} : Set (Set (ℕ × ℕ))) ⊆ {D | IsDot mask' D} := by
      rintro D (rfl | rfl)
      · exact h1
      · exact h2
    refine le_trans ?_ (Set.encard_le_encard hsub)
    rw [Set.encard_pair (by simp)])
  have hdot : ∀ D, IsDot mask D → D = {(1, 1)} ∨ D = {(1, 4)} := by
    intro D hD
    obtain ⟨p, hp1, rfl⟩ := (isDot_single (twoInner_apart hp hm)).1 hD
    rcases (twoInner_lit hp hm p).1 hp1 with rfl | rfl
    · exact Or.inl rfl
    · exact Or.inr rfl
  have hcen : ∀ (D : Set (ℕ × ℕ)) c, IsDot mask D → IsCentre mask D c → ∀ a : ℕ, D = {(1, a)} → c = ⟨1, a⟩ := by
    rintro D c hD hc a rfl
    have hl : Lit mask (1, a) := hD.lit _ rfl
    have hone := innerMask_one hm hl
    have hS : ∀ f : ℕ × ℕ → ℝ, (∑ q ∈ (Finset.range mask.height ×ˢ Finset.range mask.width) with q ∈ ({(1, a)} : Set (ℕ × ℕ)), f q) = f (1, a) := by
      intro f
      rw [show ((Finset.range mask.height ×ˢ Finset.range mask.width).filter fun q => q ∈ ({(1, a)} : Set (ℕ × ℕ))) = {(1, a)} by
        ext q
        simp only [Finset.mem_filter, Finset.mem_product, Finset.mem_range, Set.mem_singleton_iff, Finset.mem_singleton]
        exact ⟨fun h => h.2, fun h => ⟨by rw [h]; exact ⟨hl.1, hl.2.1⟩, h⟩⟩]
      simp
    obtain ⟨_, h2, h3⟩ := hc
    have e0 : ((mask.get 1 a : ℤ) : ℝ) = 1 := by exact_mod_cast hone
    have t0 := hS fun q => (mask.get q.1 q.2 : ℝ)
    have t1 := hS fun q => (mask.get q.1 q.2 : ℝ) * q.1
    have t2 := hS fun q => (mask.get q.1 q.2 : ℝ) * q.2
    have e1 := (congrArg (fun v => c.y * v) t0).symm.trans ((by convert h2) : _ = _) |>.trans t1
    have e2 := (congrArg (fun v => c.x * v) t0).symm.trans ((by convert h3) : _ = _) |>.trans t2
    simp only [e0] at e1 e2
    cases c
    simp only [Pt.mk.injEq]
    constructor
    · simpa using e1
    · simpa using e2
  obtain ⟨s, d⟩ := v
  obtain ⟨rfl, rfl⟩ := hreg s d 1 3 hv (fun D hD => by rcases hdot D hD with rfl | rfl <;> simp) (by
    rintro D d hD ⟨c, hc, ⟨E, c', hE, hne, hc', rfl⟩, _⟩
    rcases hdot D hD with rfl | rfl <;> rcases hdot E hE with rfl | rfl
    · exact absurd rfl hne
    · rw [hcen _ _ hD hc 1 rfl, hcen _ _ hE hc' 4 rfl]
      unfold centreDist
      rw [show ((1 : ℝ) - 1) ^ 2 + (((1 : ℕ) : ℝ) - ((4 : ℕ) : ℝ)) ^ 2 = 3 ^ 2 by norm_num]
      simp
    · rw [hcen _ _ hD hc 4 rfl, hcen _ _ hE hc' 1 rfl]
      unfold centreDist
      rw [show ((1 : ℝ) - 1) ^ 2 + (((4 : ℕ) : ℝ) - ((1 : ℕ) : ℝ)) ^ 2 = 3 ^ 2 by norm_num]
      simp
    · exact absurd rfl hne)
  exact hv

example := C67_median twoInner twoInner_binary (by norm_num [twoInner]) (by norm_num [twoInner]) 1 1 3 twoInner_calc

end Discorpy
