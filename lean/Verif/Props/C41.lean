import Verif.Lemmas.DotDist
import Verif.Lemmas.Num
import Mathlib.Tactic.Linarith
import Mathlib.Tactic.NormNum

/-! # C41, C66: selection of dots -/

namespace Discorpy

open Spec

/-! ## Size -/

/-- **C41** (size): exactly the pixels in the bounding boxes of the accepted dots are kept; a dot is accepted if the pixels
of its bounding box add up to a value within the tolerance. -/
theorem C41_size (m : Mat ℝ) (dotSize ratio : ℝ) :
    KeepsDots (int16Mat m) (selectDotsBasedSize m dotSize ratio)
      fun D => 0 ≤ boxSum m D ∧ dotSize - ratio * dotSize ≤ boxSum m D ∧ boxSum m D ≤ dotSize + ratio * dotSize := by
  unfold selectDotsBasedSize
  apply keepsDots_of
  intro b
  rw [List.mem_filter, findObjects, List.mem_map]
  constructor
  · rintro ⟨⟨p, hp, rfl⟩, h⟩
    rw [checkDotSize, decide_eq_true_eq, sub_flat_sum rfl rfl hp] at h
    exact ⟨p, hp, ⟨(le_max_right _ _).trans h.1, (le_max_left _ _).trans h.1, h.2⟩, rfl⟩
  · rintro ⟨p, hp, h, rfl⟩
    refine ⟨⟨p, hp, rfl⟩, ?_⟩
    rw [checkDotSize, decide_eq_true_eq, sub_flat_sum rfl rfl hp]
    exact ⟨max_le h.2.1 h.1, h.2.2⟩

/-- **C41** (16-bit): an image of integers of the 16-bit range is selected from as it is, … -/
theorem C41_int16 (m : Mat ℝ) (h : ∀ i j, ∃ n : ℤ, m.get i j = n ∧ -32768 ≤ n ∧ n ≤ 32767) :
    (int16Mat m).height = m.height ∧ (int16Mat m).width = m.width ∧ ∀ i j, ((int16Mat m).get i j : ℝ) = m.get i j := by
  refine ⟨rfl, rfl, fun i j => ?_⟩
  obtain ⟨n, e, h1, h2⟩ := h i j
  have ht : truncInt ((n : ℤ) : ℝ) = n := by unfold truncInt; split <;> simp
  simp only [int16Mat]
  rw [e, ht, toInt16_of_mem h1 h2]

/-- **C41** (16-bit): … but dots with values that are multiples of 65536 are lost: the result is zero everywhere, for any size
and ratio. -/
theorem C41_int16_overflow (m : Mat ℝ) (h : ∀ i j, ∃ n : ℤ, m.get i j = 65536 * n) (dotSize ratio : ℝ) :
    ∀ i < m.height, ∀ j < m.width, (selectDotsBasedSize m dotSize ratio).get i j = 0 := by
  intro i hi j hj
  refine ((C41_size m dotSize ratio).2.2 i hi j hj).2 ?_
  rintro ⟨D, hD, _⟩
  obtain ⟨p, hp⟩ := hD.nonempty
  refine (hD.lit p hp).2.2 ?_
  obtain ⟨n, e⟩ := h p.1 p.2
  have ht : truncInt (((65536 * n : ℤ)) : ℝ) = 65536 * n := by unfold truncInt; split <;> simp only [Int.floor_intCast, Int.ceil_intCast]
  simp only [int16Mat]
  rw [e, show (65536 * (n : ℝ)) = ((65536 * n : ℤ) : ℝ) by push_cast; ring, ht, toInt16]
  exact Int.bmod_eq_zero_of_dvd (Dvd.intro _ rfl)

/-! ## Shape -/

/-- The elongation test of a dot: its bounding box `b` has at least two rows and two columns and the fitted ellipse is
round enough. -/
def RoundDot (axes : Mat ℤ → Except PyErr (ℝ × ℝ)) (m : Mat ℤ) (ratio : ℝ) (D : Set (ℕ × ℕ)) : Prop :=
  ∃ b : Box, (∀ i j, b.Has i j ↔ InBox D i j) ∧ b.y0 + 2 ≤ b.y1 ∧ b.x0 + 2 ≤ b.x1 ∧
    ∃ minor major, axes (m.sub b) = .ok (minor, major) ∧ |major / minor - 1| < ratio

theorem box_unique {b c : Box} (hb : b.y0 < b.y1 ∧ b.x0 < b.x1) (h : ∀ i j, b.Has i j ↔ c.Has i j) : b = c := by
  obtain ⟨a1, a2, a3, a4⟩ := b
  obtain ⟨c1, c2, c3, c4⟩ := c
  simp only [Box.Has] at h hb
  obtain ⟨p1, p2, p3, p4⟩ := (h a1 a3).1 ⟨le_rfl, hb.1, le_rfl, hb.2⟩
  obtain ⟨q1, q2, q3, q4⟩ := (h (a2 - 1) (a4 - 1)).1 ⟨by omega, by omega, by omega, by omega⟩
  obtain ⟨r1, r2, r3, r4⟩ := (h c1 c3).2 ⟨le_rfl, by omega, le_rfl, by omega⟩
  obtain ⟨s1, s2, s3, s4⟩ := (h (c2 - 1) (c4 - 1)).2 ⟨by omega, by omega, by omega, by omega⟩
  rw [Box.mk.injEq]
  exact ⟨by omega, by omega, by omega, by omega⟩

theorem forall₂_mem_right {α β : Type} {R : α → β → Prop} {l : List α} {r : List β} (h : List.Forall₂ R l r) {b : β}
    (hb : b ∈ r) : ∃ a ∈ l, R a b := by
  induction h with
  | nil => cases hb
  | cons hr _ ih =>
    rcases List.mem_cons.1 hb with rfl | hb
    · exact ⟨_, by simp, hr⟩
    · obtain ⟨a, ha, h⟩ := ih hb
      exact ⟨a, List.mem_cons_of_mem _ ha, h⟩

theorem forall₂_mem_left {α β : Type} {R : α → β → Prop} {l : List α} {r : List β} (h : List.Forall₂ R l r) {a : α}
    (ha : a ∈ l) : ∃ b ∈ r, R a b :=
  let ⟨b, hb, h⟩ := forall₂_mem_right h.flip ha
  ⟨b, hb, h⟩

theorem checkAxesRatio_ok {axes : Mat ℤ → Except PyErr (ℝ × ℝ)} {m : Mat ℤ} {ratio : ℝ} {r : Bool}
    (h : checkAxesRatio axes m ratio = .ok r) :
    (r = true ↔ 2 ≤ m.height ∧ 2 ≤ m.width ∧ ∃ minor major, axes m = .ok (minor, major) ∧ |major / minor - 1| < ratio) := by
  unfold checkAxesRatio at h
  split_ifs at h with hs
  · cases h
    simp
    omega
  · obtain ⟨⟨minor, major⟩, ha, h⟩ := bind_ok_iff.1 h
    simp only at h
    split_ifs at h with h0
    cases h
    rw [decide_eq_true_eq]
    constructor
    · intro h; exact ⟨by omega, by omega, minor, major, ha, h⟩
    · rintro ⟨_, _, mi, ma, e, h⟩
      rw [ha] at e
      cases e
      exact h

/-- **C41** (shape): exactly the pixels in the bounding boxes of the accepted dots are kept. -/
theorem C41_ratio (axes : Mat ℤ → Except PyErr (ℝ × ℝ)) (m : Mat ℝ) (ratio : ℝ) (out : Mat ℤ)
    (h : selectDotsBasedRatio axes m ratio = .ok out) :
    KeepsDots (int16Mat m) out (RoundDot axes (int16Mat m) ratio) := by
  unfold selectDotsBasedRatio at h
  obtain ⟨flags, hf, h⟩ := bind_ok_iff.1 h
  cases h
  rw [mapM_ok_iff, findObjects, List.forall₂_map_left_iff] at hf
  have hacc : ∀ p ∈ dotReps (int16Mat m), ∀ r : Bool,
      checkAxesRatio axes ((int16Mat m).sub (boundingBox (dotPixels (int16Mat m) p))) ratio = .ok r →
      (r = true ↔ RoundDot axes (int16Mat m) ratio (dotSet (int16Mat m) p)) := by
    intro p hp r hr
    obtain ⟨b1, b2, b3, b4⟩ := box_inside hp
    rw [checkAxesRatio_ok hr]
    have e1 : ((int16Mat m).sub (boundingBox (dotPixels (int16Mat m) p))).height =
      (boundingBox (dotPixels (int16Mat m) p)).y1 - (boundingBox (dotPixels (int16Mat m) p)).y0 := by
      simp only [Mat.sub]; rw [min_eq_left b2]
    have e2 : ((int16Mat m).sub (boundingBox (dotPixels (int16Mat m) p))).width =
      (boundingBox (dotPixels (int16Mat m) p)).x1 - (boundingBox (dotPixels (int16Mat m) p)).x0 := by
      simp only [Mat.sub]; rw [min_eq_left b4]
    rw [e1, e2]
    constructor
    · rintro ⟨h1, h2, h3⟩
      exact ⟨_, dotBox_has hp, by omega, by omega, h3⟩
    · rintro ⟨b, hb, h1, h2, h3⟩
      have : boundingBox (dotPixels (int16Mat m) p) = b :=
        box_unique ⟨b1, b3⟩ fun i j => (dotBox_has hp i j).trans (hb i j).symm
      rw [this]
      exact ⟨by omega, by omega, h3⟩
  apply keepsDots_of
  intro b
  rw [List.mem_map]
  constructor
  · rintro ⟨f, hmem, rfl⟩
    rw [List.mem_filter] at hmem
    obtain ⟨p, hp, hrel⟩ := forall₂_mem_right hf hmem.1
    obtain ⟨r, hr, e⟩ := bind_ok_iff.1 hrel
    cases e
    exact ⟨p, hp, (hacc p hp r hr).1 hmem.2, rfl⟩
  · rintro ⟨p, hp, ha, rfl⟩
    obtain ⟨f, hmem, hrel⟩ := forall₂_mem_left hf hp
    obtain ⟨r, hr, e⟩ := bind_ok_iff.1 hrel
    cases e
    exact ⟨_, List.mem_filter.2 ⟨hmem, (hacc p hp r hr).2 ha⟩, rfl⟩

/-- **C41** (shape, outcome): it never fails if the axes of every part of the image can be computed and are not zero. -/
theorem C41_ratio_ok (axes : Mat ℤ → Except PyErr (ℝ × ℝ)) (m : Mat ℝ) (ratio : ℝ)
    (hax : ∀ c, 2 ≤ c.height → 2 ≤ c.width → ∃ minor major, axes c = .ok (minor, major) ∧ minor ≠ 0) :
    ∃ out, selectDotsBasedRatio axes m ratio = .ok out := by
  unfold selectDotsBasedRatio
  have : ∃ flags, ((findObjects (int16Mat m)).mapM fun b => do
      let ok ← checkAxesRatio axes ((int16Mat m).sub b) ratio
      return (b, ok)) = .ok flags := by
    refine exists_mapM_ok fun b _ => ?_
    have : ∃ r, checkAxesRatio axes ((int16Mat m).sub b) ratio = .ok r := by
      unfold checkAxesRatio
      split_ifs with h
      · exact ⟨_, rfl⟩
      · obtain ⟨minor, major, e, h0⟩ := hax ((int16Mat m).sub b) (by omega) (by omega)
        rw [e, ok_bind]
        simp only
        rw [if_neg h0]
        exact ⟨_, rfl⟩
    obtain ⟨r, hr⟩ := this
    rw [hr]
    exact ⟨_, rfl⟩
  obtain ⟨flags, hf⟩ := this
  exact ⟨_, by simp only [hf]; rfl⟩

/-! ## Distance -/

theorem dotCentres_ok {m : Mat ℤ} {cents : List Pt} (h : dotCentres m = .ok cents) :
    ∃ cent : Pix → Pt, cents = (dotReps m).map cent ∧ ∀ p ∈ dotReps m, IsCentre m (dotSet m p) (cent p) := by
  classical
  unfold dotCentres at h
  rw [mapM_ok_iff] at h
  refine ⟨fun p => if hp : ∃ c, IsCentre m (dotSet m p) c then hp.choose else ⟨0, 0⟩, ?_, ?_⟩
  · rw [← List.forall₂_eq_eq_eq, List.forall₂_map_right_iff]
    refine h.flip.imp fun c p hc => ?_
    have hc' := isCentre_iff.1 hc
    have he : ∃ c, IsCentre m (dotSet m p) c := ⟨c, hc'⟩
    simp only [dif_pos he]
    exact hc'.unique he.choose_spec
  · intro p hp
    obtain ⟨c, _, hc⟩ := forall₂_mem_left h hp
    have he : ∃ c, IsCentre m (dotSet m p) c := ⟨c, isCentre_iff.1 hc⟩
    simp only [dif_pos he]
    exact he.choose_spec

theorem fract_sub (d dd : ℝ) (h : dd ≠ 0) : (d - (⌊d / dd⌋ : ℝ) * dd) / dd = Int.fract (d / dd) := by
  rw [sub_div, mul_div_assoc, div_self h, mul_one]
  rfl

/-- The distances of a dot to the other dots. -/
theorem mem_dists {m : Mat ℤ} {cent : Pix → Pt} (hc : ∀ p ∈ dotReps m, IsCentre m (dotSet m p) (cent p)) {p : Pix}
    (hp : p ∈ dotReps m) (d : ℝ) :
    d ∈ npSlice (sortedDists ((dotReps m).map cent) (cent p)) 1 4 ↔ ∃ E, NearDot m (dotSet m p) E d := by
  classical
  have hnd := dotReps_nodup m
  set others := (dotReps m).filter fun q => decide (q ≠ p) with hoth
  have hperm : (dotReps m).Perm (p :: others) := by
    have : others = (dotReps m).erase p := by
      rw [hnd.erase_eq_filter]
      apply List.filter_congr
      intro q _
      rw [Bool.eq_iff_iff]; simp
    rw [this]
    exact List.perm_cons_erase hp
  have hmemo : ∀ q, q ∈ others ↔ q ∈ dotReps m ∧ q ≠ p := by
    intro q; rw [hoth, List.mem_filter, decide_eq_true_eq]
  have hondp : others.Nodup := hnd.filter _
  have hl : (((dotReps m).map cent).map fun c => √(((cent p).y - c.y) ^ 2 + ((cent p).x - c.x) ^ 2)).Perm
      (0 :: others.map fun q => centreDist (cent p) (cent q)) := by
    rw [List.map_map]
    refine (hperm.map _).trans ?_
    rw [List.map_cons]
    have : ((fun c : Pt => √(((cent p).y - c.y) ^ 2 + ((cent p).x - c.x) ^ 2)) ∘ cent) p = 0 := by simp
    rw [this]
    exact .rfl
  unfold sortedDists
  rw [mem_slice_sorted hl (fun x hx => by
    obtain ⟨q, _, rfl⟩ := List.mem_map.1 hx
    exact Real.sqrt_nonneg _)]
  -- counting nearer dots
  have hcount : ∀ d, ((others.map fun q => centreDist (cent p) (cent q)).filter fun x => decide (x < d)).length < 3 ↔
      Set.encard {F | IsDot m F ∧ F ≠ dotSet m p ∧ ∃ c'', IsCentre m F c'' ∧ centreDist (cent p) c'' < d} < 3 := by
    intro d
    rw [List.filter_map, List.length_map]
    set near := others.filter ((fun x => decide (x < d)) ∘ fun q => centreDist (cent p) (cent q)) with hnear
    have hset : {F | IsDot m F ∧ F ≠ dotSet m p ∧ ∃ c'', IsCentre m F c'' ∧ centreDist (cent p) c'' < d} =
        dotSet m '' (near.toFinset : Set Pix) := by
      ext F
      rw [Set.mem_image]
      constructor
      · rintro ⟨hF, hne, c'', hc'', hd⟩
        obtain ⟨q, hq, rfl⟩ := isDot_iff.1 hF
        have hqp : q ≠ p := fun e => hne (by rw [e])
        refine ⟨q, ?_, rfl⟩
        rw [List.coe_toFinset, hnear]
        refine List.mem_filter.2 ⟨(hmemo q).2 ⟨hq, hqp⟩, ?_⟩
        rw [Function.comp_apply, decide_eq_true_eq, (hc q hq).unique hc'']
        exact hd
      · rintro ⟨q, hq, rfl⟩
        rw [List.coe_toFinset, hnear] at hq
        obtain ⟨h1, h2⟩ := List.mem_filter.1 hq
        rw [Function.comp_apply, decide_eq_true_eq] at h2
        obtain ⟨hq, hqp⟩ := (hmemo q).1 h1
        exact ⟨isDot_iff.2 ⟨q, hq, rfl⟩, fun e => hqp (dotSet_inj hq hp e), cent q, hc q hq, h2⟩
    rw [hset, Set.InjOn.encard_image, Set.encard_coe_eq_coe_finsetCard, List.toFinset_card_of_nodup (hondp.filter _)]
    · norm_cast
    · intro a ha b hb e
      rw [List.coe_toFinset, hnear] at ha hb
      exact dotSet_inj ((hmemo a).1 (List.mem_of_mem_filter ha)).1 ((hmemo b).1 (List.mem_of_mem_filter hb)).1 e
  rw [hcount]
  constructor
  · rintro ⟨h1, h2⟩
    obtain ⟨q, hq, rfl⟩ := List.mem_map.1 h1
    obtain ⟨hq, hqp⟩ := (hmemo q).1 hq
    exact ⟨dotSet m q, isDot_iff.2 ⟨q, hq, rfl⟩, fun e => hqp (dotSet_inj hq hp e), cent p, cent q, hc p hp, hc q hq, rfl, h2⟩
  · rintro ⟨E, hE, hne, c, c', h1, h2, rfl, h3⟩
    obtain ⟨q, hq, rfl⟩ := isDot_iff.1 hE
    have e1 := (hc p hp).unique h1
    have e2 := (hc q hq).unique h2
    subst e1 e2
    exact ⟨List.mem_map.2 ⟨q, (hmemo q).2 ⟨hq, fun e => hne (by rw [e])⟩, rfl⟩, h3⟩

/-- **C41** (distance): exactly the pixels in the bounding boxes of the accepted dots are kept. A dot is accepted if the
distance to one of its three nearest neighbours exceeds a whole multiple of the expected distance by less than the given
fraction of it. -/
theorem C41_distance (m : Mat ℝ) (dotDist ratio : ℝ) (out : Mat ℤ) (h : selectDotsBasedDistance m dotDist ratio = .ok out) :
    KeepsDots (int16Mat m) out fun D => dotDist ≠ 0 ∧ ∃ E d, NearDot (int16Mat m) D E d ∧ Int.fract (d / dotDist) < ratio := by
  unfold selectDotsBasedDistance at h
  obtain ⟨cents, hcents, h⟩ := bind_ok_iff.1 h
  cases h
  obtain ⟨cent, rfl, hc⟩ := dotCentres_ok hcents
  apply keepsDots_of
  intro b
  rw [findObjects, List.map_map, List.zip_map', List.mem_map]
  have hacc : ∀ p ∈ dotReps (int16Mat m),
      (distanceOk (npSlice (sortedDists ((dotReps (int16Mat m)).map cent) (cent p)) 1 4) dotDist ratio = true ↔
        dotDist ≠ 0 ∧ ∃ E d, NearDot (int16Mat m) (dotSet (int16Mat m) p) E d ∧ Int.fract (d / dotDist) < ratio) := by
    intro p hp
    unfold distanceOk
    rw [List.any_eq_true]
    constructor
    · rintro ⟨d, hd, h⟩
      rw [decide_eq_true_eq] at h
      obtain ⟨E, hE⟩ := (mem_dists hc hp d).1 hd
      exact ⟨h.1, E, d, hE, by rw [← fract_sub d dotDist h.1]; exact h.2⟩
    · rintro ⟨h0, E, d, hE, h⟩
      refine ⟨d, (mem_dists hc hp d).2 ⟨E, hE⟩, ?_⟩
      rw [decide_eq_true_eq]
      exact ⟨h0, by rw [fract_sub d dotDist h0]; exact h⟩
  constructor
  · rintro ⟨q, hq, rfl⟩
    rw [List.mem_filter] at hq
    obtain ⟨p, hp, rfl⟩ := List.mem_map.1 hq.1
    exact ⟨p, hp, (hacc p hp).1 hq.2, rfl⟩
  · rintro ⟨p, hp, ha, rfl⟩
    exact ⟨_, List.mem_filter.2 ⟨List.mem_map.2 ⟨p, hp, rfl⟩, (hacc p hp).2 ha⟩, rfl⟩

/-- **C41** (distance, outcome): it never fails for an image without negative pixels, in particular for a binary image. -/
theorem C41_distance_ok (m : Mat ℝ) (dotDist ratio : ℝ) (hpos : ∀ i j, 0 ≤ (int16Mat m).get i j) :
    ∃ out, selectDotsBasedDistance m dotDist ratio = .ok out := by
  have : ∃ cents, dotCentres (int16Mat m) = .ok cents := by
    refine exists_mapM_ok fun p hp => ?_
    unfold centerOfMass
    simp only
    rw [if_neg]
    · exact ⟨_, rfl⟩
    · have hpl := (mem_dotReps.1 hp).1
      have hmem : p ∈ dotPixels (int16Mat m) p := mem_dotPixels.2 (SameDot.refl hpl)
      have h1 : ((int16Mat m).get p.1 p.2 : ℝ) ≤ ((dotPixels (int16Mat m) p).map fun p => ((int16Mat m).get p.1 p.2 : ℝ)).sum :=
        List.single_le_sum (fun x hx => by
          obtain ⟨q, _, rfl⟩ := List.mem_map.1 hx
          exact_mod_cast hpos q.1 q.2) _ (List.mem_map.2 ⟨p, hmem, rfl⟩)
      have h2 : (0 : ℝ) < (int16Mat m).get p.1 p.2 := by
        have := hpos p.1 p.2
        have := hpl.2.2
        exact_mod_cast (by omega : 0 < (int16Mat m).get p.1 p.2)
      intro h
      rw [h] at h1
      linarith
  obtain ⟨cents, hc⟩ := this
  unfold selectDotsBasedDistance
  simp only [hc]
  exact ⟨_, rfl⟩

/-! ## Consequences -/

/-- **C41** (consequences): every pixel is zero or unchanged; the pixels of an accepted dot are all unchanged; accepting more
dots keeps more pixels; if no dot reaches into the bounding box of another dot, exactly the accepted dots are left. -/
theorem C41_pixels (m out out' : Mat ℤ) (acc acc' : Set (ℕ × ℕ) → Prop) (h : KeepsDots m out acc) (h' : KeepsDots m out' acc') :
    (∀ i < m.height, ∀ j < m.width, out.get i j = 0 ∨ out.get i j = m.get i j) ∧
    (∀ D, IsDot m D → acc D → ∀ p ∈ D, out.get p.1 p.2 = m.get p.1 p.2) ∧
    ((∀ D, acc D → acc' D) → ∀ i < m.height, ∀ j < m.width, out.get i j ≠ 0 → out'.get i j = out.get i j) ∧
    ((∀ D E, IsDot m D → IsDot m E → D ≠ E → ∀ p ∈ E, ¬ InBox D p.1 p.2) → ∀ D, IsDot m D → ∀ p ∈ D,
      (out.get p.1 p.2 ≠ 0 ↔ acc D)) := by
  have hself : ∀ (D : Set (ℕ × ℕ)), ∀ p ∈ D, InBox D p.1 p.2 := fun D p hp =>
    ⟨⟨p, hp, le_rfl⟩, ⟨p, hp, le_rfl⟩, ⟨p, hp, le_rfl⟩, ⟨p, hp, le_rfl⟩⟩
  refine ⟨fun i hi j hj => ?_, fun D hD ha p hp => ?_, fun hacc i hi j hj hne => ?_, fun hsep D hD p hp => ?_⟩
  · by_cases hk : ∃ D, IsDot m D ∧ acc D ∧ InBox D i j
    · exact Or.inr ((h.2.2 i hi j hj).1 hk)
    · exact Or.inl ((h.2.2 i hi j hj).2 hk)
  · exact (h.2.2 p.1 (hD.lit p hp).1 p.2 (hD.lit p hp).2.1).1 ⟨D, hD, ha, hself D p hp⟩
  · by_cases hk : ∃ D, IsDot m D ∧ acc D ∧ InBox D i j
    · obtain ⟨D, hD, ha, hb⟩ := hk
      rw [(h.2.2 i hi j hj).1 ⟨D, hD, ha, hb⟩, (h'.2.2 i hi j hj).1 ⟨D, hD, hacc D ha, hb⟩]
    · exact absurd ((h.2.2 i hi j hj).2 hk) hne
  · have hl := hD.lit p hp
    constructor
    · intro hne
      by_contra hna
      refine hne ((h.2.2 p.1 hl.1 p.2 hl.2.1).2 ?_)
      rintro ⟨E, hE, hEa, hEb⟩
      by_cases hED : E = D
      · exact hna (hED ▸ hEa)
      · exact hsep E D hE hD hED p hp hEb
    · intro ha
      rw [(h.2.2 p.1 hl.1 p.2 hl.2.1).1 ⟨D, hD, ha, hself D p hp⟩]
      exact hl.2.2

/-- **C41** (tolerance): widening the tolerance keeps every pixel that was kept before. -/
theorem C41_mono (m : Mat ℝ) (ratio ratio' : ℝ) (hr : ratio ≤ ratio') (i j : ℕ) (hi : i < m.height) (hj : j < m.width) :
    (∀ dotSize, 0 ≤ dotSize → (selectDotsBasedSize m dotSize ratio).get i j ≠ 0 →
      (selectDotsBasedSize m dotSize ratio').get i j = (selectDotsBasedSize m dotSize ratio).get i j) ∧
    (∀ axes out out', selectDotsBasedRatio axes m ratio = .ok out → selectDotsBasedRatio axes m ratio' = .ok out' →
      out.get i j ≠ 0 → out'.get i j = out.get i j) ∧
    (∀ dotDist out out', selectDotsBasedDistance m dotDist ratio = .ok out →
      selectDotsBasedDistance m dotDist ratio' = .ok out' → out.get i j ≠ 0 → out'.get i j = out.get i j) := by
  refine ⟨fun d hd => ?_, fun axes out out' h h' => ?_, fun d out out' h h' => ?_⟩
  · refine (C41_pixels _ _ _ _ _ (C41_size m d ratio) (C41_size m d ratio')).2.2.1 (fun D hD => ?_) i hi j hj
    have : ratio * d ≤ ratio' * d := mul_le_mul_of_nonneg_right hr hd
    exact ⟨hD.1, by linarith [hD.2.1], by linarith [hD.2.2]⟩
  · refine (C41_pixels _ _ _ _ _ (C41_ratio axes m ratio out h) (C41_ratio axes m ratio' out' h')).2.2.1 (fun D hD => ?_) i hi j hj
    obtain ⟨b, h1, h2, h3, mi, ma, h4, h5⟩ := hD
    exact ⟨b, h1, h2, h3, mi, ma, h4, h5.trans_le hr⟩
  · refine (C41_pixels _ _ _ _ _ (C41_distance m d ratio out h) (C41_distance m d ratio' out' h')).2.2.1 (fun D hD => ?_) i hi j hj
    obtain ⟨h0, E, e, h1, h2⟩ := hD
    exact ⟨h0, E, e, h1, h2.trans_le hr⟩

/-! ## C66 -/

/-- **C66.** The test of `select_dots_based_distance` is one-sided: if all dots are a little closer together than expected (by
no more than the tolerance allows above), the whole image is erased, whereas a dot with a near neighbour that is a little
farther than expected is kept. -/
theorem C66_one_sided (m : Mat ℝ) (dotDist ratio : ℝ) (hd : 0 < dotDist) (out : Mat ℤ)
    (h : selectDotsBasedDistance m dotDist ratio = .ok out) :
    ((∀ D E, ∀ d, NearDot (int16Mat m) D E d → ratio * dotDist ≤ d ∧ d < dotDist) →
      ∀ i < m.height, ∀ j < m.width, out.get i j = 0) ∧
    (∀ D E, ∀ d, IsDot (int16Mat m) D → NearDot (int16Mat m) D E d → dotDist ≤ d → d < (1 + ratio) * dotDist →
      ∀ p ∈ D, out.get p.1 p.2 = (int16Mat m).get p.1 p.2) := by
  have hk := C41_distance m dotDist ratio out h
  constructor
  · intro hall i hi j hj
    refine (hk.2.2 i hi j hj).2 ?_
    rintro ⟨D, _, ⟨_, E, d, hE, hf⟩, _⟩
    obtain ⟨h1, h2⟩ := hall D E d hE
    have h0 : 0 ≤ d := by
      obtain ⟨_, _, c, c', _, _, rfl, _⟩ := hE
      exact Real.sqrt_nonneg _
    have h3 : Int.fract (d / dotDist) = d / dotDist :=
      Int.fract_eq_self.2 ⟨div_nonneg h0 hd.le, (div_lt_one hd).2 h2⟩
    rw [h3, div_lt_iff₀ hd] at hf
    linarith
  · intro D E d hD hE h1 h2 p hp
    refine (C41_pixels _ _ _ _ _ hk hk).2.1 D hD ⟨hd.ne', E, d, hE, ?_⟩ p hp
    have h3 : 1 ≤ d / dotDist := (one_le_div hd).2 h1
    have h4 : d / dotDist < 1 + ratio := (div_lt_iff₀ hd).2 h2
    have h5 : (1 : ℝ) ≤ ⌊d / dotDist⌋ := by exact_mod_cast Int.le_floor.2 (by exact_mod_cast h3)
    have := Int.fract_add_floor (d / dotDist)
    linarith

/-- An image with one row and two dots of one pixel each, `w` apart. -/
noncomputable def twoDots (w : ℕ) : Mat ℝ := ⟨1, w + 1, fun _ j => if j = 0 ∨ j = w then 1 else 0⟩

theorem twoDots_get (w i j : ℕ) : (int16Mat (twoDots w)).get i j = if j = 0 ∨ j = w then 1 else 0 := by
  simp only [int16Mat, twoDots]
  split_ifs
  · simp [truncInt, toInt16]
  · simp [truncInt, toInt16]

theorem twoDots_lit {w : ℕ} {p : ℕ × ℕ} : Lit (int16Mat (twoDots w)) p ↔ p = (0, 0) ∨ p = (0, w) := by
  obtain ⟨a, b⟩ := p
  unfold Lit
  rw [twoDots_get]
  simp only [int16Mat, twoDots, Prod.mk.injEq]
  split_ifs with h
  · simp; omega
  · simp; omega

theorem twoDots_isDot {w : ℕ} (hw : 2 ≤ w) {D : Set (ℕ × ℕ)} :
    IsDot (int16Mat (twoDots w)) D ↔ D = {(0, 0)} ∨ D = {(0, w)} := by
  have hc : ∀ a, a = 0 ∨ a = w → ClosedSet (int16Mat (twoDots w)) {(0, a)} := by
    intro a ha p hp q hq he
    rw [Set.mem_singleton_iff] at hp
    subst hp
    rw [twoDots_lit] at hq
    unfold ShareEdge at he
    rw [Int.abs_eq_natAbs, Int.abs_eq_natAbs] at he
    rcases hq with rfl | rfl <;> rcases ha with rfl | rfl <;> simp at he ⊢ <;> omega
  have hdot : ∀ a, a = 0 ∨ a = w → IsDot (int16Mat (twoDots w)) {(0, a)} := fun a ha =>
    { nonempty := ⟨_, rfl⟩
      lit := fun p hp => by
        rw [Set.mem_singleton_iff] at hp
        rw [twoDots_lit, hp]
        rcases ha with rfl | rfl <;> simp
      closed := hc a ha
      minimal := fun E hE hne _ => (Set.subset_singleton_iff_eq.1 hE).resolve_left hne.ne_empty }
  constructor
  · intro hD
    obtain ⟨p, hp⟩ := hD.nonempty
    have hmin : ∀ a, a = 0 ∨ a = w → (0, a) ∈ D → D = {(0, a)} := fun a ha hm =>
      (hD.minimal {(0, a)} (Set.singleton_subset_iff.2 hm) ⟨_, rfl⟩ (hc a ha)).symm
    rcases twoDots_lit.1 (hD.lit p hp) with rfl | rfl
    · exact Or.inl (hmin 0 (Or.inl rfl) hp)
    · exact Or.inr (hmin w (Or.inr rfl) hp)
  · rintro (rfl | rfl)
    · exact hdot 0 (Or.inl rfl)
    · exact hdot w (Or.inr rfl)

theorem twoDots_sum {w a : ℕ} (ha : a = 0 ∨ a = w) {D : Set (ℕ × ℕ)} (hD : {(0, a)} = D) (f : ℕ × ℕ → ℝ) :
    (∑ q ∈ (open Classical in
      (Finset.range (int16Mat (twoDots w)).height ×ˢ Finset.range (int16Mat (twoDots w)).width).filter fun q => q ∈ D), f q) = f (0, a) := by
  classical
  have : ((Finset.range (int16Mat (twoDots w)).height ×ˢ Finset.range (int16Mat (twoDots w)).width).filter fun q => q ∈ D) = {(0, a)} := by
    ext q
    rw [Finset.mem_filter, Finset.mem_singleton, ← hD, Set.mem_singleton_iff]
    refine ⟨fun h => h.2, fun h => ⟨?_, h⟩⟩
    subst h
    simp only [int16Mat, twoDots, Finset.mem_product, Finset.mem_range]
    omega
  rw [this, Finset.sum_singleton]

theorem twoDots_centre {w a : ℕ} (ha : a = 0 ∨ a = w) (c : Pt) :
    IsCentre (int16Mat (twoDots w)) {(0, a)} c ↔ c = ⟨0, a⟩ := by
  generalize hD : ({(0, a)} : Set (ℕ × ℕ)) = D
  unfold IsCentre
  simp only [twoDots_sum ha hD]
  rw [twoDots_get, if_pos ha]
  obtain ⟨y, x⟩ := c
  simp

theorem twoDots_near {w : ℕ} (hw : 2 ≤ w) {D E : Set (ℕ × ℕ)} {d : ℝ} (hD : IsDot (int16Mat (twoDots w)) D)
    (h : NearDot (int16Mat (twoDots w)) D E d) : d = w := by
  obtain ⟨hE, hne, c, c', hc, hc', rfl, _⟩ := h
  rcases (twoDots_isDot hw).1 hD with rfl | rfl <;> rcases (twoDots_isDot hw).1 hE with rfl | rfl
  · exact absurd rfl hne
  · rw [twoDots_centre (Or.inl rfl)] at hc
    rw [twoDots_centre (Or.inr rfl)] at hc'
    subst hc hc'
    simp [centreDist]
  · rw [twoDots_centre (Or.inr rfl)] at hc
    rw [twoDots_centre (Or.inl rfl)] at hc'
    subst hc hc'
    simp [centreDist]
  · exact absurd rfl hne

/-- **C66** (witness): expecting a distance of 10 with a tolerance of 0.3, two dots at distance 9 are erased, two dots at
distance 11 are kept. -/
theorem C66_witness :
    (∃ out, selectDotsBasedDistance (twoDots 9) 10 0.3 = .ok out ∧ out.get 0 0 = 0 ∧ out.get 0 9 = 0) ∧
    (∃ out, selectDotsBasedDistance (twoDots 11) 10 0.3 = .ok out ∧ out.get 0 0 = 1 ∧ out.get 0 11 = 1) := by
  have hpos : ∀ w i j, 0 ≤ (int16Mat (twoDots w)).get i j := by
    intro w i j
    rw [twoDots_get]; split_ifs <;> norm_num
  constructor
  · obtain ⟨out, ho⟩ := C41_distance_ok (twoDots 9) 10 0.3 (hpos 9)
    refine ⟨out, ho, ?_⟩
    have hk := C41_distance _ _ _ _ ho
    have key : ∀ j < 10, out.get 0 j = 0 := by
      intro j hj
      refine (hk.2.2 0 (by simp [int16Mat, twoDots]) j (by simpa [int16Mat, twoDots] using hj)).2 ?_
      rintro ⟨D, hD, ⟨_, E, d, hE, hf⟩, _⟩
      rw [twoDots_near (by norm_num) hD hE] at hf
      have : Int.fract (((9 : ℕ) : ℝ) / 10) = 9 / 10 := by
        rw [Int.fract_eq_self.2] <;> norm_num
      rw [this] at hf
      norm_num at hf
    exact ⟨key 0 (by norm_num), key 9 (by norm_num)⟩
  · obtain ⟨out, ho⟩ := C41_distance_ok (twoDots 11) 10 0.3 (hpos 11)
    refine ⟨out, ho, ?_⟩
    have hcard : ∀ (D : Set (ℕ × ℕ)) (c : Pt) (d : ℝ), Set.encard {F | IsDot (int16Mat (twoDots 11)) F ∧ F ≠ D ∧
        ∃ c'', IsCentre (int16Mat (twoDots 11)) F c'' ∧ centreDist c c'' < d} < 3 := by
      intro D c d
      refine lt_of_le_of_lt (Set.encard_le_encard (t := {{(0, 0)}, {(0, 11)}}) ?_) ?_
      · rintro F ⟨hF, _⟩
        exact (twoDots_isDot (by norm_num)).1 hF
      · refine lt_of_le_of_lt (Set.encard_insert_le _ _) ?_
        rw [Set.encard_singleton]
        norm_num
    have h0 : NearDot (int16Mat (twoDots 11)) {(0, 0)} {(0, 11)} 11 :=
      ⟨(twoDots_isDot (by norm_num)).2 (Or.inr rfl), by simp, ⟨0, (0 : ℕ)⟩, ⟨0, (11 : ℕ)⟩,
        (twoDots_centre (Or.inl rfl) _).2 rfl, (twoDots_centre (Or.inr rfl) _).2 rfl,
        by simp [centreDist], hcard _ _ _⟩
    have h1 : NearDot (int16Mat (twoDots 11)) {(0, 11)} {(0, 0)} 11 :=
      ⟨(twoDots_isDot (by norm_num)).2 (Or.inl rfl), by simp, ⟨0, (11 : ℕ)⟩, ⟨0, (0 : ℕ)⟩,
        (twoDots_centre (Or.inr rfl) _).2 rfl, (twoDots_centre (Or.inl rfl) _).2 rfl,
        by simp [centreDist], hcard _ _ _⟩
    have hone := (C66_one_sided (twoDots 11) 10 0.3 (by norm_num) out ho).2
    have a := hone _ _ 11 ((twoDots_isDot (by norm_num)).2 (Or.inl rfl)) h0 (by norm_num) (by norm_num) (0, 0) rfl
    have b := hone _ _ 11 ((twoDots_isDot (by norm_num)).2 (Or.inr rfl)) h1 (by norm_num) (by norm_num) (0, 11) rfl
    rw [twoDots_get] at a b
    exact ⟨a, b⟩

/-- Size selection on the same image: both dots have size one. -/
example : (selectDotsBasedSize (twoDots 11) 1 0.3).get 0 0 = 1 := by
  have hD : IsDot (int16Mat (twoDots 11)) {(0, 0)} := (twoDots_isDot (by norm_num)).2 (Or.inl rfl)
  have hs : boxSum (twoDots 11) {(0, 0)} = 1 := by
    classical
    unfold boxSum
    have : ((Finset.range (twoDots 11).height ×ˢ Finset.range (twoDots 11).width).filter fun q : ℕ × ℕ => InBox {(0, 0)} q.1 q.2) =
        {(0, 0)} := by
      ext ⟨i, j⟩
      simp [InBox, twoDots]
      omega
    rw [this, Finset.sum_singleton]
    simp [twoDots]
  have h := (C41_pixels _ _ _ _ _ (C41_size (twoDots 11) 1 0.3) (C41_size (twoDots 11) 1 0.3)).2.1 _ hD
    (by rw [hs]; norm_num) (0, 0) rfl
  rw [twoDots_get] at h
  exact h

/-- The image of two dots is one of integers. -/
example := C41_int16 (twoDots 11) (by
  intro i j
  by_cases h : j = 0 ∨ j = 11
  · exact ⟨1, by simp [twoDots, h]⟩
  · exact ⟨0, by simp [twoDots, h]⟩)

/-- An image of the value 65536. -/
example (dotSize ratio : ℝ) := C41_int16_overflow ⟨3, 2, fun _ _ => 65536⟩ (fun _ _ => ⟨1, by norm_num⟩) dotSize ratio

/-- A routine that calls every dot round: the selection is finished and obeys C41. -/
example (ratio : ℝ) : ∃ out, selectDotsBasedRatio (fun _ => .ok (1, 1)) (twoDots 11) ratio = .ok out ∧
    KeepsDots (int16Mat (twoDots 11)) out (RoundDot (fun _ => .ok (1, 1)) (int16Mat (twoDots 11)) ratio) := by
  obtain ⟨out, h⟩ := C41_ratio_ok (fun _ => .ok (1, 1)) (twoDots 11) ratio fun _ _ _ => ⟨1, 1, rfl, one_ne_zero⟩
  exact ⟨out, h, C41_ratio _ _ _ _ h⟩

theorem twoDots_nonneg (w i j : ℕ) : 0 ≤ (int16Mat (twoDots w)).get i j := by
  rw [twoDots_get]; split_ifs <;> norm_num

/-- The selection by distances of two dots 11 pixels apart. -/
example (ratio : ℝ) : ∃ out, selectDotsBasedDistance (twoDots 11) 10 ratio = .ok out ∧
    KeepsDots (int16Mat (twoDots 11)) out fun D => (10 : ℝ) ≠ 0 ∧ ∃ E d, NearDot (int16Mat (twoDots 11)) D E d ∧ Int.fract (d / 10) < ratio := by
  obtain ⟨out, h⟩ := C41_distance_ok (twoDots 11) 10 ratio (twoDots_nonneg 11)
  exact ⟨out, h, C41_distance _ _ _ _ h⟩

/-- Larger ratios keep more of the two dots. -/
example := C41_mono (twoDots 11) 0.1 0.3 (by norm_num) 0 0 (by norm_num [twoDots]) (by norm_num [twoDots])
example (ratio : ℝ) : ∃ out, selectDotsBasedDistance (twoDots 11) 10 ratio = .ok out ∧
    (11 < (1 + ratio) * 10 → ∀ D E, IsDot (int16Mat (twoDots 11)) D → NearDot (int16Mat (twoDots 11)) D E 11 →
      ∀ p ∈ D, out.get p.1 p.2 = (int16Mat (twoDots 11)).get p.1 p.2) := by
  obtain ⟨out, h⟩ := C41_distance_ok (twoDots 11) 10 ratio (twoDots_nonneg 11)
  exact ⟨out, h, fun hr D E hD hE => (C66_one_sided _ _ _ (by norm_num) out h).2 D E 11 hD hE (by norm_num) hr⟩

end Discorpy
