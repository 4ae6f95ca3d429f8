import Verif.Lemmas.DotMedian
import Verif.Props.C68
import Verif.Props.C82
import Verif.Props.C22
import Verif.Props.C32
import Verif.Lemmas.Lattice

/-! # C87 — the dots of a calibration pattern are found where they were drawn -/

namespace Discorpy

open Spec

theorem inDot_round {s : ℤ} (hs : s % 2 = 1) : Round 0 (InDot s) := by
  have e : s - s / 2 = s / 2 + 1 := by omega
  refine ⟨le_refl _, by norm_num, ?_, ?_, ?_, ?_⟩
  · rintro u v ⟨a, b, c, d, f⟩
    exact ⟨by omega, by omega, c, d, by rw [zero_sub]; linarith [neg_sq u]⟩
  · rintro u v ⟨a, b, c, d, f⟩
    exact ⟨a, b, by omega, by omega, by rw [zero_sub]; linarith [neg_sq v]⟩
  · rintro u v ⟨a, b, c, d, f⟩ hu
    exact ⟨by omega, by omega, c, d, by nlinarith⟩
  · rintro u v ⟨a, b, c, d, f⟩ hv
    exact ⟨a, b, by omega, by omega, by nlinarith⟩

/-- The rows (or columns) of centres of a dot pattern. -/
def centreSet (n : ℕ) (mv s d : ℤ) : Set ℤ := {p | ∃ k, DotCentre (mv + (s / 2 + 1)) (n - (mv + (s / 2 + 1))) d k p}

theorem centreSet_spaced {n : ℕ} {mv s d : ℤ} (hv : 0 ≤ mv) (hs1 : 1 ≤ s) (hs : s % 2 = 1) (hd : s < d) : Spaced n 0 (s / 2) (centreSet n mv s d) := by
  refine ⟨?_, ?_, ?_⟩
  · rintro p ⟨k, e1, _⟩ p' ⟨k', e2, _⟩ hl
    have hk : (k : ℤ) < k' := by
      by_contra hc
      push Not at hc
      have : (k' : ℤ) * d ≤ k * d := mul_le_mul_of_nonneg_right hc (by omega)
      omega
    have : ((k : ℤ) + 1) * d ≤ k' * d := mul_le_mul_of_nonneg_right (by omega) (by omega)
    have e3 : ((k : ℤ) + 1) * d = k * d + d := by ring
    omega
  · rintro p ⟨k, e1, _⟩
    have : 0 ≤ (k : ℤ) * d := mul_nonneg (by omega) (by omega)
    omega
  · rintro p ⟨k, e1, e2⟩
    omega

theorem pattern_grid {h w : ℕ} {mv mh s d : ℤ} (hv : 0 ≤ mv) (hh : 0 ≤ mh) (hs1 : 1 ≤ s) (hs : s % 2 = 1) (hd : s < d) :
    Grid h w 0 (s / 2) (centreSet h mv s d) (centreSet w mh s d) (InDot s) :=
  ⟨inDot_round hs, fun u v hi => by have := hi.bottom; omega, fun u v hi => by have := hi.right; omega,
    centreSet_spaced hv hs1 hs hd, centreSet_spaced hh hs1 hs hd⟩

theorem inDot_zero {s : ℤ} (hs1 : 1 ≤ s) (hs : s % 2 = 1) : InDot s 0 0 :=
  ⟨by omega, by omega, by omega, by omega, by positivity⟩

/-- **C87 (plain).** Draw a pattern of dots with an odd size, smaller than their distance, and pass the image with inverted contrast
to `get_points_dot_pattern` without binarization: the result names each centre that was drawn exactly once. -/
theorem C87_plain {height width : ℕ} {d ds s : ℤ} {margin : MarginArg} {mv mh : ℤ}
    (hmarg : margin = .int mv ∧ mh = mv ∨ ∃ rest, margin = .seq (mv :: mh :: rest)) (hv : 0 ≤ mv) (hh : 0 ≤ mh)
    (hs : s = min (max ds 1) ((min height width / 8 : ℕ) : ℤ)) (hs1 : 1 ≤ s) (hodd : s % 2 = 1) (hd : s < d)
    (hone : ∃ k l p q, DotCentre (mv + (s / 2 + 1)) (height - (mv + (s / 2 + 1))) d k p ∧
      DotCentre (mh + (s / 2 + 1)) (width - (mh + (s / 2 + 1))) d l q)
    (otsu : Mat ℝ → Except PyErr ℝ) (ratio : ℝ) (thres : Option ℝ) :
    ∃ m pts, makeDotPattern height width d ds margin = .ok m ∧
      getPointsDotPattern otsu { m with get := fun i j => 1 - m.get i j } false ratio thres = .ok pts ∧
      pts.Nodup ∧ ∀ c, c ∈ pts ↔ ∃ k l p q, DotCentre (mv + (s / 2 + 1)) (height - (mv + (s / 2 + 1))) d k p ∧
        DotCentre (mh + (s / 2 + 1)) (width - (mh + (s / 2 + 1))) d l q ∧ c = ⟨p, q⟩ := by
  obtain ⟨m, hm, e1, e2, hpix⟩ := C68_pixels hmarg hv hh hs hs1 hd.le
  have g := pattern_grid (h := height) (w := width) hv hh hs1 hodd hd
  have hval : ∀ x ∈ frame height width, (x ∈ gridSet (centreSet height mv s d) (centreSet width mh s d) (InDot s) ∧ m.get x.1 x.2 = 0) ∨
      (x ∉ gridSet (centreSet height mv s d) (centreSet width mh s d) (InDot s) ∧ m.get x.1 x.2 = 1) := by
    intro x hx
    obtain ⟨h0, h1⟩ := hpix x.1 x.2 hx.1 hx.2
    by_cases hb : x ∈ gridSet (centreSet height mv s d) (centreSet width mh s d) (InDot s)
    · left
      obtain ⟨p, ⟨k, hp⟩, q, ⟨l, hq⟩, hi⟩ := hb
      exact ⟨⟨p, ⟨k, hp⟩, q, ⟨l, hq⟩, hi⟩, h0 ⟨k, l, p, q, hp, hq, hi⟩⟩
    · right
      refine ⟨hb, h1 ?_⟩
      rintro ⟨k, l, p, q, hp, hq, hi⟩
      exact hb ⟨p, ⟨k, hp⟩, q, ⟨l, hq⟩, hi⟩
  set m' : Mat ℝ := { m with get := fun i j => 1 - m.get i j } with hm'
  have hval' : ∀ x ∈ frame height width, (x ∈ gridSet (centreSet height mv s d) (centreSet width mh s d) (InDot s) ∧ m'.get x.1 x.2 = 1) ∨
      (x ∉ gridSet (centreSet height mv s d) (centreSet width mh s d) (InDot s) ∧ m'.get x.1 x.2 = 0) := by
    intro x hx
    rcases hval x hx with ⟨a, e⟩ | ⟨a, e⟩
    · exact .inl ⟨a, by simp [hm', e]⟩
    · exact .inr ⟨a, by simp [hm', e]⟩
  have hz := inDot_zero hs1 hodd
  obtain ⟨k, l, p, q, hp, hq⟩ := hone
  -- the centre of a dot is lit
  have hlow1 := g.rows.low p ⟨k, hp⟩
  have hlow2 := g.cols.low q ⟨l, hq⟩
  have c1 : ((p.toNat, q.toNat) : ℕ × ℕ) ∈ gridSet (centreSet height mv s d) (centreSet width mh s d) (InDot s) := by
    refine ⟨p, ⟨k, hp⟩, q, ⟨l, hq⟩, ?_⟩
    simp only [dotAt, Set.mem_ofPred_eq]
    rw [Int.toNat_of_nonneg (by omega), Int.toNat_of_nonneg (by omega), sub_self, sub_self]
    exact hz
  have cf := g.frame c1
  have zf : ((0, 0) : ℕ × ℕ) ∈ frame height width := by
    have := cf.1
    have := cf.2
    exact ⟨by omega, by omega⟩
  obtain ⟨pts, hpts, hmid⟩ := C82_binary otsu m' ratio thres
    (by
      intro i hi j hj
      rcases hval' (i, j) ⟨by rw [← e1]; exact hi, by rw [← e2]; exact hj⟩ with ⟨_, e⟩ | ⟨_, e⟩ <;> simp only at e <;> rw [e] <;> norm_num)
    (by
      refine ⟨0, by rw [show m'.height = height from e1]; exact zf.1, 0, by rw [show m'.width = width from e2]; exact zf.2, ?_⟩
      rcases hval' (0, 0) zf with ⟨a, _⟩ | ⟨_, e⟩
      · have := (g.inner a).1
        omega
      · exact e)
    (by
      refine ⟨p.toNat, by rw [show m'.height = height from e1]; exact cf.1, q.toNat, by rw [show m'.width = width from e2]; exact cf.2, ?_⟩
      rcases hval' _ cf with ⟨_, e⟩ | ⟨a, _⟩
      · exact e
      · exact absurd c1 a)
  have hlit : ∀ x, Lit (onesOf m') x ↔ x ∈ gridSet (centreSet height mv s d) (centreSet width mh s d) (InDot s) := by
    intro x
    constructor
    · rintro ⟨a, b, c⟩
      rcases hval' x ⟨by rw [← e1]; exact a, by rw [← e2]; exact b⟩ with ⟨hx, _⟩ | ⟨_, e⟩
      · exact hx
      · simp only [onesOf, e] at c
        norm_num at c
    · intro hx
      have hf := g.frame hx
      refine ⟨by show x.1 < m.height; rw [e1]; exact hf.1, by show x.2 < m.width; rw [e2]; exact hf.2, ?_⟩
      rcases hval' x hf with ⟨_, e⟩ | ⟨a, _⟩
      · simp [onesOf, e]
      · exact absurd hx a
  obtain ⟨hnd, hmem⟩ := g.middles hlit ⟨0, 0, hz⟩ hmid
  refine ⟨m, pts, hm, hpts, hnd, fun c => (hmem c).trans ?_⟩
  simp only [Int.cast_zero, zero_div, add_zero]
  constructor
  · rintro ⟨p, ⟨k, hp⟩, q, ⟨l, hq⟩, e⟩
    exact ⟨k, l, p, q, hp, hq, e⟩
  · rintro ⟨k, l, p, q, hp, hq, e⟩
    exact ⟨p, ⟨k, hp⟩, q, ⟨l, hq⟩, e⟩

/-- The rows of centres are few. -/
theorem centreSet_count {n : ℕ} {mv s d : ℤ} (hv : 0 ≤ mv) (hs1 : 1 ≤ s) (h8 : 8 * s ≤ n) (hd : 5 * s ≤ 3 * d) :
    ∃ F : Finset ℤ, centreSet n mv s d = F ∧ 20 * (F.card * s) ≤ 13 * n := by
  classical
  have hd0 : 0 < d := by omega
  have hex : ∃ K : ℕ, ¬ (mv + (s / 2 + 1) + (K : ℤ) * d < n - (mv + (s / 2 + 1))) := by
    refine ⟨n, ?_⟩
    have : (n : ℤ) * 1 ≤ n * d := mul_le_mul_of_nonneg_left (by omega) (by omega)
    omega
  set K := Nat.find hex with hK
  have hlt : ∀ k : ℕ, k < K → mv + (s / 2 + 1) + (k : ℤ) * d < n - (mv + (s / 2 + 1)) := fun k hk => not_not.1 (Nat.find_min hex hk)
  have hge : ∀ k : ℕ, mv + (s / 2 + 1) + (k : ℤ) * d < n - (mv + (s / 2 + 1)) → k < K := by
    intro k hk
    by_contra hc
    push Not at hc
    have h1 := Nat.find_spec hex
    rw [← hK] at h1
    have : (K : ℤ) * d ≤ k * d := mul_le_mul_of_nonneg_right (by exact_mod_cast hc) (by omega)
    omega
  refine ⟨(Finset.range K).image fun k : ℕ => mv + (s / 2 + 1) + (k : ℤ) * d, ?_, ?_⟩
  · ext p
    simp only [centreSet, Set.mem_ofPred_eq, Finset.coe_image, Finset.coe_range, Set.mem_image, Set.mem_Iio]
    constructor
    · rintro ⟨k, e1, e2⟩
      exact ⟨k, hge k (by omega), e1.symm⟩
    · rintro ⟨k, hk, e1⟩
      exact ⟨k, e1.symm, by have := hlt k hk; omega⟩
  · have hcard : ((Finset.range K).image fun k : ℕ => mv + (s / 2 + 1) + (k : ℤ) * d).card ≤ K :=
      Finset.card_image_le.trans (by simp)
    have hb : 20 * ((K : ℤ) * s) ≤ 13 * n := by
      rcases Nat.eq_zero_or_pos K with h0 | h0
      · rw [h0]; simp
      · obtain ⟨k, hk⟩ : ∃ k, K = k + 1 := ⟨K - 1, by omega⟩
        have h1 := hlt k (by omega)
        have h2 : (k : ℤ) * (5 * s) ≤ k * (3 * d) := mul_le_mul_of_nonneg_left hd (by omega)
        rw [hk]
        push_cast
        have h3 : s - 1 ≤ 2 * (s / 2) := by omega
        nlinarith
    have : ((((Finset.range K).image fun k : ℕ => mv + (s / 2 + 1) + (k : ℤ) * d).card : ℕ) : ℤ) * s ≤ K * s :=
      mul_le_mul_of_nonneg_right (by exact_mod_cast hcard) (by omega)
    omega

theorem inDot_med {s : ℤ} (hs : s % 2 = 1) (h5 : 5 ≤ s) : zPluses (zMed (InDot s)) 0 0 := by
  have hr := (inDot_round hs).med
  have hdisc : ∀ u v : ℤ, |u| ≤ 2 → |v| ≤ 2 → u ^ 2 + v ^ 2 ≤ 4 → InDot s u v := by
    intro u v hu hv hq
    rw [abs_le] at hu hv
    exact ⟨by omega, by omega, by omega, by omega, by nlinarith [show (2 : ℤ) ≤ s / 2 by omega]⟩
  have h11 : zMed (InDot s) 1 1 := by
    refine Or.inl ⟨?_, ?_, ?_⟩ <;> exact hdisc _ _ (by norm_num) (by norm_num) (by norm_num)
  have h21 : zMed (InDot s) 2 1 := by
    refine Or.inl ⟨?_, ?_, ?_⟩ <;> exact hdisc _ _ (by norm_num) (by norm_num) (by norm_num)
  have h12 : zMed (InDot s) 1 2 := by
    refine Or.inl ⟨?_, ?_, ?_⟩ <;> exact hdisc _ _ (by norm_num) (by norm_num) (by norm_num)
  left
  refine ⟨hr.sym1 1 0 (hr.sym2 1 1 h11), hr.sym1 2 0 (hr.sym2 2 1 h21), hr.sym2 1 1 h11, hr.sym1 1 (1 - 2) (hr.sym2 1 2 h12), hr.sym1 1 1 h11⟩

theorem foreground_dark {h w : ℕ} {f : ℕ → ℕ → ℝ} {A : Set (ℕ × ℕ)} (hA : A ⊆ frame h w) {t : ℝ} (ht0 : 0 ≤ t) (ht1 : t < 1)
    (hf : ∀ x ∈ frame h w, (x ∈ A ∧ f x.1 x.2 = 0) ∨ (x ∉ A ∧ f x.1 x.2 = 1)) (hc : 2 * A.ncard < h * w) : foreground h w f t = A := by
  classical
  have e1 : {p ∈ frame h w | f p.1 p.2 ≤ t} = A := by
    ext x
    constructor
    · rintro ⟨hx, hle⟩
      rcases hf x hx with ⟨a, _⟩ | ⟨_, e⟩
      · exact a
      · rw [e] at hle; linarith
    · intro hx
      refine ⟨hA hx, ?_⟩
      rcases hf x (hA hx) with ⟨_, e⟩ | ⟨a, _⟩
      · rw [e]; exact ht0
      · exact absurd hx a
  have e2 : {p ∈ frame h w | t < f p.1 p.2} = frame h w \ A := by
    rw [← e1]
    ext x
    simp only [Set.mem_ofPred_eq, Set.mem_sdiff]
    constructor
    · rintro ⟨a, b⟩
      exact ⟨a, fun hc => absurd hc.2 (not_le.2 b)⟩
    · rintro ⟨a, b⟩
      exact ⟨a, not_le.1 fun hc => b ⟨a, hc⟩⟩
  have ecard : (frame h w).ncard = h * w := by
    have : frame h w = ((Finset.range h ×ˢ Finset.range w : Finset (ℕ × ℕ)) : Set (ℕ × ℕ)) := by
      ext x
      simp [frame]
    rw [this, Set.ncard_coe_finset]
    simp
  have hfin : (frame h w).Finite := by
    have : frame h w = ((Finset.range h ×ˢ Finset.range w : Finset (ℕ × ℕ)) : Set (ℕ × ℕ)) := by
      ext x
      simp [frame]
    rw [this]
    exact Finset.finite_toSet _
  unfold foreground
  rw [e2, e1, if_neg]
  have := Set.ncard_sdiff_add_ncard_of_subset hA hfin
  omega

theorem med_small {s : ℤ} (hs : s % 2 = 1) (hs1 : 1 ≤ s) (h3 : s ≤ 3) (u v : ℤ) : ¬ zPluses (zMed (InDot s)) u v := by
  have hr := (inDot_round hs).med
  have hle : ∀ u v, zMed (InDot s) u v → u ≤ 1 := by
    intro u v hm
    have : InDot s u (v - 1) ∨ InDot s u v := by unfold zMed Three at hm; tauto
    rcases this with h | h <;> have := h.bottom <;> omega
  have hge : ∀ u v, zMed (InDot s) u v → 0 ≤ u := by
    intro u v hm
    have := hle _ _ (hr.sym1 _ _ hm)
    omega
  have hno : ∀ a b, ¬ zPlus (zMed (InDot s)) a b := by
    rintro a b ⟨_, h1, h2, _, _⟩
    have := hge _ _ h1
    have := hle _ _ h2
    omega
  rintro (h | h | h | h | h) <;> exact hno _ _ h

/-- The drawn pattern after binarization. -/
theorem pattern_binarized {height width : ℕ} {d ds s : ℤ} {margin : MarginArg} {mv mh : ℤ}
    (hmarg : margin = .int mv ∧ mh = mv ∨ ∃ rest, margin = .seq (mv :: mh :: rest)) (hv : 0 ≤ mv) (hh : 0 ≤ mh)
    (hs : s = min (max ds 1) ((min height width / 8 : ℕ) : ℤ)) (hs1 : 1 ≤ s) (hodd : s % 2 = 1) (hd : 5 * s ≤ 3 * d)
    (otsu : Mat ℝ → Except PyErr ℝ) (ratio t : ℝ) (ht0 : 0 ≤ t) (ht1 : t < 1) :
    ∃ m b pts, makeDotPattern height width d ds margin = .ok m ∧ binarization otsu m ratio (some t) true = .ok b ∧
      b.height = height ∧ b.width = width ∧ getPointsDotPattern otsu m true ratio (some t) = .ok pts ∧ MiddlesOf b pts ∧
      (∀ i < height, ∀ j < width,
        ((i, j) ∈ gridSet (centreSet height mv s d) (centreSet width mh s d) (zPluses (zMed (InDot s))) → b.get i j = 1) ∧
        ((i, j) ∉ gridSet (centreSet height mv s d) (centreSet width mh s d) (zPluses (zMed (InDot s))) → b.get i j = 0)) ∧
      Grid height width 1 (s / 2) (centreSet height mv s d) (centreSet width mh s d) (zPluses (zMed (InDot s))) ∧
      (∀ x, Lit b x ↔ x ∈ gridSet (centreSet height mv s d) (centreSet width mh s d) (zPluses (zMed (InDot s)))) := by
  have hd' : s < d := by omega
  obtain ⟨m, hm, e1, e2, hpix⟩ := C68_pixels hmarg hv hh hs hs1 hd'.le
  have g := pattern_grid (h := height) (w := width) hv hh hs1 hodd hd'
  have h8 : 8 * s ≤ height ∧ 8 * s ≤ width := by omega
  obtain ⟨FP, eP, cP⟩ := centreSet_count hv hs1 h8.1 hd
  obtain ⟨FQ, eQ, cQ⟩ := centreSet_count hh hs1 h8.2 hd
  have hval : ∀ x ∈ frame m.height m.width, (x ∈ gridSet (centreSet height mv s d) (centreSet width mh s d) (InDot s) ∧ m.get x.1 x.2 = 0) ∨
      (x ∉ gridSet (centreSet height mv s d) (centreSet width mh s d) (InDot s) ∧ m.get x.1 x.2 = 1) := by
    rw [e1, e2]
    intro x hx
    obtain ⟨h0, h1⟩ := hpix x.1 x.2 hx.1 hx.2
    by_cases hb : x ∈ gridSet (centreSet height mv s d) (centreSet width mh s d) (InDot s)
    · left
      obtain ⟨p, ⟨k, hp⟩, q, ⟨l, hq⟩, hi⟩ := hb
      exact ⟨⟨p, ⟨k, hp⟩, q, ⟨l, hq⟩, hi⟩, h0 ⟨k, l, p, q, hp, hq, hi⟩⟩
    · right
      refine ⟨hb, h1 ?_⟩
      rintro ⟨k, l, p, q, hp, hq, hi⟩
      exact hb ⟨p, ⟨k, hp⟩, q, ⟨l, hq⟩, hi⟩
  obtain ⟨f, b, hf, hb, b1, b2, hbv⟩ := C81_denoise otsu m ratio t (by omega) (by omega)
  have gm : Grid m.height m.width 0 (s / 2) (centreSet height mv s d) (centreSet width mh s d) (InDot s) := by rw [e1, e2]; exact g
  have hmed := gm.med_values hval hf
  have g1 := gm.med
  have hcount : 2 * (gridSet (centreSet height mv s d) (centreSet width mh s d) (zMed (InDot s))).ncard < m.height * m.width := by
    have gF := g1
    rw [eP, eQ] at gF ⊢
    have hn := gF.ncard_le
    have et : ((2 * (s / 2) - 1 + 1).toNat : ℤ) ≤ s := by omega
    set T := (2 * (s / 2) - 1 + 1).toNat
    rw [e1, e2]
    have a1 : (20 : ℤ) * (FP.card * T) ≤ 13 * height := by
      have : (FP.card : ℤ) * T ≤ FP.card * s := mul_le_mul_of_nonneg_left et (by omega)
      omega
    have a2 : (20 : ℤ) * (FQ.card * T) ≤ 13 * width := by
      have : (FQ.card : ℤ) * T ≤ FQ.card * s := mul_le_mul_of_nonneg_left et (by omega)
      omega
    have a3 : (20 : ℤ) * (FP.card * T) * (20 * (FQ.card * T)) ≤ 13 * height * (13 * width) :=
      mul_le_mul a1 a2 (by positivity) (by positivity)
    have hpos : (0 : ℤ) < height * width := mul_pos (by omega) (by omega)
    have hn' : ((gridSet (FP : Set ℤ) (FQ : Set ℤ) (zMed (InDot s))).ncard : ℤ) ≤ FP.card * T * (FQ.card * T) := by exact_mod_cast hn
    have : (2 : ℤ) * (gridSet (FP : Set ℤ) (FQ : Set ℤ) (zMed (InDot s))).ncard < height * width := by nlinarith
    exact_mod_cast this
  have hfg := foreground_dark g1.frame ht0 ht1 hmed hcount
  rw [hfg, g1.dotMask_eq] at hbv
  have g2 : Grid m.height m.width 1 (s / 2) (centreSet height mv s d) (centreSet width mh s d) (zPluses (zMed (InDot s))) :=
    g1.mono g1.round.pluses fun _ _ => zPluses_le
  obtain ⟨pts, hpts, hmid⟩ := (C82_binarize otsu m ratio (some t)).1 b hb
  have hlit : ∀ x, Lit b x ↔ x ∈ gridSet (centreSet height mv s d) (centreSet width mh s d) (zPluses (zMed (InDot s))) := by
    intro x
    constructor
    · rintro ⟨a1, a2, a3⟩
      by_contra hc
      exact a3 ((hbv x.1 (by rw [← b1]; exact a1) x.2 (by rw [← b2]; exact a2)).2 hc)
    · intro hx
      have hfr := g2.frame hx
      refine ⟨by rw [b1]; exact hfr.1, by rw [b2]; exact hfr.2, ?_⟩
      rw [(hbv x.1 hfr.1 x.2 hfr.2).1 hx]
      norm_num
  exact ⟨m, b, pts, hm, hb, b1.trans e1, b2.trans e2, hpts, hmid, fun i hi j hj => hbv i (by omega) j (by omega),
    by rw [e1, e2] at g2; exact g2, hlit⟩

/-- **C87 (binarized).** With binarization and a threshold from 0 up to 1, the result for the drawn pattern (dots of an odd size of at
least 5 and at most 0.6 of their distance) names each centre once, but shifted by half a pixel in both directions. -/
theorem C87_binarized {height width : ℕ} {d ds s : ℤ} {margin : MarginArg} {mv mh : ℤ}
    (hmarg : margin = .int mv ∧ mh = mv ∨ ∃ rest, margin = .seq (mv :: mh :: rest)) (hv : 0 ≤ mv) (hh : 0 ≤ mh)
    (hs : s = min (max ds 1) ((min height width / 8 : ℕ) : ℤ)) (hs5 : 5 ≤ s) (hodd : s % 2 = 1) (hd : 5 * s ≤ 3 * d)
    (otsu : Mat ℝ → Except PyErr ℝ) (ratio t : ℝ) (ht0 : 0 ≤ t) (ht1 : t < 1) :
    ∃ m pts, makeDotPattern height width d ds margin = .ok m ∧ getPointsDotPattern otsu m true ratio (some t) = .ok pts ∧
      pts.Nodup ∧ ∀ c, c ∈ pts ↔ ∃ k l p q, DotCentre (mv + (s / 2 + 1)) (height - (mv + (s / 2 + 1))) d k p ∧
        DotCentre (mh + (s / 2 + 1)) (width - (mh + (s / 2 + 1))) d l q ∧ c = ⟨p + 1 / 2, q + 1 / 2⟩ := by
  obtain ⟨m, b, pts, hm, _, _, _, hpts, hmid, _, g2, hlit⟩ := pattern_binarized hmarg hv hh hs (by omega) hodd hd otsu ratio t ht0 ht1
  obtain ⟨hnd, hmem⟩ := g2.middles hlit ⟨0, 0, inDot_med hodd hs5⟩ hmid
  refine ⟨m, pts, hm, hpts, hnd, fun c => (hmem c).trans ?_⟩
  simp only [Int.cast_one]
  constructor
  · rintro ⟨p, ⟨k, hp⟩, q, ⟨l, hq⟩, e⟩
    exact ⟨k, l, p, q, hp, hq, e⟩
  · rintro ⟨k, l, p, q, hp, hq, e⟩
    exact ⟨p, ⟨k, hp⟩, q, ⟨l, hq⟩, e⟩

/-- **C87 (small dots).** Dots of size 1 or 3 are lost by the binarization: no point is found. -/
theorem C87_small {height width : ℕ} {d ds s : ℤ} {margin : MarginArg} {mv mh : ℤ}
    (hmarg : margin = .int mv ∧ mh = mv ∨ ∃ rest, margin = .seq (mv :: mh :: rest)) (hv : 0 ≤ mv) (hh : 0 ≤ mh)
    (hs : s = min (max ds 1) ((min height width / 8 : ℕ) : ℤ)) (hs13 : s = 1 ∨ s = 3) (hd : 5 * s ≤ 3 * d)
    (otsu : Mat ℝ → Except PyErr ℝ) (ratio t : ℝ) (ht0 : 0 ≤ t) (ht1 : t < 1) :
    ∃ m, makeDotPattern height width d ds margin = .ok m ∧ getPointsDotPattern otsu m true ratio (some t) = .ok [] := by
  obtain ⟨m, b, pts, hm, _, _, _, hpts, ⟨dots, _, hdots, hf⟩, _, g2, hlit⟩ :=
    pattern_binarized hmarg hv hh hs (by omega) (by omega) hd otsu ratio t ht0 ht1
  refine ⟨m, hm, ?_⟩
  have h0 : dots = [] := by
    rw [List.eq_nil_iff_forall_not_mem]
    intro D hD
    have hD' := (hdots D).1 hD
    obtain ⟨x, hx⟩ := hD'.nonempty
    obtain ⟨p, _, q, _, hz⟩ := (hlit x).1 (hD'.lit x hx)
    exact med_small (by omega) (by omega) (by omega) _ _ hz
  subst h0
  cases hf
  exact hpts

/-- **C87 (lines).** The points found after binarization are grouped (slope 0, the drawn distance, any tolerance up to 1, more than one
distance to the next dot, any accepted ratio below 1) into exactly the rows and the columns of the drawn grid, in their order. -/
theorem C87_lines {height width : ℕ} {d ds s : ℤ} {margin : MarginArg} {mv mh : ℤ}
    (hmarg : margin = .int mv ∧ mh = mv ∨ ∃ rest, margin = .seq (mv :: mh :: rest)) (hv : 0 ≤ mv) (hh : 0 ≤ mh)
    (hs : s = min (max ds 1) ((min height width / 8 : ℕ) : ℤ)) (hs5 : 5 ≤ s) (hodd : s % 2 = 1) (hd : 5 * s ≤ 3 * d)
    {K L : ℕ} (hK : ∀ k : ℕ, k < K ↔ mv + (s / 2 + 1) + k * d < height - (mv + (s / 2 + 1)))
    (hL : ∀ l : ℕ, l < L ↔ mh + (s / 2 + 1) + l * d < width - (mh + (s / 2 + 1))) (hK2 : 2 ≤ K) (hL2 : 2 ≤ L)
    (otsu : Mat ℝ → Except PyErr ℝ) (ratio t : ℝ) (ht0 : 0 ≤ t) (ht1 : t < 1) (argsort : List ℝ → List ℕ) (has : ArgsortSpec argsort)
    {tol miss acc : ℝ} (hr0 : 0 < tol) (hr1 : tol ≤ 1) (hmiss : 1 < miss) (hacc : acc < 1) :
    ∃ m pts, makeDotPattern height width d ds margin = .ok m ∧ getPointsDotPattern otsu m true ratio (some t) = .ok pts ∧
      groupDotsHor argsort pts 0 d tol miss acc =
        .ok (latticeRows ((mv + (s / 2 + 1) : ℤ) + 1 / 2) ((mh + (s / 2 + 1) : ℤ) + 1 / 2) d K L) ∧
      groupDotsVer argsort pts 0 d tol miss acc =
        .ok (latticeCols ((mv + (s / 2 + 1) : ℤ) + 1 / 2) ((mh + (s / 2 + 1) : ℤ) + 1 / 2) d K L) := by
  obtain ⟨m, pts, hm, hpts, hnd, hmem⟩ := C87_binarized hmarg hv hh hs hs5 hodd hd otsu ratio t ht0 ht1
  have hmem' : ∀ c, c ∈ pts ↔ ∃ k < K, ∃ l < L,
      c = ⟨((mv + (s / 2 + 1) : ℤ) + 1 / 2 : ℝ) + (k : ℕ) * (d : ℝ), ((mh + (s / 2 + 1) : ℤ) + 1 / 2 : ℝ) + (l : ℕ) * (d : ℝ)⟩ := by
    intro c
    rw [hmem]
    constructor
    · rintro ⟨k, l, p, q, ⟨e1, h1⟩, ⟨e2, h2⟩, rfl⟩
      refine ⟨k, (hK k).2 (by omega), l, (hL l).2 (by omega), ?_⟩
      rw [e1, e2, Pt.mk.injEq]
      constructor <;> push_cast <;> ring
    · rintro ⟨k, hk, l, hl, rfl⟩
      refine ⟨k, l, _, _, ⟨rfl, (hK k).1 hk⟩, ⟨rfl, (hL l).1 hl⟩, ?_⟩
      rw [Pt.mk.injEq]
      constructor <;> push_cast <;> ring
  have hd0 : (0 : ℝ) < (d : ℝ) := by exact_mod_cast (by omega : 0 < d)
  exact ⟨m, pts, hm, hpts, group_lattice argsort has hd0 (by omega) hL2 hnd hmem' hr0 hr1 hmiss hacc,
    group_lattice_ver argsort has hd0 hK2 (by omega) hnd hmem' hr0 hr1 hmiss hacc⟩

theorem lattice_straight_hor {y0 x0 d yc xc : ℝ} {K L : ℕ} (hd : 0 < d) (hL : 3 ≤ L) :
    IsStraightFamily Pt.x Pt.y ⟨yc, xc⟩ (latticeRows y0 x0 d K L) (y0 - yc) d := by
  intro i row hrow
  unfold latticeRows at hrow
  rw [List.getElem?_map, Option.map_eq_some_iff] at hrow
  obtain ⟨k, hk, rfl⟩ := hrow
  have hik : i = k := by
    obtain ⟨h1, h2⟩ := List.getElem?_eq_some_iff.1 hk
    rw [List.getElem_range] at h2
    exact h2
  subst hik
  refine ⟨⟨0, ?_⟩, ?_⟩
  · intro p hp
    obtain ⟨l, _, rfl⟩ := List.mem_map.1 hp
    simp only
    ring
  · refine ⟨_, List.mem_map.2 ⟨0, List.mem_range.2 (by omega), rfl⟩, _, List.mem_map.2 ⟨1, List.mem_range.2 (by omega), rfl⟩,
      _, List.mem_map.2 ⟨2, List.mem_range.2 (by omega), rfl⟩, ?_, ?_, ?_⟩ <;> simp only <;> push_cast <;> intro e <;> nlinarith

theorem lattice_straight_ver {y0 x0 d yc xc : ℝ} {K L : ℕ} (hd : 0 < d) (hK : 3 ≤ K) :
    IsStraightFamily Pt.y Pt.x ⟨yc, xc⟩ (latticeCols y0 x0 d K L) (x0 - xc) d := by
  intro i row hrow
  unfold latticeCols at hrow
  rw [List.getElem?_map, Option.map_eq_some_iff] at hrow
  obtain ⟨k, hk, rfl⟩ := hrow
  have hik : i = k := by
    obtain ⟨h1, h2⟩ := List.getElem?_eq_some_iff.1 hk
    rw [List.getElem_range] at h2
    exact h2
  subst hik
  refine ⟨⟨0, ?_⟩, ?_⟩
  · intro p hp
    obtain ⟨l, _, rfl⟩ := List.mem_map.1 hp
    simp only
    ring
  · refine ⟨_, List.mem_map.2 ⟨0, List.mem_range.2 (by omega), rfl⟩, _, List.mem_map.2 ⟨1, List.mem_range.2 (by omega), rfl⟩,
      _, List.mem_map.2 ⟨2, List.mem_range.2 (by omega), rfl⟩, ?_, ?_, ?_⟩ <;> simp only <;> push_cast <;> intro e <;> nlinarith

/-- A row of a grid has dots at many different distances from any centre. -/
theorem lattice_radii {y0 x0 d yc xc : ℝ} {K L n : ℕ} (hd : 0 < d) (hK : 2 ≤ K) (hn : 2 * n ≤ L + 1) :
    ∃ rs : List ℝ, rs.Nodup ∧ rs.length = n ∧ ∀ r ∈ rs, r ∈ offCentreRadii ⟨yc, xc⟩ (latticeRows y0 x0 d K L) (y0 - yc) d := by
  classical
  obtain ⟨k, hk, hoff⟩ : ∃ k < K, y0 - yc + (k : ℕ) * d ≠ 0 := by
    by_cases h0 : y0 - yc = 0
    · exact ⟨1, by omega, by rw [h0]; push_cast; linarith⟩
    · exact ⟨0, by omega, by simpa using h0⟩
  -- dots on one side of the centre
  obtain ⟨ls, hnd, hlen, hlt, hside⟩ : ∃ ls : List ℕ, ls.Nodup ∧ ls.length = n ∧ (∀ l ∈ ls, l < L) ∧
      ∀ l ∈ ls, ∀ l' ∈ ls, (x0 + (l : ℕ) * d - xc) ^ 2 = (x0 + (l' : ℕ) * d - xc) ^ 2 → l = l' := by
    have key : ∀ (P : ℕ → Prop), (∀ l l' : ℕ, P l → P l' → (x0 + (l : ℕ) * d - xc) ^ 2 = (x0 + (l' : ℕ) * d - xc) ^ 2 → l = l') →
        n ≤ ((List.range L).filter fun l => decide (P l)).length → ∃ ls : List ℕ, ls.Nodup ∧ ls.length = n ∧ (∀ l ∈ ls, l < L) ∧
          ∀ l ∈ ls, ∀ l' ∈ ls, (x0 + (l : ℕ) * d - xc) ^ 2 = (x0 + (l' : ℕ) * d - xc) ^ 2 → l = l' := by
      intro P hP hle
      refine ⟨((List.range L).filter fun l => decide (P l)).take n, ?_, ?_, ?_, ?_⟩
      · exact (List.nodup_range.filter _).sublist (List.take_sublist _ _)
      · rw [List.length_take]; omega
      · intro l hl
        exact List.mem_range.1 (List.mem_of_mem_filter (List.mem_of_mem_take hl))
      · intro l hl l' hl'
        have h1 := List.mem_filter.1 (List.mem_of_mem_take hl)
        have h2 := List.mem_filter.1 (List.mem_of_mem_take hl')
        exact hP l l' (by simpa using h1.2) (by simpa using h2.2)
    have hcast : ∀ {a b : ℕ}, x0 + (a : ℝ) * d - xc = x0 + b * d - xc → a = b := by
      intro a b e
      have : (a : ℝ) * d = b * d := by linarith
      exact_mod_cast mul_right_cancel₀ hd.ne' this
    have hsum : ((List.range L).filter fun l => decide (0 ≤ x0 + (l : ℕ) * d - xc)).length +
        ((List.range L).filter fun l => decide (¬ 0 ≤ x0 + (l : ℕ) * d - xc)).length = L := by
      have := List.length_eq_length_filter_add (l := List.range L) (fun l => decide (0 ≤ x0 + (l : ℕ) * d - xc))
      rw [List.length_range] at this
      simp only [decide_not]
      omega
    by_cases hA : n ≤ ((List.range L).filter fun l => decide (0 ≤ x0 + (l : ℕ) * d - xc)).length
    · refine key (fun l => 0 ≤ x0 + (l : ℕ) * d - xc) (fun l l' h1 h2 e => hcast ?_) hA
      exact (sq_eq_sq₀ h1 h2).1 e
    · refine key (fun l => ¬ 0 ≤ x0 + (l : ℕ) * d - xc) (fun l l' h1 h2 e => hcast ?_) ?_
      swap
      · have e2 : n ≤ ((List.range L).filter fun l => decide (¬ 0 ≤ x0 + (l : ℕ) * d - xc)).length := by omega
        refine e2.trans (le_of_eq ?_)
        congr!
      push Not at h1 h2
      rw [← neg_sq, ← neg_sq (x0 + (l' : ℕ) * d - xc)] at e
      have := (sq_eq_sq₀ (by linarith) (by linarith)).1 e
      linarith
  refine ⟨ls.map fun l : ℕ => ptDist ⟨y0 + (k : ℕ) * d, x0 + l * d⟩ ⟨yc, xc⟩, ?_, by simp [hlen], ?_⟩
  · refine List.Nodup.map_on ?_ hnd
    intro l hl l' hl' e
    refine hside l hl l' hl' ?_
    unfold ptDist at e
    rw [Real.sqrt_inj (by positivity) (by positivity)] at e
    simp only at e
    linarith
  · intro r hr
    obtain ⟨l, hl, rfl⟩ := List.mem_map.1 hr
    refine ⟨k, (List.range L).map fun l : ℕ => ⟨y0 + (k : ℕ) * d, x0 + l * d⟩, ⟨y0 + (k : ℕ) * d, x0 + l * d⟩, ?_, hoff,
      List.mem_map.2 ⟨l, List.mem_range.2 (hlt l hl), rfl⟩, rfl⟩
    unfold latticeRows
    rw [List.getElem?_map, List.getElem?_range hk]
    rfl

/-- **C87 (calibration).** The whole way from the drawn pattern to the model of distortion: for at least four rows and columns, the lines
found pass the removal of residual dots unchanged, and the forward model computed from them with any centre and up to `(L + 1) / 2`
coefficients is exactly the identity model `[1, 0, …, 0]`; so is the backward model if the centre is on no line. -/
theorem C87_calibration {height width : ℕ} {d ds s : ℤ} {margin : MarginArg} {mv mh : ℤ}
    (hmarg : margin = .int mv ∧ mh = mv ∨ ∃ rest, margin = .seq (mv :: mh :: rest)) (hv : 0 ≤ mv) (hh : 0 ≤ mh)
    (hs : s = min (max ds 1) ((min height width / 8 : ℕ) : ℤ)) (hs5 : 5 ≤ s) (hodd : s % 2 = 1) (hd : 5 * s ≤ 3 * d)
    {K L : ℕ} (hK : ∀ k : ℕ, k < K ↔ mv + (s / 2 + 1) + k * d < height - (mv + (s / 2 + 1)))
    (hL : ∀ l : ℕ, l < L ↔ mh + (s / 2 + 1) + l * d < width - (mh + (s / 2 + 1))) (hK4 : 4 ≤ K) (hL4 : 4 ≤ L)
    (otsu : Mat ℝ → Except PyErr ℝ) (ratio t : ℝ) (ht0 : 0 ≤ t) (ht1 : t < 1) (argsort : List ℝ → List ℕ) (has : ArgsortSpec argsort)
    (pf : PolyfitFn) (hpf : PolyfitSpec pf) (lstsq : LstsqFn) (hls : LstsqSpec lstsq) (minimize : (ℝ → ℝ) → ℝ → ℝ)
    {tol miss acc residual : ℝ} (hr0 : 0 < tol) (hr1 : tol ≤ 1) (hmiss : 1 < miss) (hacc : acc < 1) (hres : 0 < residual)
    (slope xc yc threshold : ℝ) (ht : 0 ≤ threshold) (optimizing : Bool) (hmin : optimizing = true → ExactMin minimize)
    (n : ℕ) (hn1 : 1 ≤ n) (hn : 2 * n ≤ L + 1) (hn' : n ≤ 32767) :
    ∃ m pts hor ver, makeDotPattern height width d ds margin = .ok m ∧ getPointsDotPattern otsu m true ratio (some t) = .ok pts ∧
      groupDotsHor argsort pts 0 d tol miss acc = .ok hor ∧ groupDotsVer argsort pts 0 d tol miss acc = .ok ver ∧
      removeResidualHor pf hor slope residual = .ok hor ∧ removeResidualVer pf ver slope residual = .ok ver ∧
      calcCoefForward pf lstsq minimize hor ver xc yc n optimizing threshold = .ok (1 :: List.replicate (n - 1) 0, false) ∧
      ((∀ p ∈ pts, p.y ≠ yc ∧ p.x ≠ xc) →
        calcCoefBackward pf lstsq minimize hor ver xc yc n optimizing threshold = .ok (1 :: List.replicate (n - 1) 0, false)) := by
  obtain ⟨m, pts, hm, hpts, e1, e2⟩ := C87_lines hmarg hv hh hs hs5 hodd hd hK hL (by omega) (by omega) otsu ratio t ht0 ht1 argsort has
    hr0 hr1 hmiss hacc
  set y0 : ℝ := (mv + (s / 2 + 1) : ℤ) + 1 / 2
  set x0 : ℝ := (mh + (s / 2 + 1) : ℤ) + 1 / 2
  have hd0 : (0 : ℝ) < (d : ℝ) := by exact_mod_cast (by omega : 0 < d)
  have f1 := lattice_straight_hor (y0 := y0) (x0 := x0) (yc := yc) (xc := xc) (K := K) (L := L) hd0 (by omega)
  have f2 := lattice_straight_ver (y0 := y0) (x0 := x0) (yc := yc) (xc := xc) (K := K) (L := L) hd0 (by omega)
  have len1 : (latticeRows y0 x0 d K L).length = K := by simp [latticeRows]
  have len2 : (latticeCols y0 x0 d K L).length = L := by simp [latticeCols]
  have hlong : ∀ v : List ℝ, (v.length : ℤ) = max (n : ℤ) 1 → v.length = n := by
    intro v hl
    omega
  obtain ⟨rs, r1, r2, r3⟩ := lattice_radii (y0 := y0) (x0 := x0) (yc := yc) (xc := xc) (K := K) (L := L) (n := n) hd0 (by omega) hn
  refine ⟨m, pts, _, _, hm, hpts, e1, e2, ?_, ?_, ?_, ?_⟩
  · refine C32_exact pf hpf _ ?_ ?_ slope residual hres ?_
    · rw [← List.length_pos_iff, len1]; omega
    · intro l hl
      obtain ⟨k, _, rfl⟩ := List.mem_map.1 hl
      rw [← List.length_pos_iff]
      simp
      omega
    · intro l hl
      obtain ⟨k, _, rfl⟩ := List.mem_map.1 hl
      refine ⟨0, 0, y0 + k * d, fun p hp => ?_⟩
      obtain ⟨l, _, rfl⟩ := List.mem_map.1 hp
      simp
  · rw [C32_vertical]
    have hsw : swapLines (latticeCols y0 x0 d K L) = latticeRows x0 y0 d L K := by
      simp [swapLines, latticeRows, latticeCols, swapPt, Function.comp_def]
    have hsw' : swapLines (latticeRows x0 y0 d L K) = latticeCols y0 x0 d K L := by
      simp [swapLines, latticeRows, latticeCols, swapPt, Function.comp_def]
    rw [hsw, C32_exact pf hpf _ ?_ ?_ slope residual hres ?_]
    · simp only [Except.map, hsw']
    · rw [← List.length_pos_iff]; simp [latticeRows]; omega
    · intro l hl
      obtain ⟨k, _, rfl⟩ := List.mem_map.1 hl
      rw [← List.length_pos_iff]
      simp
      omega
    · intro l hl
      obtain ⟨k, _, rfl⟩ := List.mem_map.1 hl
      refine ⟨0, 0, x0 + k * d, fun p hp => ?_⟩
      obtain ⟨l, _, rfl⟩ := List.mem_map.1 hp
      simp
  · obtain ⟨v, ev, hl, _, h1⟩ := C23_forward pf hpf lstsq hls minimize _ _ xc yc (y0 - yc) d (x0 - xc) d f1 f2 hd0.ne' hd0.ne'
      (by rw [len1]; exact hK4) (by rw [len2]; exact hL4) n (by exact_mod_cast hn') optimizing hmin threshold ht
    have hl' := hlong v hl
    rw [ev, h1 ⟨rs, r1, by rw [hl', r2], fun r hr => Or.inl (r3 r hr)⟩, hl']
  · intro hoff
    have hmemp : ∀ k < K, ∀ l < L, (⟨y0 + (k : ℕ) * d, x0 + (l : ℕ) * d⟩ : Pt) ∈ pts := by
      intro k hk l hl
      obtain ⟨hsub, _⟩ := C29_lines argsort has pts 0 d tol miss acc _ e1
      refine hsub.subset (List.mem_flatten.2 ⟨_, List.mem_map.2 ⟨k, List.mem_range.2 hk, rfl⟩, List.mem_map.2 ⟨l, List.mem_range.2 hl, rfl⟩⟩)
    obtain ⟨v, ev, hl, _, h1⟩ := C23_backward pf hpf lstsq hls minimize _ _ xc yc (y0 - yc) d (x0 - xc) d f1 f2 hd0.ne' hd0.ne'
      (by rw [len1]; exact hK4) (by rw [len2]; exact hL4)
      (by
        intro i hi
        rw [len1] at hi
        have := (hoff _ (hmemp i hi 0 (by omega))).1
        intro e
        exact this (by simp only; linarith))
      (by
        intro i hi
        rw [len2] at hi
        have := (hoff _ (hmemp 0 (by omega) i hi)).2
        intro e
        exact this (by simp only; linarith))
      n (by exact_mod_cast hn') optimizing hmin threshold ht
    have hl' := hlong v hl
    rw [ev, h1 ⟨rs, r1, by rw [hl', r2], fun r hr => Or.inl (r3 r hr)⟩, hl']

/-- The hypotheses of C87 can be met: 5 × 6 dots of size 9 with distance 15. -/
example : ∃ m pts, makeDotPattern 80 90 15 9 (.int 1) = .ok m ∧
    getPointsDotPattern (fun _ => .error .valueError) m true 0.3 (some (1 / 2)) = .ok pts ∧
    groupDotsHor refArgsort pts 0 15 0.3 6 0.65 = .ok (latticeRows 6.5 6.5 15 5 6) := by
  obtain ⟨m, pts, hm, hp, h1, _⟩ := C87_lines (height := 80) (width := 90) (d := 15) (ds := 9) (s := 9) (margin := .int 1) (mv := 1) (mh := 1)
    (.inl ⟨rfl, rfl⟩) (by norm_num) (by norm_num) (by norm_num) (by norm_num) (by norm_num) (by norm_num) (K := 5) (L := 6)
    (by intro k; norm_num; omega) (by intro k; norm_num; omega) (by norm_num) (by norm_num) (fun _ => .error .valueError) 0.3 (1 / 2)
    (by norm_num) (by norm_num) refArgsort refArgsort_spec (tol := 0.3) (miss := 6) (acc := 0.65) (by norm_num) (by norm_num) (by norm_num) (by norm_num)
  refine ⟨m, pts, hm, hp, ?_⟩
  have e : (((1 : ℤ) + ((9 : ℤ) / 2 + 1) : ℤ) : ℝ) + 1 / 2 = 6.5 := by norm_num
  rw [e] at h1
  exact_mod_cast h1

/-- 5 × 6 dots of size 9 with distance 15. -/
example (otsu : Mat ℝ → Except PyErr ℝ) (ratio : ℝ) (thres : Option ℝ) := C87_plain (height := 80) (width := 90) (d := 15) (ds := 9) (s := 9) (margin := .int 1) (mv := 1) (mh := 1)
    (.inl ⟨rfl, rfl⟩) (by norm_num) (by norm_num) (by norm_num) (by norm_num) (by norm_num) (by norm_num)
    ⟨0, 0, 6, 6, ⟨by norm_num, by norm_num⟩, ⟨by norm_num, by norm_num⟩⟩ otsu ratio thres
example (otsu : Mat ℝ → Except PyErr ℝ) (ratio : ℝ) := C87_binarized (height := 80) (width := 90) (d := 15) (ds := 9) (s := 9) (margin := .int 1) (mv := 1) (mh := 1)
    (.inl ⟨rfl, rfl⟩) (by norm_num) (by norm_num) (by norm_num) (by norm_num) (by norm_num) (by norm_num) otsu ratio 0.5 (by norm_num) (by norm_num)
/-- Dots of three pixels are lost. -/
example (otsu : Mat ℝ → Except PyErr ℝ) (ratio : ℝ) := C87_small (height := 80) (width := 90) (d := 15) (ds := 3) (s := 3) (margin := .int 1) (mv := 1) (mh := 1)
    (.inl ⟨rfl, rfl⟩) (by norm_num) (by norm_num) (by norm_num) (by norm_num) (by norm_num) otsu ratio 0.5 (by norm_num) (by norm_num)
example (otsu : Mat ℝ → Except PyErr ℝ) (ratio slope xc yc : ℝ) := C87_calibration (height := 80) (width := 90) (d := 15) (ds := 9) (s := 9) (margin := .int 1) (mv := 1) (mh := 1)
    (.inl ⟨rfl, rfl⟩) (by norm_num) (by norm_num) (by norm_num) (by norm_num) (by norm_num) (by norm_num) (K := 5) (L := 6)
    (by intro k; norm_num; omega) (by intro k; norm_num; omega) (by norm_num) (by norm_num) otsu ratio 0.5 (by norm_num) (by norm_num)
    refArgsort refArgsort_spec refPolyfit refPolyfit_spec refLstsq refLstsq_spec refMinimize (tol := 0.3) (miss := 6) (acc := 0.65) (residual := 2.5)
    (by norm_num) (by norm_num) (by norm_num) (by norm_num) (by norm_num) slope xc yc 0.3 (by norm_num) true (fun _ => refMinimize_exact) 3 (by norm_num) (by norm_num)
    (by norm_num)

end Discorpy
