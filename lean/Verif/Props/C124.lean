import Verif.Props.C123

/-! # C124 — the dots found in noisy photographs -/

namespace Discorpy

open Spec

theorem isDotPix_sameMask {b b' : Mat ℤ} (h : SameMask b b') : IsDotPix b = IsDotPix b' := by
  obtain ⟨e1, e2, e3⟩ := h
  funext p
  refine propext ⟨fun hp => ?_, fun hp => ?_⟩
  · obtain ⟨h1, h2, h3⟩ := hp
    exact ⟨e1 ▸ h1, e2 ▸ h2, e3 _ h1 _ h2 ▸ h3⟩
  · obtain ⟨h1, h2, h3⟩ := hp
    exact ⟨e1 ▸ h1, e2 ▸ h2, by rw [e3 _ (e1 ▸ h1) _ (e2 ▸ h2)]; exact h3⟩

theorem points_sameMask {b b' : Mat ℤ} (h : SameMask b b') :
    ((dotReps b).mapM fun p => centerOfMass b (dotPixels b p)) = (dotReps b').mapM fun p => centerOfMass b' (dotPixels b' p) := by
  have hp := isDotPix_sameMask h
  obtain ⟨e1, e2, e3⟩ := h
  have hs : SameDot b = SameDot b' := by
    funext p q
    unfold SameDot
    rw [hp]
  have hr : dotReps b = dotReps b' := by
    unfold dotReps
    rw [hp, hs, e1, e2]
  have hx : dotPixels b = dotPixels b' := by
    funext p
    unfold dotPixels
    rw [hs, e1, e2]
  have hc : ∀ p, centerOfMass b (dotPixels b p) = centerOfMass b' (dotPixels b' p) := by
    intro p
    rw [← hx]
    have hg : ∀ q ∈ dotPixels b p, b.get q.1 q.2 = b'.get q.1 q.2 := by
      intro q hq
      unfold dotPixels at hq
      obtain ⟨i, j, hi, hj, rfl⟩ : ∃ i j, i < b.height ∧ j < b.width ∧ q = (i, j) := by
        have := (List.mem_filter.1 hq).1
        simp only [pixels, List.mem_flatMap, List.mem_range, List.mem_map] at this
        obtain ⟨i, hi, j, hj, rfl⟩ := this
        exact ⟨i, j, hi, hj, rfl⟩
      exact e3 _ hi _ hj
    have g0 : (dotPixels b p).map (fun q => (b.get q.1 q.2 : ℝ)) = (dotPixels b p).map fun q => (b'.get q.1 q.2 : ℝ) :=
      List.map_congr_left fun q hq => by rw [hg q hq]
    have g1 : (dotPixels b p).map (fun q => (b.get q.1 q.2 : ℝ) * q.1) = (dotPixels b p).map fun q => (b'.get q.1 q.2 : ℝ) * q.1 :=
      List.map_congr_left fun q hq => by rw [hg q hq]
    have g2 : (dotPixels b p).map (fun q => (b.get q.1 q.2 : ℝ) * q.2) = (dotPixels b p).map fun q => (b'.get q.1 q.2 : ℝ) * q.2 :=
      List.map_congr_left fun q hq => by rw [hg q hq]
    unfold centerOfMass
    rw [g0, g1, g2]
  rw [hr]
  congr 1
  funext p
  exact hc p

theorem points_of_masks {otsu otsu' : Mat ℝ → Except PyErr ℝ} {m m' : Mat ℝ} {ratio ratio' : ℝ} {s s' : Option ℝ}
    (h : ∃ b1 b2, binarization otsu m ratio s true = .ok b1 ∧ binarization otsu' m' ratio' s' true = .ok b2 ∧ SameMask b1 b2) :
    getPointsDotPattern otsu m true ratio s = getPointsDotPattern otsu' m' true ratio' s' := by
  obtain ⟨b1, b2, h1, h2, h3⟩ := h
  unfold getPointsDotPattern
  simp only [if_true, h1, h2, ok_bind]
  exact points_sameMask h3

/-- **C124 (given threshold).** Noise up to `e` does not change the points of a dot pattern if the magnitude of each pixel of the clean image is more than `e` above the given
threshold or at least `e` below it. -/
theorem C124_given (otsu : Mat ℝ → Except PyErr ℝ) (m c : Mat ℝ) (ratio s e : ℝ) (h0 : 0 < c.height) (h1 : 0 < c.width)
    (eh : m.height = c.height) (ew : m.width = c.width) (hn : ∀ i < c.height, ∀ j < c.width, |m.get i j - c.get i j| ≤ e)
    (hs : ∀ i < c.height, ∀ j < c.width, |c.get i j| ≤ s - e ∨ s + e < |c.get i j|) :
    getPointsDotPattern otsu m true ratio (some s) = getPointsDotPattern otsu c true ratio (some s) :=
  points_of_masks (C123_given otsu m c ratio s e true h0 h1 eh ew hn (by simp) fun _ => hs)

/-- **C124 (automatic threshold).** Let a clean image have the levels `0 ≤ a < b` only and a noisy image of integers differ from it by at most `e`. Under the conditions of C123 on
the middle part of the denoised image, the points found in the noisy image without a given threshold are those found in the clean image with any threshold from `a` up to `b`. -/
theorem C124_auto (m c : Mat ℝ) (n : ℕ) (ratio a b e s : ℝ) (ha : 0 ≤ a) (hs : a ≤ s ∧ s < b) (eh : m.height = c.height) (ew : m.width = c.width)
    (hz : ∀ i < c.height, ∀ j < c.width, ∃ z : ℤ, m.get i j = z) (hc : ∀ i < c.height, ∀ j < c.width, c.get i j = a ∨ c.get i j = b)
    (hn : ∀ i < c.height, ∀ j < c.width, |m.get i j - c.get i j| ≤ e)
    (hroi : ∀ f g roi : Mat ℝ, f.height = m.height → f.width = m.width →
      (∀ i < m.height, ∀ j < m.width, IsRank [|m.get (i - 1) (j - 1)|, |m.get (i - 1) j|, |m.get i (j - 1)|, |m.get i j|] 2 (f.get i j)) →
      (∀ i < c.height, ∀ j < c.width, IsRank [|c.get (i - 1) (j - 1)|, |c.get (i - 1) j|, |c.get i (j - 1)|, |c.get i j|] 2 (g.get i j)) →
      IsMiddlePart f ratio roi → TwoLevels roi.flat a b e ∧ ∃ x ∈ roi.flat, |x - a| ≤ e ∧
        ∀ i < c.height, ∀ j < c.width, g.get i j = a → f.get i j ≤ x) :
    getPointsDotPattern (thresholdOtsu true n) m true ratio none = getPointsDotPattern (thresholdOtsu true n) c true ratio (some s) :=
  points_of_masks (C123_denoise m c n ratio a b e s ha hs eh ew hz hc hn hroi)

/-- A change of contrast and noise, with a given threshold, against the clean pattern. -/
theorem photo_masks {otsu : Mat ℝ → Except PyErr ℝ} {m photo : Mat ℝ} {ratio t s e α β : ℝ} (h0 : 0 < m.height) (h1 : 0 < m.width) (hα : 0 < α) (hβ : 0 ≤ β)
    (hm : ∀ i < m.height, ∀ j < m.width, m.get i j = 0 ∨ m.get i j = 1) (eh : photo.height = m.height) (ew : photo.width = m.width)
    (hn : ∀ i < m.height, ∀ j < m.width, |photo.get i j - (α * m.get i j + β)| ≤ e) (ht0 : 0 ≤ t) (ht1 : t < 1) (hs0 : β + e ≤ s) (hs1 : s + e < α + β) :
    ∃ b1 b2, binarization otsu photo ratio (some s) true = .ok b1 ∧ binarization otsu m ratio (some t) true = .ok b2 ∧ SameMask b1 b2 := by
  rw [binarization_denoise, binarization_denoise]
  refine binarization_congr (by show 0 < photo.height; omega) (by show 0 < photo.width; omega) eh.symm ew.symm fun i hi j hj => ?_
  have hi' : i < m.height := eh ▸ hi
  have hj' : j < m.width := ew ▸ hj
  have h := abs_le.1 (medianFilter_close (m := photo) (c := { m with get := fun i j => α * m.get i j + β }) eh ew hn hi' hj')
  have hp : ∀ i < m.height, ∀ j < m.width, 0 ≤ m.get i j ∧ 0 ≤ α * m.get i j + β := by
    intro i hi j hj
    rcases hm i hi j hj with h | h <;> rw [h] <;> constructor <;> linarith
  have ef := congrArg (fun f : Mat ℝ => f.get i j) (medianFilter_affine h0 h1 hα hp)
  simp only at ef
  simp only [ef] at h
  obtain ⟨k, l, hk, hl, ek⟩ := medianFilter_from hi' hj'
  rw [ek] at h ⊢
  rcases hm k hk l hl with h2 | h2 <;> rw [h2] at h ⊢ <;> norm_num at h ⊢ <;> constructor <;> intro h3 <;> linarith

/-- **C124 (photograph of a pattern).** A drawn pattern is photographed with any contrast: dots of brightness `β ≥ 0`, background of brightness `α + β`, and noise up to `e`. If the
threshold keeps a distance of `e` from both levels, the photograph gives the same points as the drawn pattern; these are exactly the centres of the dots, each shifted by half a pixel in both
directions. -/
theorem C124_photo {height width : ℕ} {d ds s : ℤ} {margin : MarginArg} {mv mh : ℤ}
    (hmarg : margin = .int mv ∧ mh = mv ∨ ∃ rest, margin = .seq (mv :: mh :: rest)) (hv : 0 ≤ mv) (hh : 0 ≤ mh)
    (hs : s = min (max ds 1) ((min height width / 8 : ℕ) : ℤ)) (hs5 : 5 ≤ s) (hodd : s % 2 = 1) (hd : 5 * s ≤ 3 * d)
    (otsu : Mat ℝ → Except PyErr ℝ) (ratio t thres e α β : ℝ) (ht0 : 0 ≤ t) (ht1 : t < 1) (hα : 0 < α) (hβ : 0 ≤ β) (hs0 : β + e ≤ thres)
    (hs1 : thres + e < α + β) :
    ∃ m, makeDotPattern height width d ds margin = .ok m ∧ ∀ photo : Mat ℝ, photo.height = m.height → photo.width = m.width →
      (∀ i < m.height, ∀ j < m.width, |photo.get i j - (α * m.get i j + β)| ≤ e) →
      getPointsDotPattern otsu photo true ratio (some thres) = getPointsDotPattern otsu m true ratio (some t) ∧
      ∃ pts, getPointsDotPattern otsu photo true ratio (some thres) = .ok pts ∧ pts.Nodup ∧
        ∀ c, c ∈ pts ↔ ∃ k l p q, DotCentre (mv + (s / 2 + 1)) (height - (mv + (s / 2 + 1))) d k p ∧
          DotCentre (mh + (s / 2 + 1)) (width - (mh + (s / 2 + 1))) d l q ∧ c = ⟨p + 1 / 2, q + 1 / 2⟩ := by
  obtain ⟨m, pts, hm, hpts, hnd, hmem⟩ := C87_binarized hmarg hv hh hs hs5 hodd hd otsu ratio t ht0 ht1
  obtain ⟨m', hm', e1, e2, hpix⟩ := C68_pixels hmarg hv hh hs (by omega) (by omega : s ≤ d)
  rw [hm] at hm'
  injection hm' with hm'
  subst hm'
  refine ⟨m, hm, fun photo eh ew hn => ?_⟩
  have h01 : ∀ i < m.height, ∀ j < m.width, m.get i j = 0 ∨ m.get i j = 1 := by
    rw [e1, e2]
    intro i hi j hj
    obtain ⟨h0, h1⟩ := hpix i j hi hj
    by_cases hb : ∃ k l p q, DotCentre (mv + (s / 2 + 1)) (height - (mv + (s / 2 + 1))) d k p ∧
      DotCentre (mh + (s / 2 + 1)) (width - (mh + (s / 2 + 1))) d l q ∧ InDot s (i - p) (j - q)
    · exact .inl (h0 hb)
    · exact .inr (h1 hb)
  have key := points_of_masks (photo_masks (otsu := otsu) (m := m) (photo := photo) (ratio := ratio) (t := t) (s := thres) (by omega) (by omega) hα hβ h01 eh ew hn ht0 ht1
    hs0 hs1)
  exact ⟨key, pts, key.trans hpts, hnd, hmem⟩

/-- The denoised pattern contains a dark and a light pixel. -/
theorem pattern_levels {height width : ℕ} {d ds s : ℤ} {margin : MarginArg} {mv mh : ℤ}
    (hmarg : margin = .int mv ∧ mh = mv ∨ ∃ rest, margin = .seq (mv :: mh :: rest)) (hv : 0 ≤ mv) (hh : 0 ≤ mh)
    (hs : s = min (max ds 1) ((min height width / 8 : ℕ) : ℤ)) (hs5 : 5 ≤ s) (hodd : s % 2 = 1) (hd : 5 * s ≤ 3 * d)
    (hone : ∃ k l p q, DotCentre (mv + (s / 2 + 1)) (height - (mv + (s / 2 + 1))) d k p ∧ DotCentre (mh + (s / 2 + 1)) (width - (mh + (s / 2 + 1))) d l q) :
    ∃ m, makeDotPattern height width d ds margin = .ok m ∧ m.height = height ∧ m.width = width ∧
      (∀ i < m.height, ∀ j < m.width, m.get i j = 0 ∨ m.get i j = 1) ∧
      (∃ i j, i < m.height ∧ j < m.width ∧ (medianFilter { m with get := fun i j => |m.get i j| } 2 2).get i j = 0) ∧
      ∃ i j, i < m.height ∧ j < m.width ∧ (medianFilter { m with get := fun i j => |m.get i j| } 2 2).get i j = 1 := by
  obtain ⟨m, hm, e1, e2, hpix⟩ := C68_pixels hmarg hv hh hs (by omega) (by omega : s ≤ d)
  have g := pattern_grid (h := height) (w := width) hv hh (by omega) hodd (by omega : s < d)
  have hval : ∀ x ∈ frame m.height m.width, (x ∈ gridSet (centreSet height mv s d) (centreSet width mh s d) (InDot s) ∧ m.get x.1 x.2 = 0) ∨
      (x ∉ gridSet (centreSet height mv s d) (centreSet width mh s d) (InDot s) ∧ m.get x.1 x.2 = 1) := by
    rw [e1, e2]
    intro x hx
    obtain ⟨h0, h1⟩ := hpix x.1 x.2 hx.1 hx.2
    by_cases hb : x ∈ gridSet (centreSet height mv s d) (centreSet width mh s d) (InDot s)
    · left
      obtain ⟨p, ⟨k, hp⟩, q, ⟨l, hq⟩, hi⟩ := hb
      exact ⟨⟨p, ⟨k, hp⟩, q, ⟨l, hq⟩, hi⟩, h0 ⟨k, l, p, q, hp, hq, hi⟩⟩
    · right
      refine ⟨hb, h1 ?_⟩
      rintro ⟨k, l, p, q, hp, hq, hi⟩
      exact hb ⟨p, ⟨k, hp⟩, q, ⟨l, hq⟩, hi⟩
  have gm : Grid m.height m.width 0 (s / 2) (centreSet height mv s d) (centreSet width mh s d) (InDot s) := by rw [e1, e2]; exact g
  have hmed := gm.med_values hval (f := (medianFilter { m with get := fun i j => |m.get i j| } 2 2).get)
    fun i hi j hj => medianFilter_two { m with get := fun i j => |m.get i j| } hi hj
  have g1 := gm.med
  obtain ⟨k, l, p, q, hp, hq⟩ := hone
  have hp0 := g.rows.low p ⟨k, hp⟩
  have hq0 := g.cols.low q ⟨l, hq⟩
  have hp1 := g.rows.high p ⟨k, hp⟩
  have hq1 := g.cols.high q ⟨l, hq⟩
  refine ⟨m, hm, e1, e2, fun i hi j hj => ?_, ⟨p.toNat, q.toNat, by omega, by omega, ?_⟩, 0, 0, by omega, by omega, ?_⟩
  · rcases hval (i, j) ⟨hi, hj⟩ with ⟨_, h⟩ | ⟨_, h⟩
    · exact .inl h
    · exact .inr h
  · rcases hmed (p.toNat, q.toNat) ⟨by show p.toNat < m.height; omega, by show q.toNat < m.width; omega⟩ with ⟨_, e⟩ | ⟨hn', _⟩
    · exact e
    · refine absurd ⟨p, ⟨k, hp⟩, q, ⟨l, hq⟩, ?_⟩ hn'
      simp only [dotAt, Set.mem_ofPred_eq]
      rw [Int.toNat_of_nonneg (by omega), Int.toNat_of_nonneg (by omega), sub_self, sub_self]
      exact zPluses_le (inDot_med hodd hs5)
  · rcases hmed (0, 0) ⟨by show 0 < m.height; omega, by show 0 < m.width; omega⟩ with ⟨hn', _⟩ | ⟨_, e⟩
    · exfalso
      obtain ⟨p', hp', q', _, hz⟩ := hn'
      simp only [dotAt, Set.mem_ofPred_eq] at hz
      have u2 := g1.ge1 hz
      have := g1.rows.low p' hp'
      push_cast at u2
      omega
    · exact e

/-- **C124 (photograph, automatic threshold).** The same without a given threshold, for a photograph of integers, the threshold being found in the whole image (`ratio` at least 1), if the noise is
small against the contrast: `(2 e)² N ≤ (α - 2 e)²` for `N` pixels. -/
theorem C124_photo_auto {height width : ℕ} {d ds s : ℤ} {margin : MarginArg} {mv mh : ℤ}
    (hmarg : margin = .int mv ∧ mh = mv ∨ ∃ rest, margin = .seq (mv :: mh :: rest)) (hv : 0 ≤ mv) (hh : 0 ≤ mh)
    (hs : s = min (max ds 1) ((min height width / 8 : ℕ) : ℤ)) (hs5 : 5 ≤ s) (hodd : s % 2 = 1) (hd : 5 * s ≤ 3 * d)
    (hone : ∃ k l p q, DotCentre (mv + (s / 2 + 1)) (height - (mv + (s / 2 + 1))) d k p ∧ DotCentre (mh + (s / 2 + 1)) (width - (mh + (s / 2 + 1))) d l q)
    (n : ℕ) (ratio e α β : ℝ) (hratio : 1 ≤ ratio) (hβ : 0 ≤ β) (he : 0 ≤ e) (hα : 2 * e < α) (hbal : (2 * e) ^ 2 * (height * width) ≤ (α - 2 * e) ^ 2) :
    ∃ m, makeDotPattern height width d ds margin = .ok m ∧ ∀ photo : Mat ℝ, photo.height = m.height → photo.width = m.width →
      (∀ i < m.height, ∀ j < m.width, ∃ z : ℤ, photo.get i j = z) →
      (∀ i < m.height, ∀ j < m.width, |photo.get i j - (α * m.get i j + β)| ≤ e) →
      ∃ pts, getPointsDotPattern (thresholdOtsu true n) photo true ratio none = .ok pts ∧ pts.Nodup ∧
        ∀ c, c ∈ pts ↔ ∃ k l p q, DotCentre (mv + (s / 2 + 1)) (height - (mv + (s / 2 + 1))) d k p ∧
          DotCentre (mh + (s / 2 + 1)) (width - (mh + (s / 2 + 1))) d l q ∧ c = ⟨p + 1 / 2, q + 1 / 2⟩ := by
  obtain ⟨m, pts, hm, hpts, hnd, hmem⟩ := C87_binarized hmarg hv hh hs hs5 hodd hd (thresholdOtsu true n) ratio 0 le_rfl one_pos
  obtain ⟨m', hm', e1, e2, h01, ⟨i0, j0, hi0, hj0, hd0⟩, i1, j1, hi1, hj1, hb1⟩ := pattern_levels hmarg hv hh hs hs5 hodd hd hone
  rw [hm] at hm'
  injection hm' with hm'
  subst hm'
  have hα0 : 0 < α := by linarith
  refine ⟨m, hm, fun photo eh ew hz hn => ⟨pts, ?_, hnd, hmem⟩⟩
  set c : Mat ℝ := { m with get := fun i j => α * m.get i j + β } with hc
  have step1 := C124_auto photo c n ratio β (α + β) e β hβ ⟨le_rfl, by linarith⟩ eh ew hz
    (fun i hi j hj => by
      rcases h01 i hi j hj with h | h
      · left
        simp [hc, h]
      · right
        simp [hc, h]) hn ?_
  · rw [step1, ← hpts]
    exact points_of_masks (photo_masks (m := m) (photo := c) (e := 0) (α := α) (β := β) (by omega) (by omega) hα0 hβ h01 rfl rfl (fun i _ j _ => by simp [hc])
      le_rfl one_pos (by linarith) (by linarith))
  · intro f g roi fh fw hf hg hroi
    have eflat : roi.flat = f.flat := by
      obtain ⟨a, b, hp, r1, r2, hr⟩ := hroi
      exact middlePart_flat ⟨a, b, hp, r1, r2, fun r hr' => hr r (by rw [hr', min_eq_right hratio, min_eq_right le_rfl])⟩
    have hp : ∀ i < m.height, ∀ j < m.width, 0 ≤ m.get i j ∧ 0 ≤ α * m.get i j + β := by
      intro i hi j hj
      rcases h01 i hi j hj with h | h <;> rw [h] <;> constructor <;> linarith
    have hgM : ∀ i < m.height, ∀ j < m.width, g.get i j = α * (medianFilter { m with get := fun i j => |m.get i j| } 2 2).get i j + β := by
      intro i hi j hj
      have ef := congrArg (fun f : Mat ℝ => f.get i j) (medianFilter_affine (m := m) (by omega) (by omega) hα0 hp)
      simp only at ef
      rw [← ef]
      exact isRank_unique (hg i hi j hj) (medianFilter_two { m with get := fun i j => |α * m.get i j + β| } hi hj)
    have hg01 : ∀ i < m.height, ∀ j < m.width, g.get i j = β ∨ g.get i j = α + β := by
      intro i hi j hj
      obtain ⟨k, l, hk, hl, ek⟩ := medianFilter_from hi hj
      rw [hgM i hi j hj, ek]
      rcases h01 k hk l hl with h | h
      · left
        simp [h]
      · right
        simp [h]
    have hfg : ∀ i < m.height, ∀ j < m.width, |f.get i j - g.get i j| ≤ e := by
      intro i hi j hj
      have key : ∀ k < m.height, ∀ l < m.width, |(|photo.get k l|) - (|c.get k l|)| ≤ e := fun k hk l hl => (abs_abs_sub_abs_le _ _).trans (hn k hk l hl)
      exact isRank_close (.cons (key _ (by omega) _ (by omega)) (.cons (key _ (by omega) _ hj) (.cons (key _ hi _ (by omega)) (.cons (key _ hi _ hj) .nil))))
        (hg i hi j hj) (hf i (by omega) j (by omega))
    have inflat : ∀ i < m.height, ∀ j < m.width, f.get i j ∈ f.flat := fun i hi j hj => mem_flat_iff.2 ⟨i, j, by omega, by omega, rfl⟩
    have hlow : |f.get i0 j0 - β| ≤ e := by
      have := hfg i0 hi0 j0 hj0
      rwa [hgM i0 hi0 j0 hj0, hd0, mul_zero, zero_add] at this
    have hhigh : |f.get i1 j1 - (α + β)| ≤ e := by
      have := hfg i1 hi1 j1 hj1
      rwa [hgM i1 hi1 j1 hj1, hb1, mul_one] at this
    have hlen : (f.flat.length : ℝ) = height * width := by
      rw [flat_length, fh, fw, eh, ew, e1, e2]
      push_cast
      ring
    have count : ∀ (P : ℝ → Prop) [DecidablePred P] (x : ℝ), x ∈ f.flat → P x →
        (2 * e) ^ 2 * (f.flat.length : ℝ) ≤ (α + β - β - 2 * e) ^ 2 * ((f.flat.filter fun y => P y).length : ℝ) := by
      intro P _ x hx hPx
      have h1 : (1 : ℝ) ≤ ((f.flat.filter fun y => P y).length : ℝ) := by
        exact_mod_cast List.length_pos_of_mem (List.mem_filter.2 ⟨hx, by simpa using hPx⟩)
      rw [hlen, show α + β - β - 2 * e = α - 2 * e by ring]
      refine hbal.trans ?_
      have := mul_le_mul_of_nonneg_left h1 (sq_nonneg (α - 2 * e))
      linarith
    rw [eflat]
    refine ⟨⟨?_, by linarith, ⟨_, inflat i0 hi0 j0 hj0, hlow⟩, ⟨_, inflat i1 hi1 j1 hj1, hhigh⟩, count (fun y => |y - β| ≤ e) _ (inflat i0 hi0 j0 hj0) hlow,
      count (fun y => |y - (α + β)| ≤ e) _ (inflat i1 hi1 j1 hj1) hhigh⟩, ?_⟩
    · intro y hy
      obtain ⟨i, j, hi, hj, rfl⟩ := mem_flat_iff.1 hy
      have := hfg i (by omega) j (by omega)
      rcases hg01 i (by omega) j (by omega) with h | h
      · rw [h] at this
        exact .inl this
      · rw [h] at this
        exact .inr this
    · obtain ⟨x, _, hx, hmax⟩ := npMax_ok (l := f.flat.filter fun y => |y - β| ≤ e)
        (List.ne_nil_of_mem (List.mem_filter.2 ⟨inflat i0 hi0 j0 hj0, by simpa using hlow⟩))
      obtain ⟨hx1, hx2⟩ := List.mem_filter.1 hx
      refine ⟨x, hx1, by simpa using hx2, fun i hi j hj hgb => hmax _ (List.mem_filter.2 ⟨inflat i hi j hj, ?_⟩)⟩
      have := hfg i hi j hj
      rw [hgb] at this
      simpa using this

/-- The photograph of a pattern of 5 × 6 dots: dots of brightness 20, background of brightness 220, noise up to 90, threshold 120. -/
example (otsu : Mat ℝ → Except PyErr ℝ) : ∃ m, makeDotPattern 80 90 15 9 (.int 1) = .ok m ∧ ∀ photo : Mat ℝ, photo.height = m.height → photo.width = m.width →
    (∀ i < m.height, ∀ j < m.width, |photo.get i j - (200 * m.get i j + 20)| ≤ 90) →
    ∃ pts, getPointsDotPattern otsu photo true 0.3 (some 120) = .ok pts ∧ (⟨6.5, 6.5⟩ : Pt) ∈ pts := by
  obtain ⟨m, hm, h⟩ := C124_photo (height := 80) (width := 90) (d := 15) (ds := 9) (s := 9) (margin := .int 1) (mv := 1) (mh := 1)
    (.inl ⟨rfl, rfl⟩) (by norm_num) (by norm_num) (by norm_num) (by norm_num) (by norm_num) (by norm_num) otsu 0.3 0.5 120 90 200 20 (by norm_num) (by norm_num) (by norm_num)
    (by norm_num) (by norm_num) (by norm_num)
  refine ⟨m, hm, fun photo eh ew hn => ?_⟩
  obtain ⟨_, pts, hp, _, hmem⟩ := h photo eh ew hn
  refine ⟨pts, hp, (hmem _).2 ⟨0, 0, 6, 6, ⟨by norm_num, by norm_num⟩, ⟨by norm_num, by norm_num⟩, ?_⟩⟩
  norm_num

example (otsu : Mat ℝ → Except PyErr ℝ) (noise : ℕ → ℕ → ℝ) (h : ∀ i j, |noise i j| ≤ 3) :=
  C124_given otsu ⟨8, 9, fun i j => (if (i + j) % 2 = 0 then 10 else 50) + noise i j⟩ ⟨8, 9, fun i j => if (i + j) % 2 = 0 then 10 else 50⟩ 0.3 30 3
    (by norm_num) (by norm_num) rfl rfl (fun i _ j _ => by simpa using h i j)
    (fun i _ j _ => by by_cases h : (i + j) % 2 = 0 <;> simp only [h, if_true, if_false] <;> norm_num)

/-- The same photograph, 7200 pixels with noise of one grey level, with the automatic threshold. -/
example : ∃ m, makeDotPattern 80 90 15 9 (.int 1) = .ok m ∧ ∀ photo : Mat ℝ, photo.height = m.height → photo.width = m.width →
    (∀ i < m.height, ∀ j < m.width, ∃ z : ℤ, photo.get i j = z) → (∀ i < m.height, ∀ j < m.width, |photo.get i j - (200 * m.get i j + 20)| ≤ 1) →
    ∃ pts, getPointsDotPattern (thresholdOtsu true 512) photo true 1 none = .ok pts ∧ (⟨6.5, 6.5⟩ : Pt) ∈ pts := by
  have c0 : DotCentre ((1 : ℤ) + (9 / 2 + 1)) (((80 : ℕ) : ℤ) - (1 + (9 / 2 + 1))) 15 0 6 := ⟨by norm_num, by norm_num⟩
  have c1 : DotCentre ((1 : ℤ) + (9 / 2 + 1)) (((90 : ℕ) : ℤ) - (1 + (9 / 2 + 1))) 15 0 6 := ⟨by norm_num, by norm_num⟩
  obtain ⟨m, hm, h⟩ := C124_photo_auto (height := 80) (width := 90) (d := 15) (ds := 9) (s := 9) (margin := .int 1) (mv := 1) (mh := 1)
    (.inl ⟨rfl, rfl⟩) (by norm_num) (by norm_num) (by norm_num) (by norm_num) (by norm_num) (by norm_num) ⟨0, 0, 6, 6, c0, c1⟩ 512 1 1 200 20 (by norm_num) (by norm_num)
    (by norm_num) (by norm_num) (by norm_num)
  refine ⟨m, hm, fun photo eh ew hz hn => ?_⟩
  obtain ⟨pts, hp, _, hmem⟩ := h photo eh ew hz hn
  refine ⟨pts, hp, (hmem _).2 ⟨0, 0, 6, 6, c0, c1, ?_⟩⟩
  norm_num

end Discorpy
