import Verif.Props.C123
import Verif.Props.C125
import Verif.Props.C128

/-! # C129 — noise in the photograph does not change the calibration -/

namespace Discorpy

open Spec

theorem runExample_differs {lib : Libs} {B : Boundary} (hS : lib.sample = linearInterp B) (hr : CoordRounding lib.float32) {m m' : Mat ℝ} {e : ℝ}
    (hd : DiffersBy e m m') (hh : m.height ≤ 2 ^ 24) (hw : m.width ≤ 2 ^ 24) (h0 : 0 < m.height) (h1 : 0 < m.width) {b' : Mat ℤ}
    (hb' : binarization lib.otsu m' 0.3 none true = .ok b') {numCoef : ℤ} {r : Calibration} (h : runExample lib m numCoef = .ok r)
    (hs : SameMask r.binarized b') : ∃ r', runExample lib m' numCoef = .ok r' ∧ SameCalibration (DiffersBy e) (DiffersBy e) r r' := by
  have hb := runExample_mask h
  rw [binarization_same hb hb' hs] at hb'
  refine runExample_related (fun c f => ?_) (fun c f => ?_) hb hb' h
  · rw [hS]
    exact C125_noise B lib.float32 hr m m' e hd c.x c.y f hh hw
  · have he : 0 ≤ e := (abs_nonneg _).trans (hd.pixel 0 h0 0 h1)
    obtain ⟨d1, d2⟩ := differs_iff.1 hd
    obtain ⟨out, out', e1, e2, _, _, e3⟩ := C125_forward m m' e he d1 c.x c.y f h0 h1
    obtain ⟨out2, out2', e1', e2', _, _, e3'⟩ := C125_forward m' m e he d2 c.x c.y f (by rw [hd.height]; exact h0) (by rw [hd.width]; exact h1)
    rw [e2] at e1'
    cases e1'
    rw [e1] at e2'
    cases e2'
    exact ⟨out, out', e1, e2, differs_iff.2 ⟨e3, e3'⟩⟩

/-- **C129 (same mask).** If two photographs differ by at most `e` per pixel and have the same mask, the calibration script finds the same lines, centre, models and
messages for both, and the corrected photographs differ by at most `e`. -/
theorem C129_script (lib : Libs) (integer : Bool) (n : ℕ) (hotsu : lib.otsu = thresholdOtsu integer n) (B : Boundary) (hS : lib.sample = linearInterp B)
    (hr : CoordRounding lib.float32) (m m' : Mat ℝ) (e : ℝ) (hd : DiffersBy e m m') (hh : m.height ≤ 2 ^ 24) (hw : m.width ≤ 2 ^ 24) (b' : Mat ℤ)
    (hb' : binarization lib.otsu m' 0.3 none true = .ok b') (numCoef : ℤ) (r : Calibration) (h : runExample lib m numCoef = .ok r)
    (hs : SameMask r.binarized b') : ∃ r', runExample lib m' numCoef = .ok r' ∧ SameCalibration (DiffersBy e) (DiffersBy e) r r' := by
  have hsz : 0 < m.height ∧ 0 < m.width := by
    have := runExample_mask h
    rw [hotsu, binarization_denoise] at this
    exact (binarization_none_ok this).2
  exact runExample_differs hS hr hd hh hw hsz.1 hsz.2 hb' h hs

theorem forall₂_flatMap_same {α β γ : Type} {R : β → γ → Prop} {f : α → List β} {g : α → List γ} :
    ∀ l : List α, (∀ x ∈ l, List.Forall₂ R (f x) (g x)) → List.Forall₂ R (l.flatMap f) (l.flatMap g)
  | [], _ => by simp
  | x :: l, h => by
    rw [List.flatMap_cons, List.flatMap_cons]
    exact List.rel_append (h x (List.mem_cons_self ..)) (forall₂_flatMap_same l fun y hy => h y (List.mem_cons_of_mem _ hy))

theorem flat_forall₂ {R : ℝ → ℝ → Prop} {m m' : Mat ℝ} (eh : m'.height = m.height) (ew : m'.width = m.width)
    (h : ∀ i < m.height, ∀ j < m.width, R (m.get i j) (m'.get i j)) : List.Forall₂ R m.flat m'.flat := by
  unfold Mat.flat
  rw [eh, ew]
  refine forall₂_flatMap_same _ fun i hi => ?_
  rw [List.forall₂_map_left_iff, List.forall₂_map_right_iff, List.forall₂_same]
  exact fun j hj => h i (List.mem_range.1 hi) j (List.mem_range.1 hj)

/-- If the pixels at the lower level have no noise, the same holds after denoising. -/
theorem rank_black {l l' : List ℝ} {a v' : ℝ} (hl : List.Forall₂ (fun x y => x ≤ a → y ≤ a) l l') (h : IsRank l 2 a) (h' : IsRank l' 2 v')
    (hge : ∀ y ∈ l', a ≤ y) : v' = a := by
  classical
  refine le_antisymm ?_ (hge v' h'.1)
  by_contra hc
  rw [not_le] at hc
  have h1 := countP_forall₂ (p := fun x => decide (x ≤ a)) (q := fun y => decide (y < v')) (fun x y hxy hx => by
    simp only [decide_eq_true_eq] at hx ⊢
    exact lt_of_le_of_lt (hxy hx) hc) hl
  have h2 := h.2.2
  have h3 := h'.2.1
  have h4 : (l.countP fun x => decide (x ≤ a)) ≤ 2 := h1.trans (by convert h3)
  exact absurd h2 (not_lt.2 (by convert h4))

/-- **C129 (noise on a black pattern).** Let a clean image have the levels `a` (black) and `b` only. Let a noisy photograph differ from it only at pixels of the higher level, by at most
`e`. If both levels occur in the middle part of the clean denoised image, with a balance that allows for `e` and half a bin `w` of the histogram, both have the same mask. -/
theorem C129_black (m c : Mat ℝ) (n : ℕ) (hn : 2 ≤ n) (ratio a b e w : ℝ) (ha : 0 ≤ a) (he : 0 ≤ e) (hw : w = (b - a + 2 * e) / (2 * n)) (hab : a + 2 * (e + w) < b)
    (eh : m.height = c.height) (ew : m.width = c.width)
    (hc : ∀ i < c.height, ∀ j < c.width, c.get i j = a ∧ m.get i j = a ∨ c.get i j = b ∧ |m.get i j - b| ≤ e)
    (hroi : ∀ g roi : Mat ℝ, g.height = c.height → g.width = c.width →
      (∀ i < c.height, ∀ j < c.width, IsRank [|c.get (i - 1) (j - 1)|, |c.get (i - 1) j|, |c.get i (j - 1)|, |c.get i j|] 2 (g.get i j)) →
      IsMiddlePart g ratio roi → a ∈ roi.flat ∧ b ∈ roi.flat ∧
        (2 * (e + w)) ^ 2 * roi.flat.length ≤ (b - a - 2 * (e + w)) ^ 2 * (roi.flat.filter fun x => x = a).length ∧
        (2 * (e + w)) ^ 2 * roi.flat.length ≤ (b - a - 2 * (e + w)) ^ 2 * (roi.flat.filter fun x => x = b).length) :
    ∃ b1 b2, binarization (thresholdOtsu false n) m ratio none true = .ok b1 ∧
      binarization (thresholdOtsu false n) c ratio none true = .ok b2 ∧ SameMask b1 b2 := by
  have hw0 : 0 ≤ w := by
    by_contra hneg
    rw [not_le] at hneg
    have hn' : (2 : ℝ) ≤ n := by exact_mod_cast hn
    have h1 : w * (2 * n) = b - a + 2 * e := by
      rw [hw]
      field_simp
    nlinarith
  rw [binarization_denoise, binarization_denoise]
  set f := medianFilter { m with get := fun i j => |m.get i j| } 2 2 with hf
  set g := medianFilter { c with get := fun i j => |c.get i j| } 2 2 with hg
  have hgr : ∀ i < c.height, ∀ j < c.width, IsRank [|c.get (i - 1) (j - 1)|, |c.get (i - 1) j|, |c.get i (j - 1)|, |c.get i j|] 2 (g.get i j) :=
    fun i hi j hj => medianFilter_two { c with get := fun i j => |c.get i j| } hi hj
  have hfr : ∀ i < c.height, ∀ j < c.width, IsRank [|m.get (i - 1) (j - 1)|, |m.get (i - 1) j|, |m.get i (j - 1)|, |m.get i j|] 2 (f.get i j) :=
    fun i hi j hj => medianFilter_two { m with get := fun i j => |m.get i j| } (by show i < m.height; omega) (by show j < m.width; omega)
  have hpix : ∀ i < c.height, ∀ j < c.width, (|c.get i j| ≤ a → |m.get i j| ≤ a) ∧ a ≤ |m.get i j| ∧ |m.get i j - c.get i j| ≤ e := by
    intro i hi j hj
    rcases hc i hi j hj with ⟨h1, h2⟩ | ⟨h1, h2⟩
    · rw [h1, h2, abs_of_nonneg ha]
      simpa using he
    · have h3 := abs_le.1 h2
      rw [h1, abs_of_nonneg (by linarith : 0 ≤ b), abs_of_nonneg (by linarith : 0 ≤ m.get i j)]
      exact ⟨fun h => by linarith, by linarith, h2⟩
  have hlev : ∀ i < c.height, ∀ j < c.width, g.get i j = a ∧ f.get i j = a ∨ g.get i j = b ∧ |f.get i j - b| ≤ e := by
    intro i hi j hj
    have hclose := medianFilter_close eh ew (fun i hi j hj => (hpix i hi j hj).2.2) hi hj
    obtain ⟨k, l, hk, hl, ek⟩ := medianFilter_from (m := c) (i := i) (j := j) hi hj
    rw [← hg] at ek hclose
    rw [← hf] at hclose
    have hgv : g.get i j = a ∨ g.get i j = b := by
      rw [ek]
      rcases hc k hk l hl with ⟨h, _⟩ | ⟨h, _⟩
      · exact .inl (by rw [h, abs_of_nonneg ha])
      · exact .inr (by rw [h, abs_of_nonneg (by linarith)])
    rcases hgv with h | h
    · refine .inl ⟨h, ?_⟩
      have hr := hgr i hi j hj
      rw [h] at hr
      have p1 := hpix (i - 1) (by omega) (j - 1) (by omega)
      have p2 := hpix (i - 1) (by omega) j hj
      have p3 := hpix i hi (j - 1) (by omega)
      have p4 := hpix i hi j hj
      refine rank_black (.cons p1.1 (.cons p2.1 (.cons p3.1 (.cons p4.1 .nil)))) hr (hfr i hi j hj) ?_
      intro y hy
      simp only [List.mem_cons, List.not_mem_nil, or_false] at hy
      rcases hy with rfl | rfl | rfl | rfl
      exacts [p1.2.1, p2.2.1, p3.2.1, p4.2.1]
    · rw [h] at hclose
      exact .inr ⟨h, hclose⟩
  obtain ⟨y, x, hp, q1, q2, hr, _⟩ := C37_roi f ratio
  set R := selectRoi f ratio false with hR
  have fh : f.height = c.height := eh
  have fw : f.width = c.width := ew
  have hrows := hp.rows
  have hcols := hp.cols
  set G : Mat ℝ := ⟨R.height, R.width, fun i j => g.get (y + i) (x + j)⟩ with hG
  obtain ⟨ga, gb, gd, gl⟩ := hroi g G rfl rfl hgr ⟨y, x, ⟨by show y + R.height ≤ c.height; omega, by show x + R.width ≤ c.width; omega, fun _ _ => rfl⟩,
    by show 2 * y + R.height = c.height; omega, by show 2 * x + R.width = c.width; omega, fun r e => by
      have := hr r e
      rw [fh, fw] at this
      exact this⟩
  have hrel : List.Forall₂ (fun u v => u = a ∧ v = a ∨ u = b ∧ |v - b| ≤ e) G.flat R.flat := by
    refine flat_forall₂ rfl rfl fun i hi j hj => ?_
    have hi' : i < R.height := hi
    have hj' : j < R.width := hj
    rw [hp.get]
    exact hlev (y + i) (by omega) (x + j) (by omega)
  have hRa : a ∈ R.flat := by
    obtain ⟨v, hv, h | h⟩ := binned_mem_left hrel a ga
    · rw [← h.2]
      exact hv
    · linarith [h.1]
  have hlen : (R.flat.length : ℝ) = G.flat.length := by rw [hrel.length_eq]
  obtain ⟨t, et, _, xt, hxt, hxa, hxw⟩ := C123_float R n hn a b e w hw
    (fun v hv => by
      obtain ⟨u, _, h | h⟩ := binned_mem_right hrel v hv
      · exact .inl (by rw [h.2, sub_self, abs_zero]; exact he)
      · exact .inr h.2)
    ⟨a, hRa, by rw [sub_self, abs_zero]; exact he⟩
    (by
      obtain ⟨v, hv, h | h⟩ := binned_mem_left hrel b gb
      · linarith [h.1]
      · exact ⟨v, hv, h.2⟩) hab
    (by
      rw [hlen]
      refine gd.trans (mul_le_mul_of_nonneg_left ?_ (sq_nonneg _))
      exact_mod_cast count_close (P := fun u => u = a) (Q := fun v => |v - a| ≤ e) hrel fun u v huv hu => by
        rcases huv with h | h
        · rw [h.2, sub_self, abs_zero]
          exact he
        · linarith [h.1])
    (by
      rw [hlen]
      refine gl.trans (mul_le_mul_of_nonneg_left ?_ (sq_nonneg _))
      exact_mod_cast count_close (P := fun u => u = b) (Q := fun v => |v - b| ≤ e) hrel fun u v huv hu => by
        rcases huv with h | h
        · linarith [h.1]
        · exact h.2)
  obtain ⟨xb, hxb, hbe⟩ : ∃ v ∈ R.flat, |v - b| ≤ e := by
    obtain ⟨v, hv, h | h⟩ := binned_mem_left hrel b gb
    · linarith [h.1]
    · exact ⟨v, hv, h.2⟩
  have hbe' := abs_le.1 hbe
  obtain ⟨t', lo, hi, ys, et', hlo, hhi, hall, hlt, _⟩ := C90_float R n hn ⟨a, hRa, xb, hxb, by linarith⟩
  rw [et] at et'
  cases et'
  have hat : a < t := lt_of_le_of_lt (by
    obtain ⟨u, _, h | h⟩ := binned_mem_right hrel lo hlo
    · exact h.2.ge
    · have := abs_le.1 h.2
      linarith) hlt
  have htb : t < b - e := by
    obtain ⟨u, _, h | h⟩ := binned_mem_right hrel xt hxt
    · rw [h.2] at hxw
      linarith [(abs_le.1 hxw).1]
    · have h3 := (abs_le.1 h.2).1
      have h4 := (abs_le.1 hxa).2
      linarith
  obtain ⟨y', x', hp', q1', q2', hr', _⟩ := C37_roi g ratio
  have hrows' := hp'.rows
  have hcols' := hp'.cols
  have gh : g.height = c.height := rfl
  have gw : g.width = c.width := rfl
  obtain ⟨ga', gb', _⟩ := hroi g (selectRoi g ratio false) rfl rfl hgr ⟨y', x', hp', q1', q2', hr'⟩
  obtain ⟨s, es, s0, s1⟩ := C90_two false (selectRoi g ratio false) n hn a b (by linarith) (by simp) (fun v hv => by
    obtain ⟨i, j, hi, hj, rfl⟩ := mem_flat_iff.1 hv
    rw [hp'.get]
    exact (hlev _ (by omega) _ (by omega)).imp And.left And.left) ga' gb'
  obtain ⟨i0, j0, hi0, hj0, _⟩ := mem_flat_iff.1 hRa
  rw [binarization_none et, binarization_none es]
  refine binarization_congr (by omega) (by omega) eh.symm ew.symm fun i hi j hj => ?_
  rcases hlev i (by omega) j (by omega) with ⟨u1, u2⟩ | ⟨u1, u2⟩
  · rw [u1, u2]
    exact ⟨fun h => absurd h (not_lt.2 hat.le), fun h => absurd h (not_lt.2 s0)⟩
  · rw [u1]
    exact ⟨fun _ => s1, fun _ => by linarith [(abs_le.1 u2).1]⟩

/-- **C129 (script, black pattern).** So noise of the light pixels up to `e` does not change the lines, the centre, the models and the messages of the calibration script, and changes the corrected
photographs by at most `e`. -/
theorem C129_noise (lib : Libs) (n : ℕ) (hn : 2 ≤ n) (hotsu : lib.otsu = thresholdOtsu false n) (B : Boundary) (hS : lib.sample = linearInterp B)
    (hr : CoordRounding lib.float32) (m c : Mat ℝ) (hh : c.height ≤ 2 ^ 24) (hw' : c.width ≤ 2 ^ 24) (a b e w : ℝ) (ha : 0 ≤ a) (he : 0 ≤ e)
    (hw : w = (b - a + 2 * e) / (2 * n)) (hab : a + 2 * (e + w) < b) (eh : m.height = c.height) (ew : m.width = c.width)
    (hc : ∀ i < c.height, ∀ j < c.width, c.get i j = a ∧ m.get i j = a ∨ c.get i j = b ∧ |m.get i j - b| ≤ e)
    (hroi : ∀ g roi : Mat ℝ, g.height = c.height → g.width = c.width →
      (∀ i < c.height, ∀ j < c.width, IsRank [|c.get (i - 1) (j - 1)|, |c.get (i - 1) j|, |c.get i (j - 1)|, |c.get i j|] 2 (g.get i j)) →
      IsMiddlePart g 0.3 roi → a ∈ roi.flat ∧ b ∈ roi.flat ∧
        (2 * (e + w)) ^ 2 * roi.flat.length ≤ (b - a - 2 * (e + w)) ^ 2 * (roi.flat.filter fun x => x = a).length ∧
        (2 * (e + w)) ^ 2 * roi.flat.length ≤ (b - a - 2 * (e + w)) ^ 2 * (roi.flat.filter fun x => x = b).length)
    (numCoef : ℤ) (r : Calibration) (h : runExample lib c numCoef = .ok r) :
    ∃ r', runExample lib m numCoef = .ok r' ∧ SameCalibration (DiffersBy e) (DiffersBy e) r r' := by
  obtain ⟨b1, b2, e1, e2, hs⟩ := C129_black m c n hn 0.3 a b e w ha he hw hab eh ew hc hroi
  have hb := runExample_mask h
  rw [hotsu, e2] at hb
  cases hb
  refine C129_script lib false n hotsu B hS hr c m e ⟨eh, ew, fun i hi j hj => ?_⟩ hh hw' b1 (by rw [hotsu]; exact e1) numCoef r h
    ⟨by first | exact hs.1 | exact hs.1.symm, by first | exact hs.2.1 | exact hs.2.1.symm, ?_⟩
  · rcases hc i hi j hj with ⟨h1, h2⟩ | ⟨h1, h2⟩
    · rw [h1, h2, sub_self, abs_zero]
      exact he
    · rw [h1]
      exact h2
  · intro i hi j hj
    obtain ⟨s1, s2, s3⟩ := hs
    first | exact (s3 i (by omega) j (by omega)).symm | exact s3 i (by omega) j (by omega)

/-! ## Concrete cases -/

/-- The middle part of the denoised pattern of C94 has a dark pixel, the centre of a dot, and a light pixel between the dots. -/
theorem drawn13_both {m : Mat ℝ} (hm : makeDotPattern 200 200 15 9 (.int 1) = .ok m) (g roi : Mat ℝ) (g1 : g.height = m.height) (g2 : g.width = m.width)
    (hg : ∀ i < m.height, ∀ j < m.width, IsRank [|m.get (i - 1) (j - 1)|, |m.get (i - 1) j|, |m.get i (j - 1)|, |m.get i j|] 2 (g.get i j))
    (hroi : IsMiddlePart g 0.3 roi) : (0 : ℝ) ∈ roi.flat ∧ (1 : ℝ) ∈ roi.flat ∧ roi.flat.length ≤ 3844 := by
  obtain ⟨r, e, h1, h2, h3⟩ := C68_pixels (height := 200) (width := 200) (d := 15) (ds := 9) (s := 9) (margin := .int 1) (mv := 1) (mh := 1)
    (.inl ⟨rfl, rfl⟩) (by norm_num) (by norm_num) (by norm_num) (by norm_num) (by norm_num)
  rw [hm] at e
  cases e
  have dark : ∀ i j : ℕ, 95 ≤ i → i ≤ 97 → 95 ≤ j → j ≤ 97 → m.get i j = 0 := by
    intro i j hi hi' hj hj'
    refine (h3 i j (by omega) (by omega)).1 ⟨6, 6, 96, 96, ⟨by norm_num, by norm_num⟩, ⟨by norm_num, by norm_num⟩, ?_⟩
    have ei : (i : ℤ) - 96 = -1 ∨ (i : ℤ) - 96 = 0 ∨ (i : ℤ) - 96 = 1 := by omega
    have ej : (j : ℤ) - 96 = -1 ∨ (j : ℤ) - 96 = 0 ∨ (j : ℤ) - 96 = 1 := by omega
    rcases ei with ei | ei | ei <;> rcases ej with ej | ej | ej <;> rw [ei, ej] <;> constructor <;> norm_num
  have light : ∀ i j : ℕ, 103 ≤ i → i ≤ 104 → 103 ≤ j → j ≤ 104 → m.get i j = 1 := by
    intro i j hi hi' hj hj'
    refine (h3 i j (by omega) (by omega)).2 ?_
    rintro ⟨k, l, p, q, hp, hq, hd⟩
    have e1 := hp.eq
    have e2 := hd.top
    have e3 := hd.bottom
    omega
  have gd : g.get 97 97 = 0 := by
    have := (hg 97 (by omega) 97 (by omega)).1
    simpa [dark] using this
  have gl : g.get 104 104 = 1 := by
    have := (hg 104 (by omega) 104 (by omega)).1
    simpa [light] using this
  obtain ⟨a, b, hp, q1, q2, hr⟩ := hroi
  obtain ⟨r1, r2, r3, r4⟩ := hr 0.3 (by norm_num)
  rw [g1, h1] at r1 r2
  rw [g2, h2] at r3 r4
  norm_num at r1 r2 r3 r4
  have r1' : 60 ≤ roi.height := by exact_mod_cast r1
  have r2' : roi.height < 62 := by exact_mod_cast r2
  have r3' : 60 ≤ roi.width := by exact_mod_cast r3
  have r4' : roi.width < 62 := by exact_mod_cast r4
  refine ⟨mem_flat_iff.2 ⟨97 - a, 97 - b, by omega, by omega, ?_⟩, mem_flat_iff.2 ⟨104 - a, 104 - b, by omega, by omega, ?_⟩, ?_⟩
  · rw [hp.get, show a + (97 - a) = 97 by omega, show b + (97 - b) = 97 by omega]
    exact gd
  · rw [hp.get, show a + (104 - a) = 104 by omega, show b + (104 - b) = 104 by omega]
    exact gl
  · rw [flat_length]
    exact (Nat.mul_le_mul (by omega : roi.height ≤ 62) (by omega : roi.width ≤ 62))

/-- The conditions on the middle part, for noise up to 0.001. -/
theorem drawn13_balance {m : Mat ℝ} (hm : makeDotPattern 200 200 15 9 (.int 1) = .ok m) (g roi : Mat ℝ) (g1 : g.height = m.height) (g2 : g.width = m.width)
    (hg : ∀ i < m.height, ∀ j < m.width, IsRank [|m.get (i - 1) (j - 1)|, |m.get (i - 1) j|, |m.get i (j - 1)|, |m.get i j|] 2 (g.get i j))
    (hroi : IsMiddlePart g 0.3 roi) : (0 : ℝ) ∈ roi.flat ∧ (1 : ℝ) ∈ roi.flat ∧
      (2 * (0.001 + 1.002 / 1024)) ^ 2 * (roi.flat.length : ℝ) ≤ (1 - 0 - 2 * (0.001 + 1.002 / 1024)) ^ 2 * (roi.flat.filter fun x => x = 0).length ∧
      (2 * (0.001 + 1.002 / 1024)) ^ 2 * (roi.flat.length : ℝ) ≤ (1 - 0 - 2 * (0.001 + 1.002 / 1024)) ^ 2 * (roi.flat.filter fun x => x = 1).length := by
  obtain ⟨h0, h1, hl⟩ := drawn13_both hm g roi g1 g2 hg hroi
  have hl' : (roi.flat.length : ℝ) ≤ 3844 := by exact_mod_cast hl
  have c0 : (1 : ℝ) ≤ (roi.flat.filter fun x => x = 0).length := by
    exact_mod_cast List.length_pos_of_mem (List.mem_filter.2 ⟨h0, by simp⟩)
  have c1 : (1 : ℝ) ≤ (roi.flat.filter fun x => x = 1).length := by
    exact_mod_cast List.length_pos_of_mem (List.mem_filter.2 ⟨h1, by simp⟩)
  refine ⟨h0, h1, ?_, ?_⟩ <;> norm_num <;> nlinarith

/-- The script run on a photograph of this pattern whose light pixels have grey values between 0.999 and 1.001, alternating from row to row and column to column,
finds the same lines, centre and models as for the pattern. -/
example : ∃ m c c', makeDotPattern 200 200 15 9 (.int 1) = .ok m ∧ runExample refLibs m 5 = .ok c ∧
    runExample refLibs { m with get := fun i j => m.get i j * (1 + 0.001 * (-1) ^ (i + j)) } 5 = .ok c' ∧ c'.hor = c.hor ∧ c'.centre = c.centre ∧
    c'.backward.coefs = c.backward.coefs ∧ DiffersBy 0.001 c.backward.image c'.backward.image ∧ DiffersBy 0.001 c.forward.image c'.forward.image := by
  obtain ⟨m, c, hm, hc, _⟩ := drawn13_finishes
  obtain ⟨p1, p2, p3⟩ := drawn13_pixels hm
  obtain ⟨c', hc', h⟩ := C129_noise refLibs 512 (by norm_num) rfl _ rfl coordRounding_id { m with get := fun i j => m.get i j * (1 + 0.001 * (-1) ^ (i + j)) } m
    (by rw [p1]; norm_num) (by rw [p2]; norm_num) 0 1 0.001 (1.002 / 1024) le_rfl (by norm_num) (by norm_num) (by norm_num) rfl rfl
    (fun i hi j hj => by
      rcases p3 i hi j hj with h | h
      · exact .inl ⟨h, by simp [h]⟩
      · refine .inr ⟨h, ?_⟩
        simp only [h, one_mul, add_sub_cancel_left, abs_mul, abs_pow, abs_neg, abs_one, one_pow, mul_one]
        norm_num) (drawn13_balance hm) 5 c hc
  exact ⟨m, c, c', hm, hc, hc', h.hor, h.centre, h.backward.1, h.backward.2.2.2.2.2, h.forward.2.2.2.2.2⟩

/-- The masks of this photograph and of the pattern. -/
example {m : Mat ℝ} (hm : makeDotPattern 200 200 15 9 (.int 1) = .ok m) :
    ∃ b1 b2, binarization (thresholdOtsu false 512) { m with get := fun i j => if i % 7 = 0 then m.get i j * 0.999 else m.get i j } 0.3 none true = .ok b1 ∧
      binarization (thresholdOtsu false 512) m 0.3 none true = .ok b2 ∧ SameMask b1 b2 := by
  obtain ⟨p1, p2, p3⟩ := drawn13_pixels hm
  refine C129_black _ m 512 (by norm_num) 0.3 0 1 0.001 (1.002 / 1024) le_rfl (by norm_num) (by norm_num) (by norm_num) rfl rfl (fun i hi j hj => ?_) (drawn13_balance hm)
  rcases p3 i hi j hj with h | h
  · exact .inl ⟨h, by simp [h]⟩
  · refine .inr ⟨h, ?_⟩
    dsimp only
    split_ifs <;> rw [h] <;> norm_num [abs_le]

/-- A photograph twice as bright has the same mask. -/
example : ∃ m c c', makeDotPattern 200 200 15 9 (.int 1) = .ok m ∧ runExample refLibs m 5 = .ok c ∧ runExample refLibs (exposed 2 0 m) 5 = .ok c' ∧
    SameCalibration (DiffersBy 1) (DiffersBy 1) c c' := by
  obtain ⟨m, c, hm, hc, _⟩ := drawn13_finishes
  obtain ⟨p1, p2, p3⟩ := drawn13_pixels hm
  have hp : ∀ i < m.height, ∀ j < m.width, 0 ≤ m.get i j ∧ 0 ≤ 2 * m.get i j + 0 := fun i hi j hj => by
    rcases p3 i hi j hj with h | h <;> rw [h] <;> norm_num
  obtain ⟨c', hc', h⟩ := C129_script refLibs false 512 rfl _ rfl coordRounding_id m (exposed 2 0 m) 1 ⟨rfl, rfl, fun i hi j hj => by
      rcases p3 i hi j hj with h | h <;> simp only [exposed, h] <;> norm_num⟩ (by rw [p1]; norm_num) (by rw [p2]; norm_num) c.binarized
    (C128_binarization false m 512 2 0 (by norm_num) 0.3 true (fun _ => hp) (by simp) _ (runExample_mask hc)) 5 c hc ⟨rfl, rfl, fun _ _ _ _ => rfl⟩
  exact ⟨m, c, c', hm, hc, hc', h⟩

end Discorpy
