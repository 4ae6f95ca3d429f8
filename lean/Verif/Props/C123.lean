import Verif.Lemmas.TwoLevels
import Verif.Lemmas.RankClose

/-! # C123 — how much noise the automatic threshold tolerates -/

namespace Discorpy

open Spec

theorem twoLevels_varied {ys : List ℝ} {a b e : ℝ} (h : TwoLevels ys a b e) : ∃ x ∈ ys, ∃ y ∈ ys, x < y := by
  obtain ⟨x, hx, h1⟩ := h.low
  obtain ⟨y, hy, h2⟩ := h.high
  exact ⟨x, hx, y, hy, by linarith [(abs_le.1 h1).2, (abs_le.1 h2).1, h.apart]⟩

/-- **C123 (integers).** If the pixels of an image of integers are near two levels that are far enough apart, the automatic threshold separates
the pixels near the one level from the pixels near the other; it is the largest of the pixels near the lower level. -/
theorem C123_integer (m : Mat ℝ) (n : ℕ) (hz : ∀ x ∈ m.flat, ∃ z : ℤ, x = z) (a b e : ℝ) (h : TwoLevels m.flat a b e) :
    ∃ t, thresholdOtsu true n m = .ok t ∧ (∀ x ∈ m.flat, (|x - a| ≤ e → x ≤ t) ∧ (|x - b| ≤ e → t < x)) ∧ t ∈ m.flat ∧ |t - a| ≤ e := by
  obtain ⟨t, et, ho, _⟩ := C90_integer m n hz (twoLevels_varied h)
  obtain ⟨h1, h2⟩ := otsu_separates h ho
  refine ⟨t, et, fun x hx => ⟨h1 x hx, h2 x hx⟩, ho.mem, ?_⟩
  rcases h.near t ho.mem with h3 | h3
  · exact h3
  · exact absurd (h2 t ho.mem h3) (lt_irrefl _)

theorem binned_close {lo hi : ℝ} {n : ℕ} {x y : ℝ} (h : Binned lo hi n x y) (hw : 0 ≤ (hi - lo) / n) : |y - x| ≤ (hi - lo) / n / 2 := by
  obtain ⟨k, hk, rfl, h1, h2⟩ := h
  have hn : (n : ℝ) ≠ 0 := by
    have : n ≠ 0 := by omega
    exact_mod_cast this
  have h3 : x ≤ lo + (k + 1) * ((hi - lo) / n) := by
    rcases h2 with h2 | ⟨h2, rfl⟩
    · exact h2.le
    · have : ((k : ℝ) + 1) = n := by exact_mod_cast h2
      rw [this]
      apply le_of_eq
      field_simp
      ring
  rw [abs_le]
  constructor <;> linarith

theorem count_close {P Q : ℝ → Prop} [DecidablePred P] [DecidablePred Q] {R : ℝ → ℝ → Prop} {xs ys : List ℝ} (h : List.Forall₂ R xs ys)
    (hpq : ∀ x y, R x y → P x → Q y) : (xs.filter fun x => P x).length ≤ (ys.filter fun y => Q y).length := by
  rw [← List.countP_eq_length_filter, ← List.countP_eq_length_filter]
  exact countP_forall₂ (R := R) (fun x y hxy hp => by simpa using hpq x y hxy (by simpa using hp)) h

theorem binned_mem_left {R : ℝ → ℝ → Prop} {xs ys : List ℝ} (h : List.Forall₂ R xs ys) : ∀ x ∈ xs, ∃ y ∈ ys, R x y := by
  induction h with
  | nil => simp
  | cons hxy _ ih =>
    intro x hx
    rcases List.mem_cons.1 hx with rfl | hx
    · exact ⟨_, List.mem_cons_self .., hxy⟩
    · obtain ⟨y, hy, hr⟩ := ih x hx
      exact ⟨y, List.mem_cons_of_mem _ hy, hr⟩

theorem binned_mem_right {R : ℝ → ℝ → Prop} {xs ys : List ℝ} (h : List.Forall₂ R xs ys) : ∀ y ∈ ys, ∃ x ∈ xs, R x y := by
  induction h with
  | nil => simp
  | cons hxy _ ih =>
    intro y hy
    rcases List.mem_cons.1 hy with rfl | hy
    · exact ⟨_, List.mem_cons_self .., hxy⟩
    · obtain ⟨x, hx, hr⟩ := ih y hy
      exact ⟨x, List.mem_cons_of_mem _ hx, hr⟩

/-- **C123 (floats).** For an image of floats with pixels within `e` of two levels, the same holds up to half a bin `w` of the histogram, with a distance
of the levels that allows for `e + w`: all the pixels near the higher level are above the threshold; the ones near the lower level exceed it by `w`
at most; one of these is within `w` of the threshold. -/
theorem C123_float (m : Mat ℝ) (n : ℕ) (hn : 2 ≤ n) (a b e w : ℝ) (hw : w = (b - a + 2 * e) / (2 * n))
    (hm : ∀ x ∈ m.flat, |x - a| ≤ e ∨ |x - b| ≤ e) (ha : ∃ x ∈ m.flat, |x - a| ≤ e) (hb : ∃ x ∈ m.flat, |x - b| ≤ e) (hab : a + 2 * (e + w) < b)
    (hdark : (2 * (e + w)) ^ 2 * m.flat.length ≤ (b - a - 2 * (e + w)) ^ 2 * (m.flat.filter fun x => |x - a| ≤ e).length)
    (hbright : (2 * (e + w)) ^ 2 * m.flat.length ≤ (b - a - 2 * (e + w)) ^ 2 * (m.flat.filter fun x => |x - b| ≤ e).length) :
    ∃ t, thresholdOtsu false n m = .ok t ∧ (∀ x ∈ m.flat, (|x - a| ≤ e → x ≤ t + w) ∧ (|x - b| ≤ e → t < x)) ∧
      ∃ x ∈ m.flat, |x - a| ≤ e ∧ |x - t| ≤ w := by
  obtain ⟨xl, hxl, hl⟩ := ha
  obtain ⟨xh, hxh, hh⟩ := hb
  have hl' := abs_le.1 hl
  have hh' := abs_le.1 hh
  have he : 0 ≤ e := (abs_nonneg _).trans hl
  have hn' : (0 : ℝ) < n := Nat.cast_pos.2 (by omega)
  have hw0 : 0 ≤ w := by
    by_contra hc
    rw [not_le] at hc
    have h1 : w * (2 * n) = b - a + 2 * e := by
      rw [hw]
      field_simp
    have h2 : (2 : ℝ) ≤ n := by exact_mod_cast hn
    nlinarith
  have hlt : xl < xh := by linarith
  obtain ⟨t, lo, hi, ys, et, hlo, hhi, hr, t1, t2, hys, ho⟩ := C90_float m n hn ⟨xl, hxl, xh, hxh, hlt⟩
  have hrange : ∀ x ∈ m.flat, a - e ≤ x ∧ x ≤ b + e := by
    intro x hx
    rcases hm x hx with h | h <;> have := abs_le.1 h <;> constructor <;> linarith
  have hspan : 0 < hi - lo := by linarith
  set W := (hi - lo) / (n : ℝ) with hW
  have hWpos : 0 < W := div_pos hspan hn'
  have hWw : W / 2 ≤ w := by
    have h1 := (hrange lo hlo).1
    have h2 := (hrange hi hhi).2
    rw [hw, hW, div_div, mul_comm (n : ℝ) 2]
    exact div_le_div_of_nonneg_right (by linarith) (by positivity)
  have hclose : ∀ x y, Binned lo hi n x y → |y - x| ≤ W / 2 := fun x y h => binned_close h hWpos.le
  have step : ∀ x y c, Binned lo hi n x y → |x - c| ≤ e → |y - c| ≤ e + w := by
    intro x y c h hx
    have h1 := abs_le.1 (hclose x y h)
    have h2 := abs_le.1 hx
    exact abs_le.2 ⟨by linarith, by linarith⟩
  have hlen : (m.flat.length : ℝ) = ys.length := by rw [hys.length_eq]
  have hT : TwoLevels ys a b (e + w) := by
    refine ⟨?_, hab, ?_, ?_, ?_, ?_⟩
    · intro y hy
      obtain ⟨x, hx, hxy⟩ := binned_mem_right hys y hy
      exact (hm x hx).imp (step x y a hxy) (step x y b hxy)
    · obtain ⟨y, hy, hxy⟩ := binned_mem_left hys xl hxl
      exact ⟨y, hy, step xl y a hxy hl⟩
    · obtain ⟨y, hy, hxy⟩ := binned_mem_left hys xh hxh
      exact ⟨y, hy, step xh y b hxy hh⟩
    · rw [← hlen]
      refine hdark.trans (mul_le_mul_of_nonneg_left ?_ (sq_nonneg _))
      exact_mod_cast count_close (P := fun x => |x - a| ≤ e) (Q := fun y => |y - a| ≤ e + w) hys fun x y hxy hx => step x y a hxy hx
    · rw [← hlen]
      refine hbright.trans (mul_le_mul_of_nonneg_left ?_ (sq_nonneg _))
      exact_mod_cast count_close (P := fun x => |x - b| ≤ e) (Q := fun y => |y - b| ≤ e + w) hys fun x y hxy hx => step x y b hxy hx
  obtain ⟨s1, s2⟩ := otsu_separates hT ho
  obtain ⟨xt, hxt, hbt⟩ := binned_mem_right hys t ho.mem
  have hct := abs_le.1 (hclose xt t hbt)
  refine ⟨t, et, fun x hx => ⟨fun h => ?_, fun h => ?_⟩, xt, hxt, ?_, abs_le.2 ⟨by linarith, by linarith⟩⟩
  · obtain ⟨y, hy, hxy⟩ := binned_mem_left hys x hx
    have h1 := s1 y hy (step x y a hxy h)
    have h2 := abs_le.1 (hclose x y hxy)
    linarith
  · obtain ⟨y, hy, hxy⟩ := binned_mem_left hys x hx
    have h1 := s2 y hy (step x y b hxy h)
    have h2 := abs_le.1 (hclose x y hxy)
    obtain ⟨k, _, ek, _⟩ := hbt
    obtain ⟨k', _, ek', _⟩ := hxy
    rw [← hW] at ek ek'
    have hkk : k + 1 ≤ k' := by
      have : (k : ℝ) < k' := by
        by_contra hc
        rw [not_lt] at hc
        have := mul_le_mul_of_nonneg_right hc hWpos.le
        rw [ek, ek'] at h1
        linarith
      exact_mod_cast this
    have hkk' : (k : ℝ) + 1 ≤ k' := by exact_mod_cast hkk
    have := mul_le_mul_of_nonneg_right hkk' hWpos.le
    rw [ek'] at h2
    rw [ek]
    linarith
  · rcases hm xt hxt with h | h
    · exact h
    · exact absurd (s2 t ho.mem (step xt t b hbt h)) (lt_irrefl _)

/-- **C123 (given threshold).** Noise up to `e` does not change the mask if each pixel of the clean image (with denoising: its magnitude) is more than `e` above
the given threshold or at least `e` below it. -/
theorem C123_given (otsu : Mat ℝ → Except PyErr ℝ) (m c : Mat ℝ) (ratio s e : ℝ) (denoise : Bool) (h0 : 0 < c.height) (h1 : 0 < c.width)
    (eh : m.height = c.height) (ew : m.width = c.width) (hn : ∀ i < c.height, ∀ j < c.width, |m.get i j - c.get i j| ≤ e)
    (hs : denoise = false → ∀ i < c.height, ∀ j < c.width, c.get i j ≤ s - e ∨ s + e < c.get i j)
    (hs' : denoise = true → ∀ i < c.height, ∀ j < c.width, |c.get i j| ≤ s - e ∨ s + e < |c.get i j|) :
    ∃ b1 b2, binarization otsu m ratio (some s) denoise = .ok b1 ∧ binarization otsu c ratio (some s) denoise = .ok b2 ∧ SameMask b1 b2 := by
  cases denoise with
  | false =>
    refine binarization_congr (by omega) (by omega) eh.symm ew.symm fun i hi j hj => ?_
    have h := abs_le.1 (hn i (by omega) j (by omega))
    rcases hs rfl i (by omega) j (by omega) with h2 | h2 <;> constructor <;> intro h3 <;> linarith
  | true =>
    rw [binarization_denoise, binarization_denoise]
    refine binarization_congr (by show 0 < m.height; omega) (by show 0 < m.width; omega) eh.symm ew.symm fun i hi j hj => ?_
    have hi' : i < c.height := eh ▸ hi
    have hj' : j < c.width := ew ▸ hj
    have h := abs_le.1 (medianFilter_close eh ew hn hi' hj')
    obtain ⟨k, l, hk, hl, ek⟩ := medianFilter_from hi' hj'
    rw [ek] at h ⊢
    rcases hs' rfl k hk l hl with h2 | h2 <;> constructor <;> intro h3 <;> linarith

theorem noisy_binarization {m c : Mat ℝ} {n : ℕ} {ratio a b e s : ℝ} (hs : a ≤ s ∧ s < b) (eh : m.height = c.height) (ew : m.width = c.width)
    (hz : ∀ i < c.height, ∀ j < c.width, ∃ z : ℤ, m.get i j = z) (hc : ∀ i < c.height, ∀ j < c.width, c.get i j = a ∨ c.get i j = b)
    (hn : ∀ i < c.height, ∀ j < c.width, |m.get i j - c.get i j| ≤ e)
    (hroi : ∀ roi, IsMiddlePart m ratio roi → TwoLevels roi.flat a b e ∧ ∃ x ∈ roi.flat, |x - a| ≤ e ∧
      ∀ i < c.height, ∀ j < c.width, c.get i j = a → m.get i j ≤ x) :
    ∃ b1 b2, binarization (thresholdOtsu true n) m ratio none false = .ok b1 ∧
      binarization (thresholdOtsu true n) c ratio (some s) false = .ok b2 ∧ SameMask b1 b2 := by
  obtain ⟨y, x, hp, e1, e2, hr, _⟩ := C37_roi m ratio
  obtain ⟨hT, z, hz1, hz2, hz3⟩ := hroi _ ⟨y, x, hp, e1, e2, hr⟩
  have hrows := hp.rows
  have hcols := hp.cols
  obtain ⟨t, et, ht, _, hta⟩ := C123_integer (selectRoi m ratio false) n (by
    intro z hz'
    obtain ⟨i, j, hi, hj, rfl⟩ := mem_flat_iff.1 hz'
    rw [hp.get]
    exact hz _ (by omega) _ (by omega)) a b e hT
  obtain ⟨i0, j0, hi0, hj0, _⟩ := mem_flat_iff.1 hz1
  have hzt := (ht z hz1).1 hz2
  have hta' := abs_le.1 hta
  have hap := hT.apart
  rw [binarization_none et]
  refine binarization_congr (by omega) (by omega) eh.symm ew.symm fun i hi j hj => ?_
  have hij := abs_le.1 (hn i (by omega) j (by omega))
  rcases hc i (by omega) j (by omega) with h | h
  · have h3 := hz3 i (by omega) j (by omega) h
    rw [h]
    exact ⟨fun h' => absurd h' (by linarith), fun h' => absurd h' (by linarith)⟩
  · rw [h] at hij ⊢
    exact ⟨fun _ => hs.2, fun _ => by linarith⟩

/-- **C123 (mask).** Let a clean image have the levels `a` and `b` only, and a noisy image of integers differ from it by at most `e`. If in the middle part of the noisy
image the levels are far enough apart, and this part contains a dark pixel that no dark pixel of the image exceeds, then the mask of the noisy image without a given threshold is the
mask of the clean image with any threshold from `a` up to `b`. -/
theorem C123_mask (m c : Mat ℝ) (n : ℕ) (ratio a b e s : ℝ) (hs : a ≤ s ∧ s < b) (eh : m.height = c.height) (ew : m.width = c.width)
    (hz : ∀ i < c.height, ∀ j < c.width, ∃ z : ℤ, m.get i j = z) (hc : ∀ i < c.height, ∀ j < c.width, c.get i j = a ∨ c.get i j = b)
    (hn : ∀ i < c.height, ∀ j < c.width, |m.get i j - c.get i j| ≤ e)
    (hroi : ∀ roi, IsMiddlePart m ratio roi → TwoLevels roi.flat a b e ∧ ∃ x ∈ roi.flat, |x - a| ≤ e ∧
      ∀ i < c.height, ∀ j < c.width, c.get i j = a → m.get i j ≤ x) :
    ∃ b1 b2, binarization (thresholdOtsu true n) m ratio none false = .ok b1 ∧
      binarization (thresholdOtsu true n) c ratio (some s) false = .ok b2 ∧ SameMask b1 b2 := noisy_binarization hs eh ew hz hc hn hroi

/-- **C123 (mask with denoising).** The same with denoising, for levels that are not negative, the conditions on the middle part being meant for the denoised images:
each pixel is replaced by the third smallest of the magnitudes of itself and its left, upper and upper left neighbours. -/
theorem C123_denoise (m c : Mat ℝ) (n : ℕ) (ratio a b e s : ℝ) (ha : 0 ≤ a) (hs : a ≤ s ∧ s < b) (eh : m.height = c.height) (ew : m.width = c.width)
    (hz : ∀ i < c.height, ∀ j < c.width, ∃ z : ℤ, m.get i j = z) (hc : ∀ i < c.height, ∀ j < c.width, c.get i j = a ∨ c.get i j = b)
    (hn : ∀ i < c.height, ∀ j < c.width, |m.get i j - c.get i j| ≤ e)
    (hroi : ∀ f g roi : Mat ℝ, f.height = m.height → f.width = m.width →
      (∀ i < m.height, ∀ j < m.width, IsRank [|m.get (i - 1) (j - 1)|, |m.get (i - 1) j|, |m.get i (j - 1)|, |m.get i j|] 2 (f.get i j)) →
      (∀ i < c.height, ∀ j < c.width, IsRank [|c.get (i - 1) (j - 1)|, |c.get (i - 1) j|, |c.get i (j - 1)|, |c.get i j|] 2 (g.get i j)) →
      IsMiddlePart f ratio roi → TwoLevels roi.flat a b e ∧ ∃ x ∈ roi.flat, |x - a| ≤ e ∧
        ∀ i < c.height, ∀ j < c.width, g.get i j = a → f.get i j ≤ x) :
    ∃ b1 b2, binarization (thresholdOtsu true n) m ratio none true = .ok b1 ∧
      binarization (thresholdOtsu true n) c ratio (some s) true = .ok b2 ∧ SameMask b1 b2 := by
  rw [binarization_denoise, binarization_denoise]
  refine noisy_binarization hs eh ew ?_ ?_ (fun i hi j hj => medianFilter_close eh ew hn hi hj) fun roi hr => ?_
  · intro i hi j hj
    obtain ⟨k, l, hk, hl, ek⟩ := medianFilter_from (m := m) (i := i) (j := j) (eh ▸ hi) (ew ▸ hj)
    obtain ⟨z, hz'⟩ := hz k (eh ▸ hk) l (ew ▸ hl)
    rw [ek, hz']
    exact ⟨|z|, by push_cast; rfl⟩
  · intro i hi j hj
    obtain ⟨k, l, hk, hl, ek⟩ := medianFilter_from (m := c) (i := i) (j := j) hi hj
    rw [ek]
    rcases hc k hk l hl with h | h
    · exact .inl (by rw [h, abs_of_nonneg ha])
    · exact .inr (by rw [h, abs_of_nonneg (by linarith)])
  · exact hroi _ _ roi rfl rfl (fun i hi j hj => medianFilter_two { m with get := fun i j => |m.get i j| } hi hj)
      (fun i hi j hj => medianFilter_two { c with get := fun i j => |c.get i j| } hi hj) hr

/-- **C123 (the balance is needed).** The integers 0, 0, 0, 4, 4, 4, 9 lie within 2 of the levels 2 and 9, which are more than 4 apart; the threshold is 0, between the pixels near
the lower level. -/
theorem C123_split (n : ℕ) : ∃ m : Mat ℝ, (∀ x ∈ m.flat, |x - 2| ≤ 2 ∨ |x - 9| ≤ 2) ∧ (9 : ℝ) ∈ m.flat ∧ (4 : ℝ) ∈ m.flat ∧ thresholdOtsu true n m = .ok 0 := by
  have hf : (⟨1, 7, fun _ j => if j < 3 then 0 else if j < 6 then 4 else 9⟩ : Mat ℝ).flat = [0, 0, 0, 4, 4, 4, 9] := by
    simp [Mat.flat, List.range_succ]
  refine ⟨⟨1, 7, fun _ j => if j < 3 then 0 else if j < 6 then 4 else 9⟩, ?_, by rw [hf]; simp, by rw [hf]; simp, ?_⟩
  · rw [hf]
    intro x hx
    simp only [List.mem_cons, List.not_mem_nil, or_false] at hx
    rcases hx with rfl | rfl | rfl | rfl | rfl | rfl | rfl <;> norm_num [abs_le]
  · obtain ⟨t, et, ho, _⟩ := C90_integer ⟨1, 7, fun _ j => if j < 3 then 0 else if j < 6 then 4 else 9⟩ n (by
      rw [hf]
      intro x hx
      simp only [List.mem_cons, List.not_mem_nil, or_false] at hx
      rcases hx with rfl | rfl | rfl | rfl | rfl | rfl | rfl
      exacts [⟨0, by norm_num⟩, ⟨0, by norm_num⟩, ⟨0, by norm_num⟩, ⟨4, by norm_num⟩, ⟨4, by norm_num⟩, ⟨4, by norm_num⟩, ⟨9, by norm_num⟩])
      (by rw [hf]; exact ⟨0, by simp, 4, by simp, by norm_num⟩)
    rw [et]
    rw [hf] at ho
    have h0 : classSpread [0, 0, 0, 4, 4, 4, 9] 0 = 3 * 4 * (21 / 4) ^ 2 := by
      unfold classSpread
      norm_num [List.filter_cons]
    have hm := ho.mem
    have hb := ho.best 0
    rw [h0] at hb
    simp only [List.mem_cons, List.not_mem_nil, or_false] at hm
    have h4 : classSpread [0, 0, 0, 4, 4, 4, 9] 4 = 6 * 1 * 7 ^ 2 := by
      unfold classSpread
      norm_num [List.filter_cons]
    have h9 : classSpread [0, 0, 0, 4, 4, 4, 9] 9 = 0 := by
      unfold classSpread
      norm_num [List.filter_cons]
    rcases hm with rfl | rfl | rfl | rfl | rfl | rfl | rfl
    · rfl
    · rfl
    · rfl
    · rw [h4] at hb; norm_num at hb
    · rw [h4] at hb; norm_num at hb
    · rw [h4] at hb; norm_num at hb
    · rw [h9] at hb; norm_num at hb

/-- **C123 (floats near the threshold).** For the floats 0, 0.09 and 1 and ten bins, the threshold is below 0.09, although 0 and 0.09 are near the lower of two levels that
are far enough apart: a pixel near the lower level can be above the threshold. -/
theorem C123_float_above : ∃ t, thresholdOtsu false 10 ⟨1, 3, fun _ j => if j = 0 then 0 else if j = 1 then 0.09 else 1⟩ = .ok t ∧
    t < (0.09 : ℝ) := by
  have hf : (⟨1, 3, fun _ j => if j = 0 then 0 else if j = 1 then 0.09 else 1⟩ : Mat ℝ).flat = [0, 0.09, 1] := by
    simp [Mat.flat, List.range_succ]
  obtain ⟨t, et, h1, x, hx, hxa, hxt⟩ := C123_float ⟨1, 3, fun _ j => if j = 0 then 0 else if j = 1 then 0.09 else 1⟩ 10 (by norm_num) 0.045 1 0.045 0.05225 (by norm_num)
    (by
      rw [hf]
      intro x hx
      simp only [List.mem_cons, List.not_mem_nil, or_false] at hx
      rcases hx with rfl | rfl | rfl <;> norm_num [abs_le])
    ⟨0, by rw [hf]; simp, by norm_num [abs_le]⟩ ⟨1, by rw [hf]; simp, by norm_num⟩ (by norm_num)
    (by rw [hf]; norm_num [List.filter_cons, abs_le]) (by rw [hf]; norm_num [List.filter_cons, abs_le])
  obtain ⟨t', lo, hi, ys, et', hlo, hhi, hr, _, _, hys, ho⟩ := C90_float ⟨1, 3, fun _ j => if j = 0 then 0 else if j = 1 then 0.09 else 1⟩ 10 (by norm_num)
    ⟨0, by rw [hf]; simp, 1, by rw [hf]; simp, by norm_num⟩
  rw [et] at et'
  injection et' with et'
  subst et'
  rw [hf] at hlo hhi hr hys h1 hx
  have b0 := hr 0 (by simp)
  have b1 := hr 1 (by simp)
  have elo : lo = 0 := by
    simp only [List.mem_cons, List.not_mem_nil, or_false] at hlo
    rcases hlo with rfl | rfl | rfl
    · rfl
    · linarith [b0.1]
    · linarith [b0.1]
  have ehi : hi = 1 := by
    simp only [List.mem_cons, List.not_mem_nil, or_false] at hhi
    rcases hhi with rfl | rfl | rfl
    · linarith [b1.2]
    · linarith [b1.2]
    · rfl
  subst elo ehi
  refine ⟨t, et, ?_⟩
  have h2 := (h1 1 (by simp)).2 (by norm_num)
  obtain ⟨z, hz, k, hk, ek, k1, k2⟩ := binned_mem_right hys t ho.mem
  -- the threshold is the centre of the bin of a dark pixel
  have hxl : x ≤ 0.09 := by
    have := (abs_le.1 hxa).2
    linarith
  have := (abs_le.1 hxt).1
  have hk1 : k < 1 := by
    by_contra hc
    have : (1 : ℝ) ≤ k := by exact_mod_cast not_lt.1 hc
    have h3 : (k : ℝ) < 2 := by
      norm_num at ek
      linarith
    have hk2 : k = 1 := by
      have : k < 2 := by exact_mod_cast h3
      have : 1 ≤ k := not_lt.1 hc
      omega
    subst hk2
    norm_num at k1 k2 ek
    simp only [List.mem_cons, List.not_mem_nil, or_false] at hz
    rcases hz with rfl | rfl | rfl
    · norm_num at k1
    · norm_num at k1
    · norm_num at k2
  have : k = 0 := by omega
  subst this
  rw [ek]
  norm_num

/-- **C123 (whole numbers held as floats).** If the pixels held as floats are whole numbers and there are more bins than the distance of the levels and twice the noise, the
threshold is within half a grey level of the largest pixel near the lower level, `l`: all smaller pixels are below it, and all pixels near the higher level above. -/
theorem C123_float_whole (m : Mat ℝ) (n : ℕ) (hn : 2 ≤ n) (hz : ∀ x ∈ m.flat, ∃ z : ℤ, x = z) (a b e w : ℝ) (hw : w = (b - a + 2 * e) / (2 * n))
    (hbins : b - a + 2 * e < n) (hm : ∀ x ∈ m.flat, |x - a| ≤ e ∨ |x - b| ≤ e) (ha : ∃ x ∈ m.flat, |x - a| ≤ e) (hb : ∃ x ∈ m.flat, |x - b| ≤ e)
    (hab : a + 2 * (e + w) < b)
    (hdark : (2 * (e + w)) ^ 2 * m.flat.length ≤ (b - a - 2 * (e + w)) ^ 2 * (m.flat.filter fun x => |x - a| ≤ e).length)
    (hbright : (2 * (e + w)) ^ 2 * m.flat.length ≤ (b - a - 2 * (e + w)) ^ 2 * (m.flat.filter fun x => |x - b| ≤ e).length) :
    ∃ t, thresholdOtsu false n m = .ok t ∧ ∃ l ∈ m.flat, |l - a| ≤ e ∧ |l - t| < 1 / 2 ∧
      ∀ x ∈ m.flat, (|x - a| ≤ e → x ≤ l) ∧ (x < l → x < t) ∧ (|x - b| ≤ e → t < x) := by
  obtain ⟨t, et, ht, l, hl, hla, hlt⟩ := C123_float m n hn a b e w hw hm ha hb hab hdark hbright
  have hn' : (0 : ℝ) < n := Nat.cast_pos.2 (by omega)
  have hw2 : w < 1 / 2 := by
    rw [hw, div_lt_iff₀ (by positivity)]
    linarith
  have hlt' := abs_le.1 hlt
  obtain ⟨zl, rfl⟩ := hz l hl
  refine ⟨t, et, zl, hl, hla, hlt.trans_lt hw2, fun x hx => ?_⟩
  obtain ⟨z, rfl⟩ := hz x hx
  refine ⟨fun h => ?_, fun h => ?_, (ht _ hx).2⟩
  · have h1 := (ht _ hx).1 h
    have h2 : (z : ℝ) < zl + 1 := by linarith
    have h3 : z < zl + 1 := by exact_mod_cast h2
    exact_mod_cast (by omega : z ≤ zl)
  · have h1 : z < zl := by exact_mod_cast h
    have h2 : (z : ℝ) + 1 ≤ zl := by exact_mod_cast (by omega : z + 1 ≤ zl)
    linarith

/-- Six integers near 10 and 50, off by up to 3. -/
theorem twoLevels_example : TwoLevels [8, 12, 10, 50, 53, 47] 10 50 3 where
  near := by
    intro x hx
    simp only [List.mem_cons, List.not_mem_nil, or_false] at hx
    rcases hx with rfl | rfl | rfl | rfl | rfl | rfl <;> norm_num [abs_le]
  apart := by norm_num
  low := ⟨8, by simp, by norm_num [abs_le]⟩
  high := ⟨50, by simp, by norm_num [abs_le]⟩
  dark := by norm_num [List.filter_cons, abs_le]
  bright := by norm_num [List.filter_cons, abs_le]

/-- The noisy image of the examples. -/
noncomputable def noisyRow : Mat ℝ := ⟨1, 6, fun _ j => [8, 12, 10, 50, 53, 47].getD j 0⟩

theorem noisyRow_flat : noisyRow.flat = [8, 12, 10, 50, 53, 47] := by simp [noisyRow, Mat.flat, List.range_succ]

theorem noisyRow_get {j : ℕ} (hj : j < 6) : (∃ z : ℤ, noisyRow.get 0 j = z) ∧ |noisyRow.get 0 j - (if j < 3 then 10 else 50)| ≤ 3 := by
  interval_cases j
  exacts [⟨⟨8, by norm_num [noisyRow]⟩, by norm_num [noisyRow, abs_le]⟩, ⟨⟨12, by norm_num [noisyRow]⟩, by norm_num [noisyRow, abs_le]⟩,
    ⟨⟨10, by norm_num [noisyRow]⟩, by norm_num [noisyRow, abs_le]⟩, ⟨⟨50, by norm_num [noisyRow]⟩, by norm_num [noisyRow, abs_le]⟩,
    ⟨⟨53, by norm_num [noisyRow]⟩, by norm_num [noisyRow, abs_le]⟩, ⟨⟨47, by norm_num [noisyRow]⟩, by norm_num [noisyRow, abs_le]⟩]

example : ∃ t, thresholdOtsu true 512 noisyRow = .ok t ∧ 12 ≤ t ∧ t < 47 := by
  obtain ⟨t, et, ht, _⟩ := C123_integer noisyRow 512 (by
    rw [noisyRow_flat]
    intro x hx
    simp only [List.mem_cons, List.not_mem_nil, or_false] at hx
    rcases hx with rfl | rfl | rfl | rfl | rfl | rfl
    exacts [⟨8, by norm_num⟩, ⟨12, by norm_num⟩, ⟨10, by norm_num⟩, ⟨50, by norm_num⟩, ⟨53, by norm_num⟩, ⟨47, by norm_num⟩]) 10 50 3
    (by rw [noisyRow_flat]; exact twoLevels_example)
  rw [noisyRow_flat] at ht
  exact ⟨t, et, (ht 12 (by simp)).1 (by norm_num [abs_le]), (ht 47 (by simp)).2 (by norm_num [abs_le])⟩

/-- Noise up to 3 in a checkered image with the values 10 and 50, with and without denoising. -/
example (otsu : Mat ℝ → Except PyErr ℝ) (denoise : Bool) (noise : ℕ → ℕ → ℝ) (h : ∀ i j, |noise i j| ≤ 3) :=
  C123_given otsu ⟨8, 9, fun i j => (if (i + j) % 2 = 0 then 10 else 50) + noise i j⟩ ⟨8, 9, fun i j => if (i + j) % 2 = 0 then 10 else 50⟩ 0.3 30 3 denoise
    (by norm_num) (by norm_num) rfl rfl (fun i _ j _ => by simpa using h i j)
    (fun _ i _ j _ => by by_cases h : (i + j) % 2 = 0 <;> simp only [h, if_true, if_false] <;> norm_num)
    (fun _ i _ j _ => by by_cases h : (i + j) % 2 = 0 <;> simp only [h, if_true, if_false] <;> norm_num)

example := C123_mask noisyRow ⟨1, 6, fun _ j => if j < 3 then 10 else 50⟩ 512 1 10 50 3 30 (by norm_num) rfl rfl
  (fun i hi j hj => by
    have : i = 0 := Nat.lt_one_iff.1 hi
    subst this
    exact (noisyRow_get hj).1)
  (fun i _ j _ => by by_cases h : j < 3 <;> simp [h])
  (fun i hi j hj => by
    have : i = 0 := Nat.lt_one_iff.1 hi
    subst this
    exact (noisyRow_get hj).2)
  (fun roi hr => by
    rw [middlePart_flat hr, noisyRow_flat]
    refine ⟨twoLevels_example, 12, by simp, by norm_num [abs_le], fun i _ j hj hc => ?_⟩
    have hj3 : j < 3 := by
      by_contra h3
      simp only [h3, if_false] at hc
      norm_num at hc
    interval_cases j <;> norm_num [noisyRow])

/-- In a single row of six pixels the denoised row is 8, 12, 12, 50, 53, 53. -/
theorem noisyRow_rank {f : Mat ℝ} (h : ∀ i < 1, ∀ j < 6,
    IsRank [|noisyRow.get (i - 1) (j - 1)|, |noisyRow.get (i - 1) j|, |noisyRow.get i (j - 1)|, |noisyRow.get i j|] 2 (f.get i j)) :
    f.get 0 0 = 8 ∧ f.get 0 1 = 12 ∧ f.get 0 2 = 12 ∧ f.get 0 3 = 50 ∧ f.get 0 4 = 53 ∧ f.get 0 5 = 53 := by
  refine ⟨isRank_unique (h 0 (by norm_num) 0 (by norm_num)) ?_, isRank_unique (h 0 (by norm_num) 1 (by norm_num)) ?_,
    isRank_unique (h 0 (by norm_num) 2 (by norm_num)) ?_, isRank_unique (h 0 (by norm_num) 3 (by norm_num)) ?_,
    isRank_unique (h 0 (by norm_num) 4 (by norm_num)) ?_, isRank_unique (h 0 (by norm_num) 5 (by norm_num)) ?_⟩ <;>
  norm_num [IsRank, noisyRow, List.countP_cons]

example := C123_denoise noisyRow ⟨1, 6, fun _ j => if j < 3 then 10 else 50⟩ 512 1 10 50 3 30 (by norm_num) (by norm_num) rfl rfl
  (fun i hi j hj => by
    have : i = 0 := Nat.lt_one_iff.1 hi
    subst this
    exact (noisyRow_get hj).1)
  (fun i _ j _ => by by_cases h : j < 3 <;> simp [h])
  (fun i hi j hj => by
    have : i = 0 := Nat.lt_one_iff.1 hi
    subst this
    exact (noisyRow_get hj).2)
  (fun f g roi eh ew hf hg hr => by
    obtain ⟨f0, f1, f2, f3, f4, f5⟩ := noisyRow_rank hf
    have ef : f.flat = [8, 12, 12, 50, 53, 53] := by
      unfold Mat.flat
      rw [eh, ew]
      simp [noisyRow, List.range_succ, f0, f1, f2, f3, f4, f5]
    rw [middlePart_flat hr, ef]
    have hT : TwoLevels [8, 12, 12, 50, 53, 53] 10 50 3 := by
      refine ⟨?_, by norm_num, ⟨8, by simp, by norm_num [abs_le]⟩, ⟨50, by simp, by norm_num [abs_le]⟩, by norm_num [List.filter_cons, abs_le],
        by norm_num [List.filter_cons, abs_le]⟩
      intro x hx
      simp only [List.mem_cons, List.not_mem_nil, or_false] at hx
      rcases hx with rfl | rfl | rfl | rfl | rfl | rfl <;> norm_num [abs_le]
    refine ⟨hT, 12, by simp, by norm_num [abs_le], fun i hi j hj hc => ?_⟩
    have hi0 : i = 0 := Nat.lt_one_iff.1 hi
    subst hi0
    have hj3 : j < 3 := by
      by_contra h3
      have hm := hg 0 hi j hj
      rw [hc] at hm
      have hj' : j < 6 := hj
      clear hj hc
      interval_cases j <;> first | omega | norm_num [IsRank, List.countP_cons] at hm
    interval_cases j <;> norm_num [f0, f1, f2])

/-- The same whole numbers held as floats, 256 bins. -/
example : ∃ t, thresholdOtsu false 256 noisyRow = .ok t ∧ 11.5 < t ∧ t < 12.5 := by
  have hf := noisyRow_flat
  have hw : (46 : ℝ) / 512 = (50 - 10 + 2 * 3) / (2 * (256 : ℕ)) := by norm_num
  obtain ⟨t, et, l, hl, hla, hlt, h⟩ := C123_float_whole noisyRow 256 (by norm_num) (by
    rw [hf]
    intro x hx
    simp only [List.mem_cons, List.not_mem_nil, or_false] at hx
    rcases hx with rfl | rfl | rfl | rfl | rfl | rfl
    exacts [⟨8, by norm_num⟩, ⟨12, by norm_num⟩, ⟨10, by norm_num⟩, ⟨50, by norm_num⟩, ⟨53, by norm_num⟩, ⟨47, by norm_num⟩]) 10 50 3 (46 / 512) hw
    (by norm_num)
    (by
      rw [hf]
      intro x hx
      simp only [List.mem_cons, List.not_mem_nil, or_false] at hx
      rcases hx with rfl | rfl | rfl | rfl | rfl | rfl <;> norm_num [abs_le])
    ⟨8, by rw [hf]; simp, by norm_num [abs_le]⟩ ⟨50, by rw [hf]; simp, by norm_num⟩ (by norm_num)
    (by rw [hf]; norm_num [List.filter_cons, abs_le]) (by rw [hf]; norm_num [List.filter_cons, abs_le])
  have h12 := (h 12 (by rw [hf]; simp)).1 (by norm_num [abs_le])
  rw [hf] at hl
  simp only [List.mem_cons, List.not_mem_nil, or_false] at hl
  have hlt' := abs_lt.1 hlt
  rcases hl with rfl | rfl | rfl | rfl | rfl | rfl
  · norm_num at h12
  · exact ⟨t, et, by linarith, by linarith⟩
  · norm_num at h12
  all_goals norm_num [abs_le] at hla

end Discorpy
