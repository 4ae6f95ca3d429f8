import Verif.Lemmas.Pattern

/-! # C68 — the dot-pattern image -/

namespace Discorpy
open Spec

/-- Selected indices of a stepped slice away from the borders. -/
theorem inSteppedSlice_iff {len : ℕ} {a step : ℤ} (ha : 0 ≤ a) (hs : 0 < step) {i : ℕ} (hi : i < len) :
    inSteppedSlice len a (len - a) step i ↔ ∃ k, DotCentre a (len - a) step k i := by
  unfold inSteppedSlice
  constructor
  · rintro ⟨k, hk, hlt⟩
    have hp : 0 ≤ (k : ℤ) * step := by positivity
    unfold sliceBound at hk hlt
    rw [if_neg (by omega)] at hk
    refine ⟨k, ?_, ?_⟩
    · split_ifs at hlt <;> omega
    · split_ifs at hlt <;> omega
  · rintro ⟨k, hk, hlt⟩
    have hp : 0 ≤ (k : ℤ) * step := by positivity
    refine ⟨k, ?_, ?_⟩ <;> unfold sliceBound
    · rw [if_neg (by omega)]; omega
    · rw [if_neg (by omega)]; omega

theorem mask_iff {s : ℤ} (hs : 0 ≤ s) {a b : ℕ} : (makeCircleMask s.toNat 1).get a b ≠ 0 ↔
    ((b : ℤ) - s / 2) ^ 2 + ((a : ℤ) - s / 2) ^ 2 ≤ (s / 2) ^ 2 := by
  have e : ((s.toNat / 2 : ℕ) : ℤ) = s / 2 := by omega
  unfold makeCircleMask
  simp only [e, one_mul]
  rw [ne_eq, ite_eq_right_iff]
  simp only [one_ne_zero, imp_false, not_not]
  have : ((-((s / 2 : ℤ) : ℝ) + ((b : ℤ) : ℝ)) * (-((s / 2 : ℤ) : ℝ) + ((b : ℤ) : ℝ)) +
      (-((s / 2 : ℤ) : ℝ) + ((a : ℤ) : ℝ)) * (-((s / 2 : ℤ) : ℝ) + ((a : ℤ) : ℝ)) ≤ ((s / 2 : ℤ) : ℝ) * ((s / 2 : ℤ) : ℝ)) ↔
      ((-(s / 2) + (b : ℤ)) * (-(s / 2) + (b : ℤ)) + (-(s / 2) + (a : ℤ)) * (-(s / 2) + (a : ℤ)) ≤ (s / 2) * (s / 2) : Prop) := by
    exact_mod_cast Iff.rfl
  rw [this]
  constructor <;> intro h <;> nlinarith

open Classical in
/-- **C68 (pixels).** Let `s` be the dot size: the requested one brought into the range from 1 to an eighth of the shorter
side, not larger than the dot distance `d`. The image has the requested size; a pixel is black (0) exactly if it belongs to
the dot around one of the centres, which start `s // 2 + 1` inside the margins, and white (1) otherwise. -/
theorem C68_pixels {height width : ℕ} {d ds s : ℤ} {margin : MarginArg} {mv mh : ℤ}
    (hmarg : margin = .int mv ∧ mh = mv ∨ ∃ rest, margin = .seq (mv :: mh :: rest)) (hv : 0 ≤ mv) (hh : 0 ≤ mh)
    (hs : s = min (max ds 1) ((min height width / 8 : ℕ) : ℤ)) (hs1 : 1 ≤ s) (hd : s ≤ d) :
    ∃ r, makeDotPattern height width d ds margin = .ok r ∧ r.height = height ∧ r.width = width ∧
      ∀ y x : ℕ, y < height → x < width →
        let black := ∃ k l : ℕ, ∃ p q : ℤ, DotCentre (mv + (s / 2 + 1)) (height - (mv + (s / 2 + 1))) d k p ∧
          DotCentre (mh + (s / 2 + 1)) (width - (mh + (s / 2 + 1))) d l q ∧ InDot s (y - p) (x - q)
        (black → r.get y x = 0) ∧ (¬ black → r.get y x = 1) := by
  have hm : unpackMargin margin = .ok (mv, mh) := by
    rcases hmarg with ⟨rfl, rfl⟩ | ⟨rest, rfl⟩ <;> rfl
  have hs' : clipSize ds height width = s := hs.symm
  unfold makeDotPattern
  rw [hs']
  simp only
  rw [if_neg (by omega)]
  simp only [hm, ok_bind]
  rw [if_neg (by omega)]
  unfold binaryDilation
  rw [if_neg (by unfold makeCircleMask; simp only; omega)]
  simp only [ok_bind]
  refine ⟨_, rfl, rfl, rfl, fun y x hy hx => ?_⟩
  simp only
  have hmv : 0 ≤ mv + (s / 2 + 1) := by omega
  have hmh : 0 ≤ mh + (s / 2 + 1) := by omega
  rw [show (height : ℤ) - mv - (s / 2 + 1) = height - (mv + (s / 2 + 1)) by ring,
    show (width : ℤ) - mh - (s / 2 + 1) = width - (mh + (s / 2 + 1)) by ring]
  have key : (∃ p q a b : ℕ, p < height ∧ q < width ∧
      (if inSteppedSlice height (mv + (s / 2 + 1)) (height - (mv + (s / 2 + 1))) d p ∧
        inSteppedSlice width (mh + (s / 2 + 1)) (width - (mh + (s / 2 + 1))) d q then (1 : ℝ) else 0) ≠ 0 ∧
      a < (makeCircleMask s.toNat 1).height ∧ b < (makeCircleMask s.toNat 1).width ∧ (makeCircleMask s.toNat 1).get a b ≠ 0 ∧
      (y : ℤ) = p + (a - ((makeCircleMask s.toNat 1).height / 2 : ℕ)) ∧ (x : ℤ) = q + (b - ((makeCircleMask s.toNat 1).width / 2 : ℕ))) ↔
      ∃ k l : ℕ, ∃ p q : ℤ, DotCentre (mv + (s / 2 + 1)) (height - (mv + (s / 2 + 1))) d k p ∧
          DotCentre (mh + (s / 2 + 1)) (width - (mh + (s / 2 + 1))) d l q ∧ InDot s (y - p) (x - q) := by
    have e : ((s.toNat / 2 : ℕ) : ℤ) = s / 2 := by omega
    have eh : (makeCircleMask s.toNat 1).height = s.toNat := rfl
    have ew : (makeCircleMask s.toNat 1).width = s.toNat := rfl
    rw [eh, ew]
    constructor
    · rintro ⟨p, q, a, b, hp, hq, hset, ha, hb, hmask, hy', hx'⟩
      rw [mask_iff (by omega)] at hmask
      have hset' : inSteppedSlice height (mv + (s / 2 + 1)) (height - (mv + (s / 2 + 1))) d p ∧
        inSteppedSlice width (mh + (s / 2 + 1)) (width - (mh + (s / 2 + 1))) d q := by
        by_contra hc
        rw [if_neg hc] at hset
        exact hset rfl
      rw [inSteppedSlice_iff hmv (by omega) hp, inSteppedSlice_iff hmh (by omega) hq] at hset'
      obtain ⟨⟨k, hk⟩, l, hl⟩ := hset'
      refine ⟨k, l, p, q, hk, hl, by omega, by omega, by omega, by omega, ?_⟩
      rw [show (x : ℤ) - q = b - s / 2 by omega, show (y : ℤ) - p = a - s / 2 by omega]
      exact hmask
    · rintro ⟨k, l, p, q, hk, hl, hin⟩
      have kp : 0 ≤ (k : ℤ) * d := mul_nonneg (by omega) (by omega)
      have lp : 0 ≤ (l : ℤ) * d := mul_nonneg (by omega) (by omega)
      have i1 := hin.top; have i2 := hin.bottom; have i3 := hin.left; have i4 := hin.right; have i5 := hin.round
      have k1 := hk.eq; have k2 := hk.lt_stop; have l1 := hl.eq; have l2 := hl.lt_stop
      obtain ⟨p', rfl⟩ := Int.eq_ofNat_of_zero_le (show 0 ≤ p by omega)
      obtain ⟨q', rfl⟩ := Int.eq_ofNat_of_zero_le (show 0 ≤ q by omega)
      have hp' : p' < height := by omega
      have hq' : q' < width := by omega
      refine ⟨p', q', ((y : ℤ) - p' + s / 2).toNat, ((x : ℤ) - q' + s / 2).toNat, hp', hq', ?_, by omega, by omega, ?_, by omega, by omega⟩
      · rw [if_pos ⟨(inSteppedSlice_iff hmv (by omega) hp').2 ⟨k, hk⟩, (inSteppedSlice_iff hmh (by omega) hq').2 ⟨l, hl⟩⟩]
        exact one_ne_zero
      · rw [mask_iff (by omega), Int.toNat_of_nonneg (by omega), Int.toNat_of_nonneg (by omega)]
        simpa using i5
  constructor
  · intro h
    rw [if_pos (key.2 h), sub_self]
  · intro h
    rw [if_neg fun h' => h (key.1 h'), sub_zero]

/-- **C68 (separate dots).** No pixel belongs to two dots. -/
theorem C68_disjoint {s d a b c e : ℤ} (hd : s ≤ d) {k l k' l' : ℕ} {p q p' q' y x : ℤ} (h1 : DotCentre a b d k p)
    (h2 : DotCentre c e d l q) (h3 : InDot s (y - p) (x - q)) (h1' : DotCentre a b d k' p') (h2' : DotCentre c e d l' q')
    (h3' : InDot s (y - p') (x - q')) : k = k' ∧ l = l' := by
  have aux : ∀ {a : ℤ} {k k' : ℕ} {p p' y : ℤ}, p = a + k * d → p' = a + k' * d → -(s / 2) ≤ y - p → y - p < s - s / 2 →
      -(s / 2) ≤ y - p' → y - p' < s - s / 2 → k = k' := by
    intro a k k' p p' y e1 e2 i1 i2 i3 i4
    subst e1 e2
    exact cell_unique (start := a - s / 2) (step := d) (y := y) (by omega) (by omega) (by omega) (by omega)
  exact ⟨aux h1.eq h1'.eq h3.top h3.bottom h3'.top h3'.bottom, aux h2.eq h2'.eq h3.left h3.right h3'.left h3'.right⟩

/-- **C68 (margin).** The margin is blank. -/
theorem C68_margin {height width : ℕ} {d ds s : ℤ} {margin : MarginArg} {mv mh : ℤ}
    (hmarg : margin = .int mv ∧ mh = mv ∨ ∃ rest, margin = .seq (mv :: mh :: rest)) (hv : 0 ≤ mv) (hh : 0 ≤ mh)
    (hs : s = min (max ds 1) ((min height width / 8 : ℕ) : ℤ)) (hs1 : 1 ≤ s) (hd : s ≤ d) {r : Mat ℝ}
    (hr : makeDotPattern height width d ds margin = .ok r) {y x : ℕ} (hy : y < height) (hx : x < width)
    (hout : (y : ℤ) ≤ mv ∨ (x : ℤ) ≤ mh ∨ (height : ℤ) - mv ≤ y + 1 ∨ (width : ℤ) - mh ≤ x + 1) : r.get y x = 1 := by
  obtain ⟨r', h', _, _, h⟩ := C68_pixels (height := height) (width := width) hmarg hv hh hs hs1 hd
  rw [hr] at h'; injection h' with h'; subst h'
  refine (h y x hy hx).2 ?_
  rintro ⟨k, l, p, q, hk, hl, hin⟩
  have kp : 0 ≤ (k : ℤ) * d := mul_nonneg (by omega) (by omega)
  have lp : 0 ≤ (l : ℤ) * d := mul_nonneg (by omega) (by omega)
  have i1 := hin.top; have i2 := hin.bottom; have i3 := hin.left; have i4 := hin.right
  have k1 := hk.eq; have k2 := hk.lt_stop; have l1 := hl.eq; have l2 := hl.lt_stop
  omega

/-- **C68 (bad arguments).** A dot distance less than the (clipped) dot size raises `ValueError`; an image with fewer than 8
rows or columns raises `RuntimeError` (the dot is clipped to size 0) — or `ValueError` if the dot distance is 0. -/
theorem C68_errors (height width : ℕ) (d ds : ℤ) (n : ℤ) :
    (d < min (max ds 1) ((min height width / 8 : ℕ) : ℤ) → makeDotPattern height width d ds (.int n) = .error .valueError) ∧
    (min height width < 8 → 0 < d → makeDotPattern height width d ds (.int n) = .error .runtimeError) ∧
    (min height width < 8 → makeDotPattern height width 0 ds (.int n) = .error .valueError) := by
  refine ⟨fun h => ?_, fun h hd => ?_, fun h => ?_⟩
  · unfold makeDotPattern
    simp only
    rw [if_pos (by unfold clipSize; exact h)]
  · have e : clipSize ds height width = 0 := by unfold clipSize; omega
    unfold makeDotPattern
    rw [e]
    simp only [unpackMargin, ok_bind]
    rw [if_neg (by omega), if_neg (by omega)]
    unfold binaryDilation
    rw [if_pos (Or.inl (by rfl))]
    rfl
  · have e : clipSize ds height width = 0 := by unfold clipSize; omega
    unfold makeDotPattern
    rw [e]
    simp only [unpackMargin, ok_bind, lt_irrefl, if_false, if_true]

/-- The hypotheses can be met: in an 80 × 80 image with dots of size 5 every 20 pixels and margin 10, the first centre (13, 13)
is black and (16, 13) is white. -/
example : ∃ r, makeDotPattern 80 80 20 5 (.int 10) = .ok r ∧ r.get 13 13 = 0 ∧ r.get 16 13 = 1 := by
  obtain ⟨r, h, _, _, hp⟩ := C68_pixels (height := 80) (width := 80) (d := 20) (ds := 5) (s := 5) (margin := .int 10) (mv := 10) (mh := 10)
    (Or.inl ⟨rfl, rfl⟩) (by norm_num) (by norm_num) (by norm_num) (by norm_num) (by norm_num)
  refine ⟨r, h, (hp 13 13 (by norm_num) (by norm_num)).1 ⟨0, 0, 13, 13, ⟨by norm_num, by norm_num⟩, ⟨by norm_num, by norm_num⟩,
    ⟨by norm_num, by norm_num, by norm_num, by norm_num, by norm_num⟩⟩, (hp 16 13 (by norm_num) (by norm_num)).2 ?_⟩
  rintro ⟨k, l, p, q, hk, hl, hin⟩
  have i1 := hin.top; have i2 := hin.bottom; have k1 := hk.eq
  push_cast at *
  omega

/-- The same pattern: pixel (13, 13) belongs to one dot only, and row 5 is white. -/
example : (0 : ℕ) = 0 ∧ (0 : ℕ) = 0 :=
  C68_disjoint (s := 5) (d := 20) (a := 13) (b := 67) (c := 13) (e := 67) (p := 13) (q := 13) (p' := 13) (q' := 13) (y := 13) (x := 13) (by norm_num)
    (k := 0) (l := 0) (k' := 0) (l' := 0) ⟨by norm_num, by norm_num⟩ ⟨by norm_num, by norm_num⟩ ⟨by norm_num, by norm_num, by norm_num, by norm_num, by norm_num⟩
    ⟨by norm_num, by norm_num⟩ ⟨by norm_num, by norm_num⟩ ⟨by norm_num, by norm_num, by norm_num, by norm_num, by norm_num⟩

example : ∃ r, makeDotPattern 80 80 20 5 (.int 10) = .ok r ∧ r.get 5 13 = 1 := by
  obtain ⟨r, h, _⟩ := C68_pixels (height := 80) (width := 80) (d := 20) (ds := 5) (s := 5) (margin := .int 10) (mv := 10) (mh := 10)
    (Or.inl ⟨rfl, rfl⟩) (by norm_num) (by norm_num) (by norm_num) (by norm_num) (by norm_num)
  exact ⟨r, h, C68_margin (s := 5) (Or.inl ⟨rfl, rfl⟩) (by norm_num) (by norm_num) (by norm_num) (by norm_num) (by norm_num) h (by norm_num) (by norm_num) (by norm_num)⟩

end Discorpy
