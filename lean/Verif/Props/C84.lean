import Verif.Lemmas.Threshold
import Verif.Lemmas.Fit

/-! # C84 — threshold of an image -/

namespace Discorpy

open Spec

theorem sortedOf_unique {l s t : List ℝ} (h : s.Perm l ∧ s.Pairwise (· ≤ ·)) (h' : t.Perm l ∧ t.Pairwise (· ≤ ·)) : s = t :=
  List.Perm.eq_of_pairwise (fun _ _ _ _ => le_antisymm) h.2 h'.2 (h.1.trans h'.1.symm)

theorem mergeSort_sortedOf (m : Mat ℝ) : IsSortedOf m (m.flat.mergeSort fun a b => decide (a ≤ b)) := by
  refine ⟨List.mergeSort_perm _ _, ?_⟩
  have := List.pairwise_mergeSort (le := fun a b : ℝ => decide (a ≤ b)) (by intro a b c; simp; exact le_trans)
    (by intro a b; simp; exact le_total a b) m.flat
  exact this.imp (by simp)

/-- **C84.** For an image with a side of at least three pixels: the values in increasing order are resampled to as many samples as
the longer side has pixels, a line is fitted by least squares to the middle part of this curve, and the threshold lies beyond the
end of this line by `snr / 2` times its rise. -/
theorem C84_rule (zoom : List ℝ → ℕ → List ℝ) (hz : ∀ l n, (zoom l n).length = n) (pf : List ℝ → List ℝ → ℕ → List ℝ)
    (hpf : PolyfitSpec pf) (m : Mat ℝ) (h0 : 0 < m.height) (h1 : 0 < m.width) (h3 : 3 ≤ max m.height m.width) (s : List ℝ)
    (hs : IsSortedOf m s) :
    ∃ a b, IsLsqHorLine (middleSamples (zoom s (max m.height m.width))) a b ∧
      ∀ bright snr, calculateThreshold zoom pf m bright snr = .ok (lineThreshold (max m.height m.width) a b snr bright) := by
  obtain rfl := sortedOf_unique (mergeSort_sortedOf m) hs
  exact calculateThreshold_ok hpf hz h0 h1 h3

/-- **C84 (order).** If the resampled curve does not fall, the threshold for a bright background is below the start of the fitted
line, the one for a dark background is above its end, and a larger ratio moves both away from the line. -/
theorem C84_order (zoom : List ℝ → ℕ → List ℝ) (hz : ∀ l n, (zoom l n).length = n) (pf : List ℝ → List ℝ → ℕ → List ℝ)
    (hpf : PolyfitSpec pf) (m : Mat ℝ) (h0 : 0 < m.height) (h1 : 0 < m.width) (h5 : 5 ≤ max m.height m.width) (s : List ℝ)
    (hs : IsSortedOf m s) (hmono : (zoom s (max m.height m.width)).Pairwise (· ≤ ·)) (snr snr' : ℝ) (h00 : 0 ≤ snr)
    (hle : snr ≤ snr') :
    ∃ t t' b e u u', b ≤ e ∧ t' ≤ t ∧ t ≤ b ∧ e ≤ u ∧ u ≤ u' ∧
      calculateThreshold zoom pf m true snr = .ok t ∧ calculateThreshold zoom pf m true snr' = .ok t' ∧
      calculateThreshold zoom pf m false snr = .ok u ∧ calculateThreshold zoom pf m false snr' = .ok u' ∧
      calculateThreshold zoom pf m true 0 = .ok b ∧ calculateThreshold zoom pf m false 0 = .ok e := by
  obtain ⟨a, b, hl, ht⟩ := C84_rule zoom hz pf hpf m h0 h1 (by omega) s hs
  have ha : 0 ≤ a := by
    refine lsqHor_rising hl (middleSamples_two (by rw [hz]; exact h5)) fun p hp q hq hx => ?_
    obtain ⟨i, hi, _, _, rfl⟩ := mem_middleSamples.1 hp
    obtain ⟨j, hj, _, _, rfl⟩ := mem_middleSamples.1 hq
    simp only at hx
    have hij : i ≤ j := by exact_mod_cast hx
    rcases Nat.lt_or_eq_of_le hij with h | h
    · exact List.pairwise_iff_getElem.1 hmono i j hi hj h
    · subst h
      exact le_rfl
  have hn : (1 : ℝ) ≤ (max m.height m.width : ℕ) := by exact_mod_cast (by omega : 1 ≤ max m.height m.width)
  have hr : 0 ≤ a * (((max m.height m.width : ℕ) : ℝ) - 1) := mul_nonneg ha (by linarith)
  refine ⟨_, _, _, _, _, _, ?_, ?_, ?_, ?_, ?_, ht true snr, ht true snr', ht false snr, ht false snr', ht true 0, ht false 0⟩
  all_goals
    unfold lineThreshold
    simp only [if_true, Bool.false_eq_true, if_false]
    rw [abs_of_nonneg hr]
    nlinarith

/-- **C84 (brightness and contrast).** A change of brightness and contrast of the image changes the threshold in the same way. -/
theorem C84_affine (zoom : List ℝ → ℕ → List ℝ) (hz : IsResampling zoom) (pf : List ℝ → List ℝ → ℕ → List ℝ)
    (hpf : PolyfitSpec pf) (m m' : Mat ℝ) (c d : ℝ) (hc : 0 < c) (hh : m'.height = m.height) (hw : m'.width = m.width)
    (hm : ∀ i < m.height, ∀ j < m.width, m'.get i j = c * m.get i j + d) (h0 : 0 < m.height) (h1 : 0 < m.width)
    (h5 : 5 ≤ max m.height m.width) (bright : Bool) (snr : ℝ) :
    ∃ t, calculateThreshold zoom pf m bright snr = .ok t ∧ calculateThreshold zoom pf m' bright snr = .ok (c * t + d) := by
  set s := m.flat.mergeSort fun a b => decide (a ≤ b) with hsd
  have hs : IsSortedOf m s := mergeSort_sortedOf m
  have hs' : IsSortedOf m' (s.map fun x => c * x + d) := by
    constructor
    · have e : ((List.range m'.height).flatMap fun i => (List.range m'.width).map fun j => m'.get i j) =
          ((List.range m.height).flatMap fun i => (List.range m.width).map fun j => m.get i j).map fun x => c * x + d := by
        rw [List.map_flatMap, hh, hw]
        apply List.flatMap_congr
        intro i hi
        rw [List.map_map]
        apply List.map_congr_left
        intro j hj
        exact hm i (List.mem_range.1 hi) j (List.mem_range.1 hj)
      rw [e]
      exact hs.1.map _
    · rw [List.pairwise_map]
      exact hs.2.imp fun h => by nlinarith
  have hsne : s ≠ [] := by
    intro e
    have := hs.1.length_eq
    rw [e, List.length_flatMap] at this
    simp at this
    omega
  obtain ⟨a, b, hl, ht⟩ := C84_rule zoom hz.length pf hpf m h0 h1 (by omega) s hs
  obtain ⟨a', b', hl', ht'⟩ := C84_rule zoom hz.length pf hpf m' (by omega) (by omega) (by rw [hh, hw]; omega) _ hs'
  rw [hh, hw] at hl' ht'
  set n := max m.height m.width with hn
  rw [hz.affine s n hsne, middleSamples_map] at hl'
  have hl2 : IsLsqHorLine ((middleSamples (zoom s n)).map fun p => (⟨c * p.y + d, p.x⟩ : Pt)) (c * a) (c * b + d) := by
    intro u w
    rw [List.map_map, List.map_map]
    have hq := hl (u / c) ((w - d) / c)
    have scale : ∀ (l : List Pt) (u w : ℝ), (l.map fun p => (u / c * p.x + (w - d) / c - p.y) ^ 2).sum * c ^ 2 =
        (l.map ((fun p : Pt => (u * p.x + w - p.y) ^ 2) ∘ fun p : Pt => (⟨c * p.y + d, p.x⟩ : Pt))).sum := by
      intro l u w
      induction l with
      | nil => simp
      | cons p l ih =>
        simp only [List.map_cons, List.sum_cons, add_mul, ih, Function.comp_apply]
        congr 1
        field_simp
        ring
    rw [← scale, ← scale]
    have e1 : c * a / c = a := by field_simp
    have e2 : (c * b + d - d) / c = b := by field_simp; ring
    rw [e1, e2]
    exact mul_le_mul_of_nonneg_right hq (by positivity)
  obtain ⟨e1, e2⟩ := lsqHor_unique hl' hl2 (by
    obtain ⟨p, hp, q, hq, hne⟩ := middleSamples_two (v := zoom s n) (by rw [hz.length]; omega)
    exact ⟨_, List.mem_map.2 ⟨p, hp, rfl⟩, _, List.mem_map.2 ⟨q, hq, rfl⟩, hne⟩)
  refine ⟨_, ht bright snr, ?_⟩
  rw [ht' bright snr, e1, e2]
  congr 1
  unfold lineThreshold
  rw [show c * a * ((n : ℝ) - 1) = c * (a * (n - 1)) by ring, abs_mul, abs_of_pos hc]
  split_ifs <;> ring

/-- **C84 (evenly spread values).** If the resampled curve is the straight line from `p` with step `q ≥ 0`, the thresholds are at a
distance of `snr / 2` times the total rise from its ends. In particular the thresholds of a constant image are its value. -/
theorem C84_straight (zoom : List ℝ → ℕ → List ℝ) (pf : List ℝ → List ℝ → ℕ → List ℝ) (hz : ∀ l n, (zoom l n).length = n)
    (hpf : PolyfitSpec pf) (m : Mat ℝ) (h0 : 0 < m.height) (h1 : 0 < m.width) (h5 : 5 ≤ max m.height m.width) (s : List ℝ)
    (hs : IsSortedOf m s) (p q : ℝ) (hq : 0 ≤ q)
    (hline : ∀ k (h : k < (zoom s (max m.height m.width)).length), (zoom s (max m.height m.width))[k] = p + q * k) (snr : ℝ) :
    calculateThreshold zoom pf m true snr = .ok (p - q * ((max m.height m.width : ℕ) - 1) * (snr / 2)) ∧
    calculateThreshold zoom pf m false snr =
      .ok (p + q * ((max m.height m.width : ℕ) - 1) + q * ((max m.height m.width : ℕ) - 1) * (snr / 2)) := by
  obtain ⟨a, b, hl, ht⟩ := C84_rule zoom hz pf hpf m h0 h1 (by omega) s hs
  set n := max m.height m.width with hn
  have hex : ∀ d ∈ middleSamples (zoom s n), onHorLine q p d := by
    intro d hd
    obtain ⟨k, hk, _, _, rfl⟩ := mem_middleSamples.1 hd
    unfold onHorLine
    simp only
    rw [hline k hk]
    ring
  have hall := lsqHor_exact hl hex
  obtain ⟨d, hd, e, he, hne⟩ := middleSamples_two (v := zoom s n) (by rw [hz]; omega)
  have d1 := hall d hd
  have d2 := hex d hd
  have e1 := hall e he
  have e2 := hex e he
  unfold onHorLine at d1 d2 e1 e2
  have ha : a = q := by
    have : (a - q) * (d.x - e.x) = 0 := by linarith
    rcases mul_eq_zero.1 this with h | h
    · linarith
    · exact absurd (by linarith) hne
  subst ha
  have hb : b = p := by linarith
  subst hb
  have hn1 : (1 : ℝ) ≤ (n : ℝ) := by exact_mod_cast (by omega : 1 ≤ n)
  have hr : 0 ≤ a * ((n : ℝ) - 1) := mul_nonneg hq (by linarith)
  rw [ht, ht]
  unfold lineThreshold
  simp only [if_true, Bool.false_eq_true, if_false]
  rw [abs_of_nonneg hr]
  exact ⟨rfl, rfl⟩

/-- **C84 (errors).** An image without pixels raises `ZeroDivisionError`; a single pixel raises `TypeError`, and images with a
longer side of two pixels raise `LinAlgError`. -/
theorem C84_errors (zoom : List ℝ → ℕ → List ℝ) (hz : ∀ l n, (zoom l n).length = n) (pf : List ℝ → List ℝ → ℕ → List ℝ) (m : Mat ℝ)
    (bright : Bool) (snr : ℝ) :
    (m.height = 0 ∨ m.width = 0 → calculateThreshold zoom pf m bright snr = .error .zeroDivisionError) ∧
    (m.height = 1 → m.width = 1 → calculateThreshold zoom pf m bright snr = .error .typeError) ∧
    (0 < m.height → 0 < m.width → max m.height m.width = 2 → calculateThreshold zoom pf m bright snr = .error .linAlgError) := by
  have hlen : (m.flat.mergeSort fun a b => decide (a ≤ b)).length = m.height * m.width := by
    rw [List.length_mergeSort]
    unfold Mat.flat
    rw [List.length_flatMap]
    simp
  refine ⟨fun h => ?_, fun h1 h2 => ?_, fun h1 h2 h3 => ?_⟩
  · unfold calculateThreshold
    simp only [hlen]
    rw [if_pos (by rcases h with h | h <;> simp [h])]
    rfl
  · unfold calculateThreshold
    simp only [hlen, h1, h2, hz]
    have e := listSlice_middle ((List.range 1).map fun k : ℕ => (k : ℝ)) (n := 1) (by simp)
    rw [show max 1 1 = 1 from rfl, e]
    simp [thresholdFit]
  · unfold calculateThreshold
    simp only [hlen, h3, hz]
    rw [if_neg (by have := Nat.mul_pos h1 h2; omega)]
    have e := listSlice_middle ((List.range 2).map fun k : ℕ => (k : ℝ)) (n := 2) (by simp)
    rw [e]
    simp [thresholdFit, List.range_succ]

/-- Non-vacuity: five values 0…4 in a row, no resampling needed; the threshold for a bright background and `snr` 2 is -4. -/
example : calculateThreshold (fun l n => (List.range n).map fun k => l.getD k 0) refPolyfit ⟨1, 5, fun _ j => (j : ℝ)⟩ true 2 = .ok (-4) := by
  have hs : IsSortedOf ⟨1, 5, fun _ j => (j : ℝ)⟩ [0, 1, 2, 3, 4] := by
    constructor
    · simp [List.range_succ]
    · simp; norm_num
  have h := (C84_straight (fun l n => (List.range n).map fun k => l.getD k 0) refPolyfit (by simp) refPolyfit_spec
    ⟨1, 5, fun _ j => (j : ℝ)⟩ (by norm_num) (by norm_num) (by norm_num) [0, 1, 2, 3, 4] hs 0 1 (by norm_num) (by
      intro k hk
      have hk' : k < 5 := by simpa using hk
      simp only [List.getElem_map, List.getElem_range]
      interval_cases k <;> simp) 2).1
  rw [h]
  norm_num

/-- Resampling by taking the value at the same relative position. -/
noncomputable def nearestZoom (l : List ℝ) (n : ℕ) : List ℝ := (List.range n).map fun k => l.getD (k * l.length / n) 0

theorem nearestZoom_resampling : IsResampling nearestZoom := by
  refine ⟨fun l n => by simp [nearestZoom], fun l n hl a b => ?_⟩
  have h0 := List.length_pos_of_ne_nil hl
  unfold nearestZoom
  rw [List.map_map]
  refine List.map_congr_left fun k hk => ?_
  have hk := List.mem_range.1 hk
  have hi : k * l.length / n < l.length := by
    rw [Nat.div_lt_iff_lt_mul (by omega), mul_comm]
    exact Nat.mul_lt_mul_of_pos_left hk h0
  simp only [List.length_map, Function.comp]
  rw [List.getD_eq_getElem?_getD, List.getD_eq_getElem?_getD, List.getElem?_map, List.getElem?_eq_getElem hi]
  simp

theorem nearestZoom_mono {l : List ℝ} (hl : l.Pairwise (· ≤ ·)) (n : ℕ) : (nearestZoom l n).Pairwise (· ≤ ·) := by
  unfold nearestZoom
  rw [List.pairwise_map]
  refine (List.pairwise_lt_range (n := n)).imp_of_mem fun {a b} _ hb hab => ?_
  have hb := List.mem_range.1 hb
  rcases Nat.eq_zero_or_pos l.length with h0 | h0
  · obtain rfl := List.length_eq_zero_iff.1 h0
    simp
  have hi : b * l.length / n < l.length := by
    rw [Nat.div_lt_iff_lt_mul (by omega), mul_comm]
    exact Nat.mul_lt_mul_of_pos_left hb h0
  have hle : a * l.length / n ≤ b * l.length / n := Nat.div_le_div_right (Nat.mul_le_mul_right _ hab.le)
  rw [List.getD_eq_getElem?_getD, List.getD_eq_getElem?_getD, List.getElem?_eq_getElem (lt_of_le_of_lt hle hi), List.getElem?_eq_getElem hi]
  simp only [Option.getD_some]
  rcases hle.lt_or_eq with h | h
  · exact List.pairwise_iff_getElem.1 hl _ _ _ _ h
  · simp [h]

/-- An image of 2 × 6 pixels, resampled to 6 values. -/
example (s : List ℝ) (hs : IsSortedOf ⟨2, 6, fun i j => (6 * i + j : ℕ)⟩ s) := C84_rule nearestZoom nearestZoom_resampling.length refPolyfit refPolyfit_spec
  ⟨2, 6, fun i j => (6 * i + j : ℕ)⟩ (by norm_num) (by norm_num) (by norm_num) s hs
example (s : List ℝ) (hs : IsSortedOf ⟨2, 6, fun i j => (6 * i + j : ℕ)⟩ s) := C84_order nearestZoom nearestZoom_resampling.length refPolyfit refPolyfit_spec
  ⟨2, 6, fun i j => (6 * i + j : ℕ)⟩ (by norm_num) (by norm_num) (by norm_num) s hs (nearestZoom_mono hs.2 _) 1 3 (by norm_num) (by norm_num)
example (bright : Bool) (snr : ℝ) := C84_affine nearestZoom nearestZoom_resampling refPolyfit refPolyfit_spec
  ⟨2, 6, fun i j => (6 * i + j : ℕ)⟩ ⟨2, 6, fun i j => 3 * (6 * i + j : ℕ) - 5⟩ 3 (-5) (by norm_num) rfl rfl (fun _ _ _ _ => by ring) (by norm_num)
  (by norm_num) (by norm_num) bright snr
example (m : Mat ℝ) (bright : Bool) (snr : ℝ) := C84_errors nearestZoom nearestZoom_resampling.length refPolyfit m bright snr

end Discorpy
