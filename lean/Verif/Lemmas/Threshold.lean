import Verif.Model.Threshold
import Verif.Spec.Threshold
import Verif.Lemmas.Lines
import Verif.Lemmas.Array

/-! # Helper lemmas: the threshold of an image -/

namespace Discorpy

open Spec

theorem filter_zipIdx (l : List ℝ) (k a b : ℕ) :
    (l.zipIdx k).filter (fun q => decide (a ≤ q.2 ∧ q.2 < b)) = ((l.zipIdx k).take (b - k)).drop (a - k) := by
  induction l generalizing k with
  | nil => simp
  | cons x l ih =>
    rw [List.zipIdx_cons, List.filter_cons, ih]
    by_cases hb : k < b
    · obtain ⟨c, hc⟩ : ∃ c, b - k = c + 1 := ⟨b - k - 1, by omega⟩
      rw [hc, List.take_succ_cons, show b - (k + 1) = c by omega]
      by_cases ha : a ≤ k
      · rw [if_pos (by simp [ha, hb]), show a - k = 0 by omega, show a - (k + 1) = 0 by omega]
        simp
      · rw [if_neg (by simp [ha]), show a - k = (a - (k + 1)) + 1 by omega, List.drop_succ_cons]
    · rw [if_neg (by simp; omega), show b - k = 0 by omega, show b - (k + 1) = 0 by omega]
      simp

theorem truncInt_quarter (n : ℕ) : truncInt (0.25 * (n : ℝ)) = ((n / 4 : ℕ) : ℤ) := by
  unfold truncInt
  rw [if_pos (by positivity), show (0.25 : ℝ) * n = (n : ℝ) / (4 : ℕ) by norm_num; ring]
  rw [Int.floor_eq_iff]
  constructor
  · rw [le_div_iff₀ (by norm_num)]
    exact_mod_cast Nat.div_mul_le_self n 4
  · rw [div_lt_iff₀ (by norm_num)]
    have : n < (n / 4 + 1) * 4 := by omega
    exact_mod_cast this

theorem listSlice_middle {α : Type*} (l : List α) {n : ℕ} (hn : l.length = n) :
    listSlice l (truncInt (0.25 * (n : ℝ))) (-truncInt (0.25 * (n : ℝ)) - 1) = (l.take (n - n / 4 - 1)).drop (n / 4) := by
  have h1 : sliceBound n (-((n / 4 : ℕ) : ℤ) - 1) = n - n / 4 - 1 := by
    unfold sliceBound
    rw [if_pos (by omega)]
    omega
  have h2 : sliceBound n ((n / 4 : ℕ) : ℤ) = n / 4 := by
    unfold sliceBound
    rw [if_neg (by omega)]
    omega
  unfold listSlice
  rw [truncInt_quarter, hn, h1, h2]

theorem middleSamples_eq (v : List ℝ) :
    middleSamples v = ((v.zipIdx.take (v.length - v.length / 4 - 1)).drop (v.length / 4)).map fun q => ⟨q.1, q.2⟩ := by
  unfold middleSamples
  have h := filter_zipIdx v 0 (v.length / 4) (v.length - v.length / 4 - 1)
  rw [Nat.sub_zero, Nat.sub_zero] at h
  rw [← h]
  congr 1
  apply List.filter_congr
  intro q _
  rw [decide_eq_decide]
  omega

theorem middleSamples_y (v : List ℝ) :
    (middleSamples v).map (fun p => p.y) = (v.take (v.length - v.length / 4 - 1)).drop (v.length / 4) := by
  rw [middleSamples_eq, List.map_map]
  have : ((fun p : Pt => p.y) ∘ fun q : ℝ × ℕ => (⟨q.1, q.2⟩ : Pt)) = Prod.fst := by ext; rfl
  rw [this, List.map_drop, List.map_take, List.zipIdx_map_fst]

theorem middleSamples_x (v : List ℝ) :
    (middleSamples v).map (fun p => p.x) =
      (((List.range v.length).map fun k : ℕ => (k : ℝ)).take (v.length - v.length / 4 - 1)).drop (v.length / 4) := by
  rw [middleSamples_eq, List.map_map]
  have : ((fun p : Pt => p.x) ∘ fun q : ℝ × ℕ => (⟨q.1, q.2⟩ : Pt)) = (fun k : ℕ => (k : ℝ)) ∘ Prod.snd := by ext; rfl
  rw [this, ← List.map_map, List.map_drop, List.map_take, List.zipIdx_map_snd, List.range'_eq_map_range]
  simp only [Nat.zero_add, List.map_id', List.map_take, List.map_drop]

theorem mem_middleSamples {v : List ℝ} {p : Pt} :
    p ∈ middleSamples v ↔ ∃ k, ∃ h : k < v.length, v.length / 4 ≤ k ∧ k + v.length / 4 + 1 < v.length ∧ p = ⟨v[k], k⟩ := by
  unfold middleSamples
  simp only [List.mem_map, List.mem_filter, decide_eq_true_iff]
  constructor
  · rintro ⟨⟨x, k⟩, ⟨hm, h1, h2⟩, rfl⟩
    obtain ⟨_, hk, hx⟩ := List.mem_zipIdx hm
    refine ⟨k, by omega, h1, h2, ?_⟩
    simp only [hx]
    congr
  · rintro ⟨k, hk, h1, h2, rfl⟩
    exact ⟨(v[k], k), ⟨List.mem_iff_getElem.2 ⟨k, by simpa using hk, by simp⟩, h1, h2⟩, rfl⟩

theorem middleSamples_map (v : List ℝ) (a b : ℝ) :
    middleSamples (v.map fun x => a * x + b) = (middleSamples v).map fun p => ⟨a * p.y + b, p.x⟩ := by
  rw [middleSamples_eq, middleSamples_eq]
  rw [List.zipIdx_map, List.length_map, List.map_map, ← List.map_take, ← List.map_drop, List.map_map]
  rfl

/-- Two least-squares lines of points with different abscissae are equal. -/
theorem lsqHor_unique {dots : List Pt} {a b a' b' : ℝ} (h : IsLsqHorLine dots a b) (h' : IsLsqHorLine dots a' b')
    (hx : ∃ p ∈ dots, ∃ q ∈ dots, p.x ≠ q.x) : a = a' ∧ b = b' := by
  -- the two lines agree at all dots
  have hsum : ∀ f g : Pt → ℝ, (dots.map fun p => ((f p + g p) / 2) ^ 2).sum =
      ((dots.map fun p => f p ^ 2).sum + (dots.map fun p => g p ^ 2).sum) / 2 - (dots.map fun p => ((f p - g p) / 2) ^ 2).sum := by
    intro f g
    clear h h' hx
    induction dots with
    | nil => simp
    | cons p l ih => simp only [List.map_cons, List.sum_cons, ih]; ring
  have e := hsum (fun p => a * p.x + b - p.y) (fun p => a' * p.x + b' - p.y)
  have hm := h ((a + a') / 2) ((b + b') / 2)
  have hm' := h' ((a + a') / 2) ((b + b') / 2)
  have e2 : (dots.map fun p => ((a + a') / 2 * p.x + (b + b') / 2 - p.y) ^ 2) =
      dots.map fun p => ((a * p.x + b - p.y + (a' * p.x + b' - p.y)) / 2) ^ 2 := by
    apply List.map_congr_left
    intro p _
    ring
  rw [e2, e] at hm hm'
  have h0 := sum_sq_eq_zero (f := fun p : Pt => (a * p.x + b - p.y - (a' * p.x + b' - p.y)) / 2) (l := dots) (by linarith)
  obtain ⟨p, hp, q, hq, hne⟩ := hx
  have e3 := h0 p hp
  have e4 := h0 q hq
  have : (a - a') * (p.x - q.x) = 0 := by linarith
  rcases mul_eq_zero.1 this with h | h
  · have ha : a = a' := by linarith
    subst ha
    exact ⟨rfl, by linarith⟩
  · exact absurd (by linarith) hne

theorem middleSamples_two {v : List ℝ} (h : 5 ≤ v.length) : ∃ p ∈ middleSamples v, ∃ q ∈ middleSamples v, p.x ≠ q.x := by
  refine ⟨_, mem_middleSamples.2 ⟨v.length / 4, by omega, le_rfl, by omega, rfl⟩,
    _, mem_middleSamples.2 ⟨v.length / 4 + 1, by omega, by omega, by omega, rfl⟩, ?_⟩
  simp

/-- The outcome of the function in terms of the resampled curve. -/
theorem calculateThreshold_ok {zoom : List ℝ → ℕ → List ℝ} {pf : List ℝ → List ℝ → ℕ → List ℝ} (hpf : PolyfitSpec pf) {m : Mat ℝ}
    (hz : ∀ l n, (zoom l n).length = n) (h0 : 0 < m.height) (h1 : 0 < m.width) (h3 : 3 ≤ max m.height m.width) :
    ∃ a b, IsLsqHorLine (middleSamples (zoom (m.flat.mergeSort fun a b => decide (a ≤ b)) (max m.height m.width))) a b ∧
      ∀ bright snr, calculateThreshold zoom pf m bright snr = .ok (lineThreshold (max m.height m.width) a b snr bright) := by
  set s := m.flat.mergeSort fun a b => decide (a ≤ b) with hs
  set n := max m.height m.width with hn
  set v := zoom s n with hv
  have hvl : v.length = n := hz s n
  have hsl : s.length ≠ 0 := by
    rw [hs, List.length_mergeSort]
    unfold Mat.flat
    rw [List.length_flatMap]
    simp
    omega
  have hne : middleSamples v ≠ [] := by
    apply List.ne_nil_of_mem (a := (⟨v[n / 4]'(by omega), (n / 4 : ℕ)⟩ : Pt))
    rw [mem_middleSamples]
    exact ⟨n / 4, by omega, by omega, by omega, rfl⟩
  obtain ⟨a, b, e, hl⟩ := hpf.lsqHor (middleSamples v) hne 0 0
  simp only [sub_zero, mul_zero, add_zero] at e hl
  refine ⟨a, b, hl, fun bright snr => ?_⟩
  have hxs : listSlice ((List.range n).map fun k : ℕ => (k : ℝ)) (truncInt (0.25 * (n : ℝ))) (-truncInt (0.25 * (n : ℝ)) - 1) =
      (middleSamples v).map fun p => p.x := by
    rw [listSlice_middle _ (by simp), middleSamples_x, hvl]
  have hys : listSlice v (truncInt (0.25 * (n : ℝ))) (-truncInt (0.25 * (n : ℝ)) - 1) = (middleSamples v).map fun p => p.y := by
    rw [listSlice_middle _ hvl, middleSamples_y, hvl]
  have hfit : thresholdFit pf ((middleSamples v).map fun p => p.x) ((middleSamples v).map fun p => p.y) = .ok [a, b] := by
    unfold thresholdFit
    rw [if_neg (by simpa using hne), if_neg, e]
    intro hall
    have hx : ∃ k, 0 < k ∧ n / 4 ≤ k ∧ k + n / 4 + 1 < n := by
      by_cases h4 : n = 3
      · exact ⟨1, by omega, by omega, by omega⟩
      · exact ⟨n / 4, by omega, le_rfl, by omega⟩
    obtain ⟨k, hk0, hk1, hk2⟩ := hx
    have := hall (k : ℝ) (List.mem_map.2 ⟨⟨v[k]'(by omega), k⟩, mem_middleSamples.2 ⟨k, by omega, by omega, by omega, rfl⟩, rfl⟩)
    have : k = 0 := by exact_mod_cast this
    omega
  unfold calculateThreshold
  simp only [← hs, ← hn, ← hv, hvl, if_neg hsl, hxs, hys]
  have hlast : npGet ((List.range n).map fun k : ℕ => (k : ℝ)) (n - 1) = .ok ((n - 1 : ℕ) : ℝ) := by
    rw [npGet_of_lt (by simp; omega)]
    simp
  rw [hfit, ok_bind, npGet_of_lt (by simp), ok_bind, npGet_of_lt (by simp), ok_bind, hlast]
  simp only [ok_bind, List.getElem_cons_zero, List.getElem_cons_succ]
  congr 1
  unfold thresholdOf lineThreshold
  have hc : ((n - 1 : ℕ) : ℝ) = (n : ℝ) - 1 := by
    rw [Nat.cast_sub (by omega)]; norm_num
  rw [hc]
  simp only [add_sub_cancel_left]
  split_ifs <;> ring

theorem zero_of_quadratic {B C : ℝ} (h : ∀ e : ℝ, 0 ≤ 2 * e * B + e ^ 2 * C) : B = 0 := by
  have hC : 0 ≤ C := by
    have h1 := h 1
    have h2 := h (-1)
    linarith
  by_contra hB
  have h1 := h (-B / (C + 1))
  have hpos : 0 < C + 1 := by linarith
  have e : 2 * (-B / (C + 1)) * B + (-B / (C + 1)) ^ 2 * C = -(B ^ 2) * (C + 2) / (C + 1) ^ 2 := by
    field_simp
    ring
  rw [e] at h1
  have h2 : 0 < B ^ 2 := by positivity
  have : -(B ^ 2) * (C + 2) / (C + 1) ^ 2 < 0 := by
    apply div_neg_of_neg_of_pos
    · nlinarith
    · positivity
  linarith

/-- The normal equations of a least-squares line. -/
theorem lsqHor_normal {dots : List Pt} {a b : ℝ} (h : IsLsqHorLine dots a b) (u w : ℝ) :
    (dots.map fun p => (a * p.x + b - p.y) * (u * p.x + w)).sum = 0 := by
  apply zero_of_quadratic (C := (dots.map fun p => (u * p.x + w) ^ 2).sum)
  intro e
  have hm := h (a + e * u) (b + e * w)
  have key : (dots.map fun p => ((a + e * u) * p.x + (b + e * w) - p.y) ^ 2).sum = (dots.map fun p => (a * p.x + b - p.y) ^ 2).sum +
      (2 * e * (dots.map fun p => (a * p.x + b - p.y) * (u * p.x + w)).sum + e ^ 2 * (dots.map fun p => (u * p.x + w) ^ 2).sum) := by
    clear h hm
    induction dots with
    | nil => simp
    | cons p l ih => simp only [List.map_cons, List.sum_cons, ih]; ring
  rw [key] at hm
  linarith

theorem list_sum_nonpos {l : List ℝ} (h : ∀ x ∈ l, x ≤ 0) : l.sum ≤ 0 := by
  induction l with
  | nil => simp
  | cons a l ih =>
    rw [List.sum_cons]
    linarith [h a (by simp), ih fun x hx => h x (by simp [hx])]

theorem nonpos_sum_zero {α : Type*} {f : α → ℝ} {l : List α} (h : ∀ p ∈ l, f p ≤ 0) (h0 : 0 ≤ (l.map f).sum) : ∀ p ∈ l, f p = 0 := by
  induction l with
  | nil => simp
  | cons a l ih =>
    rw [List.map_cons, List.sum_cons] at h0
    have ha := h a (by simp)
    have hl : (l.map f).sum ≤ 0 := list_sum_nonpos (by
      intro x hx
      obtain ⟨p, hp, rfl⟩ := List.mem_map.1 hx
      exact h p (by simp [hp]))
    intro p hp
    rcases List.mem_cons.1 hp with rfl | hp
    · linarith
    · exact ih (fun q hq => h q (by simp [hq])) (by linarith) p hp

/-- A least-squares line of points that rise from left to right does not fall. -/
theorem lsqHor_rising {dots : List Pt} {a b : ℝ} (h : IsLsqHorLine dots a b) (hx : ∃ p ∈ dots, ∃ q ∈ dots, p.x ≠ q.x)
    (hm : ∀ p ∈ dots, ∀ q ∈ dots, p.x ≤ q.x → p.y ≤ q.y) : 0 ≤ a := by
  by_contra ha
  push Not at ha
  set r : Pt → ℝ := fun p => a * p.x + b - p.y with hr
  have n0 : (dots.map r).sum = 0 := by
    have := lsqHor_normal h 0 1
    simpa [hr] using this
  have n1 : (dots.map fun p => r p * p.x).sum = 0 := by
    have := lsqHor_normal h 1 0
    simpa [hr] using this
  have inner : ∀ (l : List Pt) (p : Pt), (l.map fun q => (r p - r q) * (p.x - q.x)).sum =
      l.length * (r p * p.x) - r p * (l.map fun q => q.x).sum - p.x * (l.map r).sum + (l.map fun q => r q * q.x).sum := by
    intro l p
    induction l with
    | nil => simp
    | cons q l ih => simp only [List.map_cons, List.sum_cons, ih, List.length_cons]; push_cast; ring
  have outer : ∀ (l : List Pt) (c d : ℝ), (l.map fun p => c * (r p * p.x) - r p * d).sum =
      c * (l.map fun p => r p * p.x).sum - d * (l.map r).sum := by
    intro l c d
    induction l with
    | nil => simp
    | cons q l ih => simp only [List.map_cons, List.sum_cons, ih]; ring
  have hterm : ∀ p ∈ dots, ∀ q ∈ dots, (r p - r q) * (p.x - q.x) ≤ a * (p.x - q.x) ^ 2 := by
    intro p hp q hq
    have : 0 ≤ (p.y - q.y) * (p.x - q.x) := by
      rcases le_total p.x q.x with hle | hle
      · exact mul_nonneg_of_nonpos_of_nonpos (by linarith [hm p hp q hq hle]) (by linarith)
      · exact mul_nonneg (by linarith [hm q hq p hp hle]) (by linarith)
    simp only [hr]
    nlinarith
  have hneg : ∀ p ∈ dots, ∀ q ∈ dots, (r p - r q) * (p.x - q.x) ≤ 0 := fun p hp q hq =>
    (hterm p hp q hq).trans (mul_nonpos_of_nonpos_of_nonneg ha.le (sq_nonneg _))
  have hin : ∀ p ∈ dots, (dots.map fun q => (r p - r q) * (p.x - q.x)).sum ≤ 0 := fun p hp =>
    list_sum_nonpos (by
      intro x hx
      obtain ⟨q, hq, rfl⟩ := List.mem_map.1 hx
      exact hneg p hp q hq)
  have hsum : (dots.map fun p => (dots.map fun q => (r p - r q) * (p.x - q.x)).sum).sum = 0 := by
    simp only [inner, n0, n1, mul_zero, sub_zero, add_zero]
    rw [outer, n0, n1]
    ring
  obtain ⟨p, hp, q, hq, hne⟩ := hx
  have h1 := nonpos_sum_zero hin hsum.ge p hp
  have h2 := nonpos_sum_zero (hneg p hp) h1.ge q hq
  have h3 := hterm p hp q hq
  rw [h2] at h3
  have : 0 < (p.x - q.x) ^ 2 := by
    have : p.x - q.x ≠ 0 := sub_ne_zero.2 hne
    positivity
  nlinarith

end Discorpy
