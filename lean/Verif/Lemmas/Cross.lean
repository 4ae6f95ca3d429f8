import Verif.Spec.Cross
import Verif.Lemmas.LineDir
import Verif.Props.C45

/-! # Helper lemmas: cross points -/

namespace Discorpy

open Spec

theorem chord_bounds {a b a' b' δ : ℝ} (ha' : 0 ≤ a') (h1 : a' ≤ a) (h2 : a - a' ≤ 1) (hb : |b'| ≤ |b|) (hb2 : |b| - |b'| ≤ δ) :
    √(a' ^ 2 + b' ^ 2) ≤ √(a ^ 2 + b ^ 2) ∧ √(a ^ 2 + b ^ 2) ≤ √(a' ^ 2 + b' ^ 2) + 1 + δ := by
  have e1 : b ^ 2 = |b| ^ 2 := (sq_abs b).symm
  have e2 : b' ^ 2 = |b'| ^ 2 := (sq_abs b').symm
  have p0 := abs_nonneg b'
  rw [e1, e2]
  generalize |b| = u at *
  generalize |b'| = v at *
  constructor
  · apply Real.sqrt_le_sqrt
    nlinarith
  · have hc0 : 0 ≤ √(a' ^ 2 + v ^ 2) := Real.sqrt_nonneg _
    have hc1 : √(a' ^ 2 + v ^ 2) ^ 2 = a' ^ 2 + v ^ 2 := Real.sq_sqrt (by positivity)
    have hca : a' ≤ √(a' ^ 2 + v ^ 2) := Real.le_sqrt_of_sq_le (by nlinarith)
    have hcv : v ≤ √(a' ^ 2 + v ^ 2) := Real.le_sqrt_of_sq_le (by nlinarith)
    generalize √(a' ^ 2 + v ^ 2) = c at *
    have : √(a ^ 2 + u ^ 2) ≤ c + (a - a') + (u - v) := by
      apply Real.sqrt_le_iff.2
      constructor
      · linarith
      · have q1 : 0 ≤ (c - a') * (a - a') := mul_nonneg (by linarith) (by linarith)
        have q2 : 0 ≤ (c - v) * (u - v) := mul_nonneg (by linarith) (by linarith)
        have q3 : 0 ≤ (a - a') * (u - v) := mul_nonneg (by linarith) (by linarith)
        nlinarith
    linarith

theorem crossImage_spec {fft filter2 : Mat ℝ → Mat ℝ} {mat img : Mat ℝ} {bright norm denoise : Bool}
    (h : crossImage fft filter2 mat bright norm denoise = .ok img) : IsCrossImage fft filter2 bright norm denoise mat img := by
  unfold crossImage at h
  rw [bind_ok_iff] at h
  obtain ⟨base, h1, h2⟩ := h
  injection h2 with h2
  obtain ⟨eh, ew, value, hv, hv0, hv1⟩ := invert_roi h1
  refine ⟨base, ?_, ?_, _, rfl, h2.symm⟩
  · rintro rfl
    simp only [Bool.false_eq_true, if_false] at h1
    injection h1 with h1
    exact h1.symm
  · intro hb
    obtain ⟨M, h3, h4, h5⟩ := hv1 hb
    exact ⟨eh, ew, M, h4, h5, fun i j => by rw [hv, h3]⟩

theorem crossImage_shape {fft filter2 : Mat ℝ → Mat ℝ} {mat img : Mat ℝ} {bright norm denoise : Bool}
    (hf : ∀ m, (fft m).height = m.height ∧ (fft m).width = m.width) (hg : ∀ m, (filter2 m).height = m.height ∧ (filter2 m).width = m.width)
    (h : crossImage fft filter2 mat bright norm denoise = .ok img) : img.height = mat.height ∧ img.width = mat.width := by
  unfold crossImage at h
  rw [bind_ok_iff] at h
  obtain ⟨base, h1, h2⟩ := h
  injection h2 with h2
  obtain ⟨eh, ew, _⟩ := invert_roi h1
  subst h2
  cases norm <;> cases denoise <;> simp [hf, hg, eh, ew]

theorem crossImage_ok {fft filter2 : Mat ℝ → Mat ℝ} {mat : Mat ℝ} {bright norm denoise : Bool} (hh : 0 < mat.height)
    (hw : 0 < mat.width) : ∃ img, crossImage fft filter2 mat bright norm denoise = .ok img := by
  unfold crossImage
  cases bright with
  | false => exact ⟨_, rfl⟩
  | true =>
    have hne : mat.flat ≠ [] := List.ne_nil_of_mem (mem_flat_iff.2 ⟨0, 0, hh, hw, rfl⟩)
    obtain ⟨M, e, _, _⟩ := npMax_ok hne
    simp only [if_true, e, ok_bind]
    exact ⟨_, rfl⟩

theorem offset_spec (offset : ℝ) (top : ℕ) : IsOffset offset top (truncInt (clip offset 0 (top : ℝ))) := by
  have h0 : (0 : ℝ) ≤ top := Nat.cast_nonneg _
  have e : clip offset 0 (top : ℝ) = max 0 (min offset top) := by
    unfold clip
    rcases le_total offset 0 with h | h
    · rw [max_eq_right h, min_eq_left h0, min_eq_left (h.trans h0), max_eq_left h]
    · rw [max_eq_left h, max_eq_right (le_min h h0)]
  unfold IsOffset truncInt
  rw [e, if_pos (le_max_left _ _)]

theorem Spec.IsOffset.nonneg {offset : ℝ} {top : ℕ} {off : ℤ} (h : IsOffset offset top off) : 0 ≤ off := by
  rw [h]; exact Int.floor_nonneg.2 (le_max_left _ _)

theorem starts_spec {lo hi off : ℤ} {step : ℝ} (hs : 0 < step) :
    IsStarts lo hi off step (arange ((lo + off : ℤ) : ℝ) ((hi - off : ℤ) : ℝ) step) := by
  constructor
  · unfold arange
    rw [List.pairwise_map]
    refine List.pairwise_lt_range.imp ?_
    intro a b hab
    have : (a : ℝ) < b := by exact_mod_cast hab
    nlinarith
  · intro a
    rw [mem_arange hs]
    push_cast
    rfl

theorem crossPointsOnLine_spec {E : Ext} {store : ℝ → ℝ} {xs ys prof : List ℝ} {n : ℕ} {fx fy x0 x1 y0 y1 : ℝ} {chessboard : Bool}
    {radius : ℤ} {sensitive : ℝ} {denoise norm subpixel : Bool} {sel : Option PeakParams} {g : List Pt}
    (hx0 : xs.head? = some x0) (hx1 : xs.getLast? = some x1) (hy0 : ys.head? = some y0) (hy1 : ys.getLast? = some y1) (hn : 2 ≤ n)
    (h : crossPointsOnLine E store (xs, ys, prof) n fx fy chessboard radius sensitive denoise norm subpixel sel = .ok g) :
    ∃ prof' rs, (chessboard = false → prof' = prof) ∧ (chessboard = true → slidingWindowSlope E.pf store prof 3 true = .ok prof') ∧
      getLocalExtremaPoints E prof' "max" radius sensitive (!denoise) (!norm) subpixel sel = .ok rs ∧
      g = rs.map fun r => ⟨r * (√((x1 - x0) ^ 2 + (y1 - y0) ^ 2) / ((n : ℝ) - 1)) * fy + y0,
        r * (√((x1 - x0) ^ 2 + (y1 - y0) ^ 2) / ((n : ℝ) - 1)) * fx + x0⟩ := by
  have hn' : (n : ℝ) - 1 ≠ 0 := by
    have : (2 : ℝ) ≤ n := by exact_mod_cast hn
    intro h0; linarith
  unfold crossPointsOnLine at h
  simp only [hx0, hx1, hy0, hy1] at h
  rw [finDiv_ok hn', ok_bind, bind_ok_iff] at h
  obtain ⟨prof', h1, h⟩ := h
  rw [bind_ok_iff] at h
  obtain ⟨rs, h2, h⟩ := h
  injection h with h
  refine ⟨prof', rs, ?_, ?_, h2, h.symm⟩
  · rintro rfl
    simp only [Bool.false_eq_true, if_false] at h1
    injection h1 with h1
    exact h1.symm
  · rintro rfl
    simpa using h1

/-! ## The angle of a slope -/

theorem arctan_deg (s : ℝ) : Real.arctan s * 180 / Real.pi * Real.pi / 180 = Real.arctan s := by
  field_simp

theorem arctan_deg_lt (s : ℝ) : |Real.arctan s * 180 / Real.pi| < 90 := by
  have h1 := Real.arctan_lt_pi_div_two s
  have h2 := Real.neg_pi_div_two_lt_arctan s
  have hp := Real.pi_pos
  rw [abs_lt]
  constructor
  · rw [lt_div_iff₀ hp]; linarith
  · rw [div_lt_iff₀ hp]; linarith

theorem arctan_deg_pos {s : ℝ} : 0 < Real.arctan s * 180 / Real.pi ↔ 0 < s := by
  rw [div_pos_iff_of_pos_right Real.pi_pos, mul_pos_iff_of_pos_right (by norm_num)]
  exact Real.arctan_pos

theorem sin_arctan_eq (s : ℝ) : Real.sin (Real.arctan s) = s * Real.cos (Real.arctan s) := by
  have := Real.tan_arctan s
  rw [Real.tan_eq_sin_div_cos, div_eq_iff (Real.cos_arctan_pos s).ne'] at this
  exact this

end Discorpy
