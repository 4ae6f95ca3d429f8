import Verif.Spec.Noise
import Verif.Lemmas.Image
import Verif.Lemmas.IntImages

/-! # Lemmas: bounded differences of pixels -/

namespace Discorpy

open Spec

theorem differs_iff {e : ℝ} {m m' : Mat ℝ} : DiffersBy e m m' ↔ ExceedsBy e m m' ∧ ExceedsBy e m' m := by
  constructor
  · intro h
    refine ⟨⟨h.height, h.width, fun i hi j hj => ?_⟩, h.height.symm, h.width.symm, fun i hi j hj => ?_⟩
    · linarith [(abs_le.1 (h.pixel i hi j hj)).2]
    · linarith [(abs_le.1 (h.pixel i (h.height ▸ hi) j (h.width ▸ hj))).1]
  · rintro ⟨h, h'⟩
    refine ⟨h.height, h.width, fun i hi j hj => abs_le.2 ⟨?_, ?_⟩⟩
    · linarith [h'.pixel i (by rw [h.height]; exact hi) j (by rw [h.width]; exact hj)]
    · linarith [h.pixel i hi j hj]

theorem bilinear_exceeds {e : ℝ} {m m' : Mat ℝ} (h : ExceedsBy e m m') {y x : ℝ} (hf : Spec.InFrame m y x) : bilinear m' y x ≤ bilinear m y x + e := by
  have hh := hf.height_pos
  have hw := hf.width_pos
  obtain ⟨fy, fx⟩ := hf.floor_lt
  have ly := Nat.floor_le hf.1
  have lx := Nat.floor_le hf.2.2.1
  have uy := Nat.lt_floor_add_one y
  have ux := Nat.lt_floor_add_one x
  unfold bilinear
  simp only [h.height, h.width]
  have p1 := h.pixel _ fy _ fx
  have p2 := h.pixel _ fy (min (⌊x⌋₊ + 1) (m.width - 1)) (by omega)
  have p3 := h.pixel (min (⌊y⌋₊ + 1) (m.height - 1)) (by omega) _ fx
  have p4 := h.pixel (min (⌊y⌋₊ + 1) (m.height - 1)) (by omega) (min (⌊x⌋₊ + 1) (m.width - 1)) (by omega)
  set s := y - (⌊y⌋₊ : ℝ)
  set t := x - (⌊x⌋₊ : ℝ)
  have s0 : 0 ≤ s := by simp only [s]; linarith
  have s1 : 0 ≤ 1 - s := by simp only [s]; linarith
  have t0 : 0 ≤ t := by simp only [t]; linarith
  have t1 : 0 ≤ 1 - t := by simp only [t]; linarith
  have q1 := mul_le_mul_of_nonneg_left p1 (mul_nonneg s1 t1)
  have q2 := mul_le_mul_of_nonneg_left p2 (mul_nonneg s1 t0)
  have q3 := mul_le_mul_of_nonneg_left p3 (mul_nonneg s0 t1)
  have q4 := mul_le_mul_of_nonneg_left p4 (mul_nonneg s0 t0)
  nlinarith

theorem linearInterp_exceeds (B : Boundary) {e : ℝ} {m m' : Mat ℝ} (h : ExceedsBy e m m') {y x : ℝ} (hf : Spec.InFrame m y x) :
    linearInterp B m' y x ≤ linearInterp B m y x + e := by
  have hf' : Spec.InFrame m' y x := by
    unfold Spec.InFrame at hf ⊢
    rw [h.height, h.width]
    exact hf
  rw [linearInterp_eq B _ hf, linearInterp_eq B _ hf']
  exact bilinear_exceeds h hf

theorem nearInt_add_le {s t : ℝ} {e : ℤ} (h : s ≤ t + e) : nearInt s ≤ nearInt t + e + 1 := by
  have h1 := (abs_le.1 (nearInt_dist s)).2
  have h2 := (abs_le.1 (nearInt_dist t)).1
  have : (nearInt s : ℝ) ≤ nearInt t + e + 1 := by linarith
  exact_mod_cast this

theorem nearInt_add_le_pos {s t : ℝ} {e : ℤ} (ht : 0 ≤ t) (he : 0 ≤ e) (h : s ≤ t + e) : nearInt s ≤ nearInt t + e := by
  have key : nearInt (t + e) = nearInt t + e := by
    rcases ht.lt_or_eq with h1 | h1
    · have h2 : t + e > 0 := by
        have : (0 : ℝ) ≤ e := by exact_mod_cast he
        linarith
      unfold nearInt
      rw [if_pos h2, if_pos h1, show t + (e : ℝ) + 1 / 2 = t + 1 / 2 + e by ring, Int.floor_add_intCast]
    · rw [← h1, zero_add, nearInt_int]
      have := nearInt_int 0
      simp only [Int.cast_zero] at this
      omega
  rw [← key]
  exact nearInt_mono h

theorem cast_add_le (T : IntType) (h0 : T.lo ≤ 0) (h1 : 0 ≤ T.hi) {s t : ℝ} {e : ℤ} (he : 0 ≤ e) (h : s ≤ t + e) : T.cast s ≤ T.cast t + e + 1 := by
  rw [cast_eq T h0 h1, cast_eq T h0 h1]
  have := nearInt_add_le h
  omega

theorem cast_add_le_pos (T : IntType) (h0 : T.lo ≤ 0) (h1 : 0 ≤ T.hi) {s t : ℝ} {e : ℤ} (ht : 0 ≤ t) (he : 0 ≤ e) (h : s ≤ t + e) : T.cast s ≤ T.cast t + e := by
  rw [cast_eq T h0 h1, cast_eq T h0 h1]
  have := nearInt_add_le_pos ht he h
  omega

end Discorpy
