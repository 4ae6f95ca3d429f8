import Verif.Lemmas.Num
import Verif.Model.Post

/-! # Helper lemmas about the post-processing model -/

namespace Discorpy

open Spec

theorem exists_min_map_range {w : ℕ} (hw : 0 < w) (f : ℕ → ℝ) :
    ∃ m, ((List.range w).map f).min? = some m ∧ (∃ j < w, m = f j) ∧ ∀ j < w, m ≤ f j := by
  obtain ⟨m, hm⟩ : ∃ m, ((List.range w).map f).min? = some m := by
    cases h : ((List.range w).map f).min? with
    | none => simp at h; omega
    | some m => exact ⟨m, rfl⟩
  refine ⟨m, hm, ?_⟩
  rw [List.min?_eq_some_iff] at hm
  obtain ⟨h1, h2⟩ := hm
  simp only [List.mem_map, List.mem_range] at h1 h2
  obtain ⟨j, hj, rfl⟩ := h1
  exact ⟨⟨j, hj, rfl⟩, fun k hk => h2 _ ⟨k, hk, rfl⟩⟩

theorem exists_max_map_range {w : ℕ} (hw : 0 < w) (f : ℕ → ℝ) :
    ∃ m, ((List.range w).map f).max? = some m ∧ (∃ j < w, m = f j) ∧ ∀ j < w, f j ≤ m := by
  obtain ⟨m, hm⟩ : ∃ m, ((List.range w).map f).max? = some m := by
    cases h : ((List.range w).map f).max? with
    | none => simp at h; omega
    | some m => exact ⟨m, rfl⟩
  refine ⟨m, hm, ?_⟩
  rw [List.max?_eq_some_iff] at hm
  obtain ⟨h1, h2⟩ := hm
  simp only [List.mem_map, List.mem_range] at h1 h2
  obtain ⟨j, hj, rfl⟩ := h1
  exact ⟨⟨j, hj, rfl⟩, fun k hk => h2 _ ⟨k, hk, rfl⟩⟩

theorem inFrame_clip {m : Mat ℝ} (hh : 0 < m.height) (hw : 0 < m.width) (y x : ℝ) :
    InFrame m (clip y 0 ((m.height : ℝ) - 1)) (clip x 0 ((m.width : ℝ) - 1)) := by
  have h1 : (1 : ℝ) ≤ m.height := by exact_mod_cast hh
  have h2 : (1 : ℝ) ≤ m.width := by exact_mod_cast hw
  exact ⟨clip_ge (by linarith), clip_le, clip_ge (by linarith), clip_le⟩

/-- Sampling in the band cut out by `yd_min:yd_max` is sampling in the whole image. -/
theorem linearInterp_crop (B : Boundary) (m : Mat ℝ) {ymin ymax y x : ℝ} (hh : m.height ≤ 32767)
    (h0 : 0 ≤ ymin) (h1 : ymin ≤ y) (h2 : y ≤ ymax) (h3 : ymax ≤ (m.height : ℝ) - 1)
    (hx0 : 0 ≤ x) (hx1 : x ≤ (m.width : ℝ) - 1) :
    linearInterp B (m.rows (toInt16 ⌊ymin⌋) (toInt16 (toInt16 ⌈ymax⌉ + 1)))
      (y - toInt16 ⌊ymin⌋) x = bilinear m y x := by
  obtain ⟨a, ha⟩ : ∃ a : ℕ, ⌊ymin⌋ = (a : ℤ) := ⟨⌊ymin⌋.toNat, (Int.toNat_of_nonneg (Int.floor_nonneg.2 h0)).symm⟩
  obtain ⟨b, hb⟩ : ∃ b : ℕ, ⌈ymax⌉ = (b : ℤ) :=
    ⟨⌈ymax⌉.toNat, (Int.toNat_of_nonneg (Int.ceil_nonneg (by linarith))).symm⟩
  have hbh : b + 1 ≤ m.height := by
    have : ⌈ymax⌉ ≤ (m.height : ℤ) - 1 := by
      rw [Int.ceil_le]; push_cast; exact h3
    omega
  have hab : (a : ℝ) ≤ ymin := by
    have := Int.floor_le ymin
    rw [ha] at this; exact_mod_cast this
  have hyb : ymax ≤ (b : ℝ) := by
    have := Int.le_ceil ymax
    rw [hb] at this; exact_mod_cast this
  have hab' : a ≤ b := by
    have : (a : ℝ) ≤ b := by linarith
    exact_mod_cast this
  rw [ha, hb, toInt16_of_mem (n := (a : ℤ)) (by omega) (by omega),
    toInt16_of_mem (n := (b : ℤ)) (by omega) (by omega),
    toInt16_of_mem (n := (b : ℤ) + 1) (by omega) (by omega)]
  have hb' : ((b : ℤ) + 1) = ((b + 1 : ℕ) : ℤ) := by push_cast; ring
  rw [hb', Int.cast_natCast, linearInterp_eq, bilinear_rows m a (b + 1) hbh (by linarith)
    (by push_cast; linarith)]
  have sa : sliceBound m.height (a : ℤ) = a := sliceBound_nat (by omega)
  have sb : sliceBound m.height ((b + 1 : ℕ) : ℤ) = b + 1 := sliceBound_nat hbh
  refine ⟨by linarith, ?_, hx0, hx1⟩
  simp only [Mat.rows, sa, sb]
  rw [Nat.cast_sub (by omega)]; push_cast; linarith

end Discorpy
