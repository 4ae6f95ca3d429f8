import Verif.Spec.Symmetry
import Verif.Lemmas.Accuracy

/-! # Helper lemmas: interpolation in transposed and mirrored images -/

namespace Discorpy

open Spec

theorem Spec.IsTransposed.inFrame {m m' : Mat ℝ} (h : IsTransposed m m') {y x : ℝ} (hf : InFrame m y x) : InFrame m' x y := by
  obtain ⟨h1, h2, _⟩ := h
  obtain ⟨a, b, c, d⟩ := hf
  exact ⟨c, by rw [h1]; exact d, a, by rw [h2]; exact b⟩

theorem bilinear_transposed {m m' : Mat ℝ} (h : IsTransposed m m') {y x : ℝ} (hf : InFrame m y x) : bilinear m' x y = bilinear m y x := by
  obtain ⟨h1, h2, h3⟩ := h
  have hh := hf.height_pos
  have hw := hf.width_pos
  obtain ⟨fy, fx⟩ := hf.floor_lt
  unfold bilinear
  simp only
  rw [h1, h2, h3 _ fy _ fx, h3 _ fy _ (by omega), h3 _ (by omega) _ fx, h3 _ (by omega) _ (by omega)]
  ring

/-- Linear interpolation in a mirrored row. -/
theorem linear_mirrored {n : ℕ} {g g' : ℕ → ℝ} (h : ∀ j < n, g' (n - 1 - j) = g j) {x : ℝ} (h0 : 0 ≤ x) (h1 : x ≤ (n : ℝ) - 1) :
    (1 - ((n : ℝ) - 1 - x - ⌊(n : ℝ) - 1 - x⌋₊)) * g' ⌊(n : ℝ) - 1 - x⌋₊ +
      ((n : ℝ) - 1 - x - ⌊(n : ℝ) - 1 - x⌋₊) * g' (min (⌊(n : ℝ) - 1 - x⌋₊ + 1) (n - 1)) =
    (1 - (x - ⌊x⌋₊)) * g ⌊x⌋₊ + (x - ⌊x⌋₊) * g (min (⌊x⌋₊ + 1) (n - 1)) := by
  obtain ⟨a1, a2, a3, a4⟩ := floor_weights h0 h1
  have cast : ∀ j : ℕ, j < n → ((n - 1 - j : ℕ) : ℝ) = (n : ℝ) - 1 - j := by
    intro j hj
    rw [Nat.cast_sub (by omega), Nat.cast_sub (by omega), Nat.cast_one]
  by_cases hx : x = ⌊x⌋₊
  · have e : (n : ℝ) - 1 - x = ((n - 1 - ⌊x⌋₊ : ℕ) : ℝ) := by rw [cast _ a1, ← hx]
    rw [e, Nat.floor_natCast, sub_self, show x - (⌊x⌋₊ : ℝ) = 0 by linarith]
    simp only [sub_zero, one_mul, zero_mul, add_zero]
    exact h _ a1
  · obtain ⟨b1, b2⟩ : ⌊x⌋₊ + 1 < n ∧ min (⌊x⌋₊ + 1) (n - 1) = ⌊x⌋₊ + 1 := by
      rcases a4 with h | h
      · exact h
      · exact absurd h.1 hx
    have hpos : 0 < x - ⌊x⌋₊ := lt_of_le_of_ne a2 (fun h => hx (by linarith))
    have c1 := cast _ b1
    push_cast at c1
    have e : ⌊(n : ℝ) - 1 - x⌋₊ = n - 1 - (⌊x⌋₊ + 1) := by
      rw [Nat.floor_eq_iff (by linarith), c1]
      constructor <;> linarith
    rw [e, b2, c1, show min (n - 1 - (⌊x⌋₊ + 1) + 1) (n - 1) = n - 1 - ⌊x⌋₊ by omega, h _ b1, h _ a1]
    ring

theorem mirrorIndex_lt {b : Bool} {n i : ℕ} (h : i < n) : mirrorIndex b n i < n := by
  unfold mirrorIndex
  split <;> omega

theorem mirrorIndex_twice {b : Bool} {n i : ℕ} (h : i < n) : mirrorIndex b n (mirrorIndex b n i) = i := by
  unfold mirrorIndex
  cases b <;> simp <;> omega

theorem mirrorCoord_index {b : Bool} {n i : ℕ} (h : i < n) : ((mirrorIndex b n i : ℕ) : ℝ) = mirrorCoord b n i := by
  unfold mirrorIndex mirrorCoord
  cases b
  · simp
  · simp only [if_true]
    rw [Nat.cast_sub (by omega), Nat.cast_sub (by omega), Nat.cast_one]

theorem mirrorCoord_mem {b : Bool} {n : ℕ} {t : ℝ} (h0 : 0 ≤ t) (h1 : t ≤ (n : ℝ) - 1) : 0 ≤ mirrorCoord b n t ∧ mirrorCoord b n t ≤ (n : ℝ) - 1 := by
  unfold mirrorCoord
  cases b <;> simp <;> constructor <;> linarith

theorem Spec.IsMirrored.inFrame {ud lr : Bool} {m m' : Mat ℝ} (h : IsMirrored ud lr m m') {y x : ℝ} (hf : InFrame m y x) :
    InFrame m' (mirrorCoord ud m.height y) (mirrorCoord lr m.width x) := by
  obtain ⟨h1, h2, _⟩ := h
  obtain ⟨a, b, c, d⟩ := hf
  obtain ⟨e1, e2⟩ := mirrorCoord_mem (b := ud) a b
  obtain ⟨e3, e4⟩ := mirrorCoord_mem (b := lr) c d
  exact ⟨e1, by rw [h1]; exact e2, e3, by rw [h2]; exact e4⟩

theorem bilinear_mirrored {ud lr : Bool} {m m' : Mat ℝ} (h : IsMirrored ud lr m m') {y x : ℝ} (hf : InFrame m y x) :
    bilinear m' (mirrorCoord ud m.height y) (mirrorCoord lr m.width x) = bilinear m y x := by
  obtain ⟨h1, h2, h3⟩ := h
  have hh := hf.height_pos
  have hw := hf.width_pos
  obtain ⟨fy, fx⟩ := hf.floor_lt
  -- exchange left and right
  have row : ∀ i < m.height, ∀ i', i' = mirrorIndex ud m.height i →
      (1 - (mirrorCoord lr m.width x - ⌊mirrorCoord lr m.width x⌋₊)) * m'.get i' ⌊mirrorCoord lr m.width x⌋₊ +
        (mirrorCoord lr m.width x - ⌊mirrorCoord lr m.width x⌋₊) * m'.get i' (min (⌊mirrorCoord lr m.width x⌋₊ + 1) (m.width - 1)) =
      (1 - (x - ⌊x⌋₊)) * m.get i ⌊x⌋₊ + (x - ⌊x⌋₊) * m.get i (min (⌊x⌋₊ + 1) (m.width - 1)) := by
    intro i hi i' e
    subst e
    cases lr
    · simp only [mirrorCoord, mirrorIndex, Bool.false_eq_true, if_false] at h3 ⊢
      rw [h3 i hi _ fx, h3 i hi _ (by omega)]
    · simp only [mirrorCoord, if_true]
      exact linear_mirrored (g := m.get i) (g' := m'.get (mirrorIndex ud m.height i)) (fun j hj => h3 i hi j hj) hf.2.2.1 hf.2.2.2
  rw [bilinear_split, bilinear_split, h1, h2]
  cases ud
  · rw [show mirrorCoord false m.height y = y from rfl]
    rw [row ⌊y⌋₊ fy ⌊y⌋₊ rfl, row (min (⌊y⌋₊ + 1) (m.height - 1)) (by omega) (min (⌊y⌋₊ + 1) (m.height - 1)) rfl]
  · rw [show mirrorCoord true m.height y = (m.height : ℝ) - 1 - y from rfl]
    have fy' : ⌊(m.height : ℝ) - 1 - y⌋₊ < m.height := (floor_weights (N := m.height) (by linarith [hf.2.1]) (by linarith [hf.1])).1
    have e : ∀ i' < m.height, i' = mirrorIndex true m.height (mirrorIndex true m.height i') := fun i' hi => (mirrorIndex_twice hi).symm
    rw [row _ (mirrorIndex_lt fy') _ (e _ fy'), row _ (mirrorIndex_lt (show min (⌊(m.height : ℝ) - 1 - y⌋₊ + 1) (m.height - 1) < m.height by omega)) _ (e _ (by omega))]
    exact linear_mirrored
      (g := fun i => (1 - (x - ⌊x⌋₊)) * m.get i ⌊x⌋₊ + (x - ⌊x⌋₊) * m.get i (min (⌊x⌋₊ + 1) (m.width - 1)))
      (g' := fun i' => (1 - (x - ⌊x⌋₊)) * m.get (mirrorIndex true m.height i') ⌊x⌋₊ +
        (x - ⌊x⌋₊) * m.get (mirrorIndex true m.height i') (min (⌊x⌋₊ + 1) (m.width - 1)))
      (fun j hj => by simp only [mirrorIndex, if_true]; rw [show m.height - 1 - (m.height - 1 - j) = j by omega]) hf.1 hf.2.1

end Discorpy
