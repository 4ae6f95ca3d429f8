import Verif.Spec.Image
import Verif.Lemmas.Post

/-! # Helper lemmas: convexity, linearity, node values of bilinear interpolation; rounding -/

namespace Discorpy

open Spec

theorem Spec.CoordRounding.natCast {rnd : ℝ → ℝ} (h : CoordRounding rnd) {n : ℕ} (hn : n ≤ 2 ^ 24) :
    rnd (n : ℝ) = n := by
  have := h.exact (n : ℤ) (by rw [abs_of_nonneg (by omega)]; exact_mod_cast hn)
  simpa using this

theorem Spec.CoordRounding.mem {rnd : ℝ → ℝ} (h : CoordRounding rnd) {n : ℕ} (hn : n ≤ 2 ^ 24) (hn0 : 0 < n)
    {y : ℝ} (h0 : 0 ≤ y) (h1 : y ≤ (n : ℝ) - 1) : 0 ≤ rnd y ∧ rnd y ≤ (n : ℝ) - 1 := by
  constructor
  · have := h.mono h0
    have e := CoordRounding.natCast h (n := 0) (by norm_num)
    simp at e; linarith
  · have := h.mono h1
    have e := CoordRounding.natCast h (n := n - 1) (by omega)
    rw [Nat.cast_sub hn0] at e; simp at e; linarith

theorem inFrame_rnd {rnd : ℝ → ℝ} (h : CoordRounding rnd) {m : Mat ℝ} {y x : ℝ}
    (hm : InFrame m y x) (hh : 0 < m.height) (hw : 0 < m.width) (hh' : m.height ≤ 2 ^ 24)
    (hw' : m.width ≤ 2 ^ 24) : InFrame m (rnd y) (rnd x) :=
  ⟨(h.mem hh' hh hm.1 hm.2.1).1, (h.mem hh' hh hm.1 hm.2.1).2, (h.mem hw' hw hm.2.2.1 hm.2.2.2).1,
    (h.mem hw' hw hm.2.2.1 hm.2.2.2).2⟩

theorem Spec.InFrame.height_pos {m : Mat ℝ} {y x : ℝ} (h : InFrame m y x) : 0 < m.height := by
  rcases Nat.eq_zero_or_pos m.height with h' | h'
  · have := h.1; have := h.2.1; simp [h'] at this; linarith
  · exact h'

theorem Spec.InFrame.width_pos {m : Mat ℝ} {y x : ℝ} (h : InFrame m y x) : 0 < m.width := by
  rcases Nat.eq_zero_or_pos m.width with h' | h'
  · have := h.2.2.1; have := h.2.2.2; simp [h'] at this; linarith
  · exact h'

theorem Spec.InFrame.floor_lt {m : Mat ℝ} {y x : ℝ} (h : InFrame m y x) :
    ⌊y⌋₊ < m.height ∧ ⌊x⌋₊ < m.width := by
  constructor
  · have := Nat.floor_le h.1
    have : (⌊y⌋₊ : ℝ) < m.height := by linarith [h.2.1]
    exact_mod_cast this
  · have := Nat.floor_le h.2.2.1
    have : (⌊x⌋₊ : ℝ) < m.width := by linarith [h.2.2.2]
    exact_mod_cast this

theorem bilinear_mem_convexHull {m : Mat ℝ} {y x : ℝ} (h : InFrame m y x) :
    bilinear m y x ∈ convexHull ℝ (pixelValues m) := by
  have hh := h.height_pos
  have hw := h.width_pos
  obtain ⟨fy, fx⟩ := h.floor_lt
  have ly := Nat.floor_le h.1
  have lx := Nat.floor_le h.2.2.1
  have uy := Nat.lt_floor_add_one y
  have ux := Nat.lt_floor_add_one x
  have mem : ∀ i < m.height, ∀ j < m.width, m.get i j ∈ convexHull ℝ (pixelValues m) :=
    fun i hi j hj => subset_convexHull ℝ _ ⟨i, hi, j, hj, rfl⟩
  have cv := convex_convexHull ℝ (pixelValues m)
  unfold bilinear
  generalize ⌊y⌋₊ = a at *
  generalize ⌊x⌋₊ = b at *
  have r1 := cv (mem a fy b fx) (mem a fy (min (b + 1) (m.width - 1)) (by omega))
    (a := 1 - (x - b)) (b := x - b) (by linarith) (by linarith) (by ring)
  have r2 := cv (mem (min (a + 1) (m.height - 1)) (by omega) b fx)
    (mem (min (a + 1) (m.height - 1)) (by omega) (min (b + 1) (m.width - 1)) (by omega))
    (a := 1 - (x - b)) (b := x - b) (by linarith) (by linarith) (by ring)
  have r3 := cv r1 r2 (a := 1 - (y - a)) (b := y - a) (by linarith) (by linarith) (by ring)
  simp only [smul_eq_mul] at r3
  convert r3 using 1
  ring

theorem bilinear_node {m : Mat ℝ} (i j : ℕ) : bilinear m i j = m.get i j := by
  unfold bilinear
  simp

theorem bilinear_congr {m m' : Mat ℝ} (h : SameImage m m') {y x : ℝ} (hf : InFrame m y x) :
    bilinear m y x = bilinear m' y x := by
  obtain ⟨h1, h2, h3⟩ := h
  have hh := hf.height_pos
  have hw := hf.width_pos
  obtain ⟨fy, fx⟩ := hf.floor_lt
  unfold bilinear
  simp only
  rw [← h1, ← h2, h3 _ fy _ fx, h3 _ fy _ (by omega), h3 _ (by omega) _ fx, h3 _ (by omega) _ (by omega)]

theorem bilinear_linear (m m' : Mat ℝ) (h1 : m.height = m'.height) (h2 : m.width = m'.width)
    (a b y x : ℝ) :
    bilinear ⟨m.height, m.width, fun i j => a * m.get i j + b * m'.get i j⟩ y x
      = a * bilinear m y x + b * bilinear m' y x := by
  unfold bilinear
  simp only [h1, h2]
  ring

end Discorpy
