import Verif.Lemmas.Array
import Verif.Lemmas.Num
import Verif.Lemmas.Except
import Verif.Model.Prep
import Verif.Spec.Prep
import Mathlib.Analysis.SpecialFunctions.Complex.Arg
import Mathlib.Tactic.LinearCombination

/-! # C35, C36, C37, C38: rotation and removal of points, region of interest, contrast -/

namespace Discorpy

open Spec

/-! ## C35 -/

/-- **C35** (a rotation): every point, as a complex number `x + iy`, is multiplied by `exp(i·angle)`; number and order of
the points are kept. -/
theorem C35_rotation (points : List Pt) (angle : ℝ) :
    (rotatePoints points angle false).length = points.length ∧
    ∀ (k : ℕ) (p : Pt), points[k]? = some p → ∃ q : Pt, (rotatePoints points angle false)[k]? = some q ∧
      (⟨q.x, q.y⟩ : ℂ) = Complex.exp (angle * Complex.I) * ⟨p.x, p.y⟩ := by
  refine ⟨by simp [rotatePoints], fun k p hp => ⟨⟨p.x * Real.sin angle + p.y * Real.cos angle, p.x * Real.cos angle - p.y * Real.sin angle⟩,
    by simp [rotatePoints, hp], ?_⟩⟩
  apply Complex.ext
  · simp [Complex.exp_ofReal_mul_I_re, Complex.exp_ofReal_mul_I_im]; ring
  · simp [Complex.exp_ofReal_mul_I_re, Complex.exp_ofReal_mul_I_im]; ring

/-- **C35** (distances): mutual distances are kept, whatever the unit of the angle. -/
theorem C35_distance (points : List Pt) (angle : ℝ) (unit : Bool) (i j : ℕ) (p q p' q' : Pt) (hp : points[i]? = some p)
    (hq : points[j]? = some q) (hp' : (rotatePoints points angle unit)[i]? = some p')
    (hq' : (rotatePoints points angle unit)[j]? = some q') :
    (p'.x - q'.x) ^ 2 + (p'.y - q'.y) ^ 2 = (p.x - q.x) ^ 2 + (p.y - q.y) ^ 2 := by
  simp only [rotatePoints, List.getElem?_map, hp, hq, Option.map_some, Option.some.injEq] at hp' hq'
  subst hp' hq'
  simp only
  generalize (if unit = true then angle * (Real.pi / 180) else angle) = a
  linear_combination ((p.x - q.x) ^ 2 + (p.y - q.y) ^ 2) * Real.sin_sq_add_cos_sq a

example (p' q' : Pt) (hp : (rotatePoints [⟨0, 0⟩, ⟨3, 4⟩] 30 true)[0]? = some p') (hq : (rotatePoints [⟨0, 0⟩, ⟨3, 4⟩] 30 true)[1]? = some q') :
    (p'.x - q'.x) ^ 2 + (p'.y - q'.y) ^ 2 = 25 := by
  rw [C35_distance [⟨0, 0⟩, ⟨3, 4⟩] 30 true 0 1 ⟨0, 0⟩ ⟨3, 4⟩ p' q' rfl rfl hp hq]
  norm_num

/-- **C35** (composition): rotating by `a`, then by `b`, is rotating by `a + b`, in either unit. -/
theorem C35_compose (points : List Pt) (a b : ℝ) (unit : Bool) :
    rotatePoints (rotatePoints points a unit) b unit = rotatePoints points (a + b) unit := by
  unfold rotatePoints
  cases unit
  · simp only [Bool.false_eq_true, if_false, List.map_map]
    apply List.map_congr_left
    intro p _
    rw [Function.comp_apply, Pt.mk.injEq, Real.cos_add, Real.sin_add]
    constructor <;> ring
  · simp only [if_true, List.map_map]
    apply List.map_congr_left
    intro p _
    rw [Function.comp_apply, Pt.mk.injEq, show (a + b) * (Real.pi / 180) = a * (Real.pi / 180) + b * (Real.pi / 180) by ring,
      Real.cos_add, Real.sin_add]
    constructor <;> ring

/-- **C35** (inverse and full turns): rotating by `0` or by a full turn changes nothing; rotating by `-a` undoes `a`. -/
theorem C35_inverse (points : List Pt) (a : ℝ) (unit : Bool) :
    rotatePoints points 0 unit = points ∧ rotatePoints points 360 true = points ∧
    rotatePoints points (2 * Real.pi) false = points ∧
    rotatePoints (rotatePoints points a unit) (-a) unit = points := by
  have h0 : ∀ u, rotatePoints points 0 u = points := by
    intro u; cases u <;> simp [rotatePoints]
  refine ⟨h0 _, ?_, ?_, by rw [C35_compose, add_neg_cancel]; exact h0 _⟩
  · simp [rotatePoints, show (360 : ℝ) * (Real.pi / 180) = 2 * Real.pi by ring]
  · simp [rotatePoints]

/-- **C35** (units): an angle in degrees is the angle times `π/180` in radians. -/
theorem C35_units (points : List Pt) (a : ℝ) :
    rotatePoints points a true = rotatePoints points (a * Real.pi / 180) false := by
  simp only [rotatePoints, if_true, Bool.false_eq_true, if_false, show a * (Real.pi / 180) = a * Real.pi / 180 by ring]

/-- A quarter turn takes the point `x = 1, y = 0` to `x = 0, y = 1`. -/
example : rotatePoints [⟨0, 1⟩] 90 true = [⟨1, 0⟩] := by
  rw [C35_units, show (90 : ℝ) * Real.pi / 180 = Real.pi / 2 by ring]
  simp [rotatePoints]

/-! ## C36 -/

/-- **C36.** The result contains, in order, exactly the points that are not among the selected ones, as often as before. -/
theorem C36_subset (selected points : List Pt) :
    (removeSubset selected points).Sublist points ∧
    (∀ p, p ∈ removeSubset selected points ↔ p ∈ points ∧ p ∉ selected) ∧
    (open Classical in ∀ p, p ∉ selected → (removeSubset selected points).count p = points.count p) := by
  classical
  refine ⟨List.filter_sublist, fun p => by simp [removeSubset], fun p hp => ?_⟩
  unfold removeSubset
  exact List.count_filter (by simpa using hp)

/-- **C36** (laws): repeating a removal changes nothing; removing `A`, then `B`, is removing both, in either order; removing
nothing or foreign points changes nothing; removing everything leaves nothing. -/
theorem C36_laws (A B points : List Pt) :
    removeSubset A (removeSubset A points) = removeSubset A points ∧
    removeSubset B (removeSubset A points) = removeSubset (A ++ B) points ∧
    removeSubset B (removeSubset A points) = removeSubset A (removeSubset B points) ∧
    ((∀ p ∈ points, p ∉ A) → removeSubset A points = points) ∧
    removeSubset points points = [] := by
  classical
  unfold removeSubset
  refine ⟨?_, ?_, ?_, ?_, ?_⟩
  · rw [List.filter_filter]; simp
  · rw [List.filter_filter]
    apply List.filter_congr
    intro p _
    rw [← Bool.decide_and]
    simp [List.mem_append, not_or, and_comm]
  · rw [List.filter_comm]
  · intro h
    rw [List.filter_eq_self]
    simpa using h
  · rw [List.filter_eq_nil_iff]
    simp

example : removeSubset [⟨1, 2⟩] [⟨1, 2⟩, ⟨3, 4⟩, ⟨1, 2⟩, ⟨3, 4⟩] = [⟨3, 4⟩, ⟨3, 4⟩] := by
  simp [removeSubset]

/-! ## C37 -/

theorem clipRatio_mem (ratio : ℝ) : 0.05 ≤ clip ratio 0.05 1 ∧ clip ratio 0.05 1 ≤ 1 :=
  ⟨clip_ge (by norm_num), clip_le⟩

theorem selectRoi_margin (n : ℕ) (r : ℝ) (h1 : 0.05 ≤ r) (h2 : r ≤ 1) :
    ∃ d : ℕ, truncInt (((n : ℝ) - r * n) / 2) = d ∧ 2 * (d : ℝ) ≤ n - r * n ∧ (n : ℝ) - r * n < 2 * d + 2 ∧ (0 < n → 2 * d < n) ∧
      2 * d ≤ n := by
  have hn : (0 : ℝ) ≤ n := Nat.cast_nonneg n
  have h0 : 0 ≤ ((n : ℝ) - r * n) / 2 := by
    have : r * n ≤ 1 * n := mul_le_mul_of_nonneg_right h2 hn
    linarith
  refine ⟨⌊((n : ℝ) - r * n) / 2⌋₊, ?_, ?_, ?_, ?_, ?_⟩
  · unfold truncInt
    rw [if_pos h0, Int.natCast_floor_eq_floor h0]
  · have := Nat.floor_le h0
    linarith
  · have := Nat.lt_floor_add_one (((n : ℝ) - r * n) / 2)
    linarith
  · intro hpos
    have h3 := Nat.floor_le h0
    have hpos' : (0 : ℝ) < n := by exact_mod_cast hpos
    have h4 : (0 : ℝ) < r * n := mul_pos (by norm_num at h1; linarith) hpos'
    have : (2 * ⌊((n : ℝ) - r * n) / 2⌋₊ : ℝ) < n := by linarith
    exact_mod_cast this
  · have h3 := Nat.floor_le h0
    have h4 : (0 : ℝ) ≤ r * n := mul_nonneg (by norm_num at h1; linarith) hn
    have : (2 * ⌊((n : ℝ) - r * n) / 2⌋₊ : ℝ) ≤ n := by linarith
    exact_mod_cast this

theorem sliceBound_sub {n d : ℕ} (h : 2 * d ≤ n) : sliceBound n ((n : ℤ) - d) = n - d := by
  unfold sliceBound
  rw [if_neg (by omega)]
  omega

/-- **C37** (non-square): the region leaves the same number of rows above and below and the same number of columns on the
left and on the right. Its sides are the clamped ratio times the sides of the image, rounded up by less than two pixels. It
is empty only for an empty image. -/
theorem C37_roi {α : Type} (m : Mat α) (ratio : ℝ) : ∃ a b : ℕ,
    IsPart m (selectRoi m ratio false) a b ∧
    2 * a + (selectRoi m ratio false).height = m.height ∧ 2 * b + (selectRoi m ratio false).width = m.width ∧
    (∀ r, r = max 0.05 (min ratio 1) →
      r * m.height ≤ (selectRoi m ratio false).height ∧ (selectRoi m ratio false).height < r * m.height + 2 ∧
      r * m.width ≤ (selectRoi m ratio false).width ∧ (selectRoi m ratio false).width < r * m.width + 2) ∧
    (0 < m.height → 0 < (selectRoi m ratio false).height) ∧ (0 < m.width → 0 < (selectRoi m ratio false).width) := by
  obtain ⟨h1, h2⟩ := clipRatio_mem ratio
  obtain ⟨a, ea, a1, a2, a3, a4⟩ := selectRoi_margin m.height _ h1 h2
  obtain ⟨b, eb, b1, b2, b3, b4⟩ := selectRoi_margin m.width _ h1 h2
  have hh : (selectRoi m ratio false).height = m.height - 2 * a := by
    simp only [selectRoi, Bool.false_eq_true, if_false, Mat.rows, Mat.cols]
    rw [ea, sliceBound_sub a4, sliceBound_nat (by omega)]
    omega
  have hw : (selectRoi m ratio false).width = m.width - 2 * b := by
    simp only [selectRoi, Bool.false_eq_true, if_false, Mat.rows, Mat.cols]
    rw [eb, sliceBound_sub b4, sliceBound_nat (by omega)]
    omega
  refine ⟨a, b, ⟨by omega, by omega, fun i j => ?_⟩, by omega, by omega, ?_, fun h => ?_, fun h => ?_⟩
  · simp only [selectRoi, Bool.false_eq_true, if_false, Mat.rows, Mat.cols]
    rw [ea, eb, sliceBound_nat (by omega), sliceBound_nat (by omega), add_comm i, add_comm j]
  · intro r hr
    have : r = clip ratio 0.05 1 := by
      rw [hr, clip, max_min_distrib_left, max_comm, max_eq_right (by norm_num : (0.05 : ℝ) ≤ 1)]
    rw [hh, hw, this, Nat.cast_sub a4, Nat.cast_sub b4]
    push_cast
    exact ⟨by linarith, by linarith, by linarith, by linarith⟩
  · have := a3 h; omega
  · have := b3 h; omega

/-- **C37** (whole image): a ratio of 1 or more selects the whole image; ratios outside `[0.05, 1]` are clamped. -/
theorem C37_whole {α : Type} (m : Mat α) (ratio : ℝ) (square : Bool) :
    (1 ≤ ratio → (selectRoi m ratio false).height = m.height ∧ (selectRoi m ratio false).width = m.width ∧
      ∀ i j, (selectRoi m ratio false).get i j = m.get i j) ∧
    (1 ≤ ratio → selectRoi m ratio square = selectRoi m 1 square) ∧
    (ratio ≤ 0.05 → selectRoi m ratio square = selectRoi m 0.05 square) := by
  have hc1 : 1 ≤ ratio → clip ratio 0.05 1 = 1 := fun h => by
    unfold clip; rw [max_eq_left (by norm_num; linarith), min_eq_right h]
  have hc1' : clip 1 0.05 1 = 1 := by unfold clip; norm_num
  have hc2 : ratio ≤ 0.05 → clip ratio 0.05 1 = 0.05 := fun h => by
    unfold clip; rw [max_eq_right h, min_eq_left (by norm_num)]
  have hc2' : clip 0.05 0.05 1 = 0.05 := by unfold clip; norm_num
  refine ⟨fun h => ?_, fun h => by unfold selectRoi; rw [hc1 h, hc1'], fun h => by unfold selectRoi; rw [hc2 h, hc2']⟩
  have ht : truncInt 0 = ((0 : ℕ) : ℤ) := by simp [truncInt]
  simp only [selectRoi, hc1 h, Bool.false_eq_true, if_false, Mat.rows, Mat.cols, one_mul, sub_self, zero_div, ht]
  rw [sliceBound_nat (Nat.zero_le _), sliceBound_nat (Nat.zero_le _), sliceBound_sub (by omega), sliceBound_sub (by omega)]
  simp

/-- **C37** (square): the region is a square of even size inside the image; the margins on opposite sides differ by at most
one. -/
theorem C37_square {α : Type} (m : Mat α) (ratio : ℝ) : ∃ a b k : ℕ,
    IsPart m (selectRoi m ratio true) a b ∧
    (selectRoi m ratio true).height = 2 * k ∧ (selectRoi m ratio true).width = 2 * k ∧
    (2 * a + 2 * k = m.height ∨ 2 * a + 2 * k + 1 = m.height) ∧
    (2 * b + 2 * k = m.width ∨ 2 * b + 2 * k + 1 = m.width) ∧
    ∀ r, r = max 0.05 (min ratio 1) → 2 * (k : ℝ) ≤ r * (min m.height m.width : ℕ) ∧
      r * (min m.height m.width : ℕ) < 2 * k + 2 := by
  obtain ⟨h1, h2⟩ := clipRatio_mem ratio
  obtain ⟨n, hn⟩ : ∃ n : ℕ, n = min m.height m.width := ⟨_, rfl⟩
  have hn0 : (0 : ℝ) ≤ n := Nat.cast_nonneg n
  have h0 : 0 ≤ clip ratio 0.05 1 * n := mul_nonneg (by norm_num at h1 ⊢; linarith) hn0
  obtain ⟨f, hf⟩ : ∃ f : ℕ, f = ⌊clip ratio 0.05 1 * n⌋₊ := ⟨_, rfl⟩
  have hft : truncInt (clip ratio 0.05 1 * n) = f := by
    unfold truncInt
    rw [if_pos h0, hf, Int.natCast_floor_eq_floor h0]
  have hfn : f ≤ n := by
    rw [hf]
    apply Nat.floor_le_of_le
    calc clip ratio 0.05 1 * n ≤ 1 * n := mul_le_mul_of_nonneg_right h2 hn0
      _ = n := one_mul _
  have e1 : n ≤ m.height := hn ▸ min_le_left _ _
  have e2 : n ≤ m.width := hn ▸ min_le_right _ _
  have hrad : truncInt (clip ratio 0.05 1 * ((min m.height m.width : ℕ) : ℝ)) / 2 = ((f / 2 : ℕ) : ℤ) := by
    rw [← hn, hft]; norm_num
  have s1 : ∀ N : ℕ, n ≤ N → sliceBound N ((N : ℤ) / 2 - ((f / 2 : ℕ) : ℤ)) = N / 2 - f / 2 := by
    intro N hN
    unfold sliceBound
    rw [if_neg (by omega)]
    omega
  have s2 : ∀ N : ℕ, n ≤ N → sliceBound N ((N : ℤ) / 2 + ((f / 2 : ℕ) : ℤ)) = N / 2 + f / 2 := by
    intro N hN
    unfold sliceBound
    rw [if_neg (by omega)]
    omega
  have hh : (selectRoi m ratio true).height = 2 * (f / 2) := by
    simp only [selectRoi, if_true, Mat.rows, Mat.cols]
    rw [hrad, s1 _ e1, s2 _ e1]
    omega
  have hw : (selectRoi m ratio true).width = 2 * (f / 2) := by
    simp only [selectRoi, if_true, Mat.rows, Mat.cols]
    rw [hrad, s1 _ e2, s2 _ e2]
    omega
  refine ⟨m.height / 2 - f / 2, m.width / 2 - f / 2, f / 2, ⟨by omega, by omega, fun i j => ?_⟩, hh, hw, by omega, by omega, ?_⟩
  · simp only [selectRoi, if_true, Mat.rows, Mat.cols]
    rw [hrad, s1 _ e1, s1 _ e2, add_comm i, add_comm j]
  · intro r hr
    have : r = clip ratio 0.05 1 := by
      rw [hr, clip, max_min_distrib_left, max_comm, max_eq_right (by norm_num : (0.05 : ℝ) ≤ 1)]
    rw [this, ← hn]
    have g1 := Nat.floor_le h0
    have g2 := Nat.lt_floor_add_one (clip ratio 0.05 1 * n)
    rw [← hf] at g1 g2
    have g3 : 2 * (f / 2) ≤ f := by omega
    have g4 : f ≤ 2 * (f / 2) + 1 := by omega
    have g3' : (2 * ((f / 2 : ℕ) : ℝ)) ≤ f := by exact_mod_cast g3
    have g4' : (f : ℝ) ≤ 2 * ((f / 2 : ℕ) : ℝ) + 1 := by exact_mod_cast g4
    exact ⟨by linarith, by linarith⟩

/-- A 10 × 8 image with ratio 0.5: rows 2 to 7, columns 2 to 5. -/
example : (selectRoi ⟨10, 8, fun i j => (i, j)⟩ 0.5 false).height = 6 ∧ (selectRoi ⟨10, 8, fun i j => (i, j)⟩ 0.5 false).width = 4 ∧
    (selectRoi ⟨10, 8, fun i j => (i, j)⟩ 0.5 false).get 0 0 = (2, 2) := by
  have hc : clip 0.5 0.05 1 = 0.5 := by unfold clip; norm_num
  have t1 : truncInt (((10 : ℝ) - 0.5 * 10) / 2) = 2 := by
    unfold truncInt; norm_num
  have t2 : truncInt (((8 : ℝ) - 0.5 * 8) / 2) = 2 := by
    unfold truncInt; norm_num
  simp [selectRoi, hc, Mat.rows, Mat.cols, t1, t2, sliceBound]

/-! ## C38 -/

theorem flat_sum_eq (m : Mat ℝ) : m.flat.sum = ∑ i ∈ Finset.range m.height, ∑ j ∈ Finset.range m.width, m.get i j := by
  unfold Mat.flat
  rw [List.flatMap_def, List.sum_flatten, List.map_map]
  rfl

theorem mem_flat {m : Mat ℝ} {v : ℝ} : v ∈ m.flat ↔ ∃ i < m.height, ∃ j < m.width, m.get i j = v := by
  simp [Mat.flat, List.mem_flatMap]

theorem flat_sum_binary {m : Mat ℝ} (hb : IsBinary m) : m.flat.sum = pixelCount m 1 := by
  classical
  rw [flat_sum_eq, pixelCount, Finset.card_filter, Nat.cast_sum, Finset.sum_product]
  refine Finset.sum_congr rfl fun i hi => Finset.sum_congr rfl fun j hj => ?_
  rcases hb i (Finset.mem_range.1 hi) j (Finset.mem_range.1 hj) with h | h
  · rw [h]; norm_num
  · rw [h]; norm_num

theorem pixelCount_add {m : Mat ℝ} (hb : IsBinary m) : pixelCount m 0 + pixelCount m 1 = m.height * m.width := by
  classical
  unfold pixelCount
  rw [← Finset.card_union_of_disjoint]
  · rw [← Finset.filter_or, Finset.filter_true_of_mem, Finset.card_product, Finset.card_range, Finset.card_range]
    intro q hq
    rw [Finset.mem_product, Finset.mem_range, Finset.mem_range] at hq
    exact hb _ hq.1 _ hq.2
  · rw [Finset.disjoint_filter]
    intro q _ h0 h1
    rw [h0] at h1
    norm_num at h1

/-- **C38.** For a non-empty 0/1 image the result is a 0/1 image of the same size: the input if at most half of its pixels
are white, otherwise its complement. Not more than half of the pixels of the result are white, and repeating the step changes
nothing. -/
theorem C38_minority (m : Mat ℝ) (hb : IsBinary m) (hh : 0 < m.height) (hw : 0 < m.width) :
    ∃ r, invertDotsContrast m = .ok r ∧ r.height = m.height ∧ r.width = m.width ∧ IsBinary r ∧
      (2 * pixelCount m 1 ≤ m.height * m.width → r = m) ∧
      (m.height * m.width < 2 * pixelCount m 1 → ∀ i j, r.get i j = 1 - m.get i j) ∧
      2 * pixelCount r 1 ≤ m.height * m.width ∧
      invertDotsContrast r = .ok r := by
  have key : ∀ m' : Mat ℝ, IsBinary m' → 0 < m'.height → 0 < m'.width → 
      (2 * pixelCount m' 1 ≤ m'.height * m'.width → invertDotsContrast m' = .ok m') ∧
      (m'.height * m'.width < 2 * pixelCount m' 1 →
        invertDotsContrast m' = .ok { m' with get := fun i j => 1 - m'.get i j }) := by
    intro m' hb' hh' hw'
    have hpos : (0 : ℝ) < (m'.height : ℝ) * m'.width := by
      have a : (0 : ℝ) < m'.height := by exact_mod_cast hh'
      have b : (0 : ℝ) < m'.width := by exact_mod_cast hw'
      exact mul_pos a b
    have hne : m'.flat ≠ [] := by
      apply List.ne_nil_of_mem (a := m'.get 0 0)
      rw [mem_flat]
      exact ⟨0, hh', 0, hw', rfl⟩
    obtain ⟨mx, emx, hmem, hmax⟩ := npMax_ok hne
    constructor
    · intro h
      unfold invertDotsContrast
      simp only
      rw [emx, ok_bind, if_neg]
      rw [flat_sum_binary hb', not_lt, div_le_iff₀ hpos]
      have : (2 * pixelCount m' 1 : ℝ) ≤ m'.height * m'.width := by exact_mod_cast h
      norm_num
      linarith
    · intro h
      have hone : mx = 1 := by
        have hc : 0 < pixelCount m' 1 := by omega
        unfold pixelCount at hc
        obtain ⟨q, hq⟩ := Finset.card_pos.1 hc
        rw [Finset.mem_filter, Finset.mem_product, Finset.mem_range, Finset.mem_range] at hq
        have h1 : (1 : ℝ) ≤ mx := hmax 1 (mem_flat.2 ⟨_, hq.1.1, _, hq.1.2, hq.2⟩)
        obtain ⟨i, hi, j, hj, hij⟩ := mem_flat.1 hmem
        rcases hb' i hi j hj with h' | h' <;> linarith
      unfold invertDotsContrast
      simp only
      rw [emx, ok_bind, if_pos, hone]
      rw [flat_sum_binary hb', gt_iff_lt, lt_div_iff₀ hpos]
      have : ((m'.height : ℝ) * m'.width) < 2 * pixelCount m' 1 := by exact_mod_cast h
      norm_num
      linarith
  obtain ⟨k1, k2⟩ := key m hb hh hw
  rcases le_or_gt (2 * pixelCount m 1) (m.height * m.width) with h | h
  · exact ⟨m, k1 h, rfl, rfl, hb, fun _ => rfl, fun h' => by omega, h, k1 h⟩
  · have hb2 : IsBinary { m with get := fun i j => 1 - m.get i j } := by
      intro i hi j hj
      rcases hb i hi j hj with h' | h'
      · right; simp [h']
      · left; simp [h']
    have hc : pixelCount { m with get := fun i j => 1 - m.get i j } 1 = pixelCount m 0 := by
      unfold pixelCount
      congr 1
      ext q
      rw [Finset.mem_filter, Finset.mem_filter]
      simp
    have hlt : 2 * pixelCount { m with get := fun i j => 1 - m.get i j } 1 ≤ m.height * m.width := by
      rw [hc]
      have := pixelCount_add hb
      omega
    exact ⟨_, k2 h, rfl, rfl, hb2, fun h' => by omega, fun _ i j => rfl, hlt, (key _ hb2 hh hw).1 hlt⟩

/-- **C38** (no pixels): an image without pixels is rejected. -/
theorem C38_empty (m : Mat ℝ) (h : m.height = 0 ∨ m.width = 0) : invertDotsContrast m = .error .valueError := by
  have : m.flat = [] := by
    rw [List.eq_nil_iff_forall_not_mem]
    intro v hv
    obtain ⟨i, hi, j, hj, _⟩ := mem_flat.1 hv
    omega
  unfold invertDotsContrast npMax
  rw [this]; rfl

example := C38_empty ⟨0, 4, fun _ _ => 0⟩ (.inl rfl)

/-- A 1 × 2 white image is inverted. -/
example : ∃ r, invertDotsContrast ⟨1, 2, fun _ _ => 1⟩ = .ok r ∧ r.get 0 0 = 0 := by
  have hb : IsBinary ⟨1, 2, fun _ _ => 1⟩ := fun _ _ _ _ => Or.inr rfl
  obtain ⟨r, e, _, _, _, _, h, _⟩ := C38_minority _ hb (by norm_num) (by norm_num)
  refine ⟨r, e, ?_⟩
  rw [h (by simp [pixelCount]) 0 0]
  norm_num

end Discorpy
