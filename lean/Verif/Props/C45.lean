import Verif.Lemmas.Tilted

/-! # C45 — tilted profiles -/

namespace Discorpy
open Spec

section range
variable {height width : ℕ} {d : ℝ}

theorem abs_deg (d : ℝ) (h : ¬ d > 0) : |d * Real.pi / 180| = -d * Real.pi / 180 := by
  have : d * Real.pi / 180 ≤ 0 := by
    have := Real.pi_pos
    have : d * Real.pi ≤ 0 := mul_nonpos_of_nonpos_of_nonneg (not_lt.1 h) this.le
    linarith
  rw [abs_of_nonpos this]; ring

theorem hor_pos (h : |d| < 90) (hd : 0 < d) :
    calcIndexRange height width d "horizontal" =
      if ⌈(width : ℝ) * Real.tan (d * Real.pi / 180)⌉ < height then
        .ok (⌈(width : ℝ) * Real.tan (d * Real.pi / 180)⌉, (height : ℤ) - 1) else .error .valueError := by
  have hz : 0 ≤ ⌈(width : ℝ) * Real.tan (d * Real.pi / 180)⌉ :=
    Int.ceil_nonneg (mul_nonneg (Nat.cast_nonneg _) (deg_tan_nonneg h hd.le))
  unfold calcIndexRange
  simp only [if_true]
  rw [if_neg h.ne, if_neg (deg_cos h).ne', if_pos hd, if_pos hd]
  split_ifs with h1 h2 h2
  · omega
  · rfl
  · rfl
  · omega

theorem hor_neg (h : |d| < 90) (hd : ¬ d > 0) :
    calcIndexRange height width d "horizontal" =
      if ⌊(width : ℝ) * Real.tan (-d * Real.pi / 180)⌋ < height then
        .ok (0, (height : ℤ) - 1 - ⌊(width : ℝ) * Real.tan (-d * Real.pi / 180)⌋) else .error .valueError := by
  have hz : 0 ≤ ⌊(width : ℝ) * Real.tan (-d * Real.pi / 180)⌋ :=
    Int.floor_nonneg.2 (mul_nonneg (Nat.cast_nonneg _) (deg_tan_nonneg (by rwa [abs_neg]) (by linarith [not_lt.1 hd])))
  unfold calcIndexRange
  simp only [if_true]
  rw [if_neg h.ne, if_neg (deg_cos h).ne', if_neg hd, if_neg hd, abs_deg d hd]
  split_ifs with h1 h2 h2
  · omega
  · rfl
  · rfl
  · omega

theorem ver_pos (h : |d| < 90) (hd : 0 < d) :
    calcIndexRange height width d "vertical" =
      if ⌈(height : ℝ) * Real.tan (d * Real.pi / 180)⌉ < width then
        .ok (0, (width : ℤ) - 1 - ⌈(height : ℝ) * Real.tan (d * Real.pi / 180)⌉) else .error .valueError := by
  have hz : 0 ≤ ⌈(height : ℝ) * Real.tan (d * Real.pi / 180)⌉ :=
    Int.ceil_nonneg (mul_nonneg (Nat.cast_nonneg _) (deg_tan_nonneg h hd.le))
  unfold calcIndexRange
  simp only [String.reduceEq, if_false]
  rw [if_neg h.ne, if_neg (deg_cos h).ne', if_pos hd, if_pos hd]
  split_ifs with h1 h2 h2
  · omega
  · rfl
  · rfl
  · omega

theorem ver_neg (h : |d| < 90) (hd : ¬ d > 0) :
    calcIndexRange height width d "vertical" =
      if ⌊(height : ℝ) * Real.tan (-d * Real.pi / 180)⌋ < width then
        .ok (⌊(height : ℝ) * Real.tan (-d * Real.pi / 180)⌋, (width : ℤ) - 1) else .error .valueError := by
  have hz : 0 ≤ ⌊(height : ℝ) * Real.tan (-d * Real.pi / 180)⌋ :=
    Int.floor_nonneg.2 (mul_nonneg (Nat.cast_nonneg _) (deg_tan_nonneg (by rwa [abs_neg]) (by linarith [not_lt.1 hd])))
  unfold calcIndexRange
  simp only [String.reduceEq, if_false]
  rw [if_neg h.ne, if_neg (deg_cos h).ne', if_neg hd, if_neg hd, abs_deg d hd]
  split_ifs with h1 h2 h2
  · omega
  · rfl
  · rfl
  · omega

end range

theorem tilted_error {S : Sampler} {m : Mat ℝ} {index d : ℝ} {dir : String} {e : PyErr}
    (h : calcIndexRange m.height m.width d dir = .error e) : getTiltedProfile S m index d dir = .error e := by
  unfold getTiltedProfile
  rw [h]; rfl

theorem tilted_outside {S : Sampler} {m : Mat ℝ} {index d : ℝ} {dir : String} {lo hi : ℤ}
    (h : calcIndexRange m.height m.width d dir = .ok (lo, hi)) (hi' : index < lo ∨ index > hi) :
    getTiltedProfile S m index d dir = .error .valueError := by
  unfold getTiltedProfile
  rw [h, ok_bind]
  simp only
  rw [if_pos hi']

theorem tilted_hor {S : Sampler} {m : Mat ℝ} {index d : ℝ} {lo hi : ℤ}
    (h : calcIndexRange m.height m.width d "horizontal" = .ok (lo, hi)) (hi' : ¬ (index < lo ∨ index > hi)) :
    (m.width = 0 ∧ getTiltedProfile S m index d "horizontal" = .error .valueError) ∨
    ∃ ylo yhi, 0 < m.width ∧
      let rl := linspace0 ⌊(m.width : ℝ) / Real.cos (d * Real.pi / 180)⌋ m.width
      let xl := rl.map fun r => clip (r * Real.cos (d * Real.pi / 180)) 0 ((m.width : ℝ) - 1)
      let yl := rl.map fun r => clip (index + r * Real.sin (-(d * Real.pi / 180))) 0 ((m.height : ℝ) - 1)
      npMin yl = .ok ylo ∧ npMax yl = .ok yhi ∧
      getTiltedProfile S m index d "horizontal" = .ok (xl, yl, List.zipWith (fun x y =>
        S (m.rows (toInt16 ⌊ylo⌋) (toInt16 (toInt16 ⌈yhi⌉ + 1))) (y - (toInt16 ⌊ylo⌋ : ℤ)) x) xl yl) := by
  rcases Nat.eq_zero_or_pos m.width with hw | hw
  · left
    refine ⟨hw, ?_⟩
    unfold getTiltedProfile
    rw [h, ok_bind]
    simp only
    rw [if_neg hi', hw]
    simp [linspace0, npMin_nil]
  · right
    have hne : ((linspace0 ⌊(m.width : ℝ) / Real.cos (d * Real.pi / 180)⌋ m.width).map fun r =>
        clip (index + r * Real.sin (-(d * Real.pi / 180))) 0 ((m.height : ℝ) - 1)) ≠ [] := by
      rw [← List.length_pos_iff, List.length_map, linspace0_length]; exact hw
    obtain ⟨ylo, h1, _⟩ := npMin_ok hne
    obtain ⟨yhi, h2, _⟩ := npMax_ok hne
    refine ⟨ylo, yhi, hw, h1, h2, ?_⟩
    unfold getTiltedProfile
    rw [h, ok_bind]
    simp only
    rw [if_neg hi', if_pos trivial, h1, ok_bind, h2, ok_bind]

theorem tilted_ver {S : Sampler} {m : Mat ℝ} {index d : ℝ} {lo hi : ℤ}
    (h : calcIndexRange m.height m.width d "vertical" = .ok (lo, hi)) (hi' : ¬ (index < lo ∨ index > hi)) :
    (m.height = 0 ∧ getTiltedProfile S m index d "vertical" = .error .valueError) ∨
    ∃ xlo xhi, 0 < m.height ∧
      let rl := linspace0 ⌊(m.height : ℝ) / Real.cos (d * Real.pi / 180)⌋ m.height
      let xl := rl.map fun r => clip (index + r * Real.sin (d * Real.pi / 180)) 0 ((m.width : ℝ) - 1)
      let yl := rl.map fun r => clip (r * Real.cos (d * Real.pi / 180)) 0 ((m.height : ℝ) - 1)
      npMin xl = .ok xlo ∧ npMax xl = .ok xhi ∧
      getTiltedProfile S m index d "vertical" = .ok (xl, yl, List.zipWith (fun x y =>
        S (m.cols (toInt16 ⌊xlo⌋) (toInt16 (toInt16 ⌈xhi⌉ + 1))) y (x - (toInt16 ⌊xlo⌋ : ℤ))) xl yl) := by
  rcases Nat.eq_zero_or_pos m.height with hw | hw
  · left
    refine ⟨hw, ?_⟩
    unfold getTiltedProfile
    rw [h, ok_bind]
    simp only [String.reduceEq, if_false]
    rw [if_neg hi', hw]
    simp [linspace0, npMin_nil]
  · right
    have hne : ((linspace0 ⌊(m.height : ℝ) / Real.cos (d * Real.pi / 180)⌋ m.height).map fun r =>
        clip (index + r * Real.sin (d * Real.pi / 180)) 0 ((m.width : ℝ) - 1)) ≠ [] := by
      rw [← List.length_pos_iff, List.length_map, linspace0_length]; exact hw
    obtain ⟨xlo, h1, _⟩ := npMin_ok hne
    obtain ⟨xhi, h2, _⟩ := npMax_ok hne
    refine ⟨xlo, xhi, hw, h1, h2, ?_⟩
    unfold getTiltedProfile
    rw [h, ok_bind]
    simp only [String.reduceEq, if_false]
    rw [if_neg hi', h1, ok_bind, h2, ok_bind]

/-- A successful call passed both range checks. -/
theorem tilted_ok {S : Sampler} {m : Mat ℝ} {index d : ℝ} {dir : String} {r : List ℝ × List ℝ × List ℝ}
    (h : getTiltedProfile S m index d dir = .ok r) :
    ∃ lo hi, calcIndexRange m.height m.width d dir = .ok (lo, hi) ∧ ¬ (index < lo ∨ index > hi) := by
  rcases hc : calcIndexRange m.height m.width d dir with e | ⟨lo, hi⟩
  · rw [tilted_error hc] at h; cases h
  · refine ⟨lo, hi, rfl, fun hi' => ?_⟩
    rw [tilted_outside hc hi'] at h; cases h

/-- The bounds that are computed are indices of the image. -/
theorem range_bounds {height width : ℕ} {d : ℝ} {dir : String} {lo hi : ℤ} (h : calcIndexRange height width d dir = .ok (lo, hi)) :
    0 ≤ lo ∧ 0 ≤ hi ∧ ((dir = "horizontal" → lo < height ∧ hi < height) ∧ (dir ≠ "horizontal" → lo < width ∧ hi < width)) := by
  unfold calcIndexRange at h
  simp only at h
  generalize (if d > 0 then ⌈(width : ℝ) * Real.tan (d * Real.pi / 180)⌉ else (0 : ℤ)) = m1 at h
  generalize (if d > 0 then (height : ℤ) - 1 else (height : ℤ) - 1 - ⌊(width : ℝ) * Real.tan |d * Real.pi / 180|⌋) = m2 at h
  generalize (if d > 0 then (0 : ℤ) else ⌊(height : ℝ) * Real.tan |d * Real.pi / 180|⌋) = m3 at h
  generalize (if d > 0 then (width : ℤ) - 1 - ⌈(height : ℝ) * Real.tan (d * Real.pi / 180)⌉ else (width : ℤ) - 1) = m4 at h
  split_ifs at h with hd h1 h2 h3 h4 h5 h6
  · injection h with h
    rw [Prod.mk.injEq] at h
    obtain ⟨rfl, rfl⟩ := h
    exact ⟨by omega, by omega, fun _ => ⟨by omega, by omega⟩, fun h => absurd hd h⟩
  · injection h with h
    rw [Prod.mk.injEq] at h
    obtain ⟨rfl, rfl⟩ := h
    exact ⟨by omega, by omega, fun h => absurd h hd, fun _ => ⟨by omega, by omega⟩⟩

/-- **C45 (right angle).** An angle of ±90 degrees is rejected in both directions. -/
theorem C45_right_angle (S : Sampler) (m : Mat ℝ) (index d : ℝ) (dir : String) (h : |d| = 90) :
    getTiltedProfile S m index d dir = .error .valueError := by
  apply tilted_error
  unfold calcIndexRange
  simp only
  rw [if_pos h, if_pos h, ite_self]

example (S : Sampler) := C45_right_angle S ⟨2, 3, fun i j => (i + j : ℕ)⟩ 1 (-90) "vertical" (by norm_num)

/-- **C45 (accepted indices, horizontal).** For an angle of less than 90 degrees a row index is accepted exactly if the tilted
line from the left edge to abscissa `width` stays at or above row 0 (positive angle), or strictly above row `height` (otherwise);
every other index raises `ValueError`. -/
theorem C45_range_hor (S : Sampler) (m : Mat ℝ) (i : ℤ) (d : ℝ) (h : |d| < 90)
    (ok : Prop) (hok : ok ↔ 0 < m.width ∧ 0 ≤ i ∧ i < m.height ∧
      (0 < d → 0 ≤ (i : ℝ) - m.width * Real.tan (d * Real.pi / 180)) ∧
      (d ≤ 0 → (i : ℝ) + m.width * Real.tan (-d * Real.pi / 180) < m.height)) :
    (ok → ∃ r, getTiltedProfile S m i d "horizontal" = .ok r) ∧
    (¬ ok → getTiltedProfile S m i d "horizontal" = .error .valueError) := by
  rw [hok]
  by_cases hd : 0 < d
  · have hr := hor_pos (height := m.height) (width := m.width) h hd
    have hz : 0 ≤ ⌈(m.width : ℝ) * Real.tan (d * Real.pi / 180)⌉ :=
      Int.ceil_nonneg (mul_nonneg (Nat.cast_nonneg _) (deg_tan_nonneg h hd.le))
    have hiff : 0 ≤ (i : ℝ) - m.width * Real.tan (d * Real.pi / 180) ↔ ⌈(m.width : ℝ) * Real.tan (d * Real.pi / 180)⌉ ≤ i := by
      rw [Int.ceil_le, sub_nonneg]
    constructor
    · rintro ⟨h1, h2, h3, h4, _⟩
      have h4 := hiff.1 (h4 hd)
      rw [if_pos (by omega)] at hr
      rcases tilted_hor (S := S) (index := i) hr (by
        rintro (h | h)
        · have : i < ⌈(m.width : ℝ) * Real.tan (d * Real.pi / 180)⌉ := by exact_mod_cast h
          omega
        · have : (m.height : ℤ) - 1 < i := by exact_mod_cast h
          omega) with ⟨h0, _⟩ | ⟨_, _, _, _, _, h⟩
      · omega
      · exact ⟨_, h⟩
    · intro hn
      split_ifs at hr with hc
      · by_cases hb : (i : ℝ) < (⌈(m.width : ℝ) * Real.tan (d * Real.pi / 180)⌉ : ℤ) ∨ (i : ℝ) > (((m.height : ℤ) - 1 : ℤ) : ℝ)
        · exact tilted_outside hr hb
        · rcases tilted_hor (S := S) hr hb with ⟨_, h⟩ | ⟨_, _, hw, _⟩
          · exact h
          · exfalso
            push Not at hb
            have b1 : ⌈(m.width : ℝ) * Real.tan (d * Real.pi / 180)⌉ ≤ i := by exact_mod_cast hb.1
            have b2 : i ≤ (m.height : ℤ) - 1 := by exact_mod_cast hb.2
            exact hn ⟨hw, by omega, by omega, fun _ => hiff.2 b1, fun h => absurd hd (not_lt.2 h)⟩
      · exact tilted_error hr
  · have hr := hor_neg (height := m.height) (width := m.width) h hd
    have hz : 0 ≤ ⌊(m.width : ℝ) * Real.tan (-d * Real.pi / 180)⌋ :=
      Int.floor_nonneg.2 (mul_nonneg (Nat.cast_nonneg _) (deg_tan_nonneg (by rwa [abs_neg]) (by linarith [not_lt.1 hd])))
    have hiff : (i : ℝ) + m.width * Real.tan (-d * Real.pi / 180) < m.height ↔
        ⌊(m.width : ℝ) * Real.tan (-d * Real.pi / 180)⌋ < (m.height : ℤ) - i := by
      rw [Int.floor_lt]
      push_cast
      constructor <;> intro h <;> linarith
    constructor
    · rintro ⟨h1, h2, h3, _, h4⟩
      have h4 := hiff.1 (h4 (not_lt.1 hd))
      rw [if_pos (by omega)] at hr
      rcases tilted_hor (S := S) (index := i) hr (by
        rintro (h | h)
        · have : i < 0 := by exact_mod_cast h
          omega
        · have : (m.height : ℤ) - 1 - ⌊(m.width : ℝ) * Real.tan (-d * Real.pi / 180)⌋ < i := by exact_mod_cast h
          omega) with ⟨h0, _⟩ | ⟨_, _, _, _, _, h⟩
      · omega
      · exact ⟨_, h⟩
    · intro hn
      split_ifs at hr with hc
      · by_cases hb : (i : ℝ) < ((0 : ℤ) : ℝ) ∨
          (i : ℝ) > (((m.height : ℤ) - 1 - ⌊(m.width : ℝ) * Real.tan (-d * Real.pi / 180)⌋ : ℤ) : ℝ)
        · exact tilted_outside hr hb
        · rcases tilted_hor (S := S) hr hb with ⟨_, h⟩ | ⟨_, _, hw, _⟩
          · exact h
          · exfalso
            push Not at hb
            have b1 : 0 ≤ i := by exact_mod_cast hb.1
            have b2 : i ≤ (m.height : ℤ) - 1 - ⌊(m.width : ℝ) * Real.tan (-d * Real.pi / 180)⌋ := by exact_mod_cast hb.2
            exact hn ⟨hw, b1, by omega, fun h => absurd h hd, fun _ => hiff.2 (by omega)⟩
      · exact tilted_error hr

/-- The profile through row 1 of two rows, without tilt, is inside; through row 2 it is not. -/
example (S : Sampler) (f : ℕ → ℕ → ℝ) : (∃ r, getTiltedProfile S ⟨2, 3, f⟩ (1 : ℤ) 0 "horizontal" = .ok r) ∧
    getTiltedProfile S ⟨2, 3, f⟩ (2 : ℤ) 0 "horizontal" = .error .valueError :=
  ⟨(C45_range_hor S ⟨2, 3, f⟩ 1 0 (by norm_num) _ Iff.rfl).1 (by norm_num), (C45_range_hor S ⟨2, 3, f⟩ 2 0 (by norm_num) _ Iff.rfl).2 (by norm_num)⟩

/-- **C45 (accepted indices, vertical).** The same for columns: the tilted line from the top edge to ordinate `height` stays at or
left of the last column (positive angle), or strictly right of column `-1` (otherwise). -/
theorem C45_range_ver (S : Sampler) (m : Mat ℝ) (i : ℤ) (d : ℝ) (h : |d| < 90)
    (ok : Prop) (hok : ok ↔ 0 < m.height ∧ 0 ≤ i ∧ i < m.width ∧
      (0 < d → (i : ℝ) + m.height * Real.tan (d * Real.pi / 180) ≤ (m.width : ℝ) - 1) ∧
      (d ≤ 0 → -1 < (i : ℝ) - m.height * Real.tan (-d * Real.pi / 180))) :
    (ok → ∃ r, getTiltedProfile S m i d "vertical" = .ok r) ∧
    (¬ ok → getTiltedProfile S m i d "vertical" = .error .valueError) := by
  rw [hok]
  by_cases hd : 0 < d
  · have hr := ver_pos (height := m.height) (width := m.width) h hd
    have hz : 0 ≤ ⌈(m.height : ℝ) * Real.tan (d * Real.pi / 180)⌉ :=
      Int.ceil_nonneg (mul_nonneg (Nat.cast_nonneg _) (deg_tan_nonneg h hd.le))
    have hiff : (i : ℝ) + m.height * Real.tan (d * Real.pi / 180) ≤ (m.width : ℝ) - 1 ↔
        ⌈(m.height : ℝ) * Real.tan (d * Real.pi / 180)⌉ ≤ (m.width : ℤ) - 1 - i := by
      rw [Int.ceil_le]
      push_cast
      constructor <;> intro h <;> linarith
    constructor
    · rintro ⟨h1, h2, h3, h4, _⟩
      have h4 := hiff.1 (h4 hd)
      rw [if_pos (by omega)] at hr
      rcases tilted_ver (S := S) (index := i) hr (by
        rintro (h | h)
        · have : i < 0 := by exact_mod_cast h
          omega
        · have : (m.width : ℤ) - 1 - ⌈(m.height : ℝ) * Real.tan (d * Real.pi / 180)⌉ < i := by exact_mod_cast h
          omega) with ⟨h0, _⟩ | ⟨_, _, _, _, _, h⟩
      · omega
      · exact ⟨_, h⟩
    · intro hn
      split_ifs at hr with hc
      · by_cases hb : (i : ℝ) < ((0 : ℤ) : ℝ) ∨
          (i : ℝ) > (((m.width : ℤ) - 1 - ⌈(m.height : ℝ) * Real.tan (d * Real.pi / 180)⌉ : ℤ) : ℝ)
        · exact tilted_outside hr hb
        · rcases tilted_ver (S := S) hr hb with ⟨_, h⟩ | ⟨_, _, hw, _⟩
          · exact h
          · exfalso
            push Not at hb
            have b1 : 0 ≤ i := by exact_mod_cast hb.1
            have b2 : i ≤ (m.width : ℤ) - 1 - ⌈(m.height : ℝ) * Real.tan (d * Real.pi / 180)⌉ := by exact_mod_cast hb.2
            exact hn ⟨hw, b1, by omega, fun _ => hiff.2 (by omega), fun h => absurd hd (not_lt.2 h)⟩
      · exact tilted_error hr
  · have hr := ver_neg (height := m.height) (width := m.width) h hd
    have hz : 0 ≤ ⌊(m.height : ℝ) * Real.tan (-d * Real.pi / 180)⌋ :=
      Int.floor_nonneg.2 (mul_nonneg (Nat.cast_nonneg _) (deg_tan_nonneg (by rwa [abs_neg]) (by linarith [not_lt.1 hd])))
    have hiff : -1 < (i : ℝ) - m.height * Real.tan (-d * Real.pi / 180) ↔
        ⌊(m.height : ℝ) * Real.tan (-d * Real.pi / 180)⌋ < i + 1 := by
      rw [Int.floor_lt]
      push_cast
      constructor <;> intro h <;> linarith
    constructor
    · rintro ⟨h1, h2, h3, _, h4⟩
      have h4 := hiff.1 (h4 (not_lt.1 hd))
      rw [if_pos (by omega)] at hr
      rcases tilted_ver (S := S) (index := i) hr (by
        rintro (h | h)
        · have : i < ⌊(m.height : ℝ) * Real.tan (-d * Real.pi / 180)⌋ := by exact_mod_cast h
          omega
        · have : (m.width : ℤ) - 1 < i := by exact_mod_cast h
          omega) with ⟨h0, _⟩ | ⟨_, _, _, _, _, h⟩
      · omega
      · exact ⟨_, h⟩
    · intro hn
      split_ifs at hr with hc
      · by_cases hb : (i : ℝ) < (⌊(m.height : ℝ) * Real.tan (-d * Real.pi / 180)⌋ : ℤ) ∨ (i : ℝ) > (((m.width : ℤ) - 1 : ℤ) : ℝ)
        · exact tilted_outside hr hb
        · rcases tilted_ver (S := S) hr hb with ⟨_, h⟩ | ⟨_, _, hw, _⟩
          · exact h
          · exfalso
            push Not at hb
            have b1 : ⌊(m.height : ℝ) * Real.tan (-d * Real.pi / 180)⌋ ≤ i := by exact_mod_cast hb.1
            have b2 : i ≤ (m.width : ℤ) - 1 := by exact_mod_cast hb.2
            exact hn ⟨hw, by omega, by omega, fun h => absurd h hd, fun _ => hiff.2 (by omega)⟩
      · exact tilted_error hr

example (S : Sampler) (f : ℕ → ℕ → ℝ) : (∃ r, getTiltedProfile S ⟨2, 3, f⟩ (2 : ℤ) 0 "vertical" = .ok r) ∧
    getTiltedProfile S ⟨2, 3, f⟩ (3 : ℤ) 0 "vertical" = .error .valueError :=
  ⟨(C45_range_ver S ⟨2, 3, f⟩ 2 0 (by norm_num) _ Iff.rfl).1 (by norm_num), (C45_range_ver S ⟨2, 3, f⟩ 3 0 (by norm_num) _ Iff.rfl).2 (by norm_num)⟩

theorem getElem?_zipWith_some {α β γ : Type} {f : α → β → γ} {a : List α} {b : List β} {k : ℕ} {x : α} {y : β} {p : γ}
    (ha : a[k]? = some x) (hb : b[k]? = some y) (hp : (List.zipWith f a b)[k]? = some p) : p = f x y := by
  rw [List.getElem?_zipWith, ha, hb] at hp
  simpa using hp.symm

/-- **C45 (inside, horizontal).** Every sampled coordinate is inside the image, and inside the band of rows from which it is
interpolated (images of up to 32767 rows). -/
theorem C45_inside_hor (S : Sampler) (m : Mat ℝ) (index d : ℝ) (hh : m.height ≤ 32767) (xs ys ps : List ℝ)
    (h : getTiltedProfile S m index d "horizontal" = .ok (xs, ys, ps)) :
    xs.length = m.width ∧ ys.length = m.width ∧ ps.length = m.width ∧
    ∃ a b : ℕ, a < b ∧ b ≤ m.height ∧ ∀ (k : ℕ) x y p, xs[k]? = some x → ys[k]? = some y → ps[k]? = some p →
      InFrame m y x ∧ InFrame (m.rows a b) (y - a) x ∧ p = S (m.rows a b) (y - a) x := by
  obtain ⟨lo, hi, hc, hb⟩ := tilted_ok h
  rcases tilted_hor (S := S) hc hb with ⟨_, h'⟩ | ⟨ylo, yhi, hw, h1, h2, h'⟩
  · rw [h] at h'; cases h'
  rw [h] at h'
  injection h' with h'
  rw [Prod.mk.injEq, Prod.mk.injEq] at h'
  obtain ⟨hx, hy, hp⟩ := h'
  have hbd := range_bounds hc
  have hh0 : 0 < m.height := by have := (hbd.2.2.1 rfl).1; omega
  have hh1 : (0 : ℝ) ≤ (m.height : ℝ) - 1 := by
    have : (1 : ℝ) ≤ m.height := by exact_mod_cast hh0
    linarith
  have hw1 : (0 : ℝ) ≤ (m.width : ℝ) - 1 := by
    have : (1 : ℝ) ≤ m.width := by exact_mod_cast hw
    linarith
  rw [← hy] at h1 h2
  rw [← hx, ← hy] at hp
  have hys : ∀ v ∈ ys, 0 ≤ v ∧ v ≤ (m.height : ℝ) - 1 := by
    intro v hv
    rw [hy] at hv
    obtain ⟨r, _, rfl⟩ := List.mem_map.1 hv
    exact ⟨clip_ge hh1, clip_le⟩
  have hxs : ∀ v ∈ xs, 0 ≤ v ∧ v ≤ (m.width : ℝ) - 1 := by
    intro v hv
    rw [hx] at hv
    obtain ⟨r, _, rfl⟩ := List.mem_map.1 hv
    exact ⟨clip_ge hw1, clip_le⟩
  obtain ⟨a, b, ea, eb, hab, hbh, hin⟩ := band hh hh0 hys h1 h2
  rw [ea, eb] at hp
  have lx : xs.length = m.width := by rw [hx, List.length_map, linspace0_length]
  have ly : ys.length = m.width := by rw [hy, List.length_map, linspace0_length]
  refine ⟨lx, ly, by rw [hp, List.length_zipWith, lx, ly, min_self], a, b, hab, hbh, ?_⟩
  intro k x y p kx ky kp
  have mx := hxs x (List.mem_of_getElem? kx)
  have my := hys y (List.mem_of_getElem? ky)
  have mb := hin y (List.mem_of_getElem? ky)
  refine ⟨⟨my.1, my.2, mx.1, mx.2⟩, ?_, ?_⟩
  · unfold InFrame Mat.rows
    simp only
    rw [sliceBound_nat (by omega : a ≤ m.height), sliceBound_nat hbh, Nat.cast_sub hab.le]
    exact ⟨by linarith [mb.1], by linarith [mb.2], mx.1, mx.2⟩
  · rw [hp] at kp
    have := getElem?_zipWith_some kx ky kp
    rw [this]
    norm_num

/-- Row 1 of two rows without tilt: all samples are inside of the image. -/
example (S : Sampler) (f : ℕ → ℕ → ℝ) : ∃ xs ys ps, getTiltedProfile S ⟨2, 3, f⟩ (1 : ℤ) 0 "horizontal" = .ok (xs, ys, ps) ∧ xs.length = 3 := by
  obtain ⟨⟨xs, ys, ps⟩, h⟩ := (C45_range_hor S ⟨2, 3, f⟩ 1 0 (by norm_num) _ Iff.rfl).1 (by norm_num)
  exact ⟨xs, ys, ps, h, (C45_inside_hor S ⟨2, 3, f⟩ _ 0 (by norm_num) xs ys ps h).1⟩

/-- **C45 (inside, vertical).** The same for the columns. -/
theorem C45_inside_ver (S : Sampler) (m : Mat ℝ) (index d : ℝ) (hh : m.width ≤ 32767) (xs ys ps : List ℝ)
    (h : getTiltedProfile S m index d "vertical" = .ok (xs, ys, ps)) :
    xs.length = m.height ∧ ys.length = m.height ∧ ps.length = m.height ∧
    ∃ a b : ℕ, a < b ∧ b ≤ m.width ∧ ∀ (k : ℕ) x y p, xs[k]? = some x → ys[k]? = some y → ps[k]? = some p →
      InFrame m y x ∧ InFrame (m.cols a b) y (x - a) ∧ p = S (m.cols a b) y (x - a) := by
  obtain ⟨lo, hi, hc, hb⟩ := tilted_ok h
  rcases tilted_ver (S := S) hc hb with ⟨_, h'⟩ | ⟨xlo, xhi, hw, h1, h2, h'⟩
  · rw [h] at h'; cases h'
  rw [h] at h'
  injection h' with h'
  rw [Prod.mk.injEq, Prod.mk.injEq] at h'
  obtain ⟨hx, hy, hp⟩ := h'
  have hbd := range_bounds hc
  have hh0 : 0 < m.width := by have := (hbd.2.2.2 (by decide)).1; omega
  have hh1 : (0 : ℝ) ≤ (m.width : ℝ) - 1 := by
    have : (1 : ℝ) ≤ m.width := by exact_mod_cast hh0
    linarith
  have hw1 : (0 : ℝ) ≤ (m.height : ℝ) - 1 := by
    have : (1 : ℝ) ≤ m.height := by exact_mod_cast hw
    linarith
  rw [← hx] at h1 h2
  rw [← hx, ← hy] at hp
  have hxs : ∀ v ∈ xs, 0 ≤ v ∧ v ≤ (m.width : ℝ) - 1 := by
    intro v hv
    rw [hx] at hv
    obtain ⟨r, _, rfl⟩ := List.mem_map.1 hv
    exact ⟨clip_ge hh1, clip_le⟩
  have hys : ∀ v ∈ ys, 0 ≤ v ∧ v ≤ (m.height : ℝ) - 1 := by
    intro v hv
    rw [hy] at hv
    obtain ⟨r, _, rfl⟩ := List.mem_map.1 hv
    exact ⟨clip_ge hw1, clip_le⟩
  obtain ⟨a, b, ea, eb, hab, hbh, hin⟩ := band hh hh0 hxs h1 h2
  rw [ea, eb] at hp
  have lx : xs.length = m.height := by rw [hx, List.length_map, linspace0_length]
  have ly : ys.length = m.height := by rw [hy, List.length_map, linspace0_length]
  refine ⟨lx, ly, by rw [hp, List.length_zipWith, lx, ly, min_self], a, b, hab, hbh, ?_⟩
  intro k x y p kx ky kp
  have mx := hxs x (List.mem_of_getElem? kx)
  have my := hys y (List.mem_of_getElem? ky)
  have mb := hin x (List.mem_of_getElem? kx)
  refine ⟨⟨my.1, my.2, mx.1, mx.2⟩, ?_, ?_⟩
  · unfold InFrame Mat.cols
    simp only
    rw [sliceBound_nat (by omega : a ≤ m.width), sliceBound_nat hbh, Nat.cast_sub hab.le]
    exact ⟨my.1, my.2, by linarith [mb.1], by linarith [mb.2]⟩
  · rw [hp] at kp
    have := getElem?_zipWith_some kx ky kp
    rw [this]
    norm_num

example (S : Sampler) (f : ℕ → ℕ → ℝ) : ∃ xs ys ps, getTiltedProfile S ⟨2, 3, f⟩ (2 : ℤ) 0 "vertical" = .ok (xs, ys, ps) ∧ xs.length = 2 := by
  obtain ⟨⟨xs, ys, ps⟩, h⟩ := (C45_range_ver S ⟨2, 3, f⟩ 2 0 (by norm_num) _ Iff.rfl).1 (by norm_num)
  exact ⟨xs, ys, ps, h, (C45_inside_ver S ⟨2, 3, f⟩ _ 0 (by norm_num) xs ys ps h).1⟩

/-- **C45 (straight line, horizontal).** The `k`-th sample is the point at distance `t = k ⌊w / cos⌋ / (w - 1)` along the line
through `(0, index)`. For a positive angle its row needs no clipping; otherwise the row is clipped by less than one pixel; the
column is clipped by at most one pixel. -/
theorem C45_line_hor (S : Sampler) (m : Mat ℝ) (index d : ℝ) (hd : |d| < 90) (hw : 2 ≤ m.width) (xs ys ps : List ℝ)
    (h : getTiltedProfile S m index d "horizontal" = .ok (xs, ys, ps)) (k : ℕ) (hk : k < m.width) :
    ∃ t : ℝ, t = (k : ℝ) * (⌊(m.width : ℝ) / Real.cos (d * Real.pi / 180)⌋ : ℝ) / ((m.width : ℝ) - 1) ∧
      t * Real.cos (d * Real.pi / 180) ≤ m.width ∧
      xs[k]? = some (min (t * Real.cos (d * Real.pi / 180)) ((m.width : ℝ) - 1)) ∧
      (0 < d → ys[k]? = some (index - t * Real.sin (d * Real.pi / 180))) ∧
      (d ≤ 0 → ys[k]? = some (min (index - t * Real.sin (d * Real.pi / 180)) ((m.height : ℝ) - 1)) ∧
        index - t * Real.sin (d * Real.pi / 180) < m.height) := by
  obtain ⟨lo, hi, hc, hb⟩ := tilted_ok h
  rcases tilted_hor (S := S) hc hb with ⟨_, h'⟩ | ⟨ylo, yhi, _, h1, h2, h'⟩
  · rw [h] at h'; cases h'
  rw [h] at h'
  injection h' with h'
  rw [Prod.mk.injEq, Prod.mk.injEq] at h'
  obtain ⟨hx, hy, _⟩ := h'
  have hcos := deg_cos hd
  have hl := linspace0_getElem? (s := (⌊(m.width : ℝ) / Real.cos (d * Real.pi / 180)⌋ : ℝ)) hk hw
  have hlt := abs_lt.1 (deg_lt hd)
  set a := d * Real.pi / 180 with ha
  set t := (k : ℝ) * (⌊(m.width : ℝ) / Real.cos a⌋ : ℝ) / ((m.width : ℝ) - 1) with ht
  have hp := line_param (abs_nonneg a) (abs_lt.2 hlt) hw hk
  simp only [Real.cos_abs] at hp
  rw [← ht] at hp
  obtain ⟨ht0, ht1, ht2⟩ := hp
  simp only [not_or, not_lt, gt_iff_lt] at hb
  have hbd := range_bounds hc
  have hhi : (hi : ℝ) ≤ (m.height : ℝ) - 1 := by
    have : hi ≤ (m.height : ℤ) - 1 := by have := (hbd.2.2.1 rfl).2; omega
    exact_mod_cast this
  have hlo : (0 : ℝ) ≤ lo := by exact_mod_cast hbd.1
  refine ⟨t, rfl, ht1, ?_, ?_, ?_⟩
  · rw [hx, List.getElem?_map, hl, Option.map_some]
    unfold clip
    rw [max_eq_left (mul_nonneg ht0 hcos.le)]
  · intro hpos
    have ha0 : 0 ≤ a := by rw [ha]; have := Real.pi_pos; positivity
    rw [abs_of_nonneg ha0] at ht2
    rw [hor_pos hd hpos] at hc
    split_ifs at hc with hcc
    · injection hc with hc
      rw [Prod.mk.injEq] at hc
      obtain ⟨rfl, rfl⟩ := hc
      have hce := Int.le_ceil ((m.width : ℝ) * Real.tan (d * Real.pi / 180))
      rw [← ha] at hce
      have hs : 0 ≤ t * Real.sin a := mul_nonneg ht0 (Real.sin_nonneg_of_nonneg_of_le_pi ha0 (by linarith [Real.pi_pos]))
      rw [hy, List.getElem?_map, hl, Option.map_some, Real.sin_neg, mul_neg, ← sub_eq_add_neg, clip_of_mem]
      · linarith [hb.1]
      · linarith [hb.2]
  · intro hneg
    have ha0 : a ≤ 0 := by
      rw [ha]
      have := mul_nonpos_of_nonpos_of_nonneg hneg Real.pi_pos.le
      linarith
    rw [abs_of_nonpos ha0] at ht2
    rw [hor_neg hd (not_lt.2 hneg)] at hc
    split_ifs at hc with hcc
    · injection hc with hc
      rw [Prod.mk.injEq] at hc
      obtain ⟨rfl, rfl⟩ := hc
      have hce := Int.lt_floor_add_one ((m.width : ℝ) * Real.tan (-d * Real.pi / 180))
      have hna : -d * Real.pi / 180 = -a := by rw [ha]; ring
      have hb2 := hb.2
      push_cast at hb2
      rw [hna] at hce hb2
      rw [Real.sin_neg] at ht2
      have hs : 0 ≤ t * -Real.sin a := by
        rw [← Real.sin_neg]
        exact mul_nonneg ht0 (Real.sin_nonneg_of_nonneg_of_le_pi (by linarith) (by linarith [Real.pi_pos]))
      refine ⟨?_, by linarith⟩
      rw [hy, List.getElem?_map, hl, Option.map_some, Real.sin_neg]
      unfold clip
      rw [max_eq_left (by linarith [hb.1]), mul_neg, ← sub_eq_add_neg]

/-- The middle of row 1. -/
example (S : Sampler) (f : ℕ → ℕ → ℝ) : ∃ xs ys ps, getTiltedProfile S ⟨2, 3, f⟩ (1 : ℤ) 0 "horizontal" = .ok (xs, ys, ps) ∧ xs[1]? = some (3 / 2) := by
  obtain ⟨⟨xs, ys, ps⟩, h⟩ := (C45_range_hor S ⟨2, 3, f⟩ 1 0 (by norm_num) _ Iff.rfl).1 (by norm_num)
  obtain ⟨t, ht, _, hx, _⟩ := C45_line_hor S ⟨2, 3, f⟩ _ 0 (by norm_num) (by norm_num) xs ys ps h 1 (by norm_num)
  refine ⟨xs, ys, ps, h, ?_⟩
  rw [hx, ht]
  norm_num

/-- **C45 (straight line, vertical).** The same for vertical profiles: columns need no clipping for a positive angle and are clipped
by less than one pixel otherwise. -/
theorem C45_line_ver (S : Sampler) (m : Mat ℝ) (index d : ℝ) (hd : |d| < 90) (hw : 2 ≤ m.height) (xs ys ps : List ℝ)
    (h : getTiltedProfile S m index d "vertical" = .ok (xs, ys, ps)) (k : ℕ) (hk : k < m.height) :
    ∃ t : ℝ, t = (k : ℝ) * (⌊(m.height : ℝ) / Real.cos (d * Real.pi / 180)⌋ : ℝ) / ((m.height : ℝ) - 1) ∧
      t * Real.cos (d * Real.pi / 180) ≤ m.height ∧
      ys[k]? = some (min (t * Real.cos (d * Real.pi / 180)) ((m.height : ℝ) - 1)) ∧
      (0 < d → xs[k]? = some (index + t * Real.sin (d * Real.pi / 180))) ∧
      (d ≤ 0 → xs[k]? = some (max (index + t * Real.sin (d * Real.pi / 180)) 0) ∧
        -1 < index + t * Real.sin (d * Real.pi / 180)) := by
  obtain ⟨lo, hi, hc, hb⟩ := tilted_ok h
  rcases tilted_ver (S := S) hc hb with ⟨_, h'⟩ | ⟨ylo, yhi, _, h1, h2, h'⟩
  · rw [h] at h'; cases h'
  rw [h] at h'
  injection h' with h'
  rw [Prod.mk.injEq, Prod.mk.injEq] at h'
  obtain ⟨hx, hy, _⟩ := h'
  have hcos := deg_cos hd
  have hl := linspace0_getElem? (s := (⌊(m.height : ℝ) / Real.cos (d * Real.pi / 180)⌋ : ℝ)) hk hw
  have hlt := abs_lt.1 (deg_lt hd)
  set a := d * Real.pi / 180 with ha
  set t := (k : ℝ) * (⌊(m.height : ℝ) / Real.cos a⌋ : ℝ) / ((m.height : ℝ) - 1) with ht
  have hp := line_param (abs_nonneg a) (abs_lt.2 hlt) hw hk
  simp only [Real.cos_abs] at hp
  rw [← ht] at hp
  obtain ⟨ht0, ht1, ht2⟩ := hp
  simp only [not_or, not_lt, gt_iff_lt] at hb
  have hbd := range_bounds hc
  have hhi : (hi : ℝ) ≤ (m.width : ℝ) - 1 := by
    have : hi ≤ (m.width : ℤ) - 1 := by have := (hbd.2.2.2 (by decide)).2; omega
    exact_mod_cast this
  have hlo : (0 : ℝ) ≤ lo := by exact_mod_cast hbd.1
  refine ⟨t, rfl, ht1, ?_, ?_, ?_⟩
  · rw [hy, List.getElem?_map, hl, Option.map_some]
    unfold clip
    rw [max_eq_left (mul_nonneg ht0 hcos.le)]
  · intro hpos
    have ha0 : 0 ≤ a := by rw [ha]; have := Real.pi_pos; positivity
    rw [abs_of_nonneg ha0] at ht2
    rw [ver_pos hd hpos] at hc
    split_ifs at hc with hcc
    · injection hc with hc
      rw [Prod.mk.injEq] at hc
      obtain ⟨rfl, rfl⟩ := hc
      have hce := Int.le_ceil ((m.height : ℝ) * Real.tan (d * Real.pi / 180))
      have hb2 := hb.2
      push_cast at hb2
      rw [← ha] at hce hb2
      have hs : 0 ≤ t * Real.sin a := mul_nonneg ht0 (Real.sin_nonneg_of_nonneg_of_le_pi ha0 (by linarith [Real.pi_pos]))
      rw [hx, List.getElem?_map, hl, Option.map_some, clip_of_mem]
      · linarith [hb.1]
      · linarith [hb.2]
  · intro hneg
    have ha0 : a ≤ 0 := by
      rw [ha]
      have := mul_nonpos_of_nonpos_of_nonneg hneg Real.pi_pos.le
      linarith
    rw [abs_of_nonpos ha0] at ht2
    rw [ver_neg hd (not_lt.2 hneg)] at hc
    split_ifs at hc with hcc
    · injection hc with hc
      rw [Prod.mk.injEq] at hc
      obtain ⟨rfl, rfl⟩ := hc
      have hce := Int.lt_floor_add_one ((m.height : ℝ) * Real.tan (-d * Real.pi / 180))
      have hna : -d * Real.pi / 180 = -a := by rw [ha]; ring
      have hb1 := hb.1
      rw [hna] at hce hb1
      rw [Real.sin_neg] at ht2
      have hs : 0 ≤ t * -Real.sin a := by
        rw [← Real.sin_neg]
        exact mul_nonneg ht0 (Real.sin_nonneg_of_nonneg_of_le_pi (by linarith) (by linarith [Real.pi_pos]))
      refine ⟨?_, by linarith⟩
      rw [hx, List.getElem?_map, hl, Option.map_some]
      unfold clip
      rw [min_eq_left]
      exact max_le (by linarith [hb.2]) (by linarith)

/-- The last sample of column 2. -/
example (S : Sampler) (f : ℕ → ℕ → ℝ) : ∃ xs ys ps, getTiltedProfile S ⟨2, 3, f⟩ (2 : ℤ) 0 "vertical" = .ok (xs, ys, ps) ∧ ys[1]? = some 1 := by
  obtain ⟨⟨xs, ys, ps⟩, h⟩ := (C45_range_ver S ⟨2, 3, f⟩ 2 0 (by norm_num) _ Iff.rfl).1 (by norm_num)
  obtain ⟨t, ht, _, hy, _⟩ := C45_line_ver S ⟨2, 3, f⟩ _ 0 (by norm_num) (by norm_num) xs ys ps h 1 (by norm_num)
  refine ⟨xs, ys, ps, h, ?_⟩
  rw [hy, ht]
  norm_num

/-- **C45 (angle zero).** A horizontal profile at angle zero does not sample the pixels of the row: the `k`-th abscissa is
`k w / (w - 1)`, clipped to the last column. -/
theorem C45_zero_angle (S : Sampler) (m : Mat ℝ) (i : ℕ) (hi : i < m.height) (hw : 2 ≤ m.width) :
    ∃ xs ys ps, getTiltedProfile S m i 0 "horizontal" = .ok (xs, ys, ps) ∧
      ∀ k, k < m.width → xs[k]? = some (min ((k : ℝ) * m.width / ((m.width : ℝ) - 1)) ((m.width : ℝ) - 1)) ∧ ys[k]? = some (i : ℝ) := by
  have h90 : |(0 : ℝ)| < 90 := by norm_num
  obtain ⟨⟨xs, ys, ps⟩, h⟩ := (C45_range_hor S m i 0 h90 _ Iff.rfl).1
    ⟨by omega, by omega, by exact_mod_cast hi, fun h => absurd h (lt_irrefl _), fun _ => by simpa using hi⟩
  refine ⟨xs, ys, ps, by exact_mod_cast h, fun k hk => ?_⟩
  obtain ⟨t, ht, _, h1, _, h2⟩ := C45_line_hor S m _ 0 h90 hw xs ys ps h k hk
  simp only [zero_mul, zero_div, Real.cos_zero, Real.sin_zero, mul_one, mul_zero, sub_zero, div_one] at ht h1 h2
  obtain ⟨h2, _⟩ := h2 le_rfl
  have hfl : (⌊(m.width : ℝ)⌋ : ℝ) = m.width := by rw [Int.floor_natCast]; simp
  rw [hfl] at ht
  rw [h1, h2, ht]
  refine ⟨rfl, ?_⟩
  rw [min_eq_left]
  · simp
  · have : (i : ℝ) + 1 ≤ m.height := by exact_mod_cast hi
    push_cast
    linarith

/-- The hypotheses can be met: row 1 of an image with two rows and three columns; the abscissae are 0, 3/2, 2. -/
example (S : Sampler) (f : ℕ → ℕ → ℝ) : ∃ xs ys ps, getTiltedProfile S ⟨2, 3, f⟩ 1 0 "horizontal" = .ok (xs, ys, ps) ∧
    xs[1]? = some (3 / 2) := by
  obtain ⟨xs, ys, ps, h, hk⟩ := C45_zero_angle S ⟨2, 3, f⟩ 1 (by norm_num) (by norm_num)
  refine ⟨xs, ys, ps, by simpa using h, ?_⟩
  rw [(hk 1 (by norm_num)).1]
  norm_num

end Discorpy
