import Verif.Lemmas.Slope

/-! # C44 — slopes in a sliding window -/

namespace Discorpy

/-- Half width of the window that is used for `n ≥ 3` samples. -/
def slopeRadius (size : ℤ) (n : ℕ) : ℕ :=
  let s : ℕ := (min (max size 3) (n : ℤ)).toNat
  (if s % 2 = 0 then s + 1 else s) / 2

theorem slopeRadius_size {size : ℤ} {n : ℕ} (hn : 3 ≤ n) :
    (let s : ℕ := (min (max size 3) (n : ℤ)).toNat
     if s % 2 = 0 then s + 1 else s) = 2 * slopeRadius size n + 1 := by
  unfold slopeRadius
  simp only
  split <;> omega

theorem slopeRadius_pos {size : ℤ} {n : ℕ} (hn : 3 ≤ n) : 1 ≤ slopeRadius size n := by
  unfold slopeRadius
  simp only
  split <;> omega

/-- The window around sample `i`. -/
noncomputable def slopeWindow (l : List ℝ) (r i : ℕ) : List ℝ :=
  (List.range (2 * r + 1)).map fun k : ℕ => l.getD (min (i + k - r) (l.length - 1)) 0

/-- The slopes before normalisation. -/
theorem slopes_eq {pf : PolyfitFn} (hpf : PolyfitSpec pf) (store : ℝ → ℝ) (l : List ℝ) (size : ℤ) (norm : Bool) (hn : 3 ≤ l.length) :
    ∃ s : ℕ → ℝ, (∀ i, ∃ b, pf ((List.range (2 * slopeRadius size l.length + 1)).map fun i : ℕ => (i : ℝ))
        (slopeWindow l (slopeRadius size l.length) i) 1 = [s i, b]) ∧
      slidingWindowSlope pf store l size norm =
        (if norm then
          if ((List.range l.length).map fun i => |store (s i)|).sum / l.length ≠ 0 then
            .ok (((List.range l.length).map fun i => |store (s i)|).map fun x =>
              x / (((List.range l.length).map fun i => |store (s i)|).sum / l.length))
          else .ok ((List.range l.length).map fun i => |store (s i)|)
        else .ok ((List.range l.length).map fun i => |store (s i)|)) := by
  have hne : l ≠ [] := by rw [← List.length_pos_iff]; omega
  have hf : ∀ i, ∃ a b, pf ((List.range (2 * slopeRadius size l.length + 1)).map fun i : ℕ => (i : ℝ))
        (slopeWindow l (slopeRadius size l.length) i) 1 = [a, b] := fun i =>
    List.length_eq_two.1 (hpf.length _ _ 1 (by simp [slopeWindow]) (by simp))
  choose s b hsb using hf
  refine ⟨s, fun i => ⟨b i, hsb i⟩, ?_⟩
  unfold slidingWindowSlope
  simp only
  rw [if_neg (by omega)]
  have hsz := slopeRadius_size (size := size) hn
  simp only at hsz
  rw [hsz]
  have hr : (2 * slopeRadius size l.length + 1) / 2 = slopeRadius size l.length := by omega
  rw [hr]
  have hm : ((List.range l.length).mapM fun i => (do
      let s ← npGet (pf ((List.range (2 * slopeRadius size l.length + 1)).map fun i : ℕ => (i : ℝ))
        (npSlice (padEdge l (slopeRadius size l.length)) i (i + (2 * slopeRadius size l.length + 1))) 1) 0
      return |store s| : Except PyErr ℝ)) = .ok ((List.range l.length).map fun i => |store (s i)|) := by
    apply mapM_eq_map
    intro i hi
    rw [window_eq hne (List.mem_range.1 hi)]
    have := hsb i
    unfold slopeWindow at this
    rw [this, npGet_of_lt (by simp), ok_bind]
    rfl
  rw [hm, ok_bind]
  cases norm with
  | false => rfl
  | true =>
    have hne2 : ((List.range l.length).map fun i => |store (s i)|) ≠ [] := by simpa using hne
    simp only [if_true]
    rw [npMean_ok hne2, ok_bind, List.length_map, List.length_range]

/-- **C44 (outcome).** Fewer than three samples are rejected; otherwise there is one non-negative slope per sample. -/
theorem C44_outcome {pf : PolyfitFn} (hpf : PolyfitSpec pf) (store : ℝ → ℝ) (l : List ℝ) (size : ℤ) (norm : Bool) :
    (l.length < 3 ∧ slidingWindowSlope pf store l size norm = .error .valueError) ∨
    (3 ≤ l.length ∧ ∃ r, slidingWindowSlope pf store l size norm = .ok r ∧ r.length = l.length ∧ ∀ x ∈ r, 0 ≤ x) := by
  by_cases hn : l.length < 3
  · left
    refine ⟨hn, ?_⟩
    unfold slidingWindowSlope
    simp only
    rw [if_pos hn]
  · right
    refine ⟨by omega, ?_⟩
    obtain ⟨s, _, h⟩ := slopes_eq hpf store l size norm (by omega)
    rw [h]
    have hnn : ∀ x ∈ (List.range l.length).map fun i => |store (s i)|, 0 ≤ x := by
      intro x hx
      obtain ⟨i, _, rfl⟩ := List.mem_map.1 hx
      exact abs_nonneg _
    split_ifs
    · refine ⟨_, rfl, by simp, fun x hx => ?_⟩
      obtain ⟨y, hy, rfl⟩ := List.mem_map.1 hx
      exact div_nonneg (hnn y hy) (div_nonneg (List.sum_nonneg hnn) (Nat.cast_nonneg _))
    · exact ⟨_, rfl, by simp, hnn⟩
    · exact ⟨_, rfl, by simp, hnn⟩

example := C44_outcome refPolyfit_spec id [1, 4, 2] 3 true

theorem slopeWindow_affine (l : List ℝ) (hn : 3 ≤ l.length) (r i : ℕ) (c d : ℝ) :
    slopeWindow (l.map fun x => c * x + d) r i = (slopeWindow l r i).map fun x => c * x + d := by
  unfold slopeWindow
  rw [List.map_map, List.length_map]
  apply List.map_congr_left
  intro k _
  have hk : min (i + k - r) (l.length - 1) < l.length := by omega
  simp [List.getD_eq_getElem?_getD, List.getElem?_eq_getElem hk]

/-- The slopes of affinely changed data. -/
theorem slopes_affine {pf : PolyfitFn} (hpf : PolyfitSpec pf) (l : List ℝ) (size : ℤ) (hn : 3 ≤ l.length) (c d : ℝ) {s s' : ℕ → ℝ}
    (hs : ∀ i, ∃ b, pf ((List.range (2 * slopeRadius size l.length + 1)).map fun i : ℕ => (i : ℝ))
        (slopeWindow l (slopeRadius size l.length) i) 1 = [s i, b])
    (hs' : ∀ i, ∃ b, pf ((List.range (2 * slopeRadius size (l.map fun x => c * x + d).length + 1)).map fun i : ℕ => (i : ℝ))
        (slopeWindow (l.map fun x => c * x + d) (slopeRadius size (l.map fun x => c * x + d).length) i) 1 = [s' i, b]) (i : ℕ) :
    s' i = c * s i := by
  obtain ⟨b, hb⟩ := hs i
  obtain ⟨b', hb'⟩ := hs' i
  rw [slopeWindow_affine l hn, List.length_map] at hb'
  have hp := slopeRadius_pos (size := size) hn
  have := linear_fit_affine hpf (n := 2 * slopeRadius size l.length + 1) (by omega) (by simp [slopeWindow]) hb c d
  rw [this] at hb'
  simp only [List.cons.injEq, and_true] at hb'
  exact hb'.1.symm

/-- **C44 (constant).** Adding a constant to the data does not change the result, for float and integer data alike. -/
theorem C44_const {pf : PolyfitFn} (hpf : PolyfitSpec pf) (store : ℝ → ℝ) (l : List ℝ) (size : ℤ) (norm : Bool) (d : ℝ) :
    slidingWindowSlope pf store (l.map fun x => x + d) size norm = slidingWindowSlope pf store l size norm := by
  by_cases hn : l.length < 3
  · unfold slidingWindowSlope
    simp only
    rw [if_pos hn, if_pos (by simpa using hn)]
  · have e : (l.map fun x => x + d) = l.map fun x => 1 * x + d := by simp
    rw [e]
    obtain ⟨s, hs, h⟩ := slopes_eq hpf store l size norm (by omega)
    obtain ⟨s', hs', h'⟩ := slopes_eq hpf store (l.map fun x => 1 * x + d) size norm (by rw [List.length_map]; omega)
    have := slopes_affine hpf l size (by omega) 1 d hs hs'
    have es : s' = s := by funext i; rw [this i, one_mul]
    rw [h, h', es, List.length_map]

example := C44_const refPolyfit_spec id [1, 4, 2] 3 true 7

/-- **C44 (scale).** Scaling float data by a non-zero factor scales the slopes by its magnitude, and leaves normalised slopes
unchanged. -/
theorem C44_scale {pf : PolyfitFn} (hpf : PolyfitSpec pf) (l : List ℝ) (size : ℤ) (c : ℝ) (hc : c ≠ 0) (hn : 3 ≤ l.length) :
    (∃ r, slidingWindowSlope pf id l size false = .ok r ∧
      slidingWindowSlope pf id (l.map fun x => c * x) size false = .ok (r.map fun x => |c| * x)) ∧
    slidingWindowSlope pf id (l.map fun x => c * x) size true = slidingWindowSlope pf id l size true := by
  have e : (l.map fun x => c * x) = l.map fun x => c * x + 0 := by simp
  rw [e]
  have hl' : 3 ≤ (l.map fun x => c * x + 0).length := by rw [List.length_map]; omega
  have habs : ∀ (s s' : ℕ → ℝ), (∀ i, s' i = c * s i) → ((List.range l.length).map fun i => |id (s' i)|) =
      ((List.range l.length).map fun i => |id (s i)|).map fun x => |c| * x := by
    intro s s' h
    rw [List.map_map]
    apply List.map_congr_left
    intro i _
    simp only [id, Function.comp]
    rw [h i, abs_mul]
  constructor
  · obtain ⟨s, hs, h⟩ := slopes_eq hpf id l size false hn
    obtain ⟨s', hs', h'⟩ := slopes_eq hpf id (l.map fun x => c * x + 0) size false hl'
    have := slopes_affine hpf l size hn c 0 hs hs'
    refine ⟨_, h, ?_⟩
    rw [h']
    simp only [Bool.false_eq_true, if_false]
    rw [List.length_map, habs s s' this]
  · obtain ⟨s, hs, h⟩ := slopes_eq hpf id l size true hn
    obtain ⟨s', hs', h'⟩ := slopes_eq hpf id (l.map fun x => c * x + 0) size true hl'
    have := slopes_affine hpf l size hn c 0 hs hs'
    rw [h, h']
    simp only [if_true]
    rw [List.length_map, habs s s' this, List.sum_map_mul_left, List.map_id']
    have hc' : |c| ≠ 0 := abs_ne_zero.2 hc
    rw [mul_div_assoc]
    set T := ((List.range l.length).map fun i => |id (s i)|) with hT
    by_cases h0 : T.sum / l.length = 0
    · rw [if_neg (by rw [h0, mul_zero]; exact not_not.2 rfl), if_neg (by rw [h0]; exact not_not.2 rfl)]
      · congr 1
        have hl : (l.length : ℝ) ≠ 0 := by
          have : 0 < l.length := by omega
          positivity
        have hsum : T.sum = 0 := by
          rcases div_eq_zero_iff.1 h0 with h | h
          · exact h
          · exact absurd h hl
        have hz : ∀ x ∈ T, x = 0 := by
          have hnn : ∀ x ∈ T, 0 ≤ x := by
            intro x hx
            obtain ⟨i, _, rfl⟩ := List.mem_map.1 hx
            exact abs_nonneg _
          intro x hx
          have := List.single_le_sum hnn x hx
          exact le_antisymm (this.trans hsum.le) (hnn x hx)
        conv_rhs => rw [← List.map_id T]
        apply List.map_congr_left
        intro x hx
        rw [hz x hx]; simp
    · rw [if_pos (mul_ne_zero hc' h0), if_pos h0, List.map_map]
      congr 1
      apply List.map_congr_left
      intro x _
      simp only [Function.comp]
      rw [mul_div_mul_left _ _ hc']

example := C44_scale refPolyfit_spec [1, 4, 2] 3 (-2) (by norm_num) (by simp)

/-- **C44 (line).** On float samples of the line `a x + b` the slope is `|a|` at every sample whose window lies inside the data. -/
theorem C44_line {pf : PolyfitFn} (hpf : PolyfitSpec pf) (n : ℕ) (hn : 3 ≤ n) (a b : ℝ) (size : ℤ) :
    ∃ r, slidingWindowSlope pf id ((List.range n).map fun i : ℕ => a * (i : ℝ) + b) size false = .ok r ∧
      ∀ i : ℕ, max size 3 / 2 ≤ (i : ℤ) → (i : ℤ) + max size 3 / 2 < n → r[i]? = some |a| := by
  set l := (List.range n).map fun i : ℕ => a * (i : ℝ) + b with hl
  have hlen : l.length = n := by simp [hl]
  obtain ⟨s, hs, h⟩ := slopes_eq hpf id l size false (by omega)
  refine ⟨_, h, fun i h1 h2 => ?_⟩
  obtain ⟨b', hb⟩ := hs i
  have hr : (slopeRadius size l.length : ℤ) ≤ i ∧ (i : ℤ) + slopeRadius size l.length < n := by
    rw [hlen]
    unfold slopeRadius
    simp only
    split <;> omega
  have hpos := slopeRadius_pos (size := size) (n := l.length) (by omega)
  generalize slopeRadius size l.length = r at *
  have hw : slopeWindow l r i = (List.range (2 * r + 1)).map fun k : ℕ => a * (k : ℝ) + (a * ((i : ℝ) - r) + b) := by
    unfold slopeWindow
    apply List.map_congr_left
    intro k hk
    rw [List.mem_range] at hk
    have hmin : min (i + k - r) (l.length - 1) = i + k - r := by omega
    have hlt : i + k - r < n := by omega
    rw [hmin, List.getD_eq_getElem?_getD, hl, List.getElem?_map, List.getElem?_range hlt]
    simp only [Option.map_some, Option.getD_some]
    rw [Nat.cast_sub (by omega)]
    push_cast
    ring
  rw [hw, linear_fit_exact hpf (by omega)] at hb
  simp only [List.cons.injEq, and_true] at hb
  rw [List.getElem?_map, List.getElem?_range (by omega), Option.map_some, id, ← hb.1]

/-- **C44 (central difference).** For the window of three samples the slope of float data is half the difference of the
neighbours. -/
theorem C44_three {pf : PolyfitFn} (hpf : PolyfitSpec pf) (l : List ℝ) (hn : 3 ≤ l.length) :
    ∃ r, slidingWindowSlope pf id l 3 false = .ok r ∧
      ∀ i, 1 ≤ i → i + 1 < l.length → r[i]? = some (|l.getD (i + 1) 0 - l.getD (i - 1) 0| / 2) := by
  obtain ⟨s, hs, h⟩ := slopes_eq hpf id l 3 false hn
  refine ⟨_, h, fun i h1 h2 => ?_⟩
  obtain ⟨b', hb⟩ := hs i
  have hr : slopeRadius 3 l.length = 1 := by
    unfold slopeRadius
    simp only
    split <;> omega
  rw [hr] at hb
  have hw : slopeWindow l 1 i = [l.getD (i - 1) 0, l.getD i 0, l.getD (i + 1) 0] := by
    have e1 : min (i - 1) (l.length - 1) = i - 1 := by omega
    have e2 : min i (l.length - 1) = i := by omega
    have e3 : min (i + 1) (l.length - 1) = i + 1 := by omega
    simp [slopeWindow, List.range_succ, e1, e2, e3]
  rw [hw] at hb
  obtain ⟨b'', hb'⟩ := linear_fit_three hpf (l.getD (i - 1) 0) (l.getD i 0) (l.getD (i + 1) 0)
  rw [hb'] at hb
  simp only [List.cons.injEq, and_true] at hb
  rw [List.getElem?_map, List.getElem?_range (by omega), Option.map_some, id, ← hb.1, abs_div, abs_two]

example := C44_three refPolyfit_spec [1, 4, 2] (by simp)

/-- **C44 (mean).** Normalised slopes have mean one, unless they are all zero. -/
theorem C44_mean {pf : PolyfitFn} (hpf : PolyfitSpec pf) (store : ℝ → ℝ) (l : List ℝ) (size : ℤ) (hn : 3 ≤ l.length) :
    ∃ r, slidingWindowSlope pf store l size true = .ok r ∧ ((∀ x ∈ r, x = 0) ∨ r.sum / r.length = 1) := by
  obtain ⟨s, _, h⟩ := slopes_eq hpf store l size true hn
  rw [h]
  simp only [if_true]
  set T := ((List.range l.length).map fun i => |store (s i)|) with hT
  have hl : (l.length : ℝ) ≠ 0 := by
    have : 0 < l.length := by omega
    positivity
  by_cases h0 : T.sum / l.length = 0
  · rw [if_neg (not_not.2 h0)]
    refine ⟨_, rfl, Or.inl ?_⟩
    have hsum : T.sum = 0 := by
      rcases div_eq_zero_iff.1 h0 with h | h
      · exact h
      · exact absurd h hl
    have hnn : ∀ x ∈ T, 0 ≤ x := by
      intro x hx
      obtain ⟨i, _, rfl⟩ := List.mem_map.1 hx
      exact abs_nonneg _
    intro x hx
    have := List.single_le_sum hnn x hx
    exact le_antisymm (this.trans hsum.le) (hnn x hx)
  · rw [if_pos h0]
    refine ⟨_, rfl, Or.inr ?_⟩
    have e : (T.map fun x => x / (T.sum / l.length)).sum = T.sum / (T.sum / l.length) := by
      simp only [div_eq_mul_inv]
      rw [List.sum_map_mul_right, List.map_id']
    have hTs : T.sum ≠ 0 := fun h => h0 (by rw [h, zero_div])
    rw [e, List.length_map, hT, List.length_map, List.length_range, ← hT]
    field_simp

example := C44_mean refPolyfit_spec id [1, 4, 2] 3 (by simp)

/-- **C44 (integer data).** For an integer array the slopes are truncated: the data `0, 1, 1` gets slope zero everywhere. -/
theorem C44_int_dtype {pf : PolyfitFn} (hpf : PolyfitSpec pf) :
    slidingWindowSlope pf (fun x => (truncInt x : ℝ)) [0, 1, 1] 3 false = .ok [0, 0, 0] ∧
    slidingWindowSlope pf id [0, 1, 1] 3 false = .ok [1 / 2, 1 / 2, 0] := by
  have key : ∀ store : ℝ → ℝ, slidingWindowSlope pf store [0, 1, 1] 3 false = .ok [|store (1 / 2)|, |store (1 / 2)|, |store 0|] := by
    intro store
    obtain ⟨s, hs, h⟩ := slopes_eq hpf store [0, 1, 1] 3 false (by simp)
    have hr : slopeRadius 3 [(0 : ℝ), 1, 1].length = 1 := by simp [slopeRadius]
    rw [hr] at hs
    have h0 : s 0 = 1 / 2 := by
      obtain ⟨b, hb⟩ := hs 0
      have hw : slopeWindow [0, 1, 1] 1 0 = [0, 0, 1] := by simp [slopeWindow, List.range_succ]
      obtain ⟨b', hb'⟩ := linear_fit_three hpf 0 0 1
      rw [hw, hb'] at hb
      simp only [List.cons.injEq, and_true] at hb
      rw [← hb.1]; norm_num
    have h1 : s 1 = 1 / 2 := by
      obtain ⟨b, hb⟩ := hs 1
      have hw : slopeWindow [0, 1, 1] 1 1 = [0, 1, 1] := by simp [slopeWindow, List.range_succ]
      obtain ⟨b', hb'⟩ := linear_fit_three hpf 0 1 1
      rw [hw, hb'] at hb
      simp only [List.cons.injEq, and_true] at hb
      rw [← hb.1]; norm_num
    have h2 : s 2 = 0 := by
      obtain ⟨b, hb⟩ := hs 2
      have hw : slopeWindow [0, 1, 1] 1 2 = [1, 1, 1] := by simp [slopeWindow, List.range_succ]
      obtain ⟨b', hb'⟩ := linear_fit_three hpf 1 1 1
      rw [hw, hb'] at hb
      simp only [List.cons.injEq, and_true] at hb
      rw [← hb.1]; norm_num
    rw [h]
    simp [List.range_succ, h0, h1, h2]
  rw [key, key]
  constructor
  · norm_num [truncInt]
  · norm_num

example := C44_int_dtype refPolyfit_spec

/-- The hypotheses can be met. -/
example : ∃ r, slidingWindowSlope refPolyfit id ((List.range 5).map fun i : ℕ => (2 : ℝ) * (i : ℝ) + 1) 3 false = .ok r ∧
    r[2]? = some |2| := by
  obtain ⟨r, h, hr⟩ := C44_line refPolyfit_spec 5 (by norm_num) 2 1 3
  exact ⟨r, h, hr 2 (by norm_num) (by norm_num)⟩

end Discorpy
