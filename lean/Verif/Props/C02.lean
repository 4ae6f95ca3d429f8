import Verif.Lemmas.Radial

/-! # C02, C03: chunks of unwarped sinograms -/

namespace Discorpy

open Spec

theorem mem_indexList16 {h : ℕ} (hh : h ≤ 32768) (n : ℤ) : n ∈ indexList16 h ↔ 0 ≤ n ∧ n < h := by
  simp only [indexList16, List.mem_map, List.mem_range]
  constructor
  · rintro ⟨i, hi, rfl⟩
    rw [toInt16_of_mem (by omega) (by omega)]; omega
  · rintro ⟨h0, h1⟩
    exact ⟨n.toNat, by omega, by rw [toInt16_of_mem (by omega) (by omega)]; omega⟩

/-- **C02.** Chunk `[start, stop]` of a stack: the result has `stop - start + 1` slices per projection (without projections it is an empty array with one axis) and slice `k` of
projection `i` is row `start + k` of the unwarped projection, including the `float32` rounding `rnd` of the coordinates in
both functions. Hypotheses: height at most 32767, width at most 2^24, and the model does not fold on a disc that
contains the pixels of the first and last row. -/
theorem C02_chunk_eq_image_rows (B B' : Boundary) (rnd : ℝ → ℝ) (hrnd : CoordRounding rnd)
    (d h w : ℕ) (get : List ℕ → ℝ) (xc yc : ℝ) (coefs : List ℝ) (R : ℝ) (start stop : ℕ)
    (hss : start ≤ stop) (hsh : stop < h) (hh : h ≤ 32767) (hw : 0 < w) (hw' : w ≤ 2 ^ 24)
    (hc : NoFold coefs R)
    (hR1 : ∀ j < w, √(((j : ℝ) - xc) ^ 2 + ((start : ℝ) - yc) ^ 2) ≤ R)
    (hR2 : ∀ j < w, √(((j : ℝ) - xc) ^ 2 + ((stop : ℝ) - yc) ^ 2) ≤ R) :
    ∃ out, unwarpChunkSlicesBackward B rnd ⟨[d, h, w], get⟩ xc yc coefs start stop = .ok out ∧
      out.shape = (if d = 0 then [0] else [d, stop - start + 1, w]) ∧
      ∀ i < d, ∀ k < stop - start + 1, ∀ j < w, out.get [i, k, j] =
        (unwarpImageBackward (linearInterp B') rnd ⟨h, w, fun y x => get [i, y, x]⟩ xc yc coefs).get
          (start + k) j := by
  have hh1 : (1 : ℝ) ≤ h := by exact_mod_cast (by omega : 1 ≤ h)
  have hw1 : (1 : ℝ) ≤ w := by exact_mod_cast hw
  have hns : ((stop : ℤ)) ≠ -1 := by omega
  have m1 : (start : ℤ) ∈ indexList16 h := (mem_indexList16 (by omega) _).2 (by omega)
  have m2 : (stop : ℤ) ∈ indexList16 h := (mem_indexList16 (by omega) _).2 (by omega)
  obtain ⟨mn, e1, ⟨j1, hj1, r1⟩, b1⟩ := exists_min_map_range hw (fun j : ℕ =>
    clip (yc + polySum coefs (√(((j : ℝ) - xc) ^ 2 + ((start : ℝ) - yc) ^ 2)) * ((start : ℝ) - yc)) 0 ((h : ℝ) - 1))
  obtain ⟨mx, e2, ⟨j2, hj2, r2⟩, b2⟩ := exists_max_map_range hw (fun j : ℕ =>
    clip (yc + polySum coefs (√(((j : ℝ) - xc) ^ 2 + ((stop : ℝ) - yc) ^ 2)) * ((stop : ℝ) - yc)) 0 ((h : ℝ) - 1))
  have hn : ((stop : ℤ) + 1 - (start : ℤ)).toNat = stop - start + 1 := by omega
  simp only [unwarpChunkSlicesBackward, hns, if_false, m1, m2, not_true, or_self, Int.cast_natCast]
  rw [e1, e2]
  refine ⟨_, rfl, by simp only [hn], ?_⟩
  intro i _ k hk j hj
  simp only [unwarpImageBackward, mapping]
  have ecast : ((((start : ℤ) + (k : ℤ) : ℤ)) : ℝ) = ((start + k : ℕ) : ℝ) := by push_cast; ring
  rw [ecast]
  set y := clip (yc + polySum coefs (√(((j : ℝ) - xc) ^ 2 + (((start + k : ℕ) : ℝ) - yc) ^ 2)) *
    (((start + k : ℕ) : ℝ) - yc)) 0 ((h : ℝ) - 1) with hy
  set x := clip (xc + polySum coefs (√(((j : ℝ) - xc) ^ 2 + (((start + k : ℕ) : ℝ) - yc) ^ 2)) *
    ((j : ℝ) - xc)) 0 ((w : ℝ) - 1) with hx
  have hin : InFrame ⟨h, w, fun y x => get [i, y, x]⟩ y x :=
    inFrame_clip (m := ⟨h, w, fun y x => get [i, y, x]⟩) (by simpa using by omega) (by simpa using hw) _ _
  have hin' := inFrame_rnd hrnd hin (by simpa using by omega) (by simpa using hw)
    (by simpa using by omega) (by simpa using hw')
  rw [linearInterp_eq B' _ hin']
  -- the chunk rows lie between the first and the last row
  have ky1 : (start : ℝ) - yc ≤ ((start + k : ℕ) : ℝ) - yc := by push_cast; linarith [(Nat.cast_nonneg k : (0:ℝ) ≤ k)]
  have ky2 : ((start + k : ℕ) : ℝ) - yc ≤ (stop : ℝ) - yc := by
    have : ((start + k : ℕ) : ℝ) ≤ stop := by exact_mod_cast (by omega : start + k ≤ stop)
    linarith
  have hRk : √(((j : ℝ) - xc) ^ 2 + (((start + k : ℕ) : ℝ) - yc) ^ 2) ≤ R := by
    rcases le_total 0 (((start + k : ℕ) : ℝ) - yc) with h0 | h0
    · exact le_trans (sqrt_mono_abs h0 ky2) (hR2 j hj)
    · have := sqrt_mono_abs (x := (j : ℝ) - xc) (neg_nonneg.2 h0) (neg_le_neg ky1)
      rw [neg_sq, neg_sq] at this
      exact le_trans this (hR1 j hj)
  have hlo : mn ≤ y := by
    refine le_trans (b1 j hj) (clip_mono ?_)
    rw [polySum_eq_radial, polySum_eq_radial]
    linarith [radial_mono hc ky1 (hR1 j hj) hRk]
  have hhi : y ≤ mx := by
    refine le_trans (clip_mono ?_) (b2 j hj)
    rw [polySum_eq_radial, polySum_eq_radial]
    linarith [radial_mono hc ky2 hRk (hR2 j hj)]
  have mn0 : 0 ≤ mn := by rw [r1]; exact clip_ge (by linarith)
  have mx1 : mx ≤ (h : ℝ) - 1 := by rw [r2]; exact clip_le
  -- rounding keeps the coordinate between floor and ceiling
  have fl : (⌊mn⌋ : ℝ) ≤ rnd y := by
    have h1 : 0 ≤ ⌊mn⌋ := Int.floor_nonneg.2 mn0
    have h2 : ⌊mn⌋ ≤ (h : ℤ) := by
      have : (⌊mn⌋ : ℝ) ≤ h := by linarith [Int.floor_le mn]
      exact_mod_cast this
    rw [← hrnd.exact ⌊mn⌋ (by rw [abs_of_nonneg h1]; norm_num; omega)]
    exact hrnd.mono (le_trans (Int.floor_le mn) hlo)
  have ce : rnd y ≤ (⌈mx⌉ : ℝ) := by
    have h1 : 0 ≤ ⌈mx⌉ := Int.ceil_nonneg (by linarith)
    have h2 : ⌈mx⌉ ≤ (h : ℤ) - 1 := by rw [Int.ceil_le]; push_cast; exact mx1
    rw [← hrnd.exact ⌈mx⌉ (by rw [abs_of_nonneg h1]; norm_num; omega)]
    exact hrnd.mono (le_trans hhi (Int.le_ceil mx))
  have key := linearInterp_crop B (NdArr.proj ⟨[d, h, w], get⟩ h w i) (ymin := (⌊mn⌋ : ℝ)) (ymax := (⌈mx⌉ : ℝ))
    (y := rnd y) (x := rnd x) (by simpa [NdArr.proj] using hh)
    (by exact_mod_cast Int.floor_nonneg.2 mn0) fl ce
    (by
      have h2 : ⌈mx⌉ ≤ (h : ℤ) - 1 := by rw [Int.ceil_le]; push_cast; exact mx1
      have : ((⌈mx⌉ : ℤ) : ℝ) ≤ (((h : ℤ) - 1 : ℤ) : ℝ) := by exact_mod_cast h2
      simpa [NdArr.proj] using this)
    hin'.2.2.1 hin'.2.2.2
  rw [Int.floor_intCast, Int.ceil_intCast] at key
  exact key

/-- Non-vacuity: the barrel model `F(r) = 1 + r/10` does not fold anywhere, so C02 applies to rows 1..2 of a
`2 × 4 × 3` stack. -/
example : NoFold [1, 1 / 10] 100 ∧
    (∀ j < 3, √(((j : ℕ) - (1 : ℝ)) ^ 2 + (((1 : ℕ) : ℝ) - 1) ^ 2) ≤ 100) := by
  refine ⟨⟨?_, ?_⟩, ?_⟩
  · intro r s h0 h1 h2
    simp [radial, Fin.sum_univ_two]; nlinarith
  · intro r h0 h1
    simp [radial, Fin.sum_univ_two]; nlinarith
  · intro j hj
    rw [Real.sqrt_le_left (by norm_num)]
    have : (j : ℝ) < 3 := by exact_mod_cast hj
    have : (0 : ℝ) ≤ j := Nat.cast_nonneg j
    norm_num; nlinarith

/-- The rows 1 to 2 of a stack of two projections with three columns. -/
example (B B' : Boundary) := C02_chunk_eq_image_rows B B' id coordRounding_id 2 4 3 (fun l => (l.sum : ℝ)) 1 1 [1, 1 / 10] 100 1 2
  (by norm_num) (by norm_num) (by norm_num) (by norm_num) (by norm_num)
  ⟨fun r s h0 h1 h2 => by simp [radial, Fin.sum_univ_two]; nlinarith, fun r h0 h1 => by simp [radial, Fin.sum_univ_two]; nlinarith⟩
  (by
    intro j hj
    rw [Real.sqrt_le_left (by norm_num)]
    have : (j : ℝ) < 3 := by exact_mod_cast hj
    have : (0 : ℝ) ≤ j := Nat.cast_nonneg j
    norm_num; nlinarith)
  (by
    intro j hj
    rw [Real.sqrt_le_left (by norm_num)]
    have : (j : ℝ) < 3 := by exact_mod_cast hj
    have : (0 : ℝ) ≤ j := Nat.cast_nonneg j
    norm_num; nlinarith)

/-- **C02, limits.** Without the no-fold hypothesis the claim is false: for `F(r) = 3 - r`, centre `(0,0)`, a
`1 × 4 × 1` stack and rows 0..3, whatever (pixel-local) boundary treatment is used there is stack data for which slice 1
of the chunk differs from row 1 of the unwarped image. -/
theorem C02_folding_model_counterexample (B B' : Boundary) (hB : LocalBoundary B) :
    ∃ get : List ℕ → ℝ, ∃ out,
      unwarpChunkSlicesBackward B id ⟨[1, 4, 1], get⟩ 0 0 [3, -1] 0 3 = .ok out ∧
      out.get [0, 1, 0] ≠
        (unwarpImageBackward (linearInterp B') id ⟨4, 1, fun y x => get [0, y, x]⟩ 0 0 [3, -1]).get 1 0 := by
  -- the crop consists of row 0 only
  have hok : ∀ get : List ℕ → ℝ, ∃ out,
      unwarpChunkSlicesBackward B id ⟨[1, 4, 1], get⟩ 0 0 [3, -1] 0 3 = .ok out ∧
      out.get [0, 1, 0] = B.far ((NdArr.proj ⟨[1, 4, 1], get⟩ 4 1 0).rows 0 1) 2 0 := by
    intro get
    have m1 : (0 : ℤ) ∈ indexList16 4 := (mem_indexList16 (by omega) _).2 (by omega)
    have m2 : (3 : ℤ) ∈ indexList16 4 := (mem_indexList16 (by omega) _).2 (by omega)
    have e3 : √(9 : ℝ) = 3 := by
      rw [show (9 : ℝ) = 3 ^ 2 by norm_num, Real.sqrt_sq (by norm_num)]
    have n3 : ((3 : ℤ) = -1) = False := by simp
    have e1 : ((List.range 1).map fun j : ℕ => clip (0 + polySum [3, -1]
        (√(((j : ℝ) - 0) ^ 2 + (((0 : ℤ) : ℝ) - 0) ^ 2)) * (((0 : ℤ) : ℝ) - 0)) 0 (((4 : ℕ) : ℝ) - 1)).min?
          = some (0 : ℝ) := by
      norm_num [polySum_cons, clip, List.range_succ]
    have e2 : ((List.range 1).map fun j : ℕ => clip (0 + polySum [3, -1]
        (√(((j : ℝ) - 0) ^ 2 + (((3 : ℤ) : ℝ) - 0) ^ 2)) * (((3 : ℤ) : ℝ) - 0)) 0 (((4 : ℕ) : ℝ) - 1)).max?
          = some (0 : ℝ) := by
      norm_num [polySum_cons, clip, List.range_succ, e3]
    simp only [unwarpChunkSlicesBackward, n3, if_false, m1, m2, not_true, or_self]
    rw [e1, e2]
    refine ⟨_, rfl, ?_⟩
    have b1 : Int.bmod 1 65536 = 1 := by decide
    norm_num [mapping, linearInterp, polySum_cons, clip, Mat.rows, sliceBound, NdArr.proj, toInt16, b1]
  have himg : ∀ get : List ℕ → ℝ,
      (unwarpImageBackward (linearInterp B') id ⟨4, 1, fun y x => get [0, y, x]⟩ 0 0 [3, -1]).get 1 0
        = get [0, 2, 0] := by
    intro get
    simp only [unwarpImageBackward, id]
    rw [linearInterp_eq B' _ (inFrame_clip (by norm_num) (by norm_num) _ _)]
    have := bilinear_node (m := ⟨4, 1, fun y x => get [0, y, x]⟩) 2 0
    simp only at this
    rw [← this]
    norm_num [polySum_cons, clip]
  let g1 : List ℕ → ℝ := fun _ => 0
  let g2 : List ℕ → ℝ := fun l => if l = [0, 2, 0] then 1 else 0
  by_contra hcon
  push Not at hcon
  obtain ⟨o1, h1, v1⟩ := hok g1
  obtain ⟨o2, h2, v2⟩ := hok g2
  have a1 := hcon g1 o1 h1
  have a2 := hcon g2 o2 h2
  rw [himg, v1] at a1
  rw [himg, v2] at a2
  have hs : SameImage ((NdArr.proj ⟨[1, 4, 1], g1⟩ 4 1 0).rows 0 1) ((NdArr.proj ⟨[1, 4, 1], g2⟩ 4 1 0).rows 0 1) := by
    refine ⟨rfl, rfl, ?_⟩
    intro i hi j hj
    simp [Mat.rows, sliceBound, NdArr.proj] at hi hj ⊢
    subst hi; subst hj
    simp [g1, g2]
  rw [(hB _ _ hs).2] at a1
  rw [a1] at a2
  simp [g1, g2] at a2

/-- Edges read as zero. -/
example (B' : Boundary) := C02_folding_model_counterexample ⟨fun _ _ _ => 0, fun _ _ _ => 0⟩ B' (fun _ _ _ => ⟨rfl, rfl⟩)

/-- **C03.** For heights up to 32768 `unwarp_chunk_slices_backward` succeeds exactly for a 3D input with at least one
column and both indices (with `-1` replaced by the height) in `0 … height-1`; every failure is a `ValueError`. -/
theorem C03_chunk_index_validation (B : Boundary) (rnd : ℝ → ℝ) (shape : List ℕ) (get : List ℕ → ℝ)
    (xc yc : ℝ) (coefs : List ℝ) (start stop : ℤ) (hsmall : ∀ d h w, shape = [d, h, w] → h ≤ 32768) :
    ((∃ out, unwarpChunkSlicesBackward B rnd ⟨shape, get⟩ xc yc coefs start stop = .ok out) ↔
      ∃ d h w : ℕ, shape = [d, h, w] ∧ 0 < w ∧ (0 ≤ start ∧ start < h) ∧
        (0 ≤ (if stop = -1 then (h : ℤ) else stop) ∧ (if stop = -1 then (h : ℤ) else stop) < h)) ∧
    (∀ e, unwarpChunkSlicesBackward B rnd ⟨shape, get⟩ xc yc coefs start stop = .error e → e = .valueError) := by
  unfold unwarpChunkSlicesBackward
  split
  next d h w heq =>
    simp only at heq
    have hh := hsmall d h w heq
    simp only [mem_indexList16 hh]
    have key : ∀ P : Prop, (∃ d' h' w' : ℕ, shape = [d', h', w'] ∧ 0 < w' ∧ (0 ≤ start ∧ start < h') ∧
        (0 ≤ (if stop = -1 then (h' : ℤ) else stop) ∧ (if stop = -1 then (h' : ℤ) else stop) < h')) ↔
        (0 < w ∧ (0 ≤ start ∧ start < h) ∧
        (0 ≤ (if stop = -1 then (h : ℤ) else stop) ∧ (if stop = -1 then (h : ℤ) else stop) < h)) := by
      intro _
      constructor
      · rintro ⟨d', h', w', e, r⟩
        rw [heq] at e
        simp at e
        obtain ⟨rfl, rfl, rfl⟩ := e
        exact r
      · exact fun r => ⟨d, h, w, heq, r⟩
    rw [key True]
    generalize (if stop = -1 then (h : ℤ) else stop) = s
    split
    next hbad =>
      constructor
      · constructor
        · rintro ⟨o, ho⟩; cases ho
        · rintro ⟨_, h1, h2⟩; exact absurd hbad (by tauto)
      · intro e he; cases he; rfl
    next hgood =>
      rcases Nat.eq_zero_or_pos w with rfl | hw
      · simp
      · obtain ⟨mn, e1, -⟩ := exists_min_map_range hw (fun j : ℕ =>
          clip (yc + polySum coefs (√(((j : ℝ) - xc) ^ 2 + ((start : ℝ) - yc) ^ 2)) * ((start : ℝ) - yc)) 0 ((h : ℝ) - 1))
        obtain ⟨mx, e2, -⟩ := exists_max_map_range hw (fun j : ℕ =>
          clip (yc + polySum coefs (√(((j : ℝ) - xc) ^ 2 + ((s : ℝ) - yc) ^ 2)) * ((s : ℝ) - yc)) 0 ((h : ℝ) - 1))
        rw [e1, e2]
        push Not at hgood
        simp [hw, hgood]
  next hne =>
    constructor
    · constructor
      · rintro ⟨o, ho⟩; cases ho
      · rintro ⟨d, h, w, e, _⟩; exact absurd e (hne d h w)
    · intro e he; cases he; rfl

/-- **C03.** `stop_index = -1`, which the code turns into "until the end", is rejected for every input, of any height. -/
theorem C03_stop_minus_one_rejected (B : Boundary) (rnd : ℝ → ℝ) (a : NdArr ℝ) (xc yc : ℝ)
    (coefs : List ℝ) (start : ℤ) :
    unwarpChunkSlicesBackward B rnd a xc yc coefs start (-1) = .error .valueError := by
  unfold unwarpChunkSlicesBackward
  split
  next d h w _ =>
    have : (h : ℤ) ∉ indexList16 h := by
      simp only [indexList16, List.mem_map, List.mem_range, not_exists, not_and]
      intro i hi he
      have := toInt16_range (i : ℤ)
      rcases le_or_gt h 32767 with h1 | h1
      · rw [toInt16_of_mem (by omega) (by omega)] at he; omega
      · omega
    simp [this]
  next => rfl

/-- Non-vacuity of C03: both outcomes occur. -/
example (B : Boundary) :
    (∃ out, unwarpChunkSlicesBackward B id ⟨[1, 3, 2], fun _ => 0⟩ 0 0 [1] 0 2 = .ok out) ∧
    ¬ ∃ out, unwarpChunkSlicesBackward B id ⟨[1, 3, 2], fun _ => 0⟩ 0 0 [1] 0 3 = .ok out := by
  refine ⟨(C03_chunk_index_validation B id [1, 3, 2] (fun _ => 0) 0 0 [1] 0 2 ?_).1.2
      ⟨1, 3, 2, rfl, by norm_num⟩, fun h => ?_⟩
  · rintro d h w e; simp at e; omega
  · have := (C03_chunk_index_validation B id [1, 3, 2] (fun _ => 0) 0 0 [1] 0 3
      (by rintro d h w e; simp at e; omega)).1.1 h
    obtain ⟨d, h, w, e, _, _, h3⟩ := this
    simp at e
    obtain ⟨rfl, rfl, rfl⟩ := e
    norm_num at h3

end Discorpy
