import Verif.Lemmas.RoundedMore
import Verif.Lemmas.FourPointScript
import Verif.Props.C02

/-! # C114 — rounding errors of images, slices and single points -/

namespace Discorpy

open Spec

/-- **C114 (exact arithmetic).** Without rounding the functions are those of the exact model. -/
theorem C114_exact (S : Sampler) (B : Boundary) (rnd : ℝ → ℝ) (mat : Mat ℝ) (mat3D : NdArr ℝ) (xc yc row col : ℝ) (fact coef : List ℝ) (order : String)
    (index start stop : ℤ) (mapIndex : Option (ℕ → ℕ → Pt)) :
    findPointToPointFl Floats.exact row col xc yc fact order = findPointToPoint row col xc yc fact order ∧
      unwarpImageForwardFl Floats.exact mat xc yc fact = unwarpImageForward mat xc yc fact ∧
      unwarpSliceBackwardFl Floats.exact id B mat3D xc yc fact index = unwarpSliceBackward B mat3D xc yc fact index ∧
      correctPerspectiveImageFl Floats.exact S rnd mat coef mapIndex = correctPerspectiveImage S rnd mat coef mapIndex ∧
      unwarpChunkSlicesBackwardFl Floats.exact B id mat3D xc yc fact start stop = unwarpChunkSlicesBackward B id mat3D xc yc fact start stop :=
  ⟨rfl, rfl, rfl, rfl, rfl⟩

/-- **C114 (points).** The point computed by `find_point_to_point` with rounding is as near to the exact one as stated for lines in C98. -/
theorem C114_point {u : ℝ} {F : Floats} (hF : IsFloat u F) (row col xc yc : ℝ) (fact : List ℝ) :
    ∃ q : Pt, findPointToPointFl F row col xc yc fact "xy" = (q.x, q.y) ∧ (∀ order, order ≠ "xy" → findPointToPointFl F row col xc yc fact order = (q.y, q.x)) ∧
      |q.x - (radialMap ⟨yc, xc⟩ fact ⟨row, col⟩).x| ≤ coordError u fact (ptDist ⟨row, col⟩ ⟨yc, xc⟩) xc col ∧
      |q.y - (radialMap ⟨yc, xc⟩ fact ⟨row, col⟩).y| ≤ coordError u fact (ptDist ⟨row, col⟩ ⟨yc, xc⟩) yc row := by
  obtain ⟨hx, hy⟩ := within_dot hF fact ⟨row, col⟩ ⟨yc, xc⟩
  refine ⟨⟨_, _⟩, ?_, ?_, hx, hy⟩
  · unfold findPointToPointFl
    simp only [if_true]
  · intro order ho
    unfold findPointToPointFl
    simp only [if_neg ho]

/-! ## Slices -/

/-- **C114 (slices).** In binary arithmetic with at least 15 bits — double precision has 53 — a slice is exactly the row of the image unwarped in the same arithmetic
with the coordinates kept in double precision: the crop contains all pixels needed, and the subtraction of its first row is without error. -/
theorem C114_slice (F : Floats) (bits : ℕ) (hb : 15 ≤ bits) (hF : F.fl = roundBits bits) (st : ℝ → ℝ) (B B' : Boundary) (d h w : ℕ) (get : List ℕ → ℝ) (xc yc : ℝ)
    (fact : List ℝ) (hne : fact ≠ []) (k : ℕ) (hk : k < h) (hh : h ≤ 32767) (hw : 0 < w) :
    ∃ out, unwarpSliceBackwardFl F st B ⟨[d, h, w], get⟩ xc yc fact k = .ok out ∧ out.height = d ∧ out.width = w ∧
      ∀ i < d, ∀ j < w, out.get i j = st ((unwarpImageBackwardFl F (linearInterp B') id ⟨h, w, fun y x => get [i, y, x]⟩ xc yc fact).get k j) := by
  have hh1 : (1 : ℝ) ≤ h := by exact_mod_cast (by omega : 1 ≤ h)
  have hw1 : (1 : ℝ) ≤ w := by exact_mod_cast hw
  obtain ⟨mn, e1, ⟨j1, hj1, r1⟩, b1⟩ := exists_min_map_range hw fun j : ℕ => clip (radialRowFl F xc yc fact k j) 0 ((h : ℝ) - 1)
  obtain ⟨mx, e2, ⟨j2, hj2, r2⟩, b2⟩ := exists_max_map_range hw fun j : ℕ => clip (radialRowFl F xc yc fact k j) 0 ((h : ℝ) - 1)
  simp only [unwarpSliceBackwardFl, hne, if_false, Int.cast_natCast]
  rw [e1, e2]
  refine ⟨_, rfl, rfl, rfl, ?_⟩
  intro i _ j hj
  refine congrArg st ?_
  have hpow : (32768 : ℕ) ≤ 2 ^ bits := by
    calc (32768 : ℕ) = 2 ^ 15 := by norm_num
      _ ≤ 2 ^ bits := Nat.pow_le_pow_right (by norm_num) hb
  have h0 : 0 ≤ mn := by rw [r1]; exact clip_ge (by linarith)
  have hmn : mn ≤ (h : ℝ) - 1 := by rw [r1]; exact clip_le
  have hfl : 0 ≤ ⌊mn⌋ := Int.floor_nonneg.2 h0
  have h16 : toInt16 ⌊mn⌋ = ⌊mn⌋ := by
    have : (⌊mn⌋ : ℝ) ≤ (h : ℝ) - 1 := (Int.floor_le mn).trans hmn
    have h2 : ⌊mn⌋ ≤ (h : ℤ) - 1 := by exact_mod_cast this
    exact toInt16_of_mem (by omega) (by omega)
  have hbin : HasBits bits (clip (radialRowFl F xc yc fact k j) 0 ((h : ℝ) - 1)) := by
    unfold radialRowFl
    simp only
    rw [hF]
    exact hasBits_clip (by omega) (by omega) (by omega) _
  have hex : F.fl (clip (radialRowFl F xc yc fact k j) 0 ((h : ℝ) - 1) - (toInt16 ⌊mn⌋ : ℤ)) = clip (radialRowFl F xc yc fact k j) 0 ((h : ℝ) - 1) - (toInt16 ⌊mn⌋ : ℤ) := by
    rw [hF, h16]
    refine hasBits_fixed (by omega) (hasBits_sub hbin hfl ((Int.floor_le mn).trans (b1 j hj)) ?_)
    refine clip_le.trans ?_
    have : (h : ℝ) ≤ 2 ^ bits := by exact_mod_cast (by omega : h ≤ 2 ^ bits)
    linarith
  rw [hex]
  have himg : (unwarpImageBackwardFl F (linearInterp B') id ⟨h, w, fun y x => get [i, y, x]⟩ xc yc fact).get k j =
      bilinear ⟨h, w, fun y x => get [i, y, x]⟩ (clip (radialRowFl F xc yc fact k j) 0 ((h : ℝ) - 1)) (clip (radialColFl F xc yc fact k j) 0 ((w : ℝ) - 1)) :=
    linearInterp_eq B' _ (inFrame_clip (m := ⟨h, w, fun y x => get [i, y, x]⟩) (by simpa using by omega) (by simpa using hw) _ _)
  rw [himg]
  exact linearInterp_crop B (NdArr.proj ⟨[d, h, w], get⟩ h w i) (by simpa [NdArr.proj] using hh) h0 (b1 j hj) (b2 j hj) (by rw [r2]; exact clip_le)
    (clip_ge (by linarith)) clip_le

theorem stored_near {st : ℝ → ℝ} {s v r E : ℝ} (hs0 : 0 ≤ s) (hst : ∀ v, |st v - v| ≤ s * |v|) (h : |v - r| ≤ E) : |st v - r| ≤ (1 + s) * E + s * |r| := by
  have h1 := abs_sub_le (st v) v r
  have h2 := abs_sub_abs_le_abs_sub v r
  have h3 := mul_le_mul_of_nonneg_left (show |v| ≤ |r| + E by linarith) hs0
  have h4 := hst v
  linarith

theorem roundsBy_id (m : Mat ℝ) : RoundsBy 0 id m := fun v _ _ => by simp

/-- **C114 (slices, error).** A slice differs from that of the exact model by the errors of the coordinates times the differences between neighbouring pixels (and the error
of storing it in single precision). -/
theorem C114_slice_error {F : Floats} {bits : ℕ} (hb : 15 ≤ bits) (hF : IsFloat (2⁻¹ ^ bits) F) (hfl : F.fl = roundBits bits) (st : ℝ → ℝ) (s : ℝ) (B : Boundary)
    (d h w : ℕ) (get : List ℕ → ℝ) (xc yc : ℝ) (fact : List ℝ) (hne : fact ≠ []) (k : ℕ) (hk : k < h) (hh : h ≤ 32767) (hw : 0 < w) (hw' : w ≤ 2 ^ 24) (V U : ℝ) (hV : 0 ≤ V) (hU : 0 ≤ U)
    (hs : ∀ i < d, StepsAtMost V U ⟨h, w, fun y x => get [i, y, x]⟩) (hs0 : 0 ≤ s) (hst : ∀ v, |st v - v| ≤ s * |v|) :
    ∃ out ref, unwarpSliceBackwardFl F st B ⟨[d, h, w], get⟩ xc yc fact k = .ok out ∧ unwarpSliceBackward B ⟨[d, h, w], get⟩ xc yc fact k = .ok ref ∧
      ∀ i < d, ∀ j < w, |out.get i j - ref.get i j| ≤ (1 + s) * (V * coordError (2⁻¹ ^ bits) fact (ptDist ⟨k, j⟩ ⟨yc, xc⟩) yc k +
        U * coordError (2⁻¹ ^ bits) fact (ptDist ⟨k, j⟩ ⟨yc, xc⟩) xc j) + s * |ref.get i j| := by
  obtain ⟨out, eo, _, _, ho⟩ := C114_slice F bits hb hfl st B B d h w get xc yc fact hne k hk hh hw
  obtain ⟨ref, er, _, _, hr⟩ := C01_slice_eq_image_row B B d h w get xc yc fact hne k hk hh hw
  refine ⟨out, ref, eo, er, ?_⟩
  intro i hi j hj
  have h1 := C98_image hF B coordRounding_id ⟨h, w, fun y x => get [i, y, x]⟩ (roundsBy_id _) V U hV hU (hs i hi) xc yc fact (by show h ≤ _; omega)
    (by show w ≤ _; exact hw') k j hk hj
  rw [ho i hi j hj, hr i hi j hj]
  unfold coordError
  rw [zero_add, zero_add] at h1
  exact stored_near hs0 hst h1

/-- **C114 (slices and images).** The row of the unwarped image, whose coordinates are converted to single precision, differs from the slice. For stacks of at most `2¹⁶`
columns the difference of the coordinates is at most `2⁻⁸` pixel. -/
theorem C114_slice_image {F : Floats} {bits : ℕ} (hb : 15 ≤ bits) (hfl : F.fl = roundBits bits) (st : ℝ → ℝ) (s : ℝ) (B B' : Boundary) (d h w : ℕ) (get : List ℕ → ℝ)
    (xc yc : ℝ) (fact : List ℝ) (hne : fact ≠ []) (k : ℕ) (hk : k < h) (hh : h ≤ 32767) (hw : 0 < w) (hw' : w ≤ 2 ^ 16) (V U : ℝ) (hV : 0 ≤ V) (hU : 0 ≤ U)
    (hs : ∀ i < d, StepsAtMost V U ⟨h, w, fun y x => get [i, y, x]⟩) (hs0 : 0 ≤ s) (hst : ∀ v, |st v - v| ≤ s * |v|) :
    ∃ out, unwarpSliceBackwardFl F st B ⟨[d, h, w], get⟩ xc yc fact k = .ok out ∧
      ∀ i < d, ∀ j < w, |out.get i j - (unwarpImageBackwardFl F (linearInterp B') (roundBits 24) ⟨h, w, fun y x => get [i, y, x]⟩ xc yc fact).get k j| ≤
        (1 + s) * (V * 2⁻¹ ^ 8 + U * 2⁻¹ ^ 8) +
          s * |(unwarpImageBackwardFl F (linearInterp B') (roundBits 24) ⟨h, w, fun y x => get [i, y, x]⟩ xc yc fact).get k j| := by
  obtain ⟨out, eo, _, _, ho⟩ := C114_slice F bits hb hfl st B B' d h w get xc yc fact hne k hk hh hw
  refine ⟨out, eo, ?_⟩
  intro i hi j hj
  rw [ho i hi j hj]
  set m : Mat ℝ := ⟨h, w, fun y x => get [i, y, x]⟩ with hm
  have hc := inFrame_clip (m := m) (by rw [hm]; simpa using by omega) (by rw [hm]; simpa using hw) (radialRowFl F xc yc fact k j) (radialColFl F xc yc fact k j)
  have hf := inFrame_rnd C98_single.1 hc (by rw [hm]; simpa using by omega) (by rw [hm]; simpa using hw) (by show h ≤ _; omega) (by show w ≤ _; omega)
  obtain ⟨d1, d2⟩ := roundsBy_frame (C98_single.2 m (by show h ≤ _; omega) hw') hc
  have e1 : (unwarpImageBackwardFl F (linearInterp B') id m xc yc fact).get k j = bilinear m (clip (radialRowFl F xc yc fact k j) 0 ((m.height : ℝ) - 1))
      (clip (radialColFl F xc yc fact k j) 0 ((m.width : ℝ) - 1)) := linearInterp_eq B' _ hc
  have e2 : (unwarpImageBackwardFl F (linearInterp B') (roundBits 24) m xc yc fact).get k j =
      bilinear m (roundBits 24 (clip (radialRowFl F xc yc fact k j) 0 ((m.height : ℝ) - 1)))
        (roundBits 24 (clip (radialColFl F xc yc fact k j) 0 ((m.width : ℝ) - 1))) := linearInterp_eq B' _ hf
  have h3 := bilinear_lipschitz hV hU (hs i hi) hf hc
  rw [abs_sub_comm] at d1 d2
  have h4 := mul_le_mul_of_nonneg_left d1 hV
  have h5 := mul_le_mul_of_nonneg_left d2 hU
  rw [← e1, ← e2] at h3
  exact stored_near hs0 hst (h3.trans (add_le_add h4 h5))

/-! ## Chunks -/

/-- **C114 (chunks).** If every row is moved below the rows before it by more than the rounding errors, a chunk computed with rounding consists exactly of the rows of the image
unwarped with rounding: neither the crop, found from the first and the last row only, nor the subtraction of its first row in single precision
makes a difference. -/
theorem C114_chunk {u : ℝ} {F : Floats} (hF : IsFloat u F) (B B' : Boundary) (d h w : ℕ) (get : List ℕ → ℝ) (xc yc : ℝ) (fact : List ℝ) (start stop : ℕ)
    (hss : start ≤ stop) (hsh : stop < h) (hh : h ≤ 32767) (hw : 0 < w) (hw' : w ≤ 2 ^ 24)
    (hsep : ∀ j < w, ∀ k k' : ℕ, start ≤ k → k < k' → k' ≤ stop →
      (radialMap ⟨yc, xc⟩ fact ⟨k, j⟩).y + (coordError u fact (ptDist ⟨k, j⟩ ⟨yc, xc⟩) yc k + coordError u fact (ptDist ⟨k', j⟩ ⟨yc, xc⟩) yc k') ≤
        (radialMap ⟨yc, xc⟩ fact ⟨k', j⟩).y) :
    ∃ out, unwarpChunkSlicesBackwardFl F B (roundBits 24) ⟨[d, h, w], get⟩ xc yc fact start stop = .ok out ∧ out.shape = (if d = 0 then [0] else [d, stop - start + 1, w]) ∧
      ∀ i < d, ∀ k < stop - start + 1, ∀ j < w, out.get [i, k, j] =
        (unwarpImageBackwardFl F (linearInterp B') (roundBits 24) ⟨h, w, fun y x => get [i, y, x]⟩ xc yc fact).get (start + k) j := by
  have hrnd := C98_single.1
  have hh1 : (1 : ℝ) ≤ h := by exact_mod_cast (by omega : 1 ≤ h)
  have hw1 : (1 : ℝ) ≤ w := by exact_mod_cast hw
  have hns : ((stop : ℤ)) ≠ -1 := by omega
  have m1 : (start : ℤ) ∈ indexList16 h := (mem_indexList16 (by omega) _).2 (by omega)
  have m2 : (stop : ℤ) ∈ indexList16 h := (mem_indexList16 (by omega) _).2 (by omega)
  obtain ⟨mn, e1, ⟨j1, hj1, r1⟩, b1⟩ := exists_min_map_range hw fun j : ℕ => clip (radialRowFl F xc yc fact start j) 0 ((h : ℝ) - 1)
  obtain ⟨mx, e2, ⟨j2, hj2, r2⟩, b2⟩ := exists_max_map_range hw fun j : ℕ => clip (radialRowFl F xc yc fact stop j) 0 ((h : ℝ) - 1)
  have hn : ((stop : ℤ) + 1 - (start : ℤ)).toNat = stop - start + 1 := by omega
  simp only [unwarpChunkSlicesBackwardFl, hns, if_false, m1, m2, not_true, or_self, Int.cast_natCast]
  rw [e1, e2]
  refine ⟨_, rfl, by simp only [hn], ?_⟩
  intro i _ k hk j hj
  simp only [mapping]
  have ecast : ((((start : ℤ) + (k : ℤ) : ℤ)) : ℝ) = ((start + k : ℕ) : ℝ) := by push_cast; ring
  rw [ecast]
  set y := clip (radialRowFl F xc yc fact ((start + k : ℕ) : ℝ) j) 0 ((h : ℝ) - 1) with hy
  set x := clip (radialColFl F xc yc fact ((start + k : ℕ) : ℝ) j) 0 ((w : ℝ) - 1) with hx
  have hin : InFrame ⟨h, w, fun y x => get [i, y, x]⟩ y x :=
    inFrame_clip (m := ⟨h, w, fun y x => get [i, y, x]⟩) (by simpa using by omega) (by simpa using hw) _ _
  have hin' := inFrame_rnd hrnd hin (by simpa using by omega) (by simpa using hw) (by simpa using by omega) (by simpa using hw')
  have himg : (unwarpImageBackwardFl F (linearInterp B') (roundBits 24) ⟨h, w, fun y x => get [i, y, x]⟩ xc yc fact).get (start + k) j =
      bilinear ⟨h, w, fun y x => get [i, y, x]⟩ (roundBits 24 y) (roundBits 24 x) := linearInterp_eq B' _ hin'
  rw [himg]
  have order : ∀ k k' : ℕ, start ≤ k → k ≤ k' → k' ≤ stop → clip (radialRowFl F xc yc fact k j) 0 ((h : ℝ) - 1) ≤ clip (radialRowFl F xc yc fact k' j) 0 ((h : ℝ) - 1) := by
    intro a a' h1 h2 h3
    rcases h2.eq_or_lt with rfl | h2
    · exact le_rfl
    · refine clip_mono ?_
      have q1 := abs_le.1 (radialFl_near hF xc yc fact a j).1
      have q2 := abs_le.1 (radialFl_near hF xc yc fact a' j).1
      have := hsep j hj a a' h1 h2 h3
      linarith [q1.2, q2.1]
  have hlo : mn ≤ y := (b1 j hj).trans (order start (start + k) le_rfl (by omega) (by omega))
  have hhi : y ≤ mx := (order (start + k) stop (by omega) (by omega) le_rfl).trans (b2 j hj)
  have h0 : 0 ≤ mn := by rw [r1]; exact clip_ge (by linarith)
  have hmx : mx ≤ (h : ℝ) - 1 := by rw [r2]; exact clip_le
  have f0 : 0 ≤ ⌊mn⌋ := Int.floor_nonneg.2 h0
  have fh : ⌊mn⌋ ≤ (h : ℤ) - 1 := by
    have : (⌊mn⌋ : ℝ) ≤ (h : ℝ) - 1 := (Int.floor_le mn).trans (hlo.trans (hhi.trans hmx))
    exact_mod_cast this
  have ch : ⌈mx⌉ ≤ (h : ℤ) - 1 := Int.ceil_le.2 (by push_cast; exact hmx)
  have c0 : 0 ≤ ⌈mx⌉ := Int.ceil_nonneg (h0.trans (hlo.trans hhi))
  have h16 : toInt16 ⌊mn⌋ = ⌊mn⌋ := toInt16_of_mem (by omega) (by omega)
  have hrlo : ((⌊mn⌋ : ℤ) : ℝ) ≤ roundBits 24 y := by
    rw [← hrnd.exact ⌊mn⌋ (by rw [abs_of_nonneg f0]; omega)]
    exact hrnd.mono ((Int.floor_le mn).trans hlo)
  have hrhi : roundBits 24 y ≤ ((⌈mx⌉ : ℤ) : ℝ) := by
    rw [← hrnd.exact ⌈mx⌉ (by rw [abs_of_nonneg c0]; omega)]
    exact hrnd.mono (hhi.trans (Int.le_ceil mx))
  have hex : roundBits 24 (roundBits 24 y - (toInt16 ⌊mn⌋ : ℤ)) = roundBits 24 y - (toInt16 ⌊mn⌋ : ℤ) := by
    rw [h16]
    refine hasBits_fixed (by norm_num) (hasBits_sub (hasBits_round (by norm_num) y) f0 hrlo (hrhi.trans ?_))
    have : ⌈mx⌉ ≤ 2 ^ 24 := by omega
    exact_mod_cast this
  rw [hex]
  have := linearInterp_crop B (NdArr.proj ⟨[d, h, w], get⟩ h w i) (ymin := (⌊mn⌋ : ℝ)) (ymax := (⌈mx⌉ : ℝ)) (y := roundBits 24 y) (x := roundBits 24 x)
    (by simpa [NdArr.proj] using hh) (by exact_mod_cast f0) hrlo hrhi (by show ((⌈mx⌉ : ℤ) : ℝ) ≤ (h : ℝ) - 1; exact_mod_cast ch) hin'.2.2.1 hin'.2.2.2
  rw [Int.floor_intCast, Int.ceil_intCast] at this
  exact this

/-! ## The forward model -/

theorem roundHalfEven_away {x y e : ℝ} (h : |y - x| ≤ e) (ha : ∀ n : ℤ, e < |x - (n + 1 / 2)|) : roundHalfEven y = roundHalfEven x := by
  have h1 := abs_le.1 (roundHalfEven_near x)
  have h2 := abs_le.1 (roundHalfEven_near y)
  have h3 := abs_le.1 h
  set n := roundHalfEven x with hn
  have a1 := ha n
  have a2 := ha (n - 1)
  push_cast at a2
  rw [abs_of_nonpos (by linarith)] at a1
  rw [abs_of_nonneg (by linarith)] at a2
  have b1 : (roundHalfEven y : ℝ) < n + 1 := by linarith
  have b2 : (n : ℝ) < roundHalfEven y + 1 := by linarith
  have c1 : roundHalfEven y < n + 1 := by exact_mod_cast b1
  have c2 : n < roundHalfEven y + 1 := by exact_mod_cast b2
  omega

theorem roundHalfEven_one {x y : ℝ} (h : |y - x| < 1) : |roundHalfEven y - roundHalfEven x| ≤ 1 := by
  have h1 := abs_le.1 (roundHalfEven_near x)
  have h2 := abs_le.1 (roundHalfEven_near y)
  have h3 := abs_lt.1 h
  have b1 : ((roundHalfEven y - roundHalfEven x : ℤ) : ℝ) < 2 := by push_cast; linarith
  have b2 : (-2 : ℝ) < ((roundHalfEven y - roundHalfEven x : ℤ) : ℝ) := by push_cast; linarith
  have c1 : roundHalfEven y - roundHalfEven x < 2 := by exact_mod_cast b1
  have c2 : -2 < roundHalfEven y - roundHalfEven x := by exact_mod_cast b2
  rw [abs_le]
  omega

theorem forwardIndex_radial {h w : ℕ} {i j : ℕ} (hi : i < h) (hj : j < w) (xc yc : ℝ) (fact : List ℝ) :
    forwardIndex h w xc yc fact (i, j) = (roundHalfEven (clampTo ((h : ℝ) - 1) (radialMap ⟨yc, xc⟩ fact ⟨i, j⟩).y),
      roundHalfEven (clampTo ((w : ℝ) - 1) (radialMap ⟨yc, xc⟩ fact ⟨i, j⟩).x)) := by
  have h1 : (1 : ℝ) ≤ h := by exact_mod_cast (by omega : 1 ≤ h)
  have w1 : (1 : ℝ) ≤ w := by exact_mod_cast (by omega : 1 ≤ w)
  rw [← clip_eq_clampTo (by linarith), ← clip_eq_clampTo (by linarith)]
  unfold forwardIndex radialMap ptDist
  simp only [polySum_eq_radial]

/-- **C114 (forward model).** With rounding `unwarp_image_forward` sends a pixel to the same place, if the exact coordinates of this place (in the frame) are further from a half
than the rounding error, and to one of the neighbouring places if the error is below one. -/
theorem C114_forward {u : ℝ} {F : Floats} (hF : IsFloat u F) (h w : ℕ) (xc yc : ℝ) (fact : List ℝ) (i j : ℕ) (hi : i < h) (hj : j < w) :
    let ey := coordError u fact (ptDist ⟨i, j⟩ ⟨yc, xc⟩) yc i
    let ex := coordError u fact (ptDist ⟨i, j⟩ ⟨yc, xc⟩) xc j
    let p := forwardIndex h w xc yc fact (i, j)
    let q := forwardIndexFl F h w xc yc fact (i, j)
    ((∀ n : ℤ, ey < |clampTo ((h : ℝ) - 1) (radialMap ⟨yc, xc⟩ fact ⟨i, j⟩).y - (n + 1 / 2)|) → q.1 = p.1) ∧
      ((∀ n : ℤ, ex < |clampTo ((w : ℝ) - 1) (radialMap ⟨yc, xc⟩ fact ⟨i, j⟩).x - (n + 1 / 2)|) → q.2 = p.2) ∧
      (ey < 1 → |q.1 - p.1| ≤ 1) ∧ (ex < 1 → |q.2 - p.2| ≤ 1) := by
  intro ey ex p q
  have h1 : (1 : ℝ) ≤ h := by exact_mod_cast (by omega : 1 ≤ h)
  have w1 : (1 : ℝ) ≤ w := by exact_mod_cast (by omega : 1 ≤ w)
  obtain ⟨ny, nx⟩ := radialFl_near hF xc yc fact i j
  have ep : p = _ := forwardIndex_radial hi hj xc yc fact
  have cy := (clip_near (radialRowFl F xc yc fact i j) (radialMap ⟨yc, xc⟩ fact ⟨i, j⟩).y 0 ((h : ℝ) - 1)).trans ny
  have cx := (clip_near (radialColFl F xc yc fact i j) (radialMap ⟨yc, xc⟩ fact ⟨i, j⟩).x 0 ((w : ℝ) - 1)).trans nx
  rw [clip_eq_clampTo (y := (radialMap ⟨yc, xc⟩ fact ⟨i, j⟩).y) (by linarith)] at cy
  rw [clip_eq_clampTo (y := (radialMap ⟨yc, xc⟩ fact ⟨i, j⟩).x) (by linarith)] at cx
  rw [ep]
  exact ⟨fun ha => roundHalfEven_away cy ha, fun ha => roundHalfEven_away cx ha, fun hl => roundHalfEven_one (cy.trans_lt hl), fun hl => roundHalfEven_one (cx.trans_lt hl)⟩

/-- **C114 (forward image).** If this holds for all pixels, rounding does not change the image at all. -/
theorem C114_forward_image {u : ℝ} {F : Floats} (hF : IsFloat u F) (m : Mat ℝ) (xc yc : ℝ) (fact : List ℝ)
    (ha : ∀ i < m.height, ∀ j < m.width, ∀ n : ℤ,
      coordError u fact (ptDist ⟨i, j⟩ ⟨yc, xc⟩) yc i < |clampTo ((m.height : ℝ) - 1) (radialMap ⟨yc, xc⟩ fact ⟨i, j⟩).y - (n + 1 / 2)| ∧
      coordError u fact (ptDist ⟨i, j⟩ ⟨yc, xc⟩) xc j < |clampTo ((m.width : ℝ) - 1) (radialMap ⟨yc, xc⟩ fact ⟨i, j⟩).x - (n + 1 / 2)|) :
    unwarpImageForwardFl F m xc yc fact = unwarpImageForward m xc yc fact := by
  have key : ∀ (l : List (ℕ × ℕ)) (s : Mat ℝ), (∀ p ∈ l, forwardIndexFl F m.height m.width xc yc fact p = forwardIndex m.height m.width xc yc fact p) →
      l.foldlM (fun (a : Mat ℝ) p => a.setItem (forwardIndexFl F m.height m.width xc yc fact p).1 (forwardIndexFl F m.height m.width xc yc fact p).2 (m.get p.1 p.2)) s =
        l.foldlM (fun (a : Mat ℝ) p => a.setItem (forwardIndex m.height m.width xc yc fact p).1 (forwardIndex m.height m.width xc yc fact p).2 (m.get p.1 p.2)) s := by
    intro l
    induction l with
    | nil => intro s _; rfl
    | cons p l ih =>
      intro s hl
      rw [List.foldlM_cons, List.foldlM_cons, hl p (by simp)]
      congr 1
      funext t
      exact ih t fun q hq => hl q (by simp [hq])
  refine key _ _ ?_
  rintro ⟨i, j⟩ hp
  obtain ⟨hi, hj⟩ := mem_pixels.1 hp
  obtain ⟨h1, h2, _⟩ := C114_forward hF m.height m.width xc yc fact i j hi hj
  exact Prod.ext (h1 fun n => (ha i hi j hj n).1) (h2 fun n => (ha i hi j hj n).2)

/-! ## Perspective correction -/

/-- **C114 (perspective).** The image corrected with rounding, and with the coordinates converted to single precision, differs from that of the exact model by the errors of the
coordinates times the differences between neighbouring pixels; the errors grow as the denominator becomes small against its terms. -/
theorem C114_perspective {u : ℝ} {F : Floats} (hF : IsFloat u F) (B : Boundary) {rnd : ℝ → ℝ} (hr : CoordRounding rnd) {δ : ℝ} (m : Mat ℝ) (hδ : RoundsBy δ rnd m)
    (V U : ℝ) (hV : 0 ≤ V) (hU : 0 ≤ U) (hs : StepsAtMost V U m) (c : Fin 8 → ℝ) (hh : m.height ≤ 2 ^ 24) (hw : m.width ≤ 2 ^ 24) :
    ∃ out ref, correctPerspectiveImageFl F (linearInterp B) rnd m (List.ofFn c) none = .ok out ∧
      correctPerspectiveImage (linearInterp B) id m (List.ofFn c) none = .ok ref ∧ out.height = m.height ∧ out.width = m.width ∧
      ∀ i < m.height, ∀ j < m.width, ∀ t, IsImage (coefMatrix c) ⟨i, j⟩ t →
        roundings u 3 * formSize (c 6) (c 7) 1 ⟨i, j⟩ < |c 6 * j + c 7 * i + 1| →
        |out.get i j - ref.get i j| ≤ V * (δ + projError u (c 3) (c 4) (c 5) (c 6) (c 7) ⟨i, j⟩ t.y) + U * (δ + projError u (c 0) (c 1) (c 2) (c 6) (c 7) ⟨i, j⟩ t.x) := by
  obtain ⟨ref, er, _, _, href⟩ := correctPerspectiveImage_reads (linearInterp B) id m c
  obtain ⟨g, eg, hg⟩ : ∃ g : ℕ → ℕ → Pt, generatePerspectiveMapFl F rnd m (List.ofFn c) = .ok g ∧ ∀ i j : ℕ, g i j =
      ⟨rnd (clip (F.fl (F.fl (F.fl (F.fl (c 3 * (j : ℝ)) + F.fl (c 4 * (i : ℝ))) + c 5) / F.fl (F.fl (F.fl (c 6 * (j : ℝ)) + F.fl (c 7 * (i : ℝ))) + 1))) 0
          ((m.height : ℝ) - 1)),
        rnd (clip (F.fl (F.fl (F.fl (F.fl (c 0 * (j : ℝ)) + F.fl (c 1 * (i : ℝ))) + c 2) / F.fl (F.fl (F.fl (c 6 * (j : ℝ)) + F.fl (c 7 * (i : ℝ))) + 1))) 0
          ((m.width : ℝ) - 1))⟩ := by
    simp only [generatePerspectiveMapFl, List.ofFn_succ, List.ofFn_zero]
    exact ⟨_, rfl, fun _ _ => rfl⟩
  refine ⟨⟨m.height, m.width, fun i j => linearInterp B m (g i j).y (g i j).x⟩, ref, ?_, er, rfl, rfl, ?_⟩
  · unfold correctPerspectiveImageFl
    rw [if_neg (by simp)]
    simp only
    rw [eg]
    rfl
  intro i hi j hj t ht hsafe
  have hy : (1 : ℝ) ≤ m.height := by exact_mod_cast (by omega : 1 ≤ m.height)
  have hx : (1 : ℝ) ≤ m.width := by exact_mod_cast (by omega : 1 ≤ m.width)
  obtain ⟨_, h1, h2⟩ := (isImage_coef_iff c ⟨i, j⟩ t).1 ht
  have qx := within_quotient hF (within_form hF (c 0) (c 1) (c 2) ⟨i, j⟩) (within_form hF (c 6) (c 7) 1 ⟨i, j⟩) h1 hsafe
  have qy := within_quotient hF (within_form hF (c 3) (c 4) (c 5) ⟨i, j⟩) (within_form hF (c 6) (c 7) 1 ⟨i, j⟩) h2 hsafe
  rw [href i hi j hj t ht]
  simp only [id, hg]
  rw [← clip_eq_clampTo (by linarith), ← clip_eq_clampTo (by linarith)]
  have hc := inFrame_clip (m := m) (by omega) (by omega) t.y t.x
  rw [linearInterp_eq B m hc]
  set vx := F.fl (F.fl (F.fl (F.fl (c 0 * (j : ℝ)) + F.fl (c 1 * (i : ℝ))) + c 2) / F.fl (F.fl (F.fl (c 6 * (j : ℝ)) + F.fl (c 7 * (i : ℝ))) + 1)) with hvx
  set vy := F.fl (F.fl (F.fl (F.fl (c 3 * (j : ℝ)) + F.fl (c 4 * (i : ℝ))) + c 5) / F.fl (F.fl (F.fl (c 6 * (j : ℝ)) + F.fl (c 7 * (i : ℝ))) + 1)) with hvy
  have hc' := inFrame_clip (m := m) (by omega) (by omega) vy vx
  have hf := inFrame_rnd hr hc' (by omega) (by omega) hh hw
  obtain ⟨d1, d2⟩ := roundsBy_frame hδ hc'
  have e1 : linearInterp B m (rnd (clip vy 0 ((m.height : ℝ) - 1))) (rnd (clip vx 0 ((m.width : ℝ) - 1))) = _ := linearInterp_eq B _ hf
  rw [e1]
  refine (bilinear_lipschitz hV hU hs hc hf).trans (add_le_add (mul_le_mul_of_nonneg_left ?_ hV) (mul_le_mul_of_nonneg_left ?_ hU))
  · exact (abs_sub_le _ (clip vy 0 ((m.height : ℝ) - 1)) _).trans (add_le_add d1 ((clip_near _ _ _ _).trans qy))
  · exact (abs_sub_le _ (clip vx 0 ((m.width : ℝ) - 1)) _).trans (add_le_add d2 ((clip_near _ _ _ _).trans qx))

/-- **C114 (perspective, other numbers of coefficients).** The errors raised do not depend on the rounding. -/
theorem C114_perspective_errors (F : Floats) (S : Sampler) (rnd : ℝ → ℝ) (m : Mat ℝ) (coef : List ℝ) (mapIndex : Option (ℕ → ℕ → Pt)) :
    correctPerspectiveImageFl F S rnd m coef mapIndex = .error .valueError ↔ coef.length ≠ 8 := by
  unfold correctPerspectiveImageFl
  constructor
  · intro h hl
    rw [if_neg (by simpa using hl)] at h
    cases mapIndex with
    | some g => cases h
    | none =>
      obtain ⟨c, rfl⟩ : ∃ c : Fin 8 → ℝ, coef = List.ofFn c :=
        ⟨fun i => coef[i.1]'(by rw [hl]; exact i.2), List.ext_getElem (by simp [hl]) fun i h1 h2 => by rw [List.getElem_ofFn]⟩
      simp only [generatePerspectiveMapFl, List.ofFn_succ, List.ofFn_zero] at h
      cases h
  · intro h
    rw [if_pos h]

/-- **C114 (double precision).** For a model with at most 20 coefficients, and as long as the terms add up to no more than `2¹⁶`, the error of the coordinates in all these bounds
is below `2⁻²⁹` of a pixel. -/
theorem C114_double (fact : List ℝ) (hn : fact.length ≤ 20) (r c a : ℝ) (hs : |c| + absModel fact r * |a - c| ≤ 2 ^ 16) : coordError (2⁻¹ ^ 53) fact r c a < 2⁻¹ ^ 29 := by
  have h1 : roundings (2⁻¹ ^ 53) (6 * fact.length + 3) ≤ roundings (2⁻¹ ^ 53) 123 :=
    sub_le_sub_right (pow_le_pow_right₀ (by norm_num) (by omega)) _
  have h2 : roundings (2⁻¹ ^ 53) 123 * 2 ^ 16 < (2⁻¹ : ℝ) ^ 29 := by
    unfold roundings
    norm_num
  have h0 : 0 ≤ roundings (2⁻¹ ^ 53) (6 * fact.length + 3) := pow_sub_nonneg (by positivity) _
  unfold coordError
  calc roundings (2⁻¹ ^ 53) (6 * fact.length + 3) * (|c| + absModel fact r * |a - c|) ≤ roundings (2⁻¹ ^ 53) (6 * fact.length + 3) * 2 ^ 16 :=
        mul_le_mul_of_nonneg_left hs h0
    _ ≤ roundings (2⁻¹ ^ 53) 123 * 2 ^ 16 := mul_le_mul_of_nonneg_right h1 (by positivity)
    _ < _ := h2

/-! ## Examples -/

/-- A slice of a stack of two images in double precision. -/
example (B : Boundary) : ∃ out, unwarpSliceBackwardFl (bitsArith 53) (roundBits 24) B ⟨[2, 3, 2], fun l => (l.sum : ℝ)⟩ (1 / 2) (3 / 2) [1, 1 / 10] (1 : ℕ) = .ok out ∧ out.height = 2 :=
  let ⟨o, h, h', _⟩ := C114_slice (bitsArith 53) 53 (by norm_num) rfl (roundBits 24) B B 2 3 2 (fun l => (l.sum : ℝ)) (1 / 2) (3 / 2) [1, 1 / 10] (by simp) 1 (by norm_num) (by norm_num)
    (by norm_num)
  ⟨o, h, h'⟩

theorem column_point (k : ℕ) : ptDist ⟨(k : ℝ), ((0 : ℕ) : ℝ)⟩ ⟨0, 0⟩ = k := by
  simp [ptDist, Real.sqrt_sq]

theorem column_map (k : ℕ) : (radialMap ⟨0, 0⟩ [1, 1 / 10] ⟨(k : ℝ), ((0 : ℕ) : ℝ)⟩).y = k * (1 + k / 10) ∧
    (radialMap ⟨0, 0⟩ [1, 1 / 10] ⟨(k : ℝ), ((0 : ℕ) : ℝ)⟩).x = 0 := by
  unfold radialMap
  rw [column_point]
  simp [radial, Fin.sum_univ_succ]
  ring

theorem column_error (u : ℝ) (k : ℕ) : coordError u [1, 1 / 10] (k : ℝ) 0 (k : ℝ) = ((1 + u) ^ 15 - 1) * (k * (1 + k / 10)) := by
  have : |(k : ℝ)| = k := abs_of_nonneg (Nat.cast_nonneg k)
  have hr : absModel [1, 1 / 10] (k : ℝ) = 1 + k / 10 := by
    have e : |(1 / 10 : ℝ)| = 1 / 10 := abs_of_pos (by norm_num)
    unfold absModel
    rw [List.map_cons, List.map_cons, e, abs_one]
    simp [radial, Fin.sum_univ_succ]
    ring
  unfold coordError roundings
  rw [hr, sub_zero, this, abs_zero]
  simp only [List.length_cons, List.length_nil]
  ring

/-- The rows of one column, moved down by a curved model, are in order by more than the errors of double precision. -/
example (B : Boundary) : ∃ out, unwarpChunkSlicesBackwardFl (bitsArith 53) B (roundBits 24) ⟨[2, 4, 1], fun l => (l.sum : ℝ)⟩ 0 0 [1, 1 / 10] (1 : ℕ) (3 : ℕ) = .ok out ∧
    out.shape = [2, 3, 1] := by
  obtain ⟨o, h, h', _⟩ := C114_chunk (C98_bits 53 (by norm_num)) B B 2 4 1 (fun l => (l.sum : ℝ)) 0 0 [1, 1 / 10] 1 3 (by norm_num) (by norm_num) (by norm_num) (by norm_num)
    (by norm_num) (by
      intro j hj k k' h1 h2 h3
      obtain rfl : j = 0 := by omega
      rw [column_point, column_point, column_error, column_error, (column_map k).1, (column_map k').1]
      have : (k = 1 ∧ k' = 2) ∨ (k = 1 ∧ k' = 3) ∨ (k = 2 ∧ k' = 3) := by omega
      rcases this with ⟨rfl, rfl⟩ | ⟨rfl, rfl⟩ | ⟨rfl, rfl⟩ <;> norm_num)
  exact ⟨o, h, by simpa using h'⟩

/-- Rounding does not change the image of three pixels moved to the rows 0, 1.1 and 2. -/
example (get : ℕ → ℕ → ℝ) : unwarpImageForwardFl (bitsArith 53) ⟨3, 1, get⟩ 0 0 [1, 1 / 10] = unwarpImageForward ⟨3, 1, get⟩ 0 0 [1, 1 / 10] := by
  refine C114_forward_image (C98_bits 53 (by norm_num)) _ _ _ _ ?_
  intro i hi j hj n
  have hj : j < 1 := hj
  have hi : i < 3 := hi
  obtain rfl : j = 0 := by omega
  rw [(column_map i).1, (column_map i).2, column_point, column_error]
  have far : ∀ a e : ℝ, (∃ m : ℤ, |a - m| + e < 1 / 2) → e < |a - (n + 1 / 2)| := by
    rintro a e ⟨m, hm⟩
    have h1 : 1 / 2 ≤ |(m : ℝ) - (n + 1 / 2)| := by
      rcases le_or_gt m n with h | h
      · have : (m : ℝ) ≤ n := by exact_mod_cast h
        rw [abs_of_nonpos (by linarith)]
        linarith
      · have : (n : ℝ) + 1 ≤ m := by exact_mod_cast h
        rw [abs_of_nonneg (by linarith)]
        linarith
    have h2 := abs_sub_le (m : ℝ) a (n + 1 / 2)
    rw [abs_sub_comm (m : ℝ) a] at h2
    linarith
  have hx : coordError (2⁻¹ ^ 53) [1, 1 / 10] (i : ℝ) 0 ((0 : ℕ) : ℝ) = 0 := by simp [coordError]
  constructor
  · refine far _ _ ?_
    have : i = 0 ∨ i = 1 ∨ i = 2 := by omega
    rcases this with rfl | rfl | rfl
    · exact ⟨0, by norm_num [clampTo]⟩
    · exact ⟨1, by norm_num [clampTo, abs_of_pos]⟩
    · exact ⟨2, by norm_num [clampTo]⟩
  · rw [hx]
    refine far _ _ ⟨0, by norm_num [clampTo]⟩

/-- The denominators of a mild perspective are large enough. -/
example (B : Boundary) : ∃ out ref : Mat ℝ, correctPerspectiveImageFl (bitsArith 53) (linearInterp B) (roundBits 24) ⟨2, 2, fun i j => i + j⟩
      (List.ofFn ![1, 0, 0, 0, 1, 0, 1 / 10, 0]) none = .ok out ∧
    correctPerspectiveImage (linearInterp B) id ⟨2, 2, fun i j => i + j⟩ (List.ofFn ![1, 0, 0, 0, 1, 0, 1 / 10, 0]) none = .ok ref ∧
    |out.get 1 1 - ref.get 1 1| < 1 / 100 := by
  obtain ⟨c, hc⟩ : ∃ c : Fin 8 → ℝ, c = ![1, 0, 0, 0, 1, 0, 1 / 10, 0] := ⟨_, rfl⟩
  have c0 : c 0 = 1 := by rw [hc]; rfl
  have c1 : c 1 = 0 := by rw [hc]; rfl
  have c2 : c 2 = 0 := by rw [hc]; rfl
  have c3 : c 3 = 0 := by rw [hc]; rfl
  have c4 : c 4 = 1 := by rw [hc]; rfl
  have c5 : c 5 = 0 := by rw [hc]; rfl
  have c6 : c 6 = 1 / 10 := by rw [hc]; rfl
  have c7 : c 7 = 0 := by rw [hc]; rfl
  rw [← hc]
  obtain ⟨out, ref, h1, h2, _, _, h⟩ := C114_perspective (C98_bits 53 (by norm_num)) B C98_single.1 (⟨2, 2, fun i j => (i : ℝ) + j⟩ : Mat ℝ)
    (C98_single.2 _ (by norm_num) (by norm_num)) 1 1 (by norm_num) (by norm_num)
    ⟨fun i _ j _ => by simp only; push_cast; norm_num, fun i _ j _ => by simp only; push_cast; norm_num⟩ c (by norm_num) (by norm_num)
  rw [c0, c1, c2, c3, c4, c5, c6, c7] at h
  have := h 1 (by norm_num) 1 (by norm_num) ⟨10 / 11, 10 / 11⟩ ((isImage_coef_iff _ _ _).2 (by rw [c0, c1, c2, c3, c4, c5, c6, c7]; norm_num))
    (by norm_num [roundings, formSize, abs_of_pos])
  refine ⟨out, ref, h1, h2, this.trans_lt ?_⟩
  norm_num [projError, quotientError, formSize, roundings, abs_of_pos]

example := C114_point (C98_bits 53 (by norm_num)) 3 4 0 0 [1, 1 / 1000]
/-- A stack of two slanted planes. -/
example (B : Boundary) := C114_slice_error (F := bitsArith 53) (bits := 53) (by norm_num) (C98_bits 53 (by norm_num)) rfl id 0 B 2 5 5
  (fun l => 3 * ((l.getD 1 0 : ℕ) : ℝ) + 2 * (l.getD 2 0 : ℕ)) 0 0 [1, 1 / 1000] (by simp) 2 (by norm_num) (by norm_num) (by norm_num) (by norm_num) 3 2
  (by norm_num) (by norm_num) (fun _ _ => by constructor <;> intros <;> simp <;> ring_nf <;> norm_num) le_rfl (fun v => by simp)
example (B B' : Boundary) := C114_slice_image (F := bitsArith 53) (bits := 53) (by norm_num) rfl id 0 B B' 2 5 5
  (fun l => 3 * ((l.getD 1 0 : ℕ) : ℝ) + 2 * (l.getD 2 0 : ℕ)) 0 0 [1, 1 / 1000] (by simp) 2 (by norm_num) (by norm_num) (by norm_num) (by norm_num) 3 2
  (by norm_num) (by norm_num) (fun _ _ => by constructor <;> intros <;> simp <;> ring_nf <;> norm_num) le_rfl (fun v => by simp)
example := C114_forward (C98_bits 53 (by norm_num)) 5 5 0 0 [1, 1 / 1000] 2 3 (by norm_num) (by norm_num)
example : coordError (2⁻¹ ^ 53) [1, 1 / 1000] 5 0 3 < 2⁻¹ ^ 29 :=
  C114_double [1, 1 / 1000] (by simp) 5 0 3 (by
    have : absModel [1, 1 / 1000] 5 = 1 + 1 / 1000 * 5 := by
      have e : ([1, 1 / 1000] : List ℝ).map (fun a => |a|) = [1, 1 / 1000] := by norm_num
      unfold absModel
      rw [e]
      exact (Fin.sum_univ_two _).trans (by norm_num)
    rw [this]
    norm_num)

end Discorpy
