import Verif.Lemmas.IntImages
import Verif.Lemmas.Except
import Verif.Props.C01
import Verif.Props.C02
import Verif.Props.C04
import Verif.Props.C05
import Verif.Props.C52
import Verif.Props.C91
import Mathlib.Analysis.Convex.Hull

/-!
# C118: images and stacks with integer pixels
-/

namespace Discorpy

open Spec

/-- Every pixel of the corrected image is the value of the dtype nearest to the pixel that the same image as floats would give; of two
equally near ones the one further from zero. Nothing wraps around, whatever the order of the interpolation. -/
theorem C118_image (T : IntType) (h0 : T.lo ≤ 0) (h1 : 0 ≤ T.hi) (S : Sampler) (rnd : ℝ → ℝ) (m : Mat ℤ) (xc yc : ℝ) (coefs : List ℝ) :
    (unwarpImageBackwardInt T S rnd m xc yc coefs).height = m.height ∧ (unwarpImageBackwardInt T S rnd m xc yc coefs).width = m.width ∧
    ∀ i j n, (unwarpImageBackwardInt T S rnd m xc yc coefs).get i j = n ↔ IsNearest T ((unwarpImageBackward S rnd (realMat m) xc yc coefs).get i j) n := by
  refine ⟨rfl, rfl, fun i j n => ?_⟩
  have h := cast_nearest T h0 h1 ((unwarpImageBackward S rnd (realMat m) xc yc coefs).get i j)
  exact ⟨fun e => e ▸ h, fun hn => nearest_unique h0 h1 h hn⟩

/-- Likewise for the perspective correction; the errors are the same. -/
theorem C118_perspective (T : IntType) (h0 : T.lo ≤ 0) (h1 : 0 ≤ T.hi) (S : Sampler) (rnd : ℝ → ℝ) (m : Mat ℤ) (coef : List ℝ)
    (mapIndex : Option (ℕ → ℕ → Pt)) :
    (∀ e, correctPerspectiveImageInt T S rnd m coef mapIndex = .error e ↔ correctPerspectiveImage S rnd (realMat m) coef mapIndex = .error e) ∧
    ∀ out, correctPerspectiveImage S rnd (realMat m) coef mapIndex = .ok out →
      ∃ out', correctPerspectiveImageInt T S rnd m coef mapIndex = .ok out' ∧ out'.height = m.height ∧ out'.width = m.width ∧
        ∀ i j n, out'.get i j = n ↔ IsNearest T (out.get i j) n := by
  unfold correctPerspectiveImageInt
  constructor
  · intro e
    cases h : correctPerspectiveImage S rnd (realMat m) coef mapIndex <;> simp [bind, Except.bind]
  · intro out h
    rw [h]
    have hs : out.height = m.height ∧ out.width = m.width := by
      unfold correctPerspectiveImage at h
      split at h
      · cases h
      · cases mapIndex <;>
        · obtain ⟨idx, -, h⟩ := bind_ok_iff.1 h
          cases h
          exact ⟨rfl, rfl⟩
    refine ⟨T.castMat out, rfl, hs.1, hs.2, fun i j n => ?_⟩
    have hn := cast_nearest T h0 h1 (out.get i j)
    exact ⟨fun e => e ▸ hn, fun h => nearest_unique h0 h1 hn h⟩

/-- With the default interpolation a pixel is at most one half from what the image as floats gives. -/
theorem C118_half (T : IntType) (h0 : T.lo ≤ 0) (h1 : 0 ≤ T.hi) (B : Boundary) (rnd : ℝ → ℝ) (hr : CoordRounding rnd) (m : Mat ℤ) (hf : FitsImage T m)
    (xc yc : ℝ) (coefs : List ℝ) (hh : m.height ≤ 2 ^ 24) (hw : m.width ≤ 2 ^ 24) (i j : ℕ) (hi : i < m.height) (hj : j < m.width) :
    |((unwarpImageBackwardInt T (linearInterp B) rnd m xc yc coefs).get i j : ℝ) -
      (unwarpImageBackward (linearInterp B) rnd (realMat m) xc yc coefs).get i j| ≤ 1 / 2 := by
  have h := C05_image_range B rnd hr (realMat m) xc yc coefs hh hw T.lo T.hi
    (fun i hi j hj => ⟨by have := (hf i hi j hj).1; simpa [realMat] using this, by have := (hf i hi j hj).2; simpa [realMat] using this⟩) i hi j hj
  exact cast_dist T h0 h1 h.1 h.2

/-- No pixel becomes darker than the darkest or brighter than the brightest one. -/
theorem C118_range (T : IntType) (h0 : T.lo ≤ 0) (h1 : 0 ≤ T.hi) (B : Boundary) (rnd : ℝ → ℝ) (hr : CoordRounding rnd) (m : Mat ℤ) (hf : FitsImage T m)
    (xc yc : ℝ) (coefs : List ℝ) (hh : m.height ≤ 2 ^ 24) (hw : m.width ≤ 2 ^ 24) (dark bright : ℤ)
    (hb : ∀ i < m.height, ∀ j < m.width, dark ≤ m.get i j ∧ m.get i j ≤ bright) (i j : ℕ) (hi : i < m.height) (hj : j < m.width) :
    dark ≤ (unwarpImageBackwardInt T (linearInterp B) rnd m xc yc coefs).get i j ∧
      (unwarpImageBackwardInt T (linearInterp B) rnd m xc yc coefs).get i j ≤ bright := by
  have hc := C05_image_range B rnd hr (realMat m) xc yc coefs hh hw (max dark T.lo : ℤ) (min bright T.hi : ℤ)
    (fun i hi j hj => by
      have a := hb i hi j hj
      have b := hf i hi j hj
      constructor
      · show ((max dark T.lo : ℤ) : ℝ) ≤ (m.get i j : ℤ)
        exact_mod_cast max_le a.1 b.1
      · show ((m.get i j : ℤ) : ℝ) ≤ (min bright T.hi : ℤ)
        exact_mod_cast le_min a.2 b.2) i hi j hj
  obtain ⟨a1, a2⟩ := hb i hi j hj
  obtain ⟨b1, b2⟩ := hf i hi j hj
  have c1 := cast_mono T h0 h1 hc.1
  have c2 := cast_mono T h0 h1 hc.2
  rw [cast_int T h0 h1 ⟨by omega, by omega⟩] at c1
  rw [cast_int T h0 h1 ⟨by omega, by omega⟩] at c2
  exact ⟨(le_max_left _ _).trans c1, c2.trans (min_le_left _ _)⟩

/-- The model without distortion returns the image. -/
theorem C118_identity (T : IntType) (h0 : T.lo ≤ 0) (h1 : 0 ≤ T.hi) (S : Sampler) (hS : InterpolatesNodes S) (rnd : ℝ → ℝ) (hr : CoordRounding rnd)
    (m : Mat ℤ) (hf : FitsImage T m) (hh : m.height ≤ 2 ^ 24) (hw : m.width ≤ 2 ^ 24) (xc yc : ℝ) (n i j : ℕ) (hi : i < m.height) (hj : j < m.width) :
    (unwarpImageBackwardInt T S rnd m xc yc (1 :: List.replicate n 0)).get i j = m.get i j := by
  have e := (C04_image_backward S hS rnd hr (realMat m) hh hw xc yc n).2.2 i hi j hj
  show T.cast _ = _
  rw [e]
  exact cast_int T h0 h1 (hf i hi j hj)

/-- A brighter image gives a brighter result. -/
theorem C118_monotone (T : IntType) (h0 : T.lo ≤ 0) (h1 : 0 ≤ T.hi) (B : Boundary) (rnd : ℝ → ℝ) (hr : CoordRounding rnd) (m m' : Mat ℤ)
    (hsh : m.height = m'.height) (hsw : m.width = m'.width) (hle : ∀ i < m.height, ∀ j < m.width, m.get i j ≤ m'.get i j)
    (xc yc : ℝ) (coefs : List ℝ) (hh : m.height ≤ 2 ^ 24) (hw : m.width ≤ 2 ^ 24) (i j : ℕ) (hi : i < m.height) (hj : j < m.width) :
    (unwarpImageBackwardInt T (linearInterp B) rnd m xc yc coefs).get i j ≤ (unwarpImageBackwardInt T (linearInterp B) rnd m' xc yc coefs).get i j := by
  refine cast_mono T h0 h1 ?_
  have e := C06_unwarp_linear B rnd hr (realMat m) ⟨m.height, m.width, fun i j => (m'.get i j : ℝ) - m.get i j⟩ rfl rfl hh hw xc yc 1 1 coefs i hi j hj
  have em : (⟨m.height, m.width, fun i j => 1 * (m.get i j : ℝ) + 1 * ((m'.get i j : ℝ) - m.get i j)⟩ : Mat ℝ) = realMat m' := by
    simp [realMat, hsh, hsw]
  rw [← em]
  refine le_of_le_of_eq ?_ e.symm
  have hc := ((C05_image_convex B B rnd hr ⟨m.height, m.width, fun i j => (m'.get i j : ℝ) - m.get i j⟩ xc yc coefs hh hw).2.2 i hi j hj).1
  have hp := convexHull_min (t := Set.Ici (0 : ℝ)) (by
    rintro v ⟨a, ha, b, hb, rfl⟩
    have : (m.get a b : ℝ) ≤ m'.get a b := by exact_mod_cast hle a ha b hb
    exact sub_nonneg.2 this) (convex_Ici 0) hc
  have := Set.mem_Ici.1 hp
  linarith

/-- A slice of a stack of integers, an array of float32, holds the rows of the corrected images of integers: it has been rounded too. -/
theorem C118_slice (T : IntType) (h0 : T.lo ≤ 0) (h1 : 0 ≤ T.hi) (h24 : ∀ n, Fits T n → |n| ≤ 2 ^ 24) (B B' : Boundary) (rnd : ℝ → ℝ)
    (hr : CoordRounding rnd) (d h w : ℕ) (get : List ℕ → ℤ) (xc yc : ℝ) (coefs : List ℝ) (hne : coefs ≠ []) (k : ℕ) (hk : k < h) (hh : h ≤ 32767)
    (hw : 0 < w) :
    ∃ out, unwarpSliceBackwardInt T B rnd ⟨[d, h, w], get⟩ xc yc coefs k = .ok out ∧ out.height = d ∧ out.width = w ∧
      ∀ i < d, ∀ j < w, out.get i j = (unwarpImageBackwardInt T (linearInterp B') id ⟨h, w, fun y x => get [i, y, x]⟩ xc yc coefs).get k j := by
  obtain ⟨out, e, e1, e2, e3⟩ := C01_slice_eq_image_row B B' d h w (fun idx => (get idx : ℝ)) xc yc coefs hne k hk hh hw
  refine ⟨⟨out.height, out.width, fun i j => rnd (T.cast (out.get i j))⟩, ?_, e1, e2, ?_⟩
  · unfold unwarpSliceBackwardInt
    rw [show realArr ⟨[d, h, w], get⟩ = ⟨[d, h, w], fun idx => (get idx : ℝ)⟩ from rfl, e]
    rfl
  intro i hi j hj
  show rnd (T.cast (out.get i j)) = _
  rw [hr.exact _ (h24 _ (cast_fits T h0 h1 _)), e3 i hi j hj]
  rfl

/-- A chunk of slices of a stack of integers holds the rows of the corrected images of integers. -/
theorem C118_chunk (T : IntType) (B B' : Boundary) (rnd : ℝ → ℝ) (hrnd : CoordRounding rnd) (d h w : ℕ) (get : List ℕ → ℤ) (xc yc : ℝ)
    (coefs : List ℝ) (R : ℝ) (start stop : ℕ) (hss : start ≤ stop) (hsh : stop < h) (hh : h ≤ 32767) (hw : 0 < w) (hw' : w ≤ 2 ^ 24)
    (hc : NoFold coefs R) (hR1 : ∀ j < w, √(((j : ℝ) - xc) ^ 2 + ((start : ℝ) - yc) ^ 2) ≤ R)
    (hR2 : ∀ j < w, √(((j : ℝ) - xc) ^ 2 + ((stop : ℝ) - yc) ^ 2) ≤ R) :
    ∃ out, unwarpChunkSlicesBackwardInt T B rnd ⟨[d, h, w], get⟩ xc yc coefs start stop = .ok out ∧
      out.shape = (if d = 0 then [0] else [d, stop - start + 1, w]) ∧
      ∀ i < d, ∀ k < stop - start + 1, ∀ j < w, out.get [i, k, j] =
        (unwarpImageBackwardInt T (linearInterp B') rnd ⟨h, w, fun y x => get [i, y, x]⟩ xc yc coefs).get (start + k) j := by
  obtain ⟨out, e, e1, e2⟩ := C02_chunk_eq_image_rows B B' rnd hrnd d h w (fun idx => (get idx : ℝ)) xc yc coefs R start stop hss hsh hh hw hw' hc hR1 hR2
  refine ⟨⟨out.shape, fun idx => T.cast (out.get idx)⟩, ?_, e1, ?_⟩
  · unfold unwarpChunkSlicesBackwardInt
    rw [show realArr ⟨[d, h, w], get⟩ = ⟨[d, h, w], fun idx => (get idx : ℝ)⟩ from rfl, e]
    rfl
  intro i hi k hk j hj
  show T.cast (out.get [i, k, j]) = _
  rw [e2 i hi k hk j hj]
  rfl

/-- The channels of a colour image of integers are corrected like images of integers, with or without padding: pixel by pixel, wherever
the point it comes from is inside the image. -/
theorem C118_color (T : IntType) (lstsq : List (List ℝ) → List ℝ → List ℝ) (B : Boundary) (fill : Mat ℝ → ℕ → ℕ → ℝ) (h w n : ℕ)
    (get : ℕ → ℕ → ℕ → ℤ) (xc yc : ℝ) (fact : List ℝ) (pad : PadArg) (p : Pads) (hp : calcPad lstsq pad h w xc yc fact = .ok p)
    (h0 : 0 ≤ p.t ∧ 0 ≤ p.b ∧ 0 ≤ p.l ∧ 0 ≤ p.r) :
    ∃ out, unwarpColorImageBackwardInt T lstsq (linearInterp B) id fill h w n get xc yc fact pad = .ok out ∧
      ∀ i j c : ℕ, Spec.InFrame (⟨h, w, fun _ _ => 0⟩ : Mat ℝ) (radialMap ⟨yc, xc⟩ fact ⟨i, j⟩).y (radialMap ⟨yc, xc⟩ fact ⟨i, j⟩).x →
        out.2.2 (p.t.toNat + i) (p.l.toNat + j) c =
          (unwarpImageBackwardInt T (linearInterp B) id ⟨h, w, fun i j => get i j c⟩ xc yc fact).get i j := by
  have hg := fun c => C52_padded lstsq B fill (channel h w (fun i j c => (get i j c : ℝ)) c) xc yc fact pad p hp h0
  rcases C52_channels lstsq (linearInterp B) id fill h w n (fun i j c => (get i j c : ℝ)) xc yc fact pad with ⟨e, -, he⟩ | ⟨h', w', get', e, he⟩
  · obtain ⟨out, e', -⟩ := hg 0
    rw [he 0] at e'
    cases e'
  · refine ⟨(h', w', fun i j c => T.cast (get' i j c)), ?_, ?_⟩
    · unfold unwarpColorImageBackwardInt
      rw [e]
      rfl
    · intro i j c hin
      obtain ⟨out, e', hout⟩ := hg c
      rw [he c] at e'
      simp only [Except.ok.injEq, Img.gray.injEq] at e'
      subst e'
      exact congrArg T.cast (hout i j hin)

/-- Correcting a combination of two images and combining the corrected images differ by at most `(1 + |a| + |b|) / 2`. -/
theorem C118_combination (T : IntType) (h0 : T.lo ≤ 0) (h1 : 0 ≤ T.hi) (B : Boundary) (rnd : ℝ → ℝ) (hr : CoordRounding rnd) (m m' : Mat ℤ)
    (hsh : m.height = m'.height) (hsw : m.width = m'.width) (a b : ℤ) (hf : FitsImage T m) (hf' : FitsImage T m')
    (hfc : FitsImage T ⟨m.height, m.width, fun i j => a * m.get i j + b * m'.get i j⟩)
    (xc yc : ℝ) (coefs : List ℝ) (hh : m.height ≤ 2 ^ 24) (hw : m.width ≤ 2 ^ 24) (i j : ℕ) (hi : i < m.height) (hj : j < m.width) :
    |((unwarpImageBackwardInt T (linearInterp B) rnd ⟨m.height, m.width, fun i j => a * m.get i j + b * m'.get i j⟩ xc yc coefs).get i j : ℝ) -
      (a * (unwarpImageBackwardInt T (linearInterp B) rnd m xc yc coefs).get i j +
        b * (unwarpImageBackwardInt T (linearInterp B) rnd m' xc yc coefs).get i j)| ≤ (1 + |(a : ℝ)| + |(b : ℝ)|) / 2 := by
  have e := C06_unwarp_linear B rnd hr (realMat m) (realMat m') hsh hsw hh hw xc yc a b coefs i hi j hj
  have em : realMat ⟨m.height, m.width, fun i j => a * m.get i j + b * m'.get i j⟩ =
      ⟨(realMat m).height, (realMat m).width, fun i j => a * (realMat m).get i j + b * (realMat m').get i j⟩ := by
    simp [realMat]
  have k0 := C118_half T h0 h1 B rnd hr _ hfc xc yc coefs hh hw i j hi hj
  have k1 := C118_half T h0 h1 B rnd hr m hf xc yc coefs hh hw i j hi hj
  have k2 := C118_half T h0 h1 B rnd hr m' hf' xc yc coefs (hsh ▸ hh) (hsw ▸ hw) i j (hsh ▸ hi) (hsw ▸ hj)
  rw [em, e] at k0
  generalize ((unwarpImageBackwardInt T (linearInterp B) rnd ⟨m.height, m.width, fun i j => a * m.get i j + b * m'.get i j⟩ xc yc coefs).get i j : ℝ) = p at *
  generalize ((unwarpImageBackwardInt T (linearInterp B) rnd m xc yc coefs).get i j : ℝ) = q at *
  generalize ((unwarpImageBackwardInt T (linearInterp B) rnd m' xc yc coefs).get i j : ℝ) = r at *
  generalize (unwarpImageBackward (linearInterp B) rnd (realMat m) xc yc coefs).get i j = u at *
  generalize (unwarpImageBackward (linearInterp B) rnd (realMat m') xc yc coefs).get i j = v at *
  have t : p - (a * q + b * r) = (p - (a * u + b * v)) - (a * (q - u) + b * (r - v)) := by ring
  rw [t]
  have s1 := abs_sub (p - (a * u + b * v)) (a * (q - u) + b * (r - v))
  have s2 := abs_add_le ((a : ℝ) * (q - u)) (b * (r - v))
  rw [abs_mul, abs_mul] at s2
  have s3 := mul_le_mul_of_nonneg_left k1 (abs_nonneg (a : ℝ))
  have s4 := mul_le_mul_of_nonneg_left k2 (abs_nonneg (b : ℝ))
  linarith

/-- A row of two pixels `0, c` seen at half its size. -/
theorem half_pixel (B : Boundary) (c : ℤ) :
    (unwarpImageBackward (linearInterp B) id (realMat ⟨1, 2, fun _ j => c * j⟩) 0 0 [1 / 2]).get 0 1 = c / 2 := by
  have h := C91_linear B (realMat ⟨1, 2, fun _ j => c * j⟩) (fun q => c * (q.x / 2)) (fun p => ⟨2 * p.y, 2 * p.x⟩)
    (by intro i _ j _; simp [realMat]) 0 c 0 (by intro p; simp) 0 0 [1 / 2] (by norm_num [realMat]) (by norm_num [realMat]) 0 1
    (by norm_num [realMat]) (by norm_num [realMat]) (by norm_num [Spec.InFrame, radialMap, radial, realMat]) (by norm_num [radialMap, radial])
  rw [h]
  push_cast
  ring

/-- Correcting a sum of images is not the sum of the corrected images: between a dark and a bright pixel `1/2` is rounded twice. -/
theorem C118_not_linear (B : Boundary) : ∃ m : Mat ℤ, m.height = 1 ∧ m.width = 2 ∧
    (unwarpImageBackwardInt .uint8 (linearInterp B) id m 0 0 [1 / 2]).get 0 1 = 1 ∧
    (unwarpImageBackwardInt .uint8 (linearInterp B) id ⟨1, 2, fun i j => m.get i j + m.get i j⟩ 0 0 [1 / 2]).get 0 1 = 1 := by
  refine ⟨⟨1, 2, fun _ j => (1 : ℤ) * j⟩, rfl, rfl, ?_, ?_⟩
  · show IntType.uint8.cast _ = 1
    rw [half_pixel, cast_eq _ (by simp [IntType.uint8]) (by simp [IntType.uint8])]
    norm_num [nearInt, IntType.uint8]
  · rw [show (⟨1, 2, fun _ j => (1 : ℤ) * (j : ℕ) + 1 * (j : ℕ)⟩ : Mat ℤ) = ⟨1, 2, fun _ j => (2 : ℤ) * j⟩ by
      congr 1; funext i j; ring]
    show IntType.uint8.cast _ = 1
    rw [half_pixel]
    norm_num
    exact_mod_cast cast_int IntType.uint8 (by simp [IntType.uint8]) (by simp [IntType.uint8]) (n := 1) ⟨by simp [IntType.uint8], by simp [IntType.uint8]⟩

/-- Accuracy for a scene recorded with an error of at most `e` per pixel (`1/2` if the camera rounds): the corrected pixel is as near to
the scene as for the exact image, up to that error and one half. -/
theorem C118_scene (T : IntType) (h0 : T.lo ≤ 0) (h1 : 0 ≤ T.hi) (B : Boundary) {rnd : ℝ → ℝ} (hr : CoordRounding rnd) {δ : ℝ} (m : Mat ℤ)
    (hf : FitsImage T m) (hδ : RoundsBy δ rnd (realMat m)) (g : Pt → ℝ) (P : Pt → Pt) (e : ℝ)
    (hm : ∀ i < m.height, ∀ j < m.width, |(m.get i j : ℝ) - g (P ⟨i, j⟩)| ≤ e) (L : ℝ) (hL : 0 ≤ L) (hlip : ChangesAtMost L g P (realMat m)) (xc yc : ℝ)
    (coefs : List ℝ) (hh : m.height ≤ 2 ^ 24) (hw : m.width ≤ 2 ^ 24) (i j : ℕ) (hi : i < m.height) (hj : j < m.width)
    (hin : Spec.InFrame (realMat m) (radialMap ⟨yc, xc⟩ coefs ⟨i, j⟩).y (radialMap ⟨yc, xc⟩ coefs ⟨i, j⟩).x)
    (hT : P (radialMap ⟨yc, xc⟩ coefs ⟨i, j⟩) = ⟨i, j⟩) :
    |((unwarpImageBackwardInt T (linearInterp B) rnd m xc yc coefs).get i j : ℝ) - g ⟨i, j⟩| ≤ L * (√2 * (1 + δ)) + e + 1 / 2 := by
  have k1 := C118_half T h0 h1 B rnd hr m hf xc yc coefs hh hw i j hi hj
  have k2 := C91_scene B hr ⟨m.height, m.width, fun i j => g (P ⟨i, j⟩)⟩ hδ g P (fun i _ j _ => rfl) L hL hlip xc yc coefs hh hw i j hi hj hin hT
  have k3 := C06_unwarp_linear B rnd hr ⟨m.height, m.width, fun i j => g (P ⟨i, j⟩)⟩ ⟨m.height, m.width, fun i j => (m.get i j : ℝ) - g (P ⟨i, j⟩)⟩
    rfl rfl hh hw xc yc 1 1 coefs i hi j hj
  have k4 := C05_image_range B rnd hr ⟨m.height, m.width, fun i j => (m.get i j : ℝ) - g (P ⟨i, j⟩)⟩ xc yc coefs hh hw (-e) e
    (fun i hi j hj => abs_le.1 (hm i hi j hj)) i hi j hj
  have em : (⟨m.height, m.width, fun i j : ℕ => 1 * g (P ⟨i, j⟩) + 1 * ((m.get i j : ℝ) - g (P ⟨i, j⟩))⟩ : Mat ℝ) = realMat m := by
    simp [realMat]
  rw [← em] at k1
  rw [show (unwarpImageBackward (linearInterp B) rnd ⟨m.height, m.width, fun i j : ℕ => 1 * g (P ⟨i, j⟩) + 1 * ((m.get i j : ℝ) - g (P ⟨i, j⟩))⟩
    xc yc coefs).get i j = _ from k3] at k1
  rw [abs_le] at k1 k2 ⊢
  constructor <;> linarith [k1.1, k1.2, k2.1, k2.2, k4.1, k4.2]

/-- The dtypes of camera images, and the other theorems for small images. -/
theorem uint8_signs : IntType.uint8.lo ≤ 0 ∧ 0 ≤ IntType.uint8.hi := by simp [IntType.uint8]

/-- All pixels of the table `50 i + 7 j` are 8-bit values. -/
theorem table_fits : FitsImage .uint8 ⟨3, 4, fun i j => 50 * i + 7 * j⟩ := by
  intro i hi j hj
  simp only at hi hj
  constructor <;> simp only [IntType.uint8] <;> omega

example (B : Boundary) (xc yc : ℝ) (i j : ℕ) (hi : i < 3) (hj : j < 4) :=
  C118_half .uint8 uint8_signs.1 uint8_signs.2 B id coordRounding_id _ table_fits xc yc [1, 1 / 10] (by norm_num) (by norm_num) i j hi hj

example (B : Boundary) (xc yc : ℝ) (i j : ℕ) (hi : i < 3) (hj : j < 4) :=
  C118_range .uint8 uint8_signs.1 uint8_signs.2 B id coordRounding_id _ table_fits xc yc [1, 1 / 10] (by norm_num) (by norm_num) 0 121
    (by intro i hi j hj; simp only at hi hj ⊢; omega) i j hi hj

example (B : Boundary) (xc yc : ℝ) (i j : ℕ) (hi : i < 3) (hj : j < 4) :=
  C118_identity .uint8 uint8_signs.1 uint8_signs.2 _ (linearInterp_interpolates B) id coordRounding_id _ table_fits (by norm_num) (by norm_num) xc yc 4 i j hi hj

example (B : Boundary) (xc yc : ℝ) (i j : ℕ) (hi : i < 3) (hj : j < 4) :=
  C118_monotone .uint8 uint8_signs.1 uint8_signs.2 B id coordRounding_id ⟨3, 4, fun i j => 50 * i + 7 * j⟩ ⟨3, 4, fun i j => 60 * i + 7 * j + 1⟩ rfl rfl
    (by intro i hi j hj; simp only at hi hj ⊢; omega) xc yc [1, 1 / 10] (by norm_num) (by norm_num) i j hi hj

example (B : Boundary) (xc yc : ℝ) (i j : ℕ) (hi : i < 3) (hj : j < 4) :=
  C118_combination .uint8 uint8_signs.1 uint8_signs.2 B id coordRounding_id ⟨3, 4, fun i j => 50 * i + 7 * j⟩ ⟨3, 4, fun i _ => 10 * i⟩ rfl rfl 1 (-1)
    table_fits (by intro i hi j hj; simp only at hi hj; constructor <;> simp only [IntType.uint8] <;> omega)
    (by intro i hi j hj; simp only at hi hj; constructor <;> simp only [IntType.uint8] <;> omega) xc yc [1, 1 / 10] (by norm_num) (by norm_num) i j hi hj

example (B B' : Boundary) (xc yc : ℝ) := C118_slice .uint16 (by simp [IntType.uint16]) (by simp [IntType.uint16])
  (by intro n hn; have a := hn.1; have b := hn.2; simp only [IntType.uint16] at a b; rw [abs_of_nonneg a]; omega) B B' id coordRounding_id 2 3 4
  (fun l => l.sum) xc yc [1, 1 / 10] (by simp) 1 (by norm_num) (by norm_num) (by norm_num)

example (B B' : Boundary) := C118_chunk .uint16 B B' id coordRounding_id 2 4 3 (fun l => l.sum) 1 1 [1, 1 / 10] 100 0 1 (by norm_num) (by norm_num)
  (by norm_num) (by norm_num) (by norm_num)
  ⟨fun r s h0 h1 h2 => by simp [radial, Fin.sum_univ_two]; nlinarith, fun r h0 h1 => by simp [radial, Fin.sum_univ_two]; nlinarith⟩
  (by
    intro j hj
    rw [Real.sqrt_le_left (by norm_num)]
    have : (j : ℝ) < 3 := by exact_mod_cast hj
    have : (0 : ℝ) ≤ j := Nat.cast_nonneg j
    norm_num; nlinarith)
  (by
    intro j hj
    rw [Real.sqrt_le_left (by norm_num)]
    have : (j : ℝ) < 3 := by exact_mod_cast hj
    have : (0 : ℝ) ≤ j := Nat.cast_nonneg j
    norm_num; nlinarith)

example (B : Boundary) : ∃ out, correctPerspectiveImageInt .uint8 (linearInterp B) id ⟨3, 4, fun i j => 50 * i + 7 * j⟩ [1, 0, 0, 0, 1, 0, 0, 0] none = .ok out :=
  let ⟨o, h, _⟩ := (C118_perspective .uint8 uint8_signs.1 uint8_signs.2 (linearInterp B) id ⟨3, 4, fun i j => 50 * i + 7 * j⟩ [1, 0, 0, 0, 1, 0, 0, 0] none).2 _ rfl
  ⟨o, h⟩

example (lstsq : List (List ℝ) → List ℝ → List ℝ) (B : Boundary) (fill : Mat ℝ → ℕ → ℕ → ℝ) :=
  C118_color .uint8 lstsq B fill 3 3 3 (fun i j c => 50 * i + 7 * j + c) 1 1 [1 / 2] (.int 2) ⟨2, 2, 2, 2⟩ rfl (by norm_num)

/-- A slanted plane, recorded with rounding, seen at half its size. -/
example (B : Boundary) : |((unwarpImageBackwardInt .uint8 (linearInterp B) id ⟨1, 2, fun _ j => 5 * j⟩ 0 0 [1 / 2]).get 0 1 : ℝ) - 5 / 2| ≤
    5 * (√2 * (1 + 0)) + 0 + 1 / 2 := by
  have h := C118_scene .uint8 uint8_signs.1 uint8_signs.2 B coordRounding_id (δ := 0) ⟨1, 2, fun _ j => 5 * j⟩
    (by intro i hi j hj; simp only at hi hj; constructor <;> simp only [IntType.uint8] <;> omega) (fun v _ _ => by simp)
    (fun q => 5 * (q.x / 2)) (fun p => ⟨2 * p.y, 2 * p.x⟩) 0 (by intro i _ j _; simp) 5 (by norm_num)
    (by
      intro p q _ _
      rw [show 5 * (2 * p.x / 2) - 5 * (2 * q.x / 2) = 5 * (p.x - q.x) by ring, abs_mul, abs_of_pos (by norm_num : (0 : ℝ) < 5)]
      refine mul_le_mul_of_nonneg_left ?_ (by norm_num)
      unfold ptDist
      exact Real.abs_le_sqrt (by nlinarith [sq_nonneg (p.y - q.y)]))
    0 0 [1 / 2] (by norm_num) (by norm_num) 0 1 (by norm_num) (by norm_num)
    (by norm_num [Spec.InFrame, radialMap, radial, realMat]) (by norm_num [radialMap, radial])
  norm_num at h ⊢
  exact h

/-- A ramp seen at half its size, with the halves rounded up. -/
example (B : Boundary) : (unwarpImageBackwardInt .uint8 (linearInterp B) id ⟨1, 2, fun _ j => 5 * j⟩ 0 0 [1 / 2]).get 0 1 = 3 := by
  refine ((C118_image .uint8 (by simp [IntType.uint8]) (by simp [IntType.uint8]) _ _ _ _ _ _).2.2 0 1 3).2 ?_
  rw [half_pixel]
  have h := cast_nearest .uint8 (by simp [IntType.uint8]) (by simp [IntType.uint8]) (5 / 2)
  rw [cast_eq _ (by simp [IntType.uint8]) (by simp [IntType.uint8]), show nearInt (5 / 2) = 3 by norm_num [nearInt]] at h
  simpa [IntType.uint8] using h

/-- Values outside the range of the dtype, as cubic splines give them, are cut off; negative halves go away from zero. -/
example : IntType.uint8.cast 300 = 255 ∧ IntType.uint8.cast (-3) = 0 ∧ IntType.int16.cast (-5 / 2) = -3 := by
  refine ⟨?_, ?_, ?_⟩ <;> rw [cast_eq _ (by simp [IntType.uint8, IntType.int16]) (by simp [IntType.uint8, IntType.int16])] <;>
    norm_num [nearInt, IntType.uint8, IntType.int16]

end Discorpy
