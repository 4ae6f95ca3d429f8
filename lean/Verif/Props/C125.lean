import Verif.Lemmas.Noise
import Verif.Props.C118
import Verif.Props.C52
import Verif.Props.C11

/-! # C125 — noise of the pixels is not amplified -/

namespace Discorpy

open Spec

/-- **C125 (image).** If no pixel of an image exceeds the pixel of another image by more than `e`, the same holds for the unwarped images; `e` may be negative. -/
theorem C125_image (B : Boundary) (rnd : ℝ → ℝ) (hr : CoordRounding rnd) (m m' : Mat ℝ) (e : ℝ) (h : ExceedsBy e m m') (xc yc : ℝ) (coefs : List ℝ)
    (hh : m.height ≤ 2 ^ 24) (hw : m.width ≤ 2 ^ 24) :
    ExceedsBy e (unwarpImageBackward (linearInterp B) rnd m xc yc coefs) (unwarpImageBackward (linearInterp B) rnd m' xc yc coefs) := by
  refine ⟨h.height, h.width, fun i hi j hj => ?_⟩
  simp only [unwarpImageBackward] at hi hj ⊢
  rw [h.height, h.width]
  exact linearInterp_exceeds B h (inFrame_rnd hr (inFrame_clip (m := m) (by omega) (by omega) _ _) (by omega) (by omega) hh hw)

/-- **C125 (noise).** Noise of at most `e` per pixel changes each pixel of the unwarped image by at most `e`. -/
theorem C125_noise (B : Boundary) (rnd : ℝ → ℝ) (hr : CoordRounding rnd) (m m' : Mat ℝ) (e : ℝ) (h : DiffersBy e m m') (xc yc : ℝ) (coefs : List ℝ)
    (hh : m.height ≤ 2 ^ 24) (hw : m.width ≤ 2 ^ 24) :
    DiffersBy e (unwarpImageBackward (linearInterp B) rnd m xc yc coefs) (unwarpImageBackward (linearInterp B) rnd m' xc yc coefs) := by
  obtain ⟨h1, h2⟩ := differs_iff.1 h
  exact differs_iff.2 ⟨C125_image B rnd hr m m' e h1 xc yc coefs hh hw,
    C125_image B rnd hr m' m e h2 xc yc coefs (by rw [h1.height]; exact hh) (by rw [h1.width]; exact hw)⟩

/-- **C125 (perspective).** The same for the perspective correction. -/
theorem C125_perspective (B : Boundary) (rnd : ℝ → ℝ) (hr : CoordRounding rnd) (m m' : Mat ℝ) (e : ℝ) (h : ExceedsBy e m m') (c : List ℝ) (hc : c.length = 8)
    (hh : m.height ≤ 2 ^ 24) (hw : m.width ≤ 2 ^ 24) (_hden : ∀ i < m.height, ∀ j < m.width, c[6] * (j : ℝ) + c[7] * (i : ℝ) + 1 ≠ 0) :
    ∃ out out', correctPerspectiveImage (linearInterp B) rnd m c none = .ok out ∧ correctPerspectiveImage (linearInterp B) rnd m' c none = .ok out' ∧
      out.height = m.height ∧ out.width = m.width ∧ ExceedsBy e out out' := by
  match c, hc with
  | [c1, c2, c3, c4, c5, c6, c7, c8], _ =>
    refine ⟨_, _, rfl, rfl, rfl, rfl, h.height, h.width, fun i hi j hj => ?_⟩
    simp only at hi hj ⊢
    rw [h.height, h.width]
    exact linearInterp_exceeds B h (inFrame_rnd hr (inFrame_clip (m := m) (by omega) (by omega) _ _) (by omega) (by omega) hh hw)

/-- **C125 (slice).** The same for a slice of a stack. -/
theorem C125_slice (B : Boundary) (d h w : ℕ) (get get' : List ℕ → ℝ) (e : ℝ) (hle : ∀ i < d, ∀ y < h, ∀ x < w, get' [i, y, x] ≤ get [i, y, x] + e) (xc yc : ℝ)
    (coefs : List ℝ) (hne : coefs ≠ []) (k : ℕ) (hk : k < h) (hh : h ≤ 32767) (hw : 0 < w) (hw' : w ≤ 2 ^ 24) :
    ∃ out out', unwarpSliceBackward B ⟨[d, h, w], get⟩ xc yc coefs k = .ok out ∧ unwarpSliceBackward B ⟨[d, h, w], get'⟩ xc yc coefs k = .ok out' ∧
      out.height = d ∧ out.width = w ∧ ExceedsBy e out out' := by
  obtain ⟨out, eo, o1, o2, o3⟩ := C01_slice_eq_image_row B B d h w get xc yc coefs hne k hk hh hw
  obtain ⟨out', eo', o1', o2', o3'⟩ := C01_slice_eq_image_row B B d h w get' xc yc coefs hne k hk hh hw
  refine ⟨out, out', eo, eo', o1, o2, by omega, by omega, fun i hi j hj => ?_⟩
  rw [o1] at hi
  rw [o2] at hj
  rw [o3 i hi j hj, o3' i hi j hj]
  exact (C125_image B id coordRounding_id ⟨h, w, fun y x => get [i, y, x]⟩ ⟨h, w, fun y x => get' [i, y, x]⟩ e ⟨rfl, rfl, hle i hi⟩ xc yc coefs
    (by simpa using by omega) (by simpa using hw')).pixel k hk j hj

/-- **C125 (chunk).** The same for a chunk of slices and a model that does not fold. -/
theorem C125_chunk (B : Boundary) (rnd : ℝ → ℝ) (hrnd : CoordRounding rnd) (d h w : ℕ) (get get' : List ℕ → ℝ) (e : ℝ)
    (hle : ∀ i < d, ∀ y < h, ∀ x < w, get' [i, y, x] ≤ get [i, y, x] + e) (xc yc : ℝ) (coefs : List ℝ) (R : ℝ) (start stop : ℕ)
    (hss : start ≤ stop) (hsh : stop < h) (hh : h ≤ 32767) (hw : 0 < w) (hw' : w ≤ 2 ^ 24) (hc : NoFold coefs R)
    (hR1 : ∀ j < w, √(((j : ℝ) - xc) ^ 2 + ((start : ℝ) - yc) ^ 2) ≤ R)
    (hR2 : ∀ j < w, √(((j : ℝ) - xc) ^ 2 + ((stop : ℝ) - yc) ^ 2) ≤ R) :
    ∃ out out', unwarpChunkSlicesBackward B rnd ⟨[d, h, w], get⟩ xc yc coefs start stop = .ok out ∧
      unwarpChunkSlicesBackward B rnd ⟨[d, h, w], get'⟩ xc yc coefs start stop = .ok out' ∧ out'.shape = out.shape ∧
      ∀ i < d, ∀ k < stop - start + 1, ∀ j < w, out'.get [i, k, j] ≤ out.get [i, k, j] + e := by
  obtain ⟨out, eo, o1, o2⟩ := C02_chunk_eq_image_rows B B rnd hrnd d h w get xc yc coefs R start stop hss hsh hh hw hw' hc hR1 hR2
  obtain ⟨out', eo', o1', o2'⟩ := C02_chunk_eq_image_rows B B rnd hrnd d h w get' xc yc coefs R start stop hss hsh hh hw hw' hc hR1 hR2
  refine ⟨out, out', eo, eo', by rw [o1, o1'], fun i hi k hk j hj => ?_⟩
  rw [o2 i hi k hk j hj, o2' i hi k hk j hj]
  exact (C125_image B rnd hrnd ⟨h, w, fun y x => get [i, y, x]⟩ ⟨h, w, fun y x => get' [i, y, x]⟩ e ⟨rfl, rfl, hle i hi⟩ xc yc coefs
    (by simpa using by omega) (by simpa using hw')).pixel (start + k) (by show start + k < h; omega) j hj

/-- **C125 (forward).** The forward way copies pixels to the same places in both images; pixels that are not written are 0 in both, so `e` must not be negative. -/
theorem C125_forward (m m' : Mat ℝ) (e : ℝ) (he : 0 ≤ e) (h : ExceedsBy e m m') (xc yc : ℝ) (coefs : List ℝ) (hh : 0 < m.height) (hw : 0 < m.width) :
    ∃ out out', unwarpImageForward m xc yc coefs = .ok out ∧ unwarpImageForward m' xc yc coefs = .ok out' ∧ out.height = m.height ∧ out.width = m.width ∧
      ExceedsBy e out out' := by
  have key : ∀ m : Mat ℝ, 0 < m.height → 0 < m.width → ∃ out, unwarpImageForward m xc yc coefs = .ok out ∧ out.height = m.height ∧ out.width = m.width ∧
      ∀ i j : ℕ, out.get i j = match (pixels m.height m.width).reverse.find? (fun p => decide (forwardIndex m.height m.width xc yc coefs p = ((i : ℤ), (j : ℤ)))) with
        | some p => m.get p.1 p.2
        | none => 0 := by
    intro m hh hw
    obtain ⟨out, eo, o1, o2, o3⟩ := foldlM_setItem (forwardIndex m.height m.width xc yc coefs) (fun p => m.get p.1 p.2) (pixels m.height m.width)
      { height := m.height, width := m.width, get := fun _ _ => (0 : ℝ) } (fun p _ => forwardIndex_mem hh hw xc yc coefs p)
    refine ⟨out, eo, o1, o2, fun i j => ?_⟩
    rw [o3]
    cases (pixels m.height m.width).reverse.find? (fun p => decide (forwardIndex m.height m.width xc yc coefs p = ((i : ℤ), (j : ℤ)))) <;> rfl
  obtain ⟨out, eo, o1, o2, o3⟩ := key m hh hw
  obtain ⟨out', eo', o1', o2', o3'⟩ := key m' (by rw [h.height]; exact hh) (by rw [h.width]; exact hw)
  refine ⟨out, out', eo, eo', o1, o2, by rw [o1', o1, h.height], by rw [o2', o2, h.width], fun i _ j _ => ?_⟩
  rw [o3, o3', h.height, h.width]
  cases hf : (pixels m.height m.width).reverse.find? (fun p => decide (forwardIndex m.height m.width xc yc coefs p = ((i : ℤ), (j : ℤ)))) with
  | none => simpa using he
  | some p =>
    have hp := List.mem_of_find?_eq_some hf
    rw [List.mem_reverse, mem_pixels] at hp
    exact h.pixel _ hp.1 _ hp.2

theorem real_exceeds {m m' : Mat ℤ} {e : ℤ} (h1 : m'.height = m.height) (h2 : m'.width = m.width) (h : ∀ i < m.height, ∀ j < m.width, m'.get i j ≤ m.get i j + e) :
    ExceedsBy e (realMat m) (realMat m') :=
  ⟨h1, h2, fun i hi j hj => by
    have := h i hi j hj
    show (m'.get i j : ℝ) ≤ m.get i j + e
    exact_mod_cast this⟩

/-- **C125 (integers).** For images of integers that are not negative, a difference of at most `e` grey levels stays at most `e` after rounding. -/
theorem C125_unsigned (T : IntType) (h0 : T.lo ≤ 0) (h1 : 0 ≤ T.hi) (B : Boundary) (rnd : ℝ → ℝ) (hr : CoordRounding rnd) (m m' : Mat ℤ) (e : ℤ) (he : 0 ≤ e)
    (eh : m'.height = m.height) (ew : m'.width = m.width) (hn : ∀ i < m.height, ∀ j < m.width, 0 ≤ m.get i j ∧ 0 ≤ m'.get i j ∧ |m'.get i j - m.get i j| ≤ e)
    (xc yc : ℝ) (coefs : List ℝ) (hh : m.height ≤ 2 ^ 24) (hw : m.width ≤ 2 ^ 24) (i j : ℕ) (hi : i < m.height) (hj : j < m.width) :
    |(unwarpImageBackwardInt T (linearInterp B) rnd m' xc yc coefs).get i j - (unwarpImageBackwardInt T (linearInterp B) rnd m xc yc coefs).get i j| ≤ e := by
  have key : ∀ m m' : Mat ℤ, m'.height = m.height → m'.width = m.width → m.height ≤ 2 ^ 24 → m.width ≤ 2 ^ 24 → i < m.height → j < m.width →
      (∀ i < m.height, ∀ j < m.width, 0 ≤ m.get i j ∧ m'.get i j ≤ m.get i j + e) →
      (unwarpImageBackwardInt T (linearInterp B) rnd m' xc yc coefs).get i j ≤ (unwarpImageBackwardInt T (linearInterp B) rnd m xc yc coefs).get i j + e := by
    intro m m' eh ew hh hw hi hj hle
    refine cast_add_le_pos T h0 h1 ?_ he
      ((C125_image B rnd hr (realMat m) (realMat m') e (real_exceeds eh ew fun i hi j hj => (hle i hi j hj).2) xc yc coefs hh hw).pixel i hi j hj)
    have hz : ExceedsBy 0 (realMat m) ⟨m.height, m.width, fun _ _ => 0⟩ := ⟨rfl, rfl, fun i hi j hj => by
      have := (hle i hi j hj).1
      show (0 : ℝ) ≤ m.get i j + 0
      rw [add_zero]
      exact_mod_cast this⟩
    have h2 := (C125_image B rnd hr _ _ 0 hz xc yc coefs hh hw).pixel i hi j hj
    have h3 := C05_image_range B rnd hr ⟨m.height, m.width, fun _ _ => 0⟩ xc yc coefs hh hw 0 0 (by simp) i hi j hj
    linarith [h3.1]
  have a := key m m' eh ew hh hw hi hj fun i hi j hj => ⟨(hn i hi j hj).1, by have := (abs_le.1 (hn i hi j hj).2.2).2; omega⟩
  have b := key m' m eh.symm ew.symm (by omega) (by omega) (by omega) (by omega) fun i hi j hj => by
    have := hn i (by omega) j (by omega)
    exact ⟨this.2.1, by have := (abs_le.1 this.2.2).1; omega⟩
  rw [abs_le]
  constructor <;> omega

/-- **C125 (signed integers).** For any integers the difference after rounding is at most `e + 1`. -/
theorem C125_signed (T : IntType) (h0 : T.lo ≤ 0) (h1 : 0 ≤ T.hi) (B : Boundary) (rnd : ℝ → ℝ) (hr : CoordRounding rnd) (m m' : Mat ℤ) (e : ℤ) (he : 0 ≤ e)
    (eh : m'.height = m.height) (ew : m'.width = m.width) (hn : ∀ i < m.height, ∀ j < m.width, |m'.get i j - m.get i j| ≤ e)
    (xc yc : ℝ) (coefs : List ℝ) (hh : m.height ≤ 2 ^ 24) (hw : m.width ≤ 2 ^ 24) (i j : ℕ) (hi : i < m.height) (hj : j < m.width) :
    |(unwarpImageBackwardInt T (linearInterp B) rnd m' xc yc coefs).get i j - (unwarpImageBackwardInt T (linearInterp B) rnd m xc yc coefs).get i j| ≤ e + 1 := by
  have a := cast_add_le T h0 h1 he ((C125_image B rnd hr (realMat m) (realMat m') e (real_exceeds eh ew fun i hi j hj => by
    have := (abs_le.1 (hn i hi j hj)).2; omega) xc yc coefs hh hw).pixel i hi j hj)
  have b := cast_add_le T h0 h1 he ((C125_image B rnd hr (realMat m') (realMat m) e (real_exceeds eh.symm ew.symm fun i hi j hj => by
    have := (abs_le.1 (hn i (by omega) j (by omega))).1; omega) xc yc coefs (by show m'.height ≤ _; omega) (by show m'.width ≤ _; omega)).pixel i
      (by show i < m'.height; omega) j (by show j < m'.width; omega))
  show |T.cast _ - T.cast _| ≤ e + 1
  rw [abs_le]
  constructor <;> omega

/-- **C125 (signed integers, attained).** Halves are rounded away from zero: two int16 images that differ by one grey level can differ by two after unwarping. -/
theorem C125_signed_two (B : Boundary) : ∃ m m' : Mat ℤ, m'.height = m.height ∧ m'.width = m.width ∧ (∀ i < m.height, ∀ j < m.width, m.get i j - m'.get i j = 1) ∧
    (unwarpImageBackwardInt .int16 (linearInterp B) id m 0 0 [1 / 2]).get 0 1 = 1 ∧
    (unwarpImageBackwardInt .int16 (linearInterp B) id m' 0 0 [1 / 2]).get 0 1 = -1 := by
  refine ⟨⟨1, 2, fun _ j => (1 : ℤ) * j⟩, ⟨1, 2, fun _ j => (1 : ℤ) * j - 1⟩, rfl, rfl, fun i _ j _ => by ring, ?_, ?_⟩
  · show IntType.int16.cast _ = 1
    rw [half_pixel, cast_eq _ (by simp [IntType.int16]) (by simp [IntType.int16])]
    norm_num [nearInt, IntType.int16]
  · show IntType.int16.cast _ = -1
    have h := C91_linear B (realMat ⟨1, 2, fun _ j => (1 : ℤ) * j - 1⟩) (fun q => q.x / 2 - 1) (fun p => ⟨2 * p.y, 2 * p.x⟩)
      (by intro i _ j _; simp [realMat]) 0 1 (-1) (by intro p; simp; ring) 0 0 [1 / 2] (by norm_num [realMat]) (by norm_num [realMat]) 0 1
      (by norm_num [realMat]) (by norm_num [realMat]) (by norm_num [Spec.InFrame, radialMap, radial, realMat]) (by norm_num [radialMap, radial])
    rw [h, cast_eq _ (by simp [IntType.int16]) (by simp [IntType.int16])]
    norm_num [nearInt, IntType.int16]

/-- **C125 (colour images).** Noise of at most `e` in each colour of each pixel changes each colour of each pixel of the result of
`unwarp_color_image_backward` by at most `e`, provided that this holds for the pixels added by the padding (as for all padding modes that copy pixels
or use a constant). The size of the result, and the error if there is one, do not depend on the pixels. -/
theorem C125_color (lstsq : List (List ℝ) → List ℝ → List ℝ) (B : Boundary) (rnd : ℝ → ℝ) (hr : CoordRounding rnd) (fill : Mat ℝ → ℕ → ℕ → ℝ) (e : ℝ)
    (hf : ∀ m m' : Mat ℝ, 0 < m.height → 0 < m.width → DiffersBy e m m' → ∀ i j, |fill m' i j - fill m i j| ≤ e)
    (h w n : ℕ) (hh : 0 < h) (hw : 0 < w) (get get' : ℕ → ℕ → ℕ → ℝ) (hd : ∀ i < h, ∀ j < w, ∀ c < n, |get' i j c - get i j c| ≤ e)
    (xc yc : ℝ) (coefs : List ℝ) (pad : PadArg) :
    (∀ err, unwarpColorImageBackward lstsq (linearInterp B) rnd fill (.color h w n get) xc yc coefs pad = .error err →
      unwarpColorImageBackward lstsq (linearInterp B) rnd fill (.color h w n get') xc yc coefs pad = .error err) ∧
    ∀ out, unwarpColorImageBackward lstsq (linearInterp B) rnd fill (.color h w n get) xc yc coefs pad = .ok out →
      ∃ h1 w1 g g', out = .color h1 w1 n g ∧
        unwarpColorImageBackward lstsq (linearInterp B) rnd fill (.color h w n get') xc yc coefs pad = .ok (.color h1 w1 n g') ∧
        (h1 ≤ 2 ^ 24 → w1 ≤ 2 ^ 24 → ∀ i < h1, ∀ j < w1, ∀ c < n, |g' i j c - g i j c| ≤ e) := by
  unfold unwarpColorImageBackward
  simp only
  cases hp : calcPad lstsq pad h w xc yc coefs with
  | error x => exact ⟨fun err he => he, fun out he => by cases he⟩
  | ok p =>
    simp only [ok_bind]
    split_ifs with hneg
    · exact ⟨fun err he => he, fun out he => by cases he⟩
    · refine ⟨fun err he => (by cases he), fun out he => ?_⟩
      cases he
      refine ⟨_, _, _, _, rfl, rfl, fun b1 b2 i hi j hj c hc => ?_⟩
      have ch : DiffersBy e (channel h w get c) (channel h w get' c) := ⟨rfl, rfl, fun i hi j hj => hd i hi j hj c hc⟩
      have pd : DiffersBy e (padMat fill (channel h w get c) p.t.toNat p.b.toNat p.l.toNat p.r.toNat)
          (padMat fill (channel h w get' c) p.t.toNat p.b.toNat p.l.toNat p.r.toNat) := by
        refine ⟨rfl, rfl, fun i _ j _ => ?_⟩
        simp only [padMat]
        have hch : (channel h w get' c).height = (channel h w get c).height := rfl
        have hcw : (channel h w get' c).width = (channel h w get c).width := rfl
        rw [hch, hcw]
        split_ifs with hin
        · exact ch.pixel _ (by omega) _ (by omega)
        · exact hf _ _ hh hw ch i j
      exact (C125_noise B rnd hr _ _ e pd (xc + (p.l : ℝ)) (yc + (p.t : ℝ)) coefs b1 b2).pixel i hi j hj

/-- Noise of at most 3 in an image of 8 × 9 pixels. -/
example (B : Boundary) (noise : ℕ → ℕ → ℝ) (h : ∀ i j, |noise i j| ≤ 3) :=
  C125_noise B id coordRounding_id ⟨8, 9, fun i j => (10 * i + j : ℕ)⟩ ⟨8, 9, fun i j => (10 * i + j : ℕ) + noise i j⟩ 3 ⟨rfl, rfl, fun i _ j _ => by simpa using h i j⟩
    4 3 [1, -7, 100] (by norm_num) (by norm_num)
/-- The second image is darker by at least 2. -/
example (B : Boundary) := C125_image B id coordRounding_id ⟨8, 9, fun i j => (10 * i + j : ℕ)⟩ ⟨8, 9, fun i j => (10 * i + j : ℕ) - 2⟩ (-2)
  ⟨rfl, rfl, fun i _ j _ => by simp⟩ 4 3 [1, -7, 100] (by norm_num) (by norm_num)
example (B : Boundary) := C125_perspective B id coordRounding_id ⟨8, 9, fun i j => (10 * i + j : ℕ)⟩ ⟨8, 9, fun i j => (10 * i + j : ℕ) - 2⟩ (-2)
  ⟨rfl, rfl, fun i _ j _ => by simp⟩ [1, 2, 3, 4, 5, 6, 1 / 10, 1 / 7] rfl (by norm_num) (by norm_num) (by
    intro i _ j _
    simp only [List.getElem_cons_succ, List.getElem_cons_zero]
    positivity)
example (B : Boundary) := C125_slice B 2 3 2 (fun l => (l.sum : ℝ)) (fun l => (l.sum : ℝ) + 1 / 2) (1 / 2) (fun _ _ _ _ _ _ => le_rfl) 0 0 [1, -7, 100] (by simp) 1
  (by norm_num) (by norm_num) (by norm_num) (by norm_num)
example (B : Boundary) := C125_chunk B id coordRounding_id 2 4 3 (fun l => (l.sum : ℝ)) (fun l => (l.sum : ℝ) + 1 / 2) (1 / 2) (fun _ _ _ _ _ _ => le_rfl) 1 1 [1, 1 / 10] 100 1 2
  (by norm_num) (by norm_num) (by norm_num) (by norm_num) (by norm_num)
  ⟨fun r s h0 h1 h2 => by simp [radial, Fin.sum_univ_two]; nlinarith, fun r h0 h1 => by simp [radial, Fin.sum_univ_two]; nlinarith⟩
  (by
    intro j hj
    rw [Real.sqrt_le_left (by norm_num)]
    have : (j : ℝ) < 3 := by exact_mod_cast hj
    have : (0 : ℝ) ≤ j := Nat.cast_nonneg j
    norm_num; nlinarith)
  (by
    intro j hj
    rw [Real.sqrt_le_left (by norm_num)]
    have : (j : ℝ) < 3 := by exact_mod_cast hj
    have : (0 : ℝ) ≤ j := Nat.cast_nonneg j
    norm_num; nlinarith)
example := C125_forward ⟨8, 9, fun i j => (10 * i + j : ℕ)⟩ ⟨8, 9, fun i j => (10 * i + j : ℕ) + 2⟩ 2 (by norm_num) ⟨rfl, rfl, fun i _ j _ => le_rfl⟩ 4 3 [1, -7, 100]
  (by norm_num) (by norm_num)
/-- 8-bit noise of one grey level. -/
example (B : Boundary) := C125_unsigned .uint8 (by simp [IntType.uint8]) (by simp [IntType.uint8]) B id coordRounding_id ⟨8, 9, fun i j => (10 * i + j : ℕ)⟩
  ⟨8, 9, fun i j => (10 * i + j : ℕ) + (i + j) % 2⟩ 1 (by norm_num) rfl rfl (fun i _ j _ => by
    dsimp only
    refine ⟨by positivity, by omega, ?_⟩
    rw [abs_le]
    constructor <;> omega) 4 3 [1, -7, 100] (by norm_num) (by norm_num) 2 3 (by norm_num) (by norm_num)
example (B : Boundary) := C125_signed .int16 (by simp [IntType.int16]) (by simp [IntType.int16]) B id coordRounding_id ⟨8, 9, fun i j => (i : ℤ) - j⟩
  ⟨8, 9, fun i j => (i : ℤ) - j + (i + j) % 2⟩ 1 (by norm_num) rfl rfl (fun i _ j _ => by
    dsimp only
    rw [abs_le]
    constructor <;> omega) 4 3 [1, -7, 100] (by norm_num) (by norm_num) 2 3 (by norm_num) (by norm_num)

/-- The mode `edge` of `np.pad`, for 10 new rows and 20 new columns at each side: the nearest pixel of the image. -/
def edgeFill (m : Mat ℝ) (i j : ℕ) : ℝ := m.get (min (i - 10) (m.height - 1)) (min (j - 20) (m.width - 1))

theorem edgeFill_differs {e : ℝ} (m m' : Mat ℝ) (hh : 0 < m.height) (hw : 0 < m.width) (h : DiffersBy e m m') (i j : ℕ) :
    |edgeFill m' i j - edgeFill m i j| ≤ e := by
  unfold edgeFill
  rw [h.height, h.width]
  exact h.pixel _ (by omega) _ (by omega)

/-- Noise of at most 3 in a colour image of 8 × 9 pixels, with 10 new rows and 20 new columns at each side. -/
example (lstsq : List (List ℝ) → List ℝ → List ℝ) (B : Boundary) (noise : ℕ → ℕ → ℕ → ℝ) (h : ∀ i j c, |noise i j c| ≤ 3) :
    ∃ g g', unwarpColorImageBackward lstsq (linearInterp B) id edgeFill (.color 8 9 3 fun i j c => (10 * i + j + c : ℕ)) 4 3 [1, -7, 100]
        (.seq [10, 10, 20, 20]) = .ok (.color 28 49 3 g) ∧
      unwarpColorImageBackward lstsq (linearInterp B) id edgeFill (.color 8 9 3 fun i j c => (10 * i + j + c : ℕ) + noise i j c) 4 3 [1, -7, 100]
        (.seq [10, 10, 20, 20]) = .ok (.color 28 49 3 g') ∧ ∀ i < 28, ∀ j < 49, ∀ c < 3, |g' i j c - g i j c| ≤ 3 := by
  have H := (C125_color lstsq B id coordRounding_id edgeFill 3 (fun m m' hh hw => edgeFill_differs m m' hh hw) 8 9 3 (by norm_num) (by norm_num)
    (fun i j c => (10 * i + j + c : ℕ)) (fun i j c => (10 * i + j + c : ℕ) + noise i j c) (fun i _ j _ c _ => by simpa using h i j c) 4 3 [1, -7, 100]
    (.seq [10, 10, 20, 20])).2 _ rfl
  obtain ⟨h1, w1, g, g', e, e', hb⟩ := H
  cases e
  exact ⟨_, g', rfl, e', hb (show (28 : ℕ) ≤ 2 ^ 24 by norm_num) (show (49 : ℕ) ≤ 2 ^ 24 by norm_num)⟩

end Discorpy
