import Verif.Props.C84
import Verif.Props.C85
import Verif.Props.C130

/-! # C131 — the contrast does not change the results of the scripts that correct the background -/

namespace Discorpy

open Spec

theorem median_scaled {m m' : Mat ℝ} {c : ℝ} (hc : 0 < c) (hh : m'.height = m.height) (hw : m'.width = m.width)
    (hm : ∀ i < m.height, ∀ j < m.width, m'.get i j = c * m.get i j) {i j : ℕ} (hi : i < m.height) (hj : j < m.width) :
    (medianFilter { m' with get := fun i j => |m'.get i j| } 2 2).get i j = c * (medianFilter { m with get := fun i j => |m.get i j| } 2 2).get i j := by
  have h1 := medianFilter_two { m' with get := fun i j => |m'.get i j| } (i := i) (j := j) (by show i < m'.height; omega) (by show j < m'.width; omega)
  have h2 := isRank_scale hc (medianFilter_two { m with get := fun i j => |m.get i j| } (i := i) (j := j) hi hj)
  have key : ∀ k < m.height, ∀ l < m.width, |m'.get k l| = c * |m.get k l| := fun k hk l hl => by rw [hm k hk l hl, abs_mul, abs_of_pos hc]
  simp only [List.map_cons, List.map_nil] at h2
  simp only [key _ (show i - 1 < m.height by omega) _ (show j - 1 < m.width by omega), key _ (show i - 1 < m.height by omega) _ hj,
    key _ hi _ (show j - 1 < m.width by omega), key _ hi _ hj] at h1
  exact isRank_unique h1 h2

/-- The mask for a given threshold is the one for the scaled image and threshold. -/
theorem binarization_given_scaled {otsu : Mat ℝ → Except PyErr ℝ} {m m' : Mat ℝ} {c : ℝ} (hc : 0 < c) (hh : m'.height = m.height) (hw : m'.width = m.width)
    (hm : ∀ i < m.height, ∀ j < m.width, m'.get i j = c * m.get i j) {ratio t : ℝ} {b : Mat ℤ} (hb : binarization otsu m ratio (some t) true = .ok b) :
    binarization otsu m' ratio (some (c * t)) true = .ok b := by
  have hpos := binarization_pos hb
  obtain ⟨s1, s2, _⟩ := C81_shape _ _ _ _ _ _ hb
  have hb0 := hb
  rw [binarization_denoise] at hb ⊢
  obtain ⟨b1, b2, e1, e2, hs⟩ := binarization_congr (otsu := otsu) (ratio := ratio) (t := t) (t' := c * t)
    (m := medianFilter { m with get := fun i j => |m.get i j| } 2 2) (m' := medianFilter { m' with get := fun i j => |m'.get i j| } 2 2)
    (by show 0 < m.height; omega) (by show 0 < m.width; omega) hh hw
    (fun i hi j hj => by
      rw [median_scaled hc hh hw hm hi hj]
      exact (mul_lt_mul_iff_right₀ hc).symm)
  rw [hb] at e1
  cases e1
  rw [← binarization_same hb e2 hs]
  exact e2

/-- The mask with the automatic threshold is the one of the scaled image. -/
theorem binarization_auto_scaled {n : ℕ} (hn : 2 ≤ n) {m m' : Mat ℝ} {c : ℝ} (hc : 0 < c) (hh : m'.height = m.height) (hw : m'.width = m.width)
    (hm : ∀ i < m.height, ∀ j < m.width, m'.get i j = c * m.get i j) {ratio : ℝ} {b : Mat ℤ}
    (hb : binarization (thresholdOtsu false n) m ratio none true = .ok b) : binarization (thresholdOtsu false n) m' ratio none true = .ok b := by
  have hpos := binarization_pos hb
  obtain ⟨s1, s2, _⟩ := C81_shape _ _ _ _ _ _ hb
  rw [binarization_sameImage (m' := ⟨m.height, m.width, fun i j => c * m.get i j⟩) ⟨hh, hw, fun i hi j hj => hm i (by omega) j (by omega)⟩ (by omega) (by omega),
    binarization_scale hn hc (by omega) (by omega)]
  exact hb

theorem normalized_pos {m out : Mat ℝ} {sigma : ℝ} {pad : ℕ} (h : normalizationFft padReflect m sigma pad = .ok out) : 0 < m.height ∧ 0 < m.width ∧ sigma ≠ 0 := by
  obtain ⟨e1, e2⟩ := C85_fft_errors padReflect m sigma pad
  by_cases hs : m.height = 0 ∨ m.width = 0
  · rw [e1 hs] at h
    cases h
  · refine ⟨by omega, by omega, fun h0 => ?_⟩
    rw [e2 (by omega) (by omega) h0] at h
    cases h

theorem normalized_scaled {m out : Mat ℝ} {sigma : ℝ} {pad : ℕ} {c : ℝ} (hc : 0 < c) (h : normalizationFft padReflect m sigma pad = .ok out) :
    ∃ out', normalizationFft padReflect (exposed c 0 m) sigma pad = .ok out' ∧ out.height = m.height ∧ out.width = m.width ∧ out'.height = out.height ∧ out'.width = out.width ∧
      ∀ i < out.height, ∀ j < out.width, out'.get i j = c * out.get i j := by
  obtain ⟨h0, w0, hs⟩ := normalized_pos h
  have hsz : out.height = m.height ∧ out.width = m.width := by
    have := C85_fft padReflect m h0 w0 sigma hs pad
    rw [h] at this
    obtain ⟨n1, n2⟩ := this
    by_cases hz : ∃ i < m.height, ∃ j < m.width, gaussBackground m padReflect sigma pad i j = 0
    · cases n1 hz
    · push Not at hz
      obtain ⟨o, ho, q1, q2, _⟩ := n2 hz
      cases ho
      exact ⟨q1, q2⟩
  rcases C85_fft_scale padReflect padReflect_padding m (exposed c 0 m) h0 w0 c hc.ne' rfl rfl (fun i _ j _ => by simp [exposed]) sigma hs pad with ⟨h1, _⟩ | ⟨o, o', e1, e2, q1, q2, q3⟩
  · rw [h] at h1
    cases h1
  · rw [h] at e1
    cases e1
    exact ⟨o', e2, hsz.1, hsz.2, q1, q2, fun i hi j hj => q3 i (by omega) j (by omega)⟩

/-- **C131 (masks).** With correction of the background the mask is the same for every contrast of the photograph, with Otsu's threshold as well as with the one computed from the noise. -/
theorem C131_mask (lib : Libs) (n : ℕ) (hn : 2 ≤ n) (hotsu : lib.otsu = thresholdOtsu false n) (hpf : PolyfitSpec lib.polyfit) (zoom : List ℝ → ℕ → List ℝ) (hzoom : IsResampling zoom)
    (m : Mat ℝ) (h5 : 5 ≤ max m.height m.width) (c : ℝ) (hc : 0 < c) (o : BinOpt) (b : Mat ℤ) (h : dotBinary lib zoom m o = .ok b) :
    dotBinary lib zoom (exposed c 0 m) o = .ok b := by
  cases o with
  | plain =>
    simp only [dotBinary, hotsu] at h ⊢
    exact binarization_auto_scaled (m := m) (m' := exposed c 0 m) hn hc rfl rfl (fun i _ j _ => by simp [exposed]) h
  | normed sigma ratio =>
    simp only [dotBinary, hotsu, bind_ok_iff] at h ⊢
    obtain ⟨out, e1, h⟩ := h
    obtain ⟨out', e2, _, _, q1, q2, q3⟩ := normalized_scaled hc e1
    exact ⟨out', e2, binarization_auto_scaled hn hc q1 q2 q3 h⟩
  | noise sigma snr ratio =>
    simp only [dotBinary, bind_ok_iff] at h ⊢
    obtain ⟨out, e1, t, et, h⟩ := h
    obtain ⟨out', e2, o1, o2, q1, q2, q3⟩ := normalized_scaled hc e1
    obtain ⟨h0, w0, _⟩ := normalized_pos e1
    obtain ⟨t', et', et2⟩ := C84_affine zoom hzoom lib.polyfit hpf out out' c 0 hc q1 q2 (fun i hi j hj => by rw [q3 i hi j hj, add_zero]) (by omega) (by omega) (by rw [o1, o2]; exact h5) true snr
    rw [et] at et'
    cases et'
    rw [add_zero] at et2
    exact ⟨out', e2, _, et2, binarization_given_scaled hc q1 q2 q3 h⟩

/-- **C131 (demo_03).** The script demo_03.py finds the same mask, lines, residuals and model for every contrast of the photograph; the corrected photographs and the saved differences have the same
contrast. -/
theorem C131_demo03 (lib : Libs) (n : ℕ) (hn : 2 ≤ n) (hotsu : lib.otsu = thresholdOtsu false n) (hpf : PolyfitSpec lib.polyfit) (zoom : List ℝ → ℕ → List ℝ) (hzoom : IsResampling zoom)
    (B : Boundary) (hS : lib.sample = linearInterp B) (hr : CoordRounding lib.float32) (m : Mat ℝ) (hh : m.height ≤ 2 ^ 24) (hw : m.width ≤ 2 ^ 24) (h5 : 5 ≤ max m.height m.width)
    (c : ℝ) (hc : 0 < c) (fsolve : (ℝ × ℝ → ℝ × ℝ) → ℝ × ℝ → ℝ × ℝ) (numCoef : ℤ) {α : Type} (D : Disk α) (file file' : FilePath)
    (l1 : loadImageAt D.decode D.fs file true = .ok (.gray m)) (l2 : loadImageAt D.decode D.fs file' true = .ok (.gray (exposed c 0 m)))
    (b : Mat ℤ) (f : DotsFound) (run : LineRun) (h : demo03 lib zoom fsolve numCoef D file = .ok (b, f, run)) :
    ∃ run', demo03 lib zoom fsolve numCoef D file' = .ok (b, f, run') ∧ SameLineRun (IsExposed c 0) (IsExposed c 0) run run' := by
  unfold demo03 demo03Rest at h ⊢
  simp only [l1, l2, ok_bind, asGray, bind_ok_iff] at h ⊢
  obtain ⟨b0, e1, ⟨f0, run0⟩, ⟨f1, e2, before, e3, grid, e5, run1, e6, h'⟩, h⟩ := h
  cases h'
  cases h
  obtain ⟨run', e7, hs⟩ := radialRun_related (images_exposed hS hr m hh hw c 0) e6
  exact ⟨run', ⟨b, C131_mask lib n hn hotsu hpf zoom hzoom m h5 c hc _ b e1, (f, run'), ⟨f, e2, before, e3, grid, e5, run', e7, rfl⟩, rfl⟩, hs⟩

/-- **C131 (example_03).** Likewise for example_03.py, with and without correction of the perspective. -/
theorem C131_example03 (lib : Libs) (n : ℕ) (hn : 2 ≤ n) (hotsu : lib.otsu = thresholdOtsu false n)
    (B : Boundary) (hS : lib.sample = linearInterp B) (hr : CoordRounding lib.float32) (m : Mat ℝ) (hh : m.height ≤ 2 ^ 24) (hw : m.width ≤ 2 ^ 24)
    (c : ℝ) (hc : 0 < c) (fsolve : (ℝ × ℝ → ℝ × ℝ) → ℝ × ℝ → ℝ × ℝ) (numCoef : ℤ) (perspective : Bool) {α : Type} (D : Disk α) (file file' : FilePath)
    (l1 : loadImageAt D.decode D.fs file true = .ok (.gray m)) (l2 : loadImageAt D.decode D.fs file' true = .ok (.gray (exposed c 0 m)))
    (b : Mat ℤ) (f : DotsFound) (run : Example03Run) (h : example03 lib fsolve numCoef perspective D file = .ok (b, f, run)) :
    ∃ run', example03 lib fsolve numCoef perspective D file' = .ok (b, f, run') ∧ SameExample03 c run run' := by
  unfold example03 example03Rest at h ⊢
  simp only [l1, l2, ok_bind, asGray, bind_ok_iff] at h ⊢
  obtain ⟨b0, e1, ⟨f0, run0⟩, ⟨f1, e2, sg, e3, used, e4, ctr, e5, ⟨fw, bw, wn⟩, e6, bad, e7, h'⟩, h⟩ := h
  cases h'
  cases h
  have hb : dotBinary lib (fun l _ => l) (exposed c 0 m) example03Opts.bin = .ok b := by
    simp only [example03Opts, dotBinary, hotsu, bind_ok_iff] at e1 ⊢
    obtain ⟨out, g1, g2⟩ := e1
    obtain ⟨out', g3, _, _, q1, q2, q3⟩ := normalized_scaled hc g1
    exact ⟨out', g3, binarization_auto_scaled hn hc q1 q2 q3 g2⟩
  have himg := (images_exposed hS hr m hh hw c 0).image ctr bw
  refine ⟨_, ⟨b, hb, (f, _), ⟨f, e2, sg, e3, used, e4, ctr, e5, (fw, bw, wn), e6, bad, e7, rfl⟩, rfl⟩, rfl, rfl, rfl, rfl, rfl, rfl, himg, ?_, rfl, rfl⟩
  refine ⟨himg.1, himg.2.1, fun i hi j hj => ?_⟩
  have := himg.2.2 i hi j hj
  simp only [add_zero] at this ⊢
  rw [this]
  simp only [exposed, add_zero]
  rw [← mul_sub, abs_mul, abs_of_pos hc]

/-- **C131 (unwarp.py).** And for unwarp.py with the option `-f norm`. -/
theorem C131_unwarp (lib : Libs) (n : ℕ) (hn : 2 ≤ n) (hotsu : lib.otsu = thresholdOtsu false n) (B : Boundary) (hS : lib.sample = linearInterp B)
    (hr : CoordRounding lib.float32) (m : Mat ℝ) (hh : m.height ≤ 2 ^ 24) (hw : m.width ≤ 2 ^ 24) (c : ℝ) (hc : 0 < c)
    (fsolve : (ℝ × ℝ → ℝ × ℝ) → ℝ × ℝ → ℝ × ℝ) {α : Type} (D : Disk α) (store : ℝ → ℝ) (args : UnwarpArgs) (hf : args.flat = .norm) (input' : FilePath)
    (l1 : scriptLoad D args.input args.key = .ok m) (l2 : scriptLoad D input' args.key = .ok (exposed c 0 m)) (r : UnwarpRun)
    (h : unwarpScript lib fsolve D store args = .ok r) :
    ∃ r', unwarpScript lib fsolve D store { args with input := input' } = .ok r' ∧ r'.found = r.found ∧ IsExposed c 0 r.image r'.image := by
  unfold unwarpScript at h ⊢
  simp only [l1, l2, ok_bind, hf, dotImage] at h ⊢
  rw [bind_ok_iff] at h
  obtain ⟨out, g1, h⟩ := h
  obtain ⟨out', g3, _, _, q1, q2, q3⟩ := normalized_scaled hc g1
  rw [g3, ok_bind]
  unfold unwarpSteps at h ⊢
  rw [bind_ok_iff] at h
  obtain ⟨b, hb1, h⟩ := h
  have hb2 : binarization lib.otsu out' 0.3 none true = .ok b := by
    rw [hotsu] at hb1 ⊢
    exact binarization_auto_scaled hn hc q1 q2 q3 hb1
  rw [hb2, ok_bind]
  simp only [bind_ok_iff] at h
  obtain ⟨⟨s, d⟩, e1, sel, e2, hs, e3, vs, e4, ho, e5, ve, e6, ho', e7, ve', e8, r1, e9, r2, e10, ⟨uh, uv⟩, e11, ctr, e12, ⟨c0, coefs, w⟩, e13, bk, e14, h⟩ := h
  cases h
  obtain ⟨bk', e15, p1, p2, p3, p4, p5, p6⟩ := correctBackward_related (images_exposed hS hr m hh hw c 0).image e14
  simp only [e1, e2, e3, e4, e5, e6, e7, e8, e9, e10, e11, e12, e13, e15, ok_bind]
  exact ⟨_, rfl, by rw [p3, p4, p5], p6⟩

theorem bilinear_scaled {c : ℝ} {m m' : Mat ℝ} (h : IsExposed c 0 m m') {y x : ℝ} (hf : Spec.InFrame m y x) : bilinear m' y x = c * bilinear m y x := by
  have hh := hf.height_pos
  have hw := hf.width_pos
  obtain ⟨fy, fx⟩ := hf.floor_lt
  obtain ⟨e1, e2, e3⟩ := h
  unfold bilinear
  simp only [e1, e2, e3 _ fy _ fx, e3 _ fy (min (⌊x⌋₊ + 1) (m.width - 1)) (by omega), e3 (min (⌊y⌋₊ + 1) (m.height - 1)) (by omega) _ fx,
    e3 (min (⌊y⌋₊ + 1) (m.height - 1)) (by omega) (min (⌊x⌋₊ + 1) (m.width - 1)) (by omega)]
  ring

theorem perspective_scaled (B : Boundary) {rnd : ℝ → ℝ} (hr : CoordRounding rnd) {c : ℝ} {m m' : Mat ℝ} (h : IsExposed c 0 m m') (hh : m.height ≤ 2 ^ 24) (hw : m.width ≤ 2 ^ 24)
    {coefs : List ℝ} {out : Mat ℝ} (e : correctPerspectiveImage (linearInterp B) rnd m coefs none = .ok out) :
    ∃ out', correctPerspectiveImage (linearInterp B) rnd m' coefs none = .ok out' ∧ out.height = m.height ∧ out.width = m.width ∧ IsExposed c 0 out out' := by
  by_cases hl : coefs.length = 8
  · match coefs, hl with
    | [c1, c2, c3, c4, c5, c6, c7, c8], _ =>
      cases e
      refine ⟨_, rfl, rfl, rfl, h.1, h.2.1, fun i hi j hj => ?_⟩
      replace hi : i < m.height := hi
      replace hj : j < m.width := hj
      have hf := fun y x => inFrame_rnd hr (inFrame_clip (m := m) (by omega) (by omega) y x) (by omega) (by omega) hh hw
      have hf' := fun y x => inFrame_rnd hr (inFrame_clip (m := m') (by have := h.1; omega) (by have := h.2.1; omega) y x) (by have := h.1; omega) (by have := h.2.1; omega)
        (by rw [h.1]; exact hh) (by rw [h.2.1]; exact hw)
      simp only
      rw [linearInterp_eq B _ (hf _ _), linearInterp_eq B _ (hf' _ _), h.1, h.2.1, bilinear_scaled h (hf _ _), add_zero]
  · rw [correctPerspectiveImage, if_pos hl] at e
    cases e

/-- **C131 (demo_05).** Likewise for demo_05.py, including the image corrected for perspective. -/
theorem C131_demo05 (lib : Libs) (n : ℕ) (hn : 2 ≤ n) (hotsu : lib.otsu = thresholdOtsu false n) (hpf : PolyfitSpec lib.polyfit) (zoom : List ℝ → ℕ → List ℝ) (hzoom : IsResampling zoom)
    (B : Boundary) (hS : lib.sample = linearInterp B) (hr : CoordRounding lib.float32) (m : Mat ℝ) (hh : m.height ≤ 2 ^ 24) (hw : m.width ≤ 2 ^ 24) (h5 : 5 ≤ max m.height m.width)
    (c : ℝ) (hc : 0 < c) (fsolve : (ℝ × ℝ → ℝ × ℝ) → ℝ × ℝ → ℝ × ℝ) (numCoef : ℤ) {α : Type} (D : Disk α) (file file' : FilePath)
    (l1 : loadImageAt D.decode D.fs file true = .ok (.gray m)) (l2 : loadImageAt D.decode D.fs file' true = .ok (.gray (exposed c 0 m)))
    (b : Mat ℤ) (f : DotsFound) (r : PerspRun) (h : demo05 lib zoom fsolve numCoef D file = .ok (b, f, r)) :
    ∃ r', demo05 lib zoom fsolve numCoef D file' = .ok (b, f, r') ∧ SamePerspRun c r r' := by
  unfold demo05 demo05Rest at h ⊢
  simp only [l1, l2, ok_bind, asGray, bind_ok_iff] at h ⊢
  obtain ⟨b0, e1, ⟨f0, r0⟩, ⟨f1, e2, before, e3, pl, e4, grid, e5, model, e6, lines, e7, after, e8, ⟨src, tgt⟩, e9, coefs, e10, image, e11, h'⟩, h⟩ := h
  cases h'
  cases h
  have hi := images_exposed hS hr m hh hw c 0
  have himg := hi.image model.centre model.coefs
  obtain ⟨image', e12, s1, s2, hp⟩ := perspective_scaled B hr himg hh hw (coefs := coefs) (out := image) (by rw [← hS]; exact e11)
  rw [← hS] at e12
  refine ⟨_, ⟨b, C131_mask lib n hn hotsu hpf zoom hzoom m h5 c hc _ b e1, (f, _), ⟨f, e2, before, e3, pl, e4, grid, e5, model, e6, lines, e7, after, e8, (src, tgt), e9, coefs, e10,
    image', e12, rfl⟩, rfl⟩, ⟨rfl, rfl, rfl, rfl, rfl, rfl, himg, hi.difference model.centre model.coefs⟩, rfl, rfl, rfl, rfl, ⟨hp.1, hp.2.1, fun k _ i hi' j hj' _ => ?_⟩,
    ⟨hp.1, hp.2.1, fun k _ i hi' j hj' _ => ?_⟩⟩
  · rw [hp.2.2 i hi' j hj', add_zero]
  · have h1 := hp.2.2 i hi' j hj'
    have h2 := himg.2.2 i (lt_of_lt_of_eq hi' s1) j (lt_of_lt_of_eq hj' s2)
    simp only [subMat] at h1 h2 ⊢
    rw [h1, h2]
    ring

/-- A faint pattern on a bright field has a background without zeros. -/
theorem faint_background (h w : ℕ) (h0 : 0 < h) (w0 : 0 < w) (he : Even h) (we : Even w) (p : ℕ → ℕ → ℝ) (sigma : ℝ) (hs : sigma ≠ 0) (pad : ℕ) :
    ∃ d > 0, ∃ out, normalizationFft padReflect ⟨h, w, fun i j => 1 + d * p i j⟩ sigma pad = .ok out ∧ out.height = h ∧ out.width = w := by
  set A := gaussBackground ⟨h, w, fun _ _ => 1⟩ padReflect sigma pad with hA
  set P := gaussBackground ⟨h, w, p⟩ padReflect sigma pad with hP
  have hA0 : ∀ i < h, ∀ j < w, A i j ≠ 0 := by
    intro i hi j hj hz
    obtain ⟨o, e, _⟩ := C85_fft_uniform padReflect padReflect_padding ⟨h, w, fun _ _ => 1⟩ h0 w0 he we 1 one_ne_zero (fun _ _ _ _ => rfl) sigma hs pad
    rw [(C85_fft padReflect ⟨h, w, fun _ _ => 1⟩ h0 w0 sigma hs pad).1 ⟨i, hi, j, hj, hz⟩] at e
    cases e
  have hlin : ∀ d i j, gaussBackground ⟨h, w, fun i j => 1 + d * p i j⟩ padReflect sigma pad i j = A i j + d * P i j := by
    intro d i j
    rw [hA, hP]
    unfold gaussBackground
    simp only [Finset.mul_sum, ← Finset.sum_add_distrib]
    refine Finset.sum_congr rfl fun y _ => Finset.sum_congr rfl fun x _ => ?_
    ring
  have hfin : ((fun q : ℕ × ℕ => -(A q.1 q.2 / P q.1 q.2)) '' ((Finset.range h ×ˢ Finset.range w : Finset (ℕ × ℕ)) : Set (ℕ × ℕ))).Finite :=
    (Finset.finite_toSet _).image _
  obtain ⟨d, hd, hnot⟩ := ((Set.Ioi_infinite (0 : ℝ)).diff hfin).nonempty
  obtain ⟨out, e, e1, e2, _⟩ := (C85_fft padReflect ⟨h, w, fun i j => 1 + d * p i j⟩ h0 w0 sigma hs pad).2 (by
    intro i hi j hj hz
    rw [hlin] at hz
    have hP0 : P i j ≠ 0 := fun hz' => hA0 i hi j hj (by rw [hz', mul_zero, add_zero] at hz; exact hz)
    refine hnot ⟨(i, j), by simpa using ⟨hi, hj⟩, ?_⟩
    simp only
    field_simp
    linarith)
  exact ⟨d, hd, out, e, e1, e2⟩

/-- Non-vacuity: a faint pattern of dots, with the options of demo_03.py, photographed with 180.5 times the light. -/
example (m : Mat ℝ) (hm : makeDotPattern 200 200 15 9 (.int 1) = .ok m) : ∃ d > 0, ∃ b, dotBinary refLibs nearestZoom ⟨200, 200, fun i j => 1 + d * m.get i j⟩ (.noise 20 3 0.5) = .ok b ∧
    dotBinary refLibs nearestZoom (exposed 180.5 0 ⟨200, 200, fun i j => 1 + d * m.get i j⟩) (.noise 20 3 0.5) = .ok b := by
  obtain ⟨d, hd, out, e, e1, e2⟩ := faint_background 200 200 (by norm_num) (by norm_num) ⟨100, rfl⟩ ⟨100, rfl⟩ m.get 20 (by norm_num) 100
  obtain ⟨t, et, _⟩ := C84_affine nearestZoom nearestZoom_resampling refPolyfit refPolyfit_spec out out 1 0 one_pos rfl rfl (fun _ _ _ _ => by ring) (by omega) (by omega)
    (by rw [e1, e2]; norm_num) true 3
  obtain ⟨_, b, _, eb, _⟩ := C81_denoise refLibs.otsu out 0.5 t (by omega) (by omega)
  have hb : dotBinary refLibs nearestZoom ⟨200, 200, fun i j => 1 + d * m.get i j⟩ (.noise 20 3 0.5) = .ok b := by
    simp only [dotBinary, bind_ok_iff]
    exact ⟨out, e, t, et, eb⟩
  exact ⟨d, hd, b, hb, C131_mask refLibs 512 (by norm_num) rfl refPolyfit_spec nearestZoom nearestZoom_resampling _ (by norm_num) 180.5 (by norm_num) _ b hb⟩

/-- `demo_03.py`, `demo_05.py`, `example_03.py` and `unwarp.py -f norm` on two such files, if they end for the first. -/
example {m : Mat ℝ} (hm : makeDotPattern 200 200 15 9 (.int 1) = .ok m) (fsolve : (ℝ × ℝ → ℝ × ℝ) → ℝ × ℝ → ℝ × ℝ) (D : Disk Img) (file file' : FilePath)
    (l1 : loadImageAt D.decode D.fs file true = .ok (.gray m)) (l2 : loadImageAt D.decode D.fs file' true = .ok (.gray (exposed 180.5 0 m))) (b : Mat ℤ) (f : DotsFound) :
    (∀ run, demo03 refLibs nearestZoom fsolve 5 D file = .ok (b, f, run) → ∃ run', demo03 refLibs nearestZoom fsolve 5 D file' = .ok (b, f, run') ∧ run'.model = run.model) ∧
    (∀ run, demo05 refLibs nearestZoom fsolve 5 D file = .ok (b, f, run) → ∃ run', demo05 refLibs nearestZoom fsolve 5 D file' = .ok (b, f, run') ∧ run'.coefs = run.coefs) ∧
    ∀ run, example03 refLibs fsolve 5 true D file = .ok (b, f, run) → ∃ run', example03 refLibs fsolve 5 true D file' = .ok (b, f, run') ∧ run'.backward = run.backward := by
  obtain ⟨p1, p2, _⟩ := drawn13_pixels hm
  refine ⟨fun run h => ?_, fun run h => ?_, fun run h => ?_⟩
  · obtain ⟨run', e, hs⟩ := C131_demo03 refLibs 512 (by norm_num) rfl refPolyfit_spec nearestZoom nearestZoom_resampling _ rfl coordRounding_id m (by rw [p1]; norm_num) (by rw [p2]; norm_num)
      (by rw [p1, p2]; norm_num) 180.5 (by norm_num) fsolve 5 D file file' l1 l2 b f run h
    exact ⟨run', e, hs.model⟩
  · obtain ⟨run', e, hs⟩ := C131_demo05 refLibs 512 (by norm_num) rfl refPolyfit_spec nearestZoom nearestZoom_resampling _ rfl coordRounding_id m (by rw [p1]; norm_num) (by rw [p2]; norm_num)
      (by rw [p1, p2]; norm_num) 180.5 (by norm_num) fsolve 5 D file file' l1 l2 b f run h
    exact ⟨run', e, hs.coefs⟩
  · obtain ⟨run', e, hs⟩ := C131_example03 refLibs 512 (by norm_num) rfl _ rfl coordRounding_id m (by rw [p1]; norm_num) (by rw [p2]; norm_num)
      180.5 (by norm_num) fsolve 5 true D file file' l1 l2 b f run h
    exact ⟨run', e, hs.backward⟩

example {m : Mat ℝ} (hm : makeDotPattern 200 200 15 9 (.int 1) = .ok m) (fsolve : (ℝ × ℝ → ℝ × ℝ) → ℝ × ℝ → ℝ × ℝ) (D : Disk Img) (file file' : FilePath)
    (l1 : scriptLoad D file none = .ok m) (l2 : scriptLoad D file' none = .ok (exposed 180.5 0 m)) (r : UnwarpRun)
    (h : unwarpScript refLibs fsolve D id ⟨file, none, .norm, 5, none⟩ = .ok r) :
    ∃ r', unwarpScript refLibs fsolve D id ⟨file', none, .norm, 5, none⟩ = .ok r' ∧ r'.found = r.found := by
  obtain ⟨p1, p2, _⟩ := drawn13_pixels hm
  obtain ⟨r', e, q, _⟩ := C131_unwarp refLibs 512 (by norm_num) rfl _ rfl coordRounding_id m (by rw [p1]; norm_num) (by rw [p2]; norm_num) 180.5 (by norm_num) fsolve D id
    ⟨file, none, .norm, 5, none⟩ rfl file' l1 l2 r h
  exact ⟨r', e, q⟩

end Discorpy
