import Verif.Props.C106
import Verif.Props.C131
import Verif.Props.C133

/-! # C134 — the contrast of a photograph does not change the calibration of a fisheye camera with dots or a chessboard -/

namespace Discorpy

open Spec

theorem fftFilter_factor (padIdx : ℕ → ℤ → ℕ) (c : ℝ) (m : Mat ℝ) (sigma : ℝ) (pad : ℕ) :
    applyFftFilter padIdx (exposed c 0 m) sigma pad = (applyFftFilter padIdx m sigma pad).map (exposed c 0) := by
  unfold applyFftFilter
  have h1 : (exposed c 0 m).height = m.height := rfl
  have h2 : (exposed c 0 m).width = m.width := rfl
  have h3 : ∀ i j, (exposed c 0 m).get i j = c * m.get i j := fun i j => add_zero _
  simp only [h1, h2, h3]
  split_ifs
  · rfl
  · rfl
  · show Except.ok _ = Except.ok _
    congr 1
    simp only [exposed, Mat.mk.injEq, true_and, add_zero]
    funext i j
    simp only [Complex.ofReal_mul, fftFilter_smul, Complex.re_ofReal_mul]

theorem divide_factor {c : ℝ} (hc : 0 < c) (m b : Mat ℝ) : divideBackground (exposed c 0 m) (exposed c 0 b) = (divideBackground m b).map (exposed c 0) := by
  unfold divideBackground
  have hf : (exposed c 0 b).flat = b.flat.map fun x => c * x := by
    have := flat_map b fun x => c * x
    simpa only [exposed, add_zero] using this
  rw [hf, npMean_factor]
  cases npMean b.flat with
  | error e => rfl
  | ok M =>
    simp only [Except.map, ok_bind, List.any_map, Function.comp_def, mul_eq_zero, hc.ne', false_or]
    split_ifs
    · rfl
    · show Except.ok _ = Except.ok _
      congr 1
      simp only [exposed, Mat.mk.injEq, true_and, add_zero]
      funext i j
      rw [show c * M * (c * m.get i j) = c * (c * (M * m.get i j)) by ring, mul_div_mul_left _ _ hc.ne', mul_div_assoc]

theorem fft_factor (padIdx : ℕ → ℤ → ℕ) {c : ℝ} (hc : 0 < c) (m : Mat ℝ) (sigma : ℝ) (pad : ℕ) :
    normalizationFft padIdx (exposed c 0 m) sigma pad = (normalizationFft padIdx m sigma pad).map (exposed c 0) := by
  unfold normalizationFft
  rw [fftFilter_factor]
  cases applyFftFilter padIdx m sigma pad with
  | error e => rfl
  | ok b => exact divide_factor hc m b

/-- **C134 (background).** `normalization_fft` of an image multiplied by a factor is the result multiplied by the factor, or the same error. -/
theorem C134_fft (padIdx : ℕ → ℤ → ℕ) (m : Mat ℝ) (c : ℝ) (hc : 0 < c) (sigma : ℝ) (pad : ℕ) :
    normalizationFft padIdx (exposed c 0 m) sigma pad = (normalizationFft padIdx m sigma pad).map (exposed c 0) := fft_factor padIdx hc m sigma pad

theorem fisheyeChess_factor (lib : Libs) (hpf : PolyfitSpec lib.polyfit) (hS : SamplesContrast lib.sample) (hr : lib.float32 = id) (ext : LineLibs) (h1 : KeepsContrast ext.fft5)
    (h2 : KeepsContrast ext.filter2) (h3 : KeepsExposure ext.chess) (s : ℝ) (m : Mat ℝ) {c : ℝ} (hc : 0 < c) :
    fisheyeLines lib ext true s (exposed c 0 m) = fisheyeLines lib ext true s m := by
  have a := fun (E : Ext) ra rg rd (t : ℝ) b dn nm sb sel => (C133_chessboard E ext.filter2 ext.chess h3 lib.radon m c 0 hc ra rg rd t b dn nm sb sel)
  have b := fun sl di ra (of : ℝ) br nm dn sb hb rd (t : ℝ) sel =>
    (C133_cross ⟨lib.polyfit, lib.argsort, ext.gaussFilter, ext.gaussFit⟩ hpf lib.sample hS ext.fft5 ext.filter2 h1 h2 m c 0 hc sl di ra of br nm dn sb hb rd t sel)
  unfold fisheyeLines
  simp only [hr, (a _ _ _ _ _ _ _ _ _ _).1, (a _ _ _ _ _ _ _ _ _ _).2, (b _ _ _ _ true _ _ _ (.inl rfl) _ _ _).1, (b _ _ _ _ true _ _ _ (.inl rfl) _ _ _).2]

theorem fisheyeDots_factor (lib : Libs) (n : ℕ) (hn : 2 ≤ n) (hotsu : lib.otsu = thresholdOtsu false n) (m : Mat ℝ) {c : ℝ} (hc : 0 < c) (pts : FisheyePoints) (h : fisheyeDots lib m = .ok pts) :
    fisheyeDots lib (exposed c 0 m) = .ok pts := by
  unfold fisheyeDots at h ⊢
  obtain ⟨b, e1, h⟩ := bind_ok_iff.1 h
  refine bind_ok_iff.2 ⟨b, ?_, h⟩
  rw [hotsu] at e1 ⊢
  exact binarization_auto_scaled (m := m) (m' := exposed c 0 m) hn hc rfl rfl (fun i _ j _ => by simp [exposed]) e1

/-- **C134 (points).** The points, slopes and distances found in a photograph of dots or of a chessboard are the same for every contrast. -/
theorem C134_points (lib : Libs) (n : ℕ) (hn : 2 ≤ n) (hotsu : lib.otsu = thresholdOtsu false n) (hpf : PolyfitSpec lib.polyfit) (hS : SamplesContrast lib.sample) (hr : lib.float32 = id)
    (ext : LineLibs) (h1 : KeepsContrast ext.fft5) (h2 : KeepsContrast ext.filter2) (h3 : KeepsExposure ext.chess) (target : FisheyeTarget) (ht : target = .dots ∨ target = .chessboard) (m : Mat ℝ) (c : ℝ)
    (hc : 0 < c) (pts : FisheyePoints) (h : fisheyeFind lib ext m target = .ok pts) : fisheyeFind lib ext (exposed c 0 m) target = .ok pts := by
  rcases ht with rfl | rfl
  · exact fisheyeDots_factor lib n hn hotsu m hc pts h
  · exact (fisheyeChess_factor lib hpf hS hr ext h1 h2 h3 0.3 m hc).trans h

theorem unwarpPadded_factor {S : Sampler} (hS : SamplesContrast S) (rnd : ℝ → ℝ) {c : ℝ} (hc : 0 < c) (m : Mat ℝ) (p : Pads) (xc yc : ℝ) (fact : List ℝ) :
    unwarpPadded S rnd (fun _ _ _ => 0) (exposed c 0 m) p xc yc fact = exposed c 0 (unwarpPadded S rnd (fun _ _ _ => 0) m p xc yc fact) := by
  have hp : ∀ t b l r, padMat (fun _ _ _ => 0) (exposed c 0 m) t b l r = exposed c 0 (padMat (fun _ _ _ => 0) m t b l r) := by
    intro t b l r
    simp only [padMat, exposed, Mat.mk.injEq, true_and]
    funext i j
    by_cases h : t ≤ i ∧ i < t + m.height ∧ l ≤ j ∧ j < l + m.width
    · exact (if_pos h).trans (by rw [if_pos h])
    · exact (if_neg h).trans (by rw [if_neg h]; ring)
  unfold unwarpPadded
  simp only [hp, hS c hc]
  simp only [exposed, add_zero]

theorem unwarpColor_factor (lstsq : LstsqFn) {S : Sampler} (hS : SamplesContrast S) (rnd : ℝ → ℝ) {c : ℝ} (hc : 0 < c) (img : Img) (xc yc : ℝ) (fact : List ℝ) (pad : PadArg) :
    unwarpColorImageBackward lstsq S rnd (fun _ _ _ => 0) (contrastImg c img) xc yc fact pad =
      (unwarpColorImageBackward lstsq S rnd (fun _ _ _ => 0) img xc yc fact pad).map (contrastImg c) := by
  cases img with
  | gray m =>
    have h1 : (exposed c 0 m).height = m.height := rfl
    have h2 : (exposed c 0 m).width = m.width := rfl
    simp only [unwarpColorImageBackward, contrastImg, h1, h2, unwarpPadded_factor hS rnd hc]
    cases calcPad lstsq pad m.height m.width xc yc fact with
    | error e => rfl
    | ok p =>
      simp only [ok_bind]
      split_ifs <;> rfl
  | color h w n get =>
    have hk : ∀ k, channel h w (fun i j k => c * get i j k) k = exposed c 0 (channel h w get k) := fun k => by simp only [channel, exposed, add_zero]
    simp only [unwarpColorImageBackward, contrastImg, hk, unwarpPadded_factor hS rnd hc]
    cases calcPad lstsq pad h w xc yc fact with
    | error e => rfl
    | ok p =>
      simp only [ok_bind]
      split_ifs
      · rfl
      · simp only [Except.map, contrastImg, exposed, add_zero]

/-- **C134 (colour images).** `unwarp_color_image_backward` with black padding of a grey or colour image with `c` times the values gives `c` times the values, or the same error. -/
theorem C134_color (lstsq : LstsqFn) (S : Sampler) (hS : SamplesContrast S) (rnd : ℝ → ℝ) (c : ℝ) (hc : 0 < c) (img : Img) (xc yc : ℝ) (fact : List ℝ) (pad : PadArg) :
    unwarpColorImageBackward lstsq S rnd (fun _ _ _ => 0) (contrastImg c img) xc yc fact pad =
      (unwarpColorImageBackward lstsq S rnd (fun _ _ _ => 0) img xc yc fact pad).map (contrastImg c) := unwarpColor_factor lstsq hS rnd hc img xc yc fact pad

/-- **C134 (scripts).** The scripts that calibrate a fisheye camera with dots or with a chessboard: if the script ends for a photograph, it ends for the photograph with `c` times the values with the same
lines, centre, corrected lines and coefficients, and the same corrected test image; the corrected photograph has `c` times the values. -/
theorem C134_script (lib : Libs) (n : ℕ) (hn : 2 ≤ n) (hotsu : lib.otsu = thresholdOtsu false n) (hpf : PolyfitSpec lib.polyfit) (hS : SamplesContrast lib.sample) (hr : lib.float32 = id)
    (ext : LineLibs) (h1 : KeepsContrast ext.fft5) (h2 : KeepsContrast ext.filter2) (h3 : KeepsExposure ext.chess) (target : FisheyeTarget) (ht : target = .dots ∨ target = .chessboard) (roots : RootsFn)
    (rot : Mat ℝ → ℝ → Mat ℝ) (padIdx : ℕ → ℤ → ℕ) {α : Type} (D : Disk α) (m : Mat ℝ) (c : ℝ) (hc : 0 < c) (file file' : FilePath) (test : Option FilePath)
    (l1 : loadImageAt D.decode D.fs file true = .ok (.gray m)) (l2 : loadImageAt D.decode D.fs file' true = .ok (.gray (exposed c 0 m))) (run : FisheyeRun)
    (h : fisheyeScript lib ext roots rot padIdx D target file test = .ok run) (img : Img) (l3 : loadImageAt D.decode D.fs file false = .ok img)
    (l4 : loadImageAt D.decode D.fs file' false = .ok (contrastImg c img)) :
    fisheyeScript lib ext roots rot padIdx D target file' test = .ok ⟨run.found, contrastImg c run.image, run.test⟩ := by
  unfold fisheyeScript at h ⊢
  simp only [l1, l2, asGray, ok_bind, fft_factor padIdx hc] at h ⊢
  obtain ⟨norm, e1, h⟩ := bind_ok_iff.1 h
  obtain ⟨pts, e2, h⟩ := bind_ok_iff.1 h
  obtain ⟨found, e3, h⟩ := bind_ok_iff.1 h
  obtain ⟨image, e4, h⟩ := bind_ok_iff.1 h
  have e3' : fisheyeModel lib roots rot target.opts (exposed c 0 m).height (exposed c 0 m).width pts = .ok found := e3
  have ho : fisheyeCorrect lib D file' found.centre found.coefs = .ok (contrastImg c image) := by
    unfold fisheyeCorrect at e4 ⊢
    simp only [l3, l4, ok_bind] at e4 ⊢
    rw [unwarpColor_factor lib.lstsq hS lib.float32 hc, e4]
    rfl
  rw [e1]
  simp only [Except.map, ok_bind, C134_points lib n hn hotsu hpf hS hr ext h1 h2 h3 target ht norm c hc pts e2, e3']
  cases test with
  | none =>
    cases h
    rw [ho]
    rfl
  | some p =>
    obtain ⟨img, e5, h⟩ := bind_ok_iff.1 h
    cases h
    simp only [ho, e5, ok_bind]

/-- A chessboard of 30 × 30 pixels, with filters that have the assumed properties. -/
example (gf : List ℝ → ℝ → List ℝ) (pts : FisheyePoints) :=
  C134_points refLibs 512 (by norm_num) rfl refPolyfit_spec samplesContrast_linear rfl
    ⟨gf, fun w => ⟨w, 0, 0, true⟩, fun m => { m with get := fun i j => (m.get i j + m.get (i - 1) j) / 2 }, fun m => { m with get := fun i j => (m.get i j + m.get (i - 1) j) / 2 }, id⟩
    (fun _ _ _ => rfl) keepsContrast_mean keepsExposure_mean .chessboard (.inr rfl) ⟨30, 30, fun i j => if (i / 10 + j / 10) % 2 = 0 then 0 else 1⟩ 180.5 (by norm_num) pts

/-- The pattern of 13 × 13 dots, in which the points are found, and the same pattern with 180.5 times the contrast. -/
example : ∃ m pts, makeDotPattern 200 200 15 9 (.int 1) = .ok m ∧ pts.distHor = 15 ∧ ∀ ext : LineLibs, ext = ⟨fun l _ => l, fun w => ⟨w, 0, 0, true⟩, id, id, id⟩ →
    fisheyeFind refLibs ext m .dots = .ok pts ∧ fisheyeFind refLibs ext (exposed 180.5 0 m) .dots = .ok pts := by
  obtain ⟨m, b, hm, hb, h⟩ := C106_drawn drawn13 (by norm_num) (by norm_num) drawn13_middle drawn13_middle refLibs ⟨fun l _ => l, fun w => ⟨w, 0, 0, true⟩, id, id, id⟩ refPolyfit_spec refArgsort_spec
    (fun _ _ => ⟨by simp [refLibs], rfl⟩) 512 (by norm_num) rfl
  obtain ⟨pts, e, -, -⟩ := h (refLibs_upright _ _)
  refine ⟨m, ⟨pts, pts, 0, 0, (15 : ℕ), (15 : ℕ)⟩, hm, by norm_num, ?_⟩
  rintro ext rfl
  exact ⟨e, C134_points refLibs 512 (by norm_num) rfl refPolyfit_spec samplesContrast_linear rfl _ (fun _ _ _ => rfl) (fun _ _ _ => rfl) (fun _ _ _ _ => rfl) .dots (.inl rfl) m 180.5 (by norm_num) _ e⟩

/-- The background of a uniform image. -/
example : ∃ out, normalizationFft padReflect (exposed 180.5 0 ⟨20, 20, fun _ _ => 1⟩) 10 100 = .ok (exposed 180.5 0 out) := by
  obtain ⟨out, e, -⟩ := C85_fft_uniform padReflect padReflect_padding ⟨20, 20, fun _ _ => 1⟩ (by norm_num) (by norm_num) ⟨10, rfl⟩ ⟨10, rfl⟩ 1 one_ne_zero (fun _ _ _ _ => rfl) 10 (by norm_num) 100
  refine ⟨out, ?_⟩
  rw [C134_fft padReflect _ 180.5 (by norm_num), e]
  rfl

/-- A colour image of 20 × 30 pixels. -/
example := C134_color refLibs.lstsq _ samplesContrast_linear id 180.5 (by norm_num) (.color 20 30 3 fun i j k => i + 2 * j + k) 14.5 9.5 [1, 0.001] (.int 400)

/-- The script for two files, if it ends for the first one. -/
example (roots : RootsFn) (rot : Mat ℝ → ℝ → Mat ℝ) (D : Disk Img) (m : Mat ℝ) (file file' test : FilePath) (l1 : loadImageAt D.decode D.fs file true = .ok (.gray m))
    (l2 : loadImageAt D.decode D.fs file' true = .ok (.gray (exposed 180.5 0 m))) (run : FisheyeRun)
    (h : fisheyeScript refLibs ⟨fun l _ => l, fun w => ⟨w, 0, 0, true⟩, id, id, id⟩ roots rot padReflect D .chessboard file (some test) = .ok run) (rgb : ℕ → ℕ → ℕ → ℝ)
    (l3 : loadImageAt D.decode D.fs file false = .ok (.color m.height m.width 3 rgb)) (l4 : loadImageAt D.decode D.fs file' false = .ok (.color m.height m.width 3 fun i j k => 180.5 * rgb i j k)) :=
  C134_script refLibs 512 (by norm_num) rfl refPolyfit_spec samplesContrast_linear rfl _ (fun _ _ _ => rfl) (fun _ _ _ => rfl) (fun _ _ _ _ => rfl) .chessboard (.inr rfl) roots rot padReflect D m 180.5
    (by norm_num) file file' (some test) l1 l2 run h _ l3 l4

end Discorpy
