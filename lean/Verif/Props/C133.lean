import Verif.Props.C44
import Verif.Props.C47
import Verif.Props.C132

/-! # C133 — the exposure of a photograph of lines does not change the slope and the distance of the lines -/

namespace Discorpy

open Spec

theorem npArgmax_factor {c : ℝ} (hc : 0 < c) (l : List ℝ) : npArgmax (l.map fun x => c * x) = npArgmax l := by
  classical
  unfold npArgmax
  simp only [List.map_eq_nil_iff]
  split_ifs
  · rfl
  · rw [List.findIdx_map]
    congr 2
    funext x
    simp [Function.comp_apply, mul_le_mul_iff_right₀ hc]

theorem mapM_map_ok {α β γ : Type} (f : α → Except PyErr β) (g : β → γ) (l : List α) : (l.mapM fun a => (f a).map g) = (l.mapM f).map (List.map g) := by
  induction l with
  | nil => rfl
  | cons a l ih =>
    rw [List.mapM_cons, List.mapM_cons, ih]
    cases f a with
    | error e => rfl
    | ok b =>
      cases List.mapM f l <;> rfl

theorem sharpest_factor {c : ℝ} (hc : 0 < c) (sino : Mat ℝ) (angles : List ℝ) : sharpestAngle (exposed c 0 sino) angles = sharpestAngle sino angles := by
  have e : colMax (exposed c 0 sino) = (colMax sino).map (List.map fun x => c * x) := by
    unfold colMax
    rw [← mapM_map_ok]
    have h1 : (exposed c 0 sino).height = sino.height := rfl
    have h2 : (exposed c 0 sino).width = sino.width := rfl
    rw [h1, h2]
    congr 1
    funext j
    have := npMax_affine hc 0 ((List.range sino.height).map fun i => sino.get i j)
    simp only [add_zero, List.map_map] at this
    rw [← this]
    simp only [exposed, add_zero, Function.comp_def]
  unfold sharpestAngle
  rw [e]
  cases colMax sino with
  | error e => rfl
  | ok l => simp only [Except.map, ok_bind, npArgmax_factor hc]

theorem selectRoi_exposed (c d : ℝ) (m : Mat ℝ) (ratio : ℝ) : selectRoi (exposed c d m) ratio true = exposed c d (selectRoi m ratio true) := rfl

theorem region_factor {filter2 : Mat ℝ → Mat ℝ} (hf : KeepsExposure filter2) {c : ℝ} (hc : 0 < c) (d : ℝ) (m : Mat ℝ) (ratio : ℝ) (bright denoise : Bool) (hb : bright = true ∨ d = 0) :
    lineRegion filter2 (exposed c d m) ratio bright denoise = (lineRegion filter2 m ratio bright denoise).map (exposed c 0) := by
  have e0 : (if denoise then filter2 (exposed c d m) else exposed c d m) = exposed c d (if denoise then filter2 m else m) := by
    cases denoise
    · rfl
    · exact hf c hc d m
  unfold lineRegion
  simp only [e0, selectRoi_exposed]
  generalize selectRoi (if denoise = true then filter2 m else m) ratio true = roi
  cases bright with
  | false =>
    have hd : d = 0 := by simpa using hb
    subst hd
    simp only [Bool.false_eq_true, if_false, ok_bind, Except.map]
    congr 1
    simp only [exposed, Mat.mk.injEq, true_and]
    funext i j
    ring
  | true =>
    have hflat : (exposed c d roi).flat = roi.flat.map fun x => c * x + d := flat_map roi fun x => c * x + d
    simp only [if_true, hflat, npMax_affine hc]
    cases npMax roi.flat with
    | error e => rfl
    | ok M =>
      simp only [Except.map, ok_bind]
      congr 1
      simp only [exposed, Mat.mk.injEq, true_and]
      funext i j
      ring

theorem keepsExposure_contrast {F : Mat ℝ → Mat ℝ} (h : KeepsExposure F) : KeepsContrast F := fun c hc m => h c hc 0 m

section

variable (E : Ext) (filter2 chess : Mat ℝ → Mat ℝ) (radon : Mat ℝ → List ℝ → Mat ℝ) (m : Mat ℝ) (c d : ℝ) (ratio range : ℝ) (radius : ℤ) (s : ℝ) (bright denoise sub : Bool)

theorem slopeDistance_factor (hpf : PolyfitSpec E.pf) (hg : KeepsProfile E.gaussFilter) (hf : KeepsExposure filter2) (hR : RadonContrast radon) (hc : 0 < c) (hs : 0 ≤ s)
    (hb : bright = true ∨ d = 0) (base : ℝ) (slopeOf : ℝ → ℝ) :
    calcSlopeDistance E filter2 chess radon base slopeOf (exposed c d m) ratio range radius s bright denoise false sub false none =
      calcSlopeDistance E filter2 chess radon base slopeOf m ratio range radius s bright denoise false sub false none := by
  unfold calcSlopeDistance
  simp only [Bool.false_eq_true, if_false, ok_bind, region_factor hf hc d m ratio bright denoise hb]
  cases lineRegion filter2 m ratio bright denoise with
  | error e => rfl
  | ok roi =>
    have hcol : ∀ (M : Mat ℝ) k, ((List.range (exposed c 0 M).height).map fun i => (exposed c 0 M).get i k) = ((List.range M.height).map fun i => M.get i k).map fun x => c * x := by
      intro M k
      simp [exposed, Function.comp_def]
    simp only [Except.map, ok_bind, hR c hc, sharpest_factor hc, hcol, extrema_factor_max E hpf hg hc _ radius s hs]

theorem slope_factor (hf : KeepsExposure filter2) (hR : RadonContrast radon) (hc : 0 < c) (hb : bright = true ∨ d = 0) (base : ℝ) (slopeOf : ℝ → ℝ) (norm : Bool) (sel : Option PeakParams) (r r' : ℝ × ℝ)
    (h : calcSlopeDistance E filter2 chess radon base slopeOf m ratio range radius s bright denoise norm sub false sel = .ok r)
    (h' : calcSlopeDistance E filter2 chess radon base slopeOf (exposed c d m) ratio range radius s bright denoise norm sub false sel = .ok r') : r'.1 = r.1 := by
  unfold calcSlopeDistance at h h'
  simp only [Bool.false_eq_true, if_false, ok_bind, region_factor hf hc d m ratio bright denoise hb] at h h'
  cases e : lineRegion filter2 m ratio bright denoise with
  | error e' => rw [e] at h; cases h
  | ok roi =>
    rw [e] at h h'
    simp only [Except.map, ok_bind, hR c hc, sharpest_factor hc] at h h'
    simp only [bind_ok_iff] at h h'
    obtain ⟨b1, e1, b2, e2, _, _, _, _, h⟩ := h
    obtain ⟨b1', e1', b2', e2', _, _, _, _, h'⟩ := h'
    rw [e1] at e1'
    cases e1'
    rw [e2] at e2'
    cases e2'
    cases h
    cases h'
    rfl

/-- **C133 (lines).** Without correction of the background of the profile (`norm=False`) `calc_slope_distance_hor_lines` and `calc_slope_distance_ver_lines` give the same slope and the same distance for
every contrast and brightness of the photograph, and fail for the same photographs. -/
theorem C133_lines (hpf : PolyfitSpec E.pf) (hg : KeepsProfile E.gaussFilter) (hf : KeepsExposure filter2) (hR : RadonContrast radon) (hc : 0 < c) (hs : 0 ≤ s) (hb : bright = true ∨ d = 0) :
    calcSlopeDistanceHor E filter2 chess radon (exposed c d m) ratio range radius s bright denoise false sub false none =
      calcSlopeDistanceHor E filter2 chess radon m ratio range radius s bright denoise false sub false none ∧
    calcSlopeDistanceVer E filter2 chess radon (exposed c d m) ratio range radius s bright denoise false sub false none =
      calcSlopeDistanceVer E filter2 chess radon m ratio range radius s bright denoise false sub false none :=
  ⟨slopeDistance_factor E filter2 chess radon m c d ratio range radius s bright denoise sub hpf hg hf hR hc hs hb _ _,
    slopeDistance_factor E filter2 chess radon m c d ratio range radius s bright denoise sub hpf hg hf hR hc hs hb _ _⟩

/-- **C133 (slope).** With every choice of the options the slope is the same, when both photographs give one. -/
theorem C133_slope (hf : KeepsExposure filter2) (hR : RadonContrast radon) (hc : 0 < c) (hb : bright = true ∨ d = 0) (norm : Bool) (sel : Option PeakParams) (r r' : ℝ × ℝ) :
    (calcSlopeDistanceHor E filter2 chess radon m ratio range radius s bright denoise norm sub false sel = .ok r →
      calcSlopeDistanceHor E filter2 chess radon (exposed c d m) ratio range radius s bright denoise norm sub false sel = .ok r' → r'.1 = r.1) ∧
    (calcSlopeDistanceVer E filter2 chess radon m ratio range radius s bright denoise norm sub false sel = .ok r →
      calcSlopeDistanceVer E filter2 chess radon (exposed c d m) ratio range radius s bright denoise norm sub false sel = .ok r' → r'.1 = r.1) :=
  ⟨fun h h' => slope_factor E filter2 chess radon m c d ratio range radius s bright denoise sub hf hR hc hb _ _ norm sel r r' h h',
    fun h h' => slope_factor E filter2 chess radon m c d ratio range radius s bright denoise sub hf hR hc hb _ _ norm sel r r' h h'⟩

end

theorem convert_factor (filter2 : Mat ℝ → Mat ℝ) {c : ℝ} (hc : 0 < c) (d : ℝ) (hf : KeepsExposure filter2) (m : Mat ℝ) (smooth bright : Bool) :
    convertChessboard filter2 (exposed c d m) smooth bright = convertChessboard filter2 m smooth bright := by
  have e0 : (if smooth then filter2 (exposed c d m) else exposed c d m) = exposed c d (if smooth then filter2 m else m) := by
    cases smooth
    · rfl
    · exact hf c hc d m
  unfold convertChessboard
  simp only [e0]
  generalize (if smooth = true then filter2 m else m) = M
  have h1 : (exposed c d M).height = M.height := rfl
  have h2 : (exposed c d M).width = M.width := rfl
  have hl : ∀ k, cropPad (meanAbsGradient (exposed c d M)) k = scaleMat c (cropPad (meanAbsGradient M) k) := fun k => by
    have := line_affine M c d k
    rw [abs_of_pos hc] at this
    exact this
  rw [h1, h2, hl]
  generalize (if smooth = true then 4 else 2) = k
  generalize cropPad (meanAbsGradient M) k = line
  split_ifs
  · rfl
  · rfl
  · have hm := npMax_affine hc 0 line.flat
    simp only [add_zero] at hm
    rw [scaleMat_flat, hm]
    cases npMax line.flat with
    | error e => rfl
    | ok x =>
      have e : ({ scaleMat c line with get := fun i j => c * x - (scaleMat c line).get i j } : Mat ℝ) = scaleMat c { line with get := fun i j => x - line.get i j } := by
        simp only [scaleMat, ← mul_sub]
      simp only [Except.map, ok_bind, e]
      exact normLine_scale hc
  · exact normLine_scale hc

/-- **C133 (chessboard to lines).** `convert_chessboard_to_linepattern`, with and without smoothing, gives the same image for every contrast and brightness of the photograph. -/
theorem C133_pattern (chess : Mat ℝ → Mat ℝ) (hf : KeepsExposure chess) (m : Mat ℝ) (c d : ℝ) (hc : 0 < c) (smooth bright : Bool) :
    convertChessboard chess (exposed c d m) smooth bright = convertChessboard chess m smooth bright :=
  convert_factor chess hc d hf m smooth bright

/-- **C133 (chessboard).** With `chessboard=True` slope and distance are the same for every contrast and brightness of the photograph, whatever the other options. -/
theorem C133_chessboard (E : Ext) (filter2 chess : Mat ℝ → Mat ℝ) (hf : KeepsExposure chess) (radon : Mat ℝ → List ℝ → Mat ℝ) (m : Mat ℝ) (c d : ℝ) (hc : 0 < c) (ratio range : ℝ) (radius : ℤ) (s : ℝ)
    (bright denoise norm sub : Bool) (sel : Option PeakParams) :
    calcSlopeDistanceHor E filter2 chess radon (exposed c d m) ratio range radius s bright denoise norm sub true sel =
      calcSlopeDistanceHor E filter2 chess radon m ratio range radius s bright denoise norm sub true sel ∧
    calcSlopeDistanceVer E filter2 chess radon (exposed c d m) ratio range radius s bright denoise norm sub true sel =
      calcSlopeDistanceVer E filter2 chess radon m ratio range radius s bright denoise norm sub true sel := by
  unfold calcSlopeDistanceHor calcSlopeDistanceVer calcSlopeDistance
  simp only [if_true, convert_factor chess hc d hf, and_self]

theorem slope_window_factor {pf : PolyfitFn} (hpf : PolyfitSpec pf) {c : ℝ} (hc : 0 < c) (l : List ℝ) (size : ℤ) :
    slidingWindowSlope pf id (l.map fun x => c * x) size true = slidingWindowSlope pf id l size true := by
  by_cases hn : 3 ≤ l.length
  · exact (C44_scale hpf l size c hc.ne' hn).2
  · unfold slidingWindowSlope
    simp only
    rw [if_pos (by simpa using hn), if_pos (by omega)]

theorem crossPointsOnLine_chess (E : Ext) (hpf : PolyfitSpec E.pf) {c : ℝ} (hc : 0 < c) (r : List ℝ × List ℝ × List ℝ) (n : ℕ) (fx fy : ℝ) (radius : ℤ) (s : ℝ) (denoise norm sub : Bool)
    (sel : Option PeakParams) :
    crossPointsOnLine E id (r.1, r.2.1, r.2.2.map fun x => c * x) n fx fy true radius s denoise norm sub sel = crossPointsOnLine E id r n fx fy true radius s denoise norm sub sel := by
  unfold crossPointsOnLine
  simp only [if_true, slope_window_factor hpf hc]

/-- **C133 (cross points of a chessboard).** With `chessboard=True` and dark lines made bright, `get_cross_points_hor_lines` and `get_cross_points_ver_lines` give the same points for every contrast and
brightness of the photograph, whatever the other options. -/
theorem C133_cross (E : Ext) (hpf : PolyfitSpec E.pf) (S : Sampler) (hS : SamplesContrast S) (fft filter2 : Mat ℝ → Mat ℝ) (h1 : KeepsContrast fft) (h2 : KeepsContrast filter2) (m : Mat ℝ) (c d : ℝ)
    (hc : 0 < c) (slope dist ratio offset : ℝ) (bright norm denoise sub : Bool) (hb : bright = true ∨ d = 0) (radius : ℤ) (s : ℝ) (sel : Option PeakParams) :
    getCrossPointsHorLines E S fft filter2 id (exposed c d m) slope dist ratio offset bright norm true denoise sub radius s sel =
      getCrossPointsHorLines E S fft filter2 id m slope dist ratio offset bright norm true denoise sub radius s sel ∧
    getCrossPointsVerLines E S fft filter2 id (exposed c d m) slope dist ratio offset bright norm true denoise sub radius s sel =
      getCrossPointsVerLines E S fft filter2 id m slope dist ratio offset bright norm true denoise sub radius s sel := by
  unfold getCrossPointsHorLines getCrossPointsVerLines
  rw [crossImage_factor h1 h2 hc d m bright norm denoise hb]
  cases crossImage fft filter2 m bright norm denoise with
  | error e => exact ⟨rfl, rfl⟩
  | ok img =>
    have hline : ∀ a b dir n fx fy, (do
        let prof ← getTiltedProfile S (exposed c 0 img) a b dir
        crossPointsOnLine E id prof n fx fy true radius s denoise norm sub sel : Except PyErr (List Pt)) = (do
        let prof ← getTiltedProfile S img a b dir
        crossPointsOnLine E id prof n fx fy true radius s denoise norm sub sel) := by
      intro a b dir n fx fy
      rw [tilted_factor hS hc]
      cases getTiltedProfile S img a b dir with
      | error e => rfl
      | ok r => exact crossPointsOnLine_chess E hpf hc r n fx fy radius s denoise norm sub sel
    simp only [Except.map, ok_bind, hline]
    exact ⟨rfl, rfl⟩

/-- **C133 (demo_06).** The script for a chessboard (readthedocs_demo/demo_06.py): from a photograph with another exposure, the same line pattern, slopes, points, residuals and model, and the same corrected
test image; the corrected photograph has its contrast and brightness, the saved difference its contrast. -/
theorem C133_demo06 (lib : Libs) (B : Boundary) (hS : lib.sample = linearInterp B) (hr : CoordRounding lib.float32) (ext : LineLibs) (hf : KeepsExposure ext.chess)
    (fsolve : (ℝ × ℝ → ℝ × ℝ) → ℝ × ℝ → ℝ × ℝ) (numCoef : ℤ) (m : Mat ℝ) (hh : m.height ≤ 2 ^ 24) (hw : m.width ≤ 2 ^ 24) (c d : ℝ) (hc : 0 < c) {α : Type} (D : Disk α) (file file' test : FilePath)
    (l1 : loadImageAt D.decode D.fs file true = .ok (.gray m)) (l2 : loadImageAt D.decode D.fs file' true = .ok (.gray (exposed c d m)))
    (h' w' n' : ℕ) (rgb : ℕ → ℕ → ℕ → ℝ) (l3 : loadImageAt D.decode D.fs file' false = .ok (.color h' w' n' rgb)) (out : Img)
    (pattern : Mat ℝ) (run : LineRun) (tst : Img) (h : demo06 lib ext fsolve numCoef D file test = .ok (pattern, run, out, tst)) :
    ∃ run' out', demo06 lib ext fsolve numCoef D file' test = .ok (pattern, run', out', tst) ∧ SameLineRun (IsExposed c d) (IsExposed c 0) run run' := by
  unfold demo06 at h ⊢
  simp only [l1, l2, l3, asGray, ok_bind, convert_factor ext.chess hc d hf] at h ⊢
  simp only [bind_ok_iff] at h ⊢
  obtain ⟨mat1, e1, sl, e2, rn, e3, im, e4, im', e5, ts, e6, ts', e7, h⟩ := h
  cases h
  unfold demo06Rest at e3
  simp only [bind_ok_iff] at e3
  obtain ⟨pts, f1, found, f2, before, f3, grid, f4, model, f5, after, f6, h⟩ := e3
  cases h
  have hi := (images_exposed hS hr m hh hw c d).image model.centre model.coefs
  let corrected := unwarpImageBackward lib.sample lib.float32 (exposed c d m) model.centre.x model.centre.y model.coefs
  let run' : LineRun := ⟨found, grid, before, model, unwarpBoth lib model grid, after, corrected, subMat corrected (exposed c d m)⟩
  refine ⟨run', _, ⟨pattern, e1, sl, e2, run', ?_, _, rfl, ts, e6, tst, e7, rfl⟩, ?_⟩
  · unfold demo06Rest
    simp only [bind_ok_iff]
    exact ⟨pts, f1, found, f2, before, f3, grid, f4, model, f5, after, f6, rfl⟩
  · refine ⟨rfl, rfl, rfl, rfl, rfl, rfl, hi, rfl, rfl, fun i h3 j h4 => ?_⟩
    have := hi.2.2 i h3 j h4
    show (unwarpImageBackward lib.sample lib.float32 (exposed c d m) model.centre.x model.centre.y model.coefs).get i j - (c * m.get i j + d) =
      c * ((unwarpImageBackward lib.sample lib.float32 m model.centre.x model.centre.y model.coefs).get i j - m.get i j) + 0
    rw [this]
    ring

/-- A filter that keeps contrast and brightness: the mean of neighbouring rows. -/
theorem keepsExposure_mean : KeepsExposure fun m => { m with get := fun i j => (m.get i j + m.get (i - 1) j) / 2 } := by
  intro c _ d m
  simp only [exposed, Mat.mk.injEq, true_and]
  funext i j
  ring

/-- A transform with the sums along the columns near the slanted lines through the image. -/
noncomputable def slantedSums (m : Mat ℝ) (angles : List ℝ) : Mat ℝ :=
  ⟨m.width, angles.length, fun i j => ((List.range m.height).map fun k => m.get k (i + ⌊k * Real.tan (angles.getD j 0 * Real.pi / 180)⌋.toNat)).sum⟩

theorem radonContrast_slanted : RadonContrast slantedSums := by
  intro c _ m angles
  simp only [exposed, slantedSums, Mat.mk.injEq, true_and, add_zero]
  funext i j
  rw [← List.sum_map_mul_left]

/-- The hypotheses of the theorems can be met: another exposure of the image with two lines each way of C112. -/
example (range : ℝ) :=
  C133_lines ⟨refPolyfit, refArgsort, fun l _ => l, fun w => ⟨w, 0, 0, true⟩⟩ (fun m => { m with get := fun i j => (m.get i j + m.get (i - 1) j) / 2 }) id slantedSums straightGridImage 180.5 20 0.3 range 9 0.1
    true true true refPolyfit_spec (fun _ _ _ _ => rfl) keepsExposure_mean radonContrast_slanted (by norm_num) (by norm_num) (.inl rfl)

example (range : ℝ) (r r' : ℝ × ℝ) :=
  C133_slope ⟨refPolyfit, refArgsort, fun l _ => l, fun w => ⟨w, 0, 0, true⟩⟩ (fun m => { m with get := fun i j => (m.get i j + m.get (i - 1) j) / 2 }) id slantedSums straightGridImage 180.5 20 0.3 range 9 0.1
    true true true keepsExposure_mean radonContrast_slanted (by norm_num) (.inl rfl) true none r r'

/-- A step between the columns 4 and 5 gives the same line in a photograph with another exposure. -/
example := C133_pattern (fun m => { m with get := fun i j => (m.get i j + m.get (i - 1) j) / 2 }) keepsExposure_mean ⟨10, 10, fun _ j => if j ≤ 4 then 0 else 1⟩ 180.5 20 (by norm_num) true true

example (E : Ext) (range : ℝ) := C133_chessboard E id (fun m => { m with get := fun i j => (m.get i j + m.get (i - 1) j) / 2 }) keepsExposure_mean slantedSums
  ⟨30, 30, fun i j => if (i / 10 + j / 10) % 2 = 0 then 0 else 1⟩ 180.5 20 (by norm_num) 0.3 range 9 0.1 true true true true none

example (gf : List ℝ → ℝ → List ℝ) (sel : Option PeakParams) := C133_cross ⟨refPolyfit, refArgsort, gf, fun w => ⟨w, 0, 0, true⟩⟩ refPolyfit_spec _ samplesContrast_linear id
  (fun m => { m with get := fun i j => (m.get i j + m.get (i - 1) j) / 2 }) (fun _ _ _ => rfl) keepsContrast_mean ⟨30, 30, fun i j => if (i / 10 + j / 10) % 2 = 0 then 0 else 1⟩ 180.5 20 (by norm_num)
  0.01 10 0.3 0 true true true true (.inl rfl) 5 0.1 sel

/-- The script for a grey photograph saved with three equal channels, if it ends for another exposure. -/
example (fsolve : (ℝ × ℝ → ℝ × ℝ) → ℝ × ℝ → ℝ × ℝ) (ext : LineLibs) (he : ext.chess = fun m => { m with get := fun i j => (m.get i j + m.get (i - 1) j) / 2 }) (m : Mat ℝ) (hh : m.height ≤ 2000)
    (hw : m.width ≤ 2000) (D : Disk Img) (file file' test : FilePath) (l1 : loadImageAt D.decode D.fs file true = .ok (.gray m))
    (l2 : loadImageAt D.decode D.fs file' true = .ok (.gray (exposed 180.5 20 m)))
    (l3 : loadImageAt D.decode D.fs file' false = .ok (.color m.height m.width 3 fun i j _ => 180.5 * m.get i j + 20)) (pattern : Mat ℝ) (run : LineRun) (out tst : Img)
    (h : demo06 refLibs ext fsolve 5 D file test = .ok (pattern, run, out, tst)) :
    ∃ run' out', demo06 refLibs ext fsolve 5 D file' test = .ok (pattern, run', out', tst) ∧ run'.model = run.model := by
  obtain ⟨run', out', e, hs⟩ := C133_demo06 refLibs _ rfl coordRounding_id ext (he ▸ keepsExposure_mean) fsolve 5 m (by omega) (by omega) 180.5 20 (by norm_num) D file file' test l1 l2 _ _ _ _ l3 out
    pattern run tst h
  exact ⟨run', out', e, hs.model⟩

end Discorpy
