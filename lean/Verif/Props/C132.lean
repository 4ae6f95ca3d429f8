import Verif.Props.C43
import Verif.Props.C45
import Verif.Props.C79
import Verif.Props.C112
import Verif.Props.C117
import Verif.Props.C130
import Verif.Spec.LineExposure
import Verif.Lemmas.SymmetryUnits
import Verif.Lemmas.Centre
import Verif.Lemmas.Chessboard

/-! # C132 — the exposure of a photograph of lines does not change the points found on the lines -/

namespace Discorpy

open Spec

theorem npMean_factor (c : ℝ) (l : List ℝ) : npMean (l.map fun x => c * x) = (npMean l).map fun x => c * x := by
  by_cases h : l = []
  · subst h
    rfl
  · have := npMean_ok h
    rw [npMean_scale this, this]
    rfl

theorem mergeSort_factor {c : ℝ} (hc : 0 < c) (l : List ℝ) : (l.map fun x => c * x).mergeSort (fun a b => decide (a ≤ b)) =
    (l.mergeSort fun a b => decide (a ≤ b)).map fun x => c * x :=
  (List.map_mergeSort (fun a _ b _ => by simp [mul_le_mul_iff_right₀ hc])).symm

theorem isExtremum_factor {c : ℝ} (hc : 0 < c) (l : List ℝ) (r : ℕ) (s : ℝ) (i : ℕ) : isExtremum (l.map fun x => c * x) r s i = isExtremum l r s i := by
  unfold isExtremum
  rw [npGet_move, npSlice_map, mergeSort_factor hc]
  have e : ∀ t : List ℝ, (if r = 0 then t.map (fun x => c * x) else (t.map fun x => c * x).drop ((t.map fun x => c * x).length - r)) =
      (if r = 0 then t else t.drop (t.length - r)).map fun x => c * x := by
    intro t
    split_ifs
    · rfl
    · rw [List.length_map, List.map_drop]
  simp only [e, npMean_factor, npGet_move]
  cases npGet l i with
  | error e => rfl
  | ok v =>
    cases npGet ((npSlice l (i - r) (i + r + 1)).mergeSort fun a b => decide (a ≤ b)) 0 with
    | error e => rfl
    | ok u =>
      cases npMean (if r = 0 then (npSlice l (i - r) (i + r + 1)).mergeSort fun a b => decide (a ≤ b) else
          ((npSlice l (i - r) (i + r + 1)).mergeSort fun a b => decide (a ≤ b)).drop (((npSlice l (i - r) (i + r + 1)).mergeSort fun a b => decide (a ≤ b)).length - r)) with
      | error e => rfl
      | ok w =>
        show Except.ok _ = Except.ok _
        congr 1
        have h1 : c * u - c * v = 0 ↔ u - v = 0 := by rw [← mul_sub, mul_eq_zero, or_iff_right hc.ne']
        have h2 : (if c * w ≠ 0 then |(c * v - c * w) / (c * w)| else 0) = if w ≠ 0 then |(v - w) / w| else 0 := by
          by_cases hw : w = 0
          · simp [hw]
          · rw [if_pos (mul_ne_zero hc.ne' hw), if_pos hw, ← mul_sub, mul_div_mul_left _ _ hc.ne']
        simp only [h1, h2]

theorem locate_factor {pf : PolyfitFn} (hpf : PolyfitSpec pf) {c : ℝ} (hc : 0 < c) {w : List ℝ} (hw : w.length = 3) :
    locateSubpixelPoint pf (w.map fun x => c * x) "min" = locateSubpixelPoint pf w "min" := by
  obtain ⟨x, y, z, rfl⟩ := List.length_eq_three.1 hw
  have e : ([x, y, z].map fun x => c * x) = [c * x, c * y, c * z] := rfl
  rw [locate_eq (by simp) (fit_triple hpf x y z), e, locate_eq (by simp) (fit_triple hpf _ _ _), ← e]
  simp only [if_true, npArgmin_scale hc]
  have e1 : (c * x - 2 * (c * y) + c * z) / 2 = c * ((x - 2 * y + z) / 2) := by ring
  have e2 : (4 * (c * y) - 3 * (c * x) - c * z) / 2 = c * ((4 * y - 3 * x - z) / 2) := by ring
  have e3 : ∀ a b : ℝ, -(c * b) / (2 * (c * a)) = -b / (2 * a) := by
    intro a b
    rw [show -(c * b) = c * -b by ring, show 2 * (c * a) = c * (2 * a) by ring, mul_div_mul_left _ _ hc.ne']
  have e4 : ∀ a : ℝ, c * a ≠ 0 ↔ a ≠ 0 := fun a => by simp [hc.ne']
  rw [e1, e2]
  simp only [e3, e4, List.length_map]

theorem extrema_factor (E : Ext) (hpf : PolyfitSpec E.pf) {c : ℝ} (hc : 0 < c) (l : List ℝ) (radius : ℤ) (s : ℝ) (hs : 0 ≤ s) (sub : Bool) :
    getLocalExtremaPoints E (l.map fun x => c * x) "min" radius s false false sub none = getLocalExtremaPoints E l "min" radius s false false sub none := by
  by_cases hn : 4 ≤ l.length
  · obtain ⟨flags, h1, h2⟩ := flags_eq l (usedRadius_pos hn (radius := radius)) s
    have hpos := usedRadius_pos hn (radius := radius)
    unfold getLocalExtremaPoints
    simp only [Bool.false_eq_true, if_false, String.reduceEq, ok_bind, List.length_map, isExtremum_factor hc]
    unfold usedRadius at h1 h2 hpos
    simp only [h1, ok_bind, h2]
    split_ifs
    · apply mapM_congr_mem
      intro i hi
      obtain ⟨k, hk, rfl⟩ := List.mem_map.1 hi
      obtain ⟨k1, k2, _⟩ := mem_extremaIdx.1 hk
      rw [npSlice_map, locate_factor hpf hc]
      rw [npSlice_length]
      unfold sliceBound
      split_ifs <;> omega
    · rfl
  · rw [C43_short E l radius s hs (by omega), C43_short E _ radius s hs (by simpa using hn)]

theorem npMax_affine {c : ℝ} (hc : 0 < c) (d : ℝ) (l : List ℝ) : npMax (l.map fun x => c * x + d) = (npMax l).map fun x => c * x + d := by
  by_cases h : l = []
  · subst h
    rfl
  · obtain ⟨M, e, hM, hmax⟩ := npMax_ok h
    obtain ⟨M', e', hM', hmax'⟩ := npMax_ok (l := l.map fun x => c * x + d) (by simpa using h)
    rw [e, e']
    obtain ⟨x, hx, rfl⟩ := List.mem_map.1 hM'
    have h1 := hmax' _ (List.mem_map.2 ⟨M, hM, rfl⟩)
    have h2 := mul_le_mul_of_nonneg_left (hmax x hx) hc.le
    show Except.ok _ = Except.ok _
    rw [le_antisymm (by linarith : c * x + d ≤ c * M + d) h1]

/-- **C132 (profiles).** Without correction of the background the maxima of a profile, with and without refinement, are the same for every contrast and brightness. -/
theorem C132_profile (E : Ext) (hpf : PolyfitSpec E.pf) (l : List ℝ) (c d : ℝ) (hc : 0 < c) (radius : ℤ) (s : ℝ) (hs : 0 ≤ s) (sub : Bool) :
    getLocalExtremaPoints E (l.map fun x => c * x + d) "max" radius s false false sub none = getLocalExtremaPoints E l "max" radius s false false sub none := by
  have hm := npMax_affine hc d l
  cases h : npMax l with
  | error e =>
    rw [h] at hm
    unfold getLocalExtremaPoints
    simp only [Bool.false_eq_true, if_false, if_true, h, hm]
    rfl
  | ok M =>
    rw [h] at hm
    rw [extrema_max E l radius s h, extrema_max E _ radius s hm, ← extrema_factor E hpf hc (l.map fun x => M - x) radius s hs sub, List.map_map, List.map_map]
    congr 1
    apply List.map_congr_left
    intro x _
    simp only [Function.comp_apply]
    ring

theorem extrema_factor_max (E : Ext) (hpf : PolyfitSpec E.pf) (hg : KeepsProfile E.gaussFilter) {c : ℝ} (hc : 0 < c) (l : List ℝ) (radius : ℤ) (s : ℝ) (hs : 0 ≤ s) (smooth sub : Bool) :
    getLocalExtremaPoints E (l.map fun x => c * x) "max" radius s smooth false sub none = getLocalExtremaPoints E l "max" radius s smooth false sub none := by
  have h := fun l => C132_profile E hpf l c 0 hc radius s hs sub
  simp only [add_zero] at h
  cases smooth
  · exact h l
  · have e : ∀ l, getLocalExtremaPoints E l "max" radius s true false sub none = getLocalExtremaPoints E (E.gaussFilter l 3) "max" radius s false false sub none := fun l => by
      unfold getLocalExtremaPoints
      simp only [if_true, Bool.false_eq_true, if_false]
    rw [e, e, hg c hc]
    exact h _

theorem tilted_factor {S : Sampler} (hS : SamplesContrast S) {c : ℝ} (hc : 0 < c) (m : Mat ℝ) (i a : ℝ) (dir : String) :
    getTiltedProfile S (exposed c 0 m) i a dir = (getTiltedProfile S m i a dir).map fun r => (r.1, r.2.1, r.2.2.map fun x => c * x) := by
  have hrow : ∀ p q y x, S ((exposed c 0 m).rows p q) y x = c * S (m.rows p q) y x := fun p q y x => hS c hc (m.rows p q) y x
  have hcol : ∀ p q y x, S ((exposed c 0 m).cols p q) y x = c * S (m.cols p q) y x := fun p q y x => hS c hc (m.cols p q) y x
  unfold getTiltedProfile
  have h1 : (exposed c 0 m).height = m.height := rfl
  have h2 : (exposed c 0 m).width = m.width := rfl
  simp only [h1, h2, hrow, hcol]
  cases calcIndexRange m.height m.width a dir with
  | error e => rfl
  | ok r =>
    obtain ⟨lo, hi⟩ := r
    simp only [ok_bind]
    split_ifs with g1 g2
    · rfl
    · generalize npMin _ = u
      generalize npMax _ = v
      cases u with
      | error e => rfl
      | ok u =>
        cases v with
        | error e => rfl
        | ok v =>
          simp only [ok_bind, Except.map, List.map_zipWith]
    · generalize npMin _ = u
      generalize npMax _ = v
      cases u with
      | error e => rfl
      | ok u =>
        cases v with
        | error e => rfl
        | ok v =>
          simp only [ok_bind, Except.map, List.map_zipWith]

theorem crossPointsOnLine_factor (E : Ext) (hpf : PolyfitSpec E.pf) (hg : KeepsProfile E.gaussFilter) (store : ℝ → ℝ) {c : ℝ} (hc : 0 < c) (r : List ℝ × List ℝ × List ℝ) (n : ℕ) (fx fy : ℝ)
    (radius : ℤ) (s : ℝ) (hs : 0 ≤ s) (denoise sub : Bool) :
    crossPointsOnLine E store (r.1, r.2.1, r.2.2.map fun x => c * x) n fx fy false radius s denoise true sub none =
      crossPointsOnLine E store r n fx fy false radius s denoise true sub none := by
  unfold crossPointsOnLine
  simp only [Bool.false_eq_true, if_false, ok_bind, Bool.not_true, extrema_factor_max E hpf hg hc _ radius s hs]

theorem crossImage_factor {fft filter2 : Mat ℝ → Mat ℝ} (h1 : KeepsContrast fft) (h2 : KeepsContrast filter2) {c : ℝ} (hc : 0 < c) (d : ℝ) (m : Mat ℝ) (bright norm denoise : Bool)
    (hb : bright = true ∨ d = 0) : crossImage fft filter2 (exposed c d m) bright norm denoise = (crossImage fft filter2 m bright norm denoise).map (exposed c 0) := by
  have key : ∀ m : Mat ℝ, (if denoise then filter2 (if norm then fft (exposed c 0 m) else exposed c 0 m) else if norm then fft (exposed c 0 m) else exposed c 0 m) =
      exposed c 0 (if denoise then filter2 (if norm then fft m else m) else if norm then fft m else m) := by
    intro m
    cases norm <;> cases denoise <;> simp [h1 c hc, h2 c hc]
  unfold crossImage
  cases bright with
  | false =>
    have hd : d = 0 := by simpa using hb
    subst hd
    simp only [Bool.false_eq_true, if_false, ok_bind, Except.map, key]
  | true =>
    have hf : (exposed c d m).flat = m.flat.map fun x => c * x + d := flat_map m fun x => c * x + d
    simp only [if_true, hf, npMax_affine hc]
    cases npMax m.flat with
    | error e => rfl
    | ok M =>
      have e : ({ exposed c d m with get := fun i j => c * M + d - (exposed c d m).get i j } : Mat ℝ) = exposed c 0 { m with get := fun i j => M - m.get i j } := by
        simp only [exposed, Mat.mk.injEq, true_and]
        funext i j
        ring
      simp only [Except.map, ok_bind, e, key]

/-- **C132 (cross points).** With correction of the background of the image (`norm=True`) and dark lines made bright, the cross points found on the lines are the same for every contrast and brightness
of the photograph. -/
theorem C132_hor (E : Ext) (hpf : PolyfitSpec E.pf) (hg : KeepsProfile E.gaussFilter) (S : Sampler) (hS : SamplesContrast S) (fft filter2 : Mat ℝ → Mat ℝ) (h1 : KeepsContrast fft)
    (h2 : KeepsContrast filter2) (store : ℝ → ℝ) (m : Mat ℝ) (c d : ℝ) (hc : 0 < c) (slope dist ratio offset : ℝ) (bright denoise sub : Bool) (hb : bright = true ∨ d = 0) (radius : ℤ) (s : ℝ)
    (hs : 0 ≤ s) :
    getCrossPointsHorLines E S fft filter2 store (exposed c d m) slope dist ratio offset bright true false denoise sub radius s none =
      getCrossPointsHorLines E S fft filter2 store m slope dist ratio offset bright true false denoise sub radius s none := by
  unfold getCrossPointsHorLines
  rw [crossImage_factor h1 h2 hc d m bright true denoise hb]
  cases crossImage fft filter2 m bright true denoise with
  | error e => rfl
  | ok img =>
    have hline : ∀ a b dir n fx fy, (do
        let prof ← getTiltedProfile S (exposed c 0 img) a b dir
        crossPointsOnLine E store prof n fx fy false radius s denoise true sub none : Except PyErr (List Pt)) = (do
        let prof ← getTiltedProfile S img a b dir
        crossPointsOnLine E store prof n fx fy false radius s denoise true sub none) := by
      intro a b dir n fx fy
      rw [tilted_factor hS hc]
      cases getTiltedProfile S img a b dir with
      | error e => rfl
      | ok r => exact crossPointsOnLine_factor E hpf hg store hc r n fx fy radius s hs denoise sub
    simp only [Except.map, ok_bind, hline]
    rfl

/-- **C132 (cross points, vertical lines).** -/
theorem C132_ver (E : Ext) (hpf : PolyfitSpec E.pf) (hg : KeepsProfile E.gaussFilter) (S : Sampler) (hS : SamplesContrast S) (fft filter2 : Mat ℝ → Mat ℝ) (h1 : KeepsContrast fft)
    (h2 : KeepsContrast filter2) (store : ℝ → ℝ) (m : Mat ℝ) (c d : ℝ) (hc : 0 < c) (slope dist ratio offset : ℝ) (bright denoise sub : Bool) (hb : bright = true ∨ d = 0) (radius : ℤ) (s : ℝ)
    (hs : 0 ≤ s) :
    getCrossPointsVerLines E S fft filter2 store (exposed c d m) slope dist ratio offset bright true false denoise sub radius s none =
      getCrossPointsVerLines E S fft filter2 store m slope dist ratio offset bright true false denoise sub radius s none := by
  unfold getCrossPointsVerLines
  rw [crossImage_factor h1 h2 hc d m bright true denoise hb]
  cases crossImage fft filter2 m bright true denoise with
  | error e => rfl
  | ok img =>
    have hline : ∀ a b dir n fx fy, (do
        let prof ← getTiltedProfile S (exposed c 0 img) a b dir
        crossPointsOnLine E store prof n fx fy false radius s denoise true sub none : Except PyErr (List Pt)) = (do
        let prof ← getTiltedProfile S img a b dir
        crossPointsOnLine E store prof n fx fy false radius s denoise true sub none) := by
      intro a b dir n fx fy
      rw [tilted_factor hS hc]
      cases getTiltedProfile S img a b dir with
      | error e => rfl
      | ok r => exact crossPointsOnLine_factor E hpf hg store hc r n fx fy radius s hs denoise sub
    simp only [Except.map, ok_bind, hline]
    rfl

/-- **C132 (scripts).** The scripts for line patterns (line_pattern/example_01.py, demo_04.py), given the slopes and distances of the lines: the same points, lines, residuals and model for every contrast
and brightness of the photograph; the corrected photograph has its contrast and brightness, the saved difference its contrast. -/
theorem C132_script (lib : Libs) (hpf : PolyfitSpec lib.polyfit) (B : Boundary) (hS : lib.sample = linearInterp B) (hC : SamplesContrast lib.sample) (hr : CoordRounding lib.float32) (ext : LineLibs)
    (hg : KeepsProfile ext.gaussFilter) (h1 : KeepsContrast ext.fft5) (h2 : KeepsContrast ext.filter2) (o : LineOpts) (ho : 0 ≤ o.sensitive) (fsolve : (ℝ × ℝ → ℝ × ℝ) → ℝ × ℝ → ℝ × ℝ) (numCoef : ℤ)
    (m : Mat ℝ) (hh : m.height ≤ 2 ^ 24) (hw : m.width ≤ 2 ^ 24) (c d : ℝ) (hc : 0 < c) (slopeHor distHor slopeVer distVer : ℝ) (run : LineRun)
    (h : lineExampleRest lib ext o fsolve numCoef m slopeHor distHor slopeVer distVer = .ok run) :
    ∃ run', lineExampleRest lib ext o fsolve numCoef (exposed c d m) slopeHor distHor slopeVer distVer = .ok run' ∧ SameLineRun (IsExposed c d) (IsExposed c 0) run run' := by
  have hp : linePoints lib ext o (exposed c d m) slopeHor distHor slopeVer distVer = linePoints lib ext o m slopeHor distHor slopeVer distVer := by
    unfold linePoints
    simp only [C132_hor ⟨lib.polyfit, lib.argsort, ext.gaussFilter, ext.gaussFit⟩ hpf hg lib.sample hC ext.fft5 ext.filter2 h1 h2 lib.float32 m c d hc _ _ _ _ true _ _ (.inl rfl) _ _ ho,
      C132_ver ⟨lib.polyfit, lib.argsort, ext.gaussFilter, ext.gaussFit⟩ hpf hg lib.sample hC ext.fft5 ext.filter2 h1 h2 lib.float32 m c d hc _ _ _ _ true _ _ (.inl rfl) _ _ ho]
  unfold lineExampleRest at h ⊢
  rw [hp]
  simp only [bind_ok_iff] at h ⊢
  obtain ⟨pts, e1, found, e2, grid, e3, before, e4, model, e5, after, e6, h⟩ := h
  cases h
  have hi := (images_exposed hS hr m hh hw c d).image model.centre model.coefs
  refine ⟨_, ⟨pts, e1, found, e2, grid, e3, before, e4, model, e5, after, e6, rfl⟩, rfl, rfl, rfl, rfl, rfl, rfl, hi, rfl, rfl, fun i h3 j h4 => ?_⟩
  have := hi.2.2 i h3 j h4
  simp only [subMat] at this ⊢
  rw [this]
  simp only [exposed]
  ring

/-- Linear interpolation with zeros outside of the image. -/
theorem samplesContrast_linear : SamplesContrast (linearInterp ⟨fun _ _ _ => 0, fun _ _ _ => 0⟩) := by
  intro c _ m y x
  have ht : ∀ i j, tap ⟨fun _ _ _ => 0, fun _ _ _ => 0⟩ (exposed c 0 m) i j = c * tap ⟨fun _ _ _ => 0, fun _ _ _ => 0⟩ m i j := by
    intro i j
    unfold tap
    by_cases h : 0 ≤ i ∧ i < m.height ∧ 0 ≤ j ∧ j < m.width
    · exact (if_pos h).trans ((add_zero _).trans (by rw [if_pos h]))
    · exact (if_neg h).trans (by rw [if_neg h, mul_zero])
  have h1 : (exposed c 0 m).height = m.height := rfl
  have h2 : (exposed c 0 m).width = m.width := rfl
  simp only [linearInterp, ht, h1, h2]
  split_ifs
  · ring
  · simp

/-- The mean of neighbouring rows. -/
theorem keepsContrast_mean : KeepsContrast fun m => { m with get := fun i j => (m.get i j + m.get (i - 1) j) / 2 } := by
  intro c _ m
  simp only [exposed, Mat.mk.injEq, true_and]
  funext i j
  ring

/-- The mean of neighbouring samples. -/
theorem keepsProfile_mean : KeepsProfile fun l _ => List.zipWith (fun x y => (x + y) / 2) l (l.drop 1 ++ l.drop (l.length - 1)) := by
  intro c _ l s
  simp only [List.length_map]
  rw [← List.map_drop, ← List.map_drop, ← List.map_append, List.zipWith_map, List.map_zipWith]
  congr 1
  funext x y
  ring

/-- Non-vacuity: a profile with two lines; the maximum in sample 3 is found before and after. -/
example : getLocalExtremaPoints ⟨refPolyfit, refArgsort, fun l _ => l, fun w => ⟨w, 0, 0, true⟩⟩ ([0, 1, 2, 9, 2, 1, 0, 0, 3, 0, 0, 0].map fun x => 180.5 * x + 20) "max" 2 0.1 false false true none =
    getLocalExtremaPoints ⟨refPolyfit, refArgsort, fun l _ => l, fun w => ⟨w, 0, 0, true⟩⟩ [0, 1, 2, 9, 2, 1, 0, 0, 3, 0, 0, 0] "max" 2 0.1 false false true none :=
  C132_profile _ refPolyfit_spec _ 180.5 20 (by norm_num) 2 0.1 (by norm_num) true

/-- The image with two lines each way of C112, in which the points are found: with another exposure, the same points. -/
example :
    linePoints refLibs ⟨fun l _ => l, fun w => ⟨w, 0, 0, true⟩, id, id, id⟩ lineExampleOpts (exposed 180.5 20 straightGridImage) 0 16 0 16 =
      linePoints refLibs ⟨fun l _ => l, fun w => ⟨w, 0, 0, true⟩, id, id, id⟩ lineExampleOpts straightGridImage 0 16 0 16 := by
  unfold linePoints
  have hg : KeepsProfile fun l _ => l := fun _ _ _ _ => rfl
  have hi : KeepsContrast id := fun _ _ _ => rfl
  have ho : 0 ≤ lineExampleOpts.sensitive := by norm_num [lineExampleOpts]
  simp only [C132_hor ⟨refLibs.polyfit, refLibs.argsort, fun l _ => l, fun w => ⟨w, 0, 0, true⟩⟩ refPolyfit_spec hg refLibs.sample samplesContrast_linear id id hi hi refLibs.float32 straightGridImage 180.5 20
      (by norm_num) _ _ _ _ true _ _ (.inl rfl) _ _ ho,
    C132_ver ⟨refLibs.polyfit, refLibs.argsort, fun l _ => l, fun w => ⟨w, 0, 0, true⟩⟩ refPolyfit_spec hg refLibs.sample samplesContrast_linear id id hi hi refLibs.float32 straightGridImage 180.5 20
      (by norm_num) _ _ _ _ true _ _ (.inl rfl) _ _ ho]

/-- The script with other filters, if it ends for the first photograph. -/
example (fsolve : (ℝ × ℝ → ℝ × ℝ) → ℝ × ℝ → ℝ × ℝ) (m : Mat ℝ) (hh : m.height ≤ 2000) (hw : m.width ≤ 2000) (run : LineRun)
    (h : lineExampleRest refLibs ⟨fun l _ => List.zipWith (fun x y => (x + y) / 2) l (l.drop 1 ++ l.drop (l.length - 1)), fun w => ⟨w, 0, 0, true⟩,
      fun m => { m with get := fun i j => (m.get i j + m.get (i - 1) j) / 2 }, id, id⟩ demo04Opts fsolve 5 m 0.01 16 0.02 16 = .ok run) :
    ∃ run', lineExampleRest refLibs ⟨fun l _ => List.zipWith (fun x y => (x + y) / 2) l (l.drop 1 ++ l.drop (l.length - 1)), fun w => ⟨w, 0, 0, true⟩,
      fun m => { m with get := fun i j => (m.get i j + m.get (i - 1) j) / 2 }, id, id⟩ demo04Opts fsolve 5 (exposed 180.5 20 m) 0.01 16 0.02 16 = .ok run' ∧ run'.model = run.model := by
  obtain ⟨run', e, hs⟩ := C132_script refLibs refPolyfit_spec _ rfl samplesContrast_linear coordRounding_id
    ⟨fun l _ => List.zipWith (fun x y => (x + y) / 2) l (l.drop 1 ++ l.drop (l.length - 1)), fun w => ⟨w, 0, 0, true⟩,
      fun m => { m with get := fun i j => (m.get i j + m.get (i - 1) j) / 2 }, id, id⟩ keepsProfile_mean (fun _ _ _ => rfl) keepsContrast_mean demo04Opts (by norm_num [demo04Opts]) fsolve 5 m (by omega) (by omega)
    180.5 20 (by norm_num) _ _ _ _ run h
  exact ⟨run', e, hs.model⟩

end Discorpy
