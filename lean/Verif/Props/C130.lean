import Verif.Spec.ScriptPairs
import Verif.Props.C113
import Verif.Props.C129

/-! # C130 — exposure and noise do not change the results of the other scripts -/

namespace Discorpy

open Spec

/-- The relations of the corrected images and of the differences that are needed. -/
structure ImagesRelated (lib : Libs) (rel relD : Mat ℝ → Mat ℝ → Prop) (m m' : Mat ℝ) : Prop where
  image : ∀ (c : Pt) f, rel (unwarpImageBackward lib.sample lib.float32 m c.x c.y f) (unwarpImageBackward lib.sample lib.float32 m' c.x c.y f)
  difference : ∀ (c : Pt) f, relD (subMat (unwarpImageBackward lib.sample lib.float32 m c.x c.y f) m)
    (subMat (unwarpImageBackward lib.sample lib.float32 m' c.x c.y f) m')

theorem radialRun_related {lib : Libs} {rel relD : Mat ℝ → Mat ℝ → Prop} {m m' : Mat ℝ} (hr : ImagesRelated lib rel relD m m') {numCoef : ℤ}
    {found grid : List (List Pt) × List (List Pt)} {before : List (ℝ × ℝ) × List (ℝ × ℝ)} {run : LineRun}
    (h : radialRun lib numCoef m found grid before = .ok run) :
    ∃ run', radialRun lib numCoef m' found grid before = .ok run' ∧ SameLineRun rel relD run run' := by
  unfold radialRun at h ⊢
  simp only [bind_ok_iff] at h
  obtain ⟨model, e1, after, e2, h⟩ := h
  cases h
  simp only [e1, e2, ok_bind]
  exact ⟨_, rfl, rfl, rfl, rfl, rfl, rfl, rfl, hr.image _ _, hr.difference _ _⟩

theorem demo01_related {lib : Libs} {rel relD : Mat ℝ → Mat ℝ → Prop} {m m' : Mat ℝ} (hr : ImagesRelated lib rel relD m m') {numCoef : ℤ} {α : Type} {D : Disk α}
    {file file' : FilePath} (l1 : loadImageAt D.decode D.fs file true = .ok (.gray m)) (l2 : loadImageAt D.decode D.fs file' true = .ok (.gray m'))
    (hb : ∀ b, binarization lib.otsu m 0.3 none true = .ok b → binarization lib.otsu m' 0.3 none true = .ok b)
    {b : Mat ℤ} {f : DotsFound} {run : LineRun} (h : demo01 lib numCoef D file = .ok (b, f, run)) :
    ∃ run', demo01 lib numCoef D file' = .ok (b, f, run') ∧ SameLineRun rel relD run run' := by
  unfold demo01 demo01Rest at h ⊢
  simp only [l1, l2, ok_bind, asGray, bind_ok_iff] at h ⊢
  obtain ⟨b0, e1, ⟨f0, run0⟩, ⟨f1, e2, before, e3, run1, e4, h'⟩, h⟩ := h
  cases h'
  cases h
  obtain ⟨run', e5, hs⟩ := radialRun_related hr e4
  exact ⟨run', ⟨b, hb b e1, (f, run'), ⟨f, e2, before, e3, run', e5, rfl⟩, rfl⟩, hs⟩

theorem demo02_related {lib : Libs} {rel relD : Mat ℝ → Mat ℝ → Prop} {m m' : Mat ℝ} (hr : ImagesRelated lib rel relD m m') {numCoef : ℤ} {α : Type} {D : Disk α}
    {file file' : FilePath} {fsolve : (ℝ × ℝ → ℝ × ℝ) → ℝ × ℝ → ℝ × ℝ}
    (l1 : loadImageAt D.decode D.fs file true = .ok (.gray m)) (l2 : loadImageAt D.decode D.fs file' true = .ok (.gray m'))
    (hb : ∀ b, binarization lib.otsu m 0.3 none true = .ok b → binarization lib.otsu m' 0.3 none true = .ok b)
    {b : Mat ℤ} {f : DotsFound} {run : LineRun} (h : demo02 lib fsolve numCoef D file = .ok (b, f, run)) :
    ∃ run', demo02 lib fsolve numCoef D file' = .ok (b, f, run') ∧ SameLineRun rel relD run run' := by
  unfold demo02 demo02Rest at h ⊢
  simp only [l1, l2, ok_bind, asGray, bind_ok_iff] at h ⊢
  obtain ⟨b0, e1, ⟨f0, run0⟩, ⟨f1, e2, before, e3, pl, e4, grid, e5, run1, e6, h'⟩, h⟩ := h
  cases h'
  cases h
  obtain ⟨run', e7, hs⟩ := radialRun_related hr e6
  exact ⟨run', ⟨b, hb b e1, (f, run'), ⟨f, e2, before, e3, pl, e4, grid, e5, run', e7, rfl⟩, rfl⟩, hs⟩

theorem unwarp_related {lib : Libs} {rel relD : Mat ℝ → Mat ℝ → Prop} {m m' : Mat ℝ} (hr : ImagesRelated lib rel relD m m') {α : Type} {D : Disk α}
    {store : ℝ → ℝ} {args : UnwarpArgs} {input' : FilePath} {fsolve : (ℝ × ℝ → ℝ × ℝ) → ℝ × ℝ → ℝ × ℝ} (hf : args.flat = .none)
    (l1 : scriptLoad D args.input args.key = .ok m) (l2 : scriptLoad D input' args.key = .ok m')
    (hb : ∀ b, binarization lib.otsu m 0.3 none true = .ok b → binarization lib.otsu m' 0.3 none true = .ok b)
    {r : UnwarpRun} (h : unwarpScript lib fsolve D store args = .ok r) :
    ∃ r', unwarpScript lib fsolve D store { args with input := input' } = .ok r' ∧ r'.found = r.found ∧ rel r.image r'.image := by
  unfold unwarpScript at h ⊢
  simp only [l1, l2, ok_bind, hf, dotImage] at h ⊢
  unfold unwarpSteps at h ⊢
  rw [bind_ok_iff] at h
  obtain ⟨b, hb1, h⟩ := h
  rw [hb b hb1, ok_bind]
  simp only [bind_ok_iff] at h
  obtain ⟨⟨s, d⟩, e1, sel, e2, hs, e3, vs, e4, ho, e5, ve, e6, ho', e7, ve', e8, r1, e9, r2, e10, ⟨uh, uv⟩, e11, c, e12, ⟨c0, coefs, w⟩, e13, bk, e14, h⟩ := h
  cases h
  obtain ⟨bk', e15, q1, q2, q3, q4, q5, q6⟩ := correctBackward_related hr.image e14
  simp only [e1, e2, e3, e4, e5, e6, e7, e8, e9, e10, e11, e12, e13, e15, ok_bind]
  exact ⟨_, rfl, by rw [q3, q4, q5], q6⟩

theorem images_exposed {lib : Libs} {B : Boundary} (hS : lib.sample = linearInterp B) (hr : CoordRounding lib.float32) (m : Mat ℝ) (hh : m.height ≤ 2 ^ 24)
    (hw : m.width ≤ 2 ^ 24) (α β : ℝ) : ImagesRelated lib (IsExposed α β) (IsExposed α 0) m (exposed α β m) := by
  have key : ∀ (c : Pt) f, IsExposed α β (unwarpImageBackward lib.sample lib.float32 m c.x c.y f)
      (unwarpImageBackward lib.sample lib.float32 (exposed α β m) c.x c.y f) := fun c f => by
    rw [hS]
    exact C128_image B B lib.float32 hr m α β hh hw c.x c.y f
  refine ⟨key, fun c f => ⟨(key c f).1, (key c f).2.1, fun i hi j hj => ?_⟩⟩
  have := (key c f).2.2 i hi j hj
  simp only [subMat] at this ⊢
  rw [this]
  simp only [exposed]
  ring

theorem images_noisy {lib : Libs} {B : Boundary} (hS : lib.sample = linearInterp B) (hr : CoordRounding lib.float32) {m m' : Mat ℝ} (hh : m.height ≤ 2 ^ 24)
    (hw : m.width ≤ 2 ^ 24) {e : ℝ} (hd : DiffersBy e m m') : ImagesRelated lib (DiffersBy e) (DiffersBy (2 * e)) m m' := by
  have key : ∀ (c : Pt) f, DiffersBy e (unwarpImageBackward lib.sample lib.float32 m c.x c.y f) (unwarpImageBackward lib.sample lib.float32 m' c.x c.y f) :=
    fun c f => by
      rw [hS]
      exact C125_noise B lib.float32 hr m m' e hd c.x c.y f hh hw
  refine ⟨key, fun c f => ⟨(key c f).height, (key c f).width, fun i hi j hj => ?_⟩⟩
  have h1 := abs_le.1 ((key c f).pixel i hi j hj)
  have h2 := abs_le.1 (hd.pixel i hi j hj)
  simp only [subMat]
  exact abs_le.2 ⟨by linarith, by linarith⟩

/-- **C130 (exposure, demo_01).** The script demo_01.py finds the same mask, lines, residuals and model for every brightness and contrast of the photograph; the corrected photographs have the
same brightness and contrast, and the saved differences the same contrast. -/
theorem C130_demo01 (lib : Libs) (integer : Bool) (n : ℕ) (hotsu : lib.otsu = thresholdOtsu integer n) (B : Boundary) (hS : lib.sample = linearInterp B)
    (hr : CoordRounding lib.float32) (m : Mat ℝ) (hh : m.height ≤ 2 ^ 24) (hw : m.width ≤ 2 ^ 24) (a c : ℝ) (ha : 0 < a)
    (hp : ∀ i < m.height, ∀ j < m.width, 0 ≤ m.get i j ∧ 0 ≤ a * m.get i j + c)
    (hz : integer = true → ∀ i < m.height, ∀ j < m.width, (∃ z : ℤ, m.get i j = z) ∧ ∃ z : ℤ, a * m.get i j + c = z)
    (numCoef : ℤ) {α : Type} (D : Disk α) (file file' : FilePath) (l1 : loadImageAt D.decode D.fs file true = .ok (.gray m))
    (l2 : loadImageAt D.decode D.fs file' true = .ok (.gray (exposed a c m))) (b : Mat ℤ) (f : DotsFound) (run : LineRun)
    (h : demo01 lib numCoef D file = .ok (b, f, run)) :
    ∃ run', demo01 lib numCoef D file' = .ok (b, f, run') ∧ SameLineRun (IsExposed a c) (IsExposed a 0) run run' :=
  demo01_related (images_exposed hS hr m hh hw a c) l1 l2 (fun b hb => by
    rw [hotsu] at hb ⊢
    exact C128_binarization integer m n a c ha 0.3 true (fun _ => hp) hz b hb) h

/-- **C130 (exposure, demo_02).** The same for demo_02.py. -/
theorem C130_demo02 (lib : Libs) (integer : Bool) (n : ℕ) (hotsu : lib.otsu = thresholdOtsu integer n) (B : Boundary) (hS : lib.sample = linearInterp B)
    (hr : CoordRounding lib.float32) (m : Mat ℝ) (hh : m.height ≤ 2 ^ 24) (hw : m.width ≤ 2 ^ 24) (a c : ℝ) (ha : 0 < a)
    (hp : ∀ i < m.height, ∀ j < m.width, 0 ≤ m.get i j ∧ 0 ≤ a * m.get i j + c)
    (hz : integer = true → ∀ i < m.height, ∀ j < m.width, (∃ z : ℤ, m.get i j = z) ∧ ∃ z : ℤ, a * m.get i j + c = z)
    (fsolve : (ℝ × ℝ → ℝ × ℝ) → ℝ × ℝ → ℝ × ℝ) (numCoef : ℤ) {α : Type} (D : Disk α) (file file' : FilePath)
    (l1 : loadImageAt D.decode D.fs file true = .ok (.gray m)) (l2 : loadImageAt D.decode D.fs file' true = .ok (.gray (exposed a c m)))
    (b : Mat ℤ) (f : DotsFound) (run : LineRun) (h : demo02 lib fsolve numCoef D file = .ok (b, f, run)) :
    ∃ run', demo02 lib fsolve numCoef D file' = .ok (b, f, run') ∧ SameLineRun (IsExposed a c) (IsExposed a 0) run run' :=
  demo02_related (images_exposed hS hr m hh hw a c) l1 l2 (fun b hb => by
    rw [hotsu] at hb ⊢
    exact C128_binarization integer m n a c ha 0.3 true (fun _ => hp) hz b hb) h

/-- **C130 (exposure, unwarp.py).** Without a flat-field the script unwarp.py finds the same for every brightness and contrast of the photograph, and the saved image has the same
brightness and contrast. -/
theorem C130_unwarp (lib : Libs) (integer : Bool) (n : ℕ) (hotsu : lib.otsu = thresholdOtsu integer n) (B : Boundary) (hS : lib.sample = linearInterp B)
    (hr : CoordRounding lib.float32) (m : Mat ℝ) (hh : m.height ≤ 2 ^ 24) (hw : m.width ≤ 2 ^ 24) (a c : ℝ) (ha : 0 < a)
    (hp : ∀ i < m.height, ∀ j < m.width, 0 ≤ m.get i j ∧ 0 ≤ a * m.get i j + c)
    (hz : integer = true → ∀ i < m.height, ∀ j < m.width, (∃ z : ℤ, m.get i j = z) ∧ ∃ z : ℤ, a * m.get i j + c = z)
    (fsolve : (ℝ × ℝ → ℝ × ℝ) → ℝ × ℝ → ℝ × ℝ) {α : Type} (D : Disk α) (store : ℝ → ℝ) (args : UnwarpArgs) (hf : args.flat = .none) (input' : FilePath)
    (l1 : scriptLoad D args.input args.key = .ok m) (l2 : scriptLoad D input' args.key = .ok (exposed a c m)) (r : UnwarpRun)
    (h : unwarpScript lib fsolve D store args = .ok r) :
    ∃ r', unwarpScript lib fsolve D store { args with input := input' } = .ok r' ∧ r'.found = r.found ∧ IsExposed a c r.image r'.image :=
  unwarp_related (images_exposed hS hr m hh hw a c) hf l1 l2 (fun b hb => by
    rw [hotsu] at hb ⊢
    exact C128_binarization integer m n a c ha 0.3 true (fun _ => hp) hz b hb) h

/-- **C130 (noise).** If two photographs differ by at most `e` per pixel and have the same mask, demo_01.py, demo_02.py and unwarp.py (without a flat-field) find the same for both; the corrected photographs
differ by at most `e` and the saved differences by at most `2 * e`. -/
theorem C130_noise (lib : Libs) (B : Boundary) (hS : lib.sample = linearInterp B)
    (hr : CoordRounding lib.float32) (m m' : Mat ℝ) (hh : m.height ≤ 2 ^ 24) (hw : m.width ≤ 2 ^ 24) (e : ℝ) (hd : DiffersBy e m m')
    (b b' : Mat ℤ) (hb : binarization lib.otsu m 0.3 none true = .ok b) (hb' : binarization lib.otsu m' 0.3 none true = .ok b') (hs : SameMask b b')
    (fsolve : (ℝ × ℝ → ℝ × ℝ) → ℝ × ℝ → ℝ × ℝ) (numCoef : ℤ) {α : Type} (D : Disk α) :
    (∀ (file file' : FilePath) (b0 : Mat ℤ) (f : DotsFound) (run : LineRun), loadImageAt D.decode D.fs file true = .ok (.gray m) →
      loadImageAt D.decode D.fs file' true = .ok (.gray m') →
      (demo01 lib numCoef D file = .ok (b0, f, run) →
        ∃ run', demo01 lib numCoef D file' = .ok (b0, f, run') ∧ SameLineRun (DiffersBy e) (DiffersBy (2 * e)) run run') ∧
      (demo02 lib fsolve numCoef D file = .ok (b0, f, run) →
        ∃ run', demo02 lib fsolve numCoef D file' = .ok (b0, f, run') ∧ SameLineRun (DiffersBy e) (DiffersBy (2 * e)) run run')) ∧
    ∀ (store : ℝ → ℝ) (args : UnwarpArgs) (input' : FilePath) (r : UnwarpRun), args.flat = .none → scriptLoad D args.input args.key = .ok m →
      scriptLoad D input' args.key = .ok m' → unwarpScript lib fsolve D store args = .ok r →
      ∃ r', unwarpScript lib fsolve D store { args with input := input' } = .ok r' ∧ r'.found = r.found ∧ DiffersBy e r.image r'.image := by
  have hsame := binarization_same hb hb' hs
  have hmask : ∀ b0, binarization lib.otsu m 0.3 none true = .ok b0 → binarization lib.otsu m' 0.3 none true = .ok b0 := fun b0 h0 => by
    rw [hb', hsame, ← hb, h0]
  have hrel := images_noisy hS hr hh hw hd
  exact ⟨fun file file' b0 f run l1 l2 => ⟨fun h => demo01_related hrel l1 l2 hmask h, fun h => demo02_related hrel l1 l2 hmask h⟩,
    fun store args input' r hf l1 l2 h => unwarp_related hrel hf l1 l2 hmask h⟩

/-! ## Concrete cases -/

/-- `demo_01.py` on files with the pattern of 13 × 13 dots and with a photograph of it with grey values 20 and 200.5. -/
example : ∃ (D : Disk Img) (file file' : FilePath) (m : Mat ℝ) (b : Mat ℤ) (f : DotsFound) (run run' : LineRun), makeDotPattern 200 200 15 9 (.int 1) = .ok m ∧
    loadImageAt D.decode D.fs file' true = .ok (.gray (exposed 180.5 20 m)) ∧ demo01 refLibs (5 : ℕ) D file = .ok (b, f, run) ∧
    demo01 refLibs (5 : ℕ) D file' = .ok (b, f, run') ∧ run'.model = run.model ∧ IsExposed 180.5 0 run.difference run'.difference := by
  obtain ⟨m, b, hm, hb, mh, mw, h⟩ := drawn13_binary
  set files : List PyStr → Option (Node Img) := fun q =>
    if q = ["dots.tif".toList] then some (.file (.gray m)) else some (.file (.gray (exposed 180.5 20 m))) with hfiles
  have l1 : loadImageAt (imageDisk files).decode (imageDisk files).fs ⟨[], "dots.tif".toList⟩ true = .ok (.gray m) := rfl
  have l2 : loadImageAt (imageDisk files).decode (imageDisk files).fs ⟨[], "photo.tif".toList⟩ true = .ok (.gray (exposed 180.5 20 m)) := rfl
  obtain ⟨f, run, e, _⟩ := C113_demo01 refLibs_spec h (by norm_num) (by norm_num) 5 (by norm_num) (by norm_num) (by norm_num)
    (imageDisk files) ⟨[], "dots.tif".toList⟩ m l1 (by rw [mh]; norm_num) (by rw [mw]; norm_num) hb
  obtain ⟨run', e', hs⟩ := C130_demo01 refLibs false 512 rfl _ rfl coordRounding_id m (by rw [mh]; norm_num) (by rw [mw]; norm_num) 180.5 20 (by norm_num)
    (drawn13_exposed hm) (by simp) _ _ _ _ l1 l2 b f run e
  exact ⟨_, _, _, m, b, f, run, run', hm, l2, e, e', hs.model, hs.difference⟩

/-- `demo_02.py` on two such files, if it ends for the first. -/
example {m : Mat ℝ} (hm : makeDotPattern 200 200 15 9 (.int 1) = .ok m) (fsolve : (ℝ × ℝ → ℝ × ℝ) → ℝ × ℝ → ℝ × ℝ) (D : Disk Img) (file file' : FilePath)
    (l1 : loadImageAt D.decode D.fs file true = .ok (.gray m)) (l2 : loadImageAt D.decode D.fs file' true = .ok (.gray (exposed 180.5 20 m)))
    (b : Mat ℤ) (f : DotsFound) (run : LineRun) (h : demo02 refLibs fsolve 5 D file = .ok (b, f, run)) :
    ∃ run', demo02 refLibs fsolve 5 D file' = .ok (b, f, run') ∧ run'.grid = run.grid := by
  obtain ⟨run', e, hs⟩ := C130_demo02 refLibs false 512 rfl _ rfl coordRounding_id m (by rw [(drawn13_pixels hm).1]; norm_num)
    (by rw [(drawn13_pixels hm).2.1]; norm_num) 180.5 20 (by norm_num) (drawn13_exposed hm) (by simp) fsolve 5 D file file' l1 l2 b f run h
  exact ⟨run', e, hs.grid⟩

/-- The script `unwarp.py` ends for a file with this pattern. -/
theorem drawn13_unwarps : ∃ m, makeDotPattern 200 200 15 9 (.int 1) = .ok m ∧ ∀ m' : Mat ℝ, ∃ (D : Disk Img) (file file' : FilePath) (r : UnwarpRun),
    scriptLoad D file none = .ok m ∧ scriptLoad D file' none = .ok m' ∧ unwarpScript refLibs (fun _ x => x) D id ⟨file, none, .none, 5, none⟩ = .ok r := by
  obtain ⟨m, b, hm, hb, h⟩ := C104_drawn drawn13 (by norm_num) (by norm_num) (by norm_num) (by norm_num) (by norm_num) (by norm_num)
    drawn13_middle drawn13_middle 5 (by norm_num) (by norm_num) (by norm_num) refLibs refPolyfit_spec refArgsort_spec refLstsq_spec
    refMinimize_exact (fun _ _ => ⟨by simp [refLibs], rfl⟩) (linearInterp_interpolates _) coordRounding_id 512 (by norm_num) rfl rfl (fun _ x => x)
  refine ⟨m, hm, fun m' => ?_⟩
  set light : Mat ℝ := ⟨m.height, m.width, fun i j => 1⟩ with hlight
  set photo : Mat ℝ := ⟨m.height, m.width, fun i j => 1 * m.get i j⟩ with hphoto
  set files : List PyStr → Option (Node Img) := fun q =>
    if q = ["photo.tif".toList] then some (.file (.gray photo)) else if q = ["flat.tif".toList] then some (.file (.gray light))
    else if q = ["dots.tif".toList] then some (.file (.gray m)) else some (.file (.gray m')) with hfiles
  have l1 : scriptLoad (imageDisk files) ⟨[], "photo.tif".toList⟩ none = .ok photo := imageDisk_load (by rw [hfiles]; rfl)
    (no_hdf_name (stem := "photo".toList) (ext := "tif".toList) (by decide) (by decide) (by decide)) none
  have l2 : scriptLoad (imageDisk files) ⟨[], "flat.tif".toList⟩ none = .ok light := imageDisk_load (by rw [hfiles]; rfl)
    (no_hdf_name (stem := "flat".toList) (ext := "tif".toList) (by decide) (by decide) (by decide)) none
  have l3 : scriptLoad (imageDisk files) ⟨[], "dots.tif".toList⟩ none = .ok m := imageDisk_load (by rw [hfiles]; rfl)
    (no_hdf_name (stem := "dots".toList) (ext := "tif".toList) (by decide) (by decide) (by decide)) none
  have l4 : scriptLoad (imageDisk files) ⟨[], "other.tif".toList⟩ none = .ok m' := imageDisk_load (by rw [hfiles]; rfl)
    (no_hdf_name (stem := "other".toList) (ext := "tif".toList) (by decide) (by decide) (by decide)) none
  have hlit : IsLitBy photo light m := ⟨rfl, rfl, rfl, rfl, fun i _ j _ => ⟨by simp only [hlight]; positivity, rfl⟩⟩
  obtain ⟨r, e, _⟩ := h (refLibs_upright _ _) Img (imageDisk files) id
    ⟨⟨[], "photo.tif".toList⟩, none, .file ⟨[], "flat.tif".toList⟩, 5, none⟩ ⟨[], "flat.tif".toList⟩ photo light rfl rfl l1 l2 hlit
  have key := C104_illumination refLibs (fun _ x => x) (imageDisk files) id ⟨⟨[], "photo.tif".toList⟩, none, .file ⟨[], "flat.tif".toList⟩, 5, none⟩
    ⟨[], "flat.tif".toList⟩ ⟨[], "dots.tif".toList⟩ photo light m hlit
    (by show 0 < m.height; rw [(drawn13_pixels hm).1]; norm_num) (by show 0 < m.width; rw [(drawn13_pixels hm).2.1]; norm_num) l1 l2 l3
  simp only [e] at key
  refine ⟨imageDisk files, ⟨[], "dots.tif".toList⟩, ⟨[], "other.tif".toList⟩, ?_⟩
  cases hr : unwarpScript refLibs (fun _ x => x) (imageDisk files) id ⟨⟨[], "dots.tif".toList⟩, none, .none, 5, none⟩ with
  | ok r' => exact ⟨r', l3, l4, rfl⟩
  | error x =>
    simp only [hr] at key
    cases key

/-- So it ends for a photograph with grey values 20 and 200.5, and finds the same. -/
example : ∃ (m : Mat ℝ) (D : Disk Img) (file file' : FilePath) (r r' : UnwarpRun), makeDotPattern 200 200 15 9 (.int 1) = .ok m ∧
    scriptLoad D file' none = .ok (exposed 180.5 20 m) ∧ unwarpScript refLibs (fun _ x => x) D id ⟨file, none, .none, 5, none⟩ = .ok r ∧
    unwarpScript refLibs (fun _ x => x) D id ⟨file', none, .none, 5, none⟩ = .ok r' ∧ r'.found = r.found := by
  obtain ⟨m, hm, h⟩ := drawn13_unwarps
  obtain ⟨D, file, file', r, l1, l2, e⟩ := h (exposed 180.5 20 m)
  obtain ⟨r', e', hf, _⟩ := C130_unwarp refLibs false 512 rfl _ rfl coordRounding_id m (by rw [(drawn13_pixels hm).1]; norm_num)
    (by rw [(drawn13_pixels hm).2.1]; norm_num) 180.5 20 (by norm_num) (drawn13_exposed hm) (by simp) _ D id ⟨file, none, .none, 5, none⟩ rfl file' l1 l2 r e
  exact ⟨m, D, file, file', r, r', hm, l2, e, e', hf⟩

/-- And for a noisy photograph. -/
example : ∃ (m : Mat ℝ) (D : Disk Img) (file file' : FilePath) (r r' : UnwarpRun), makeDotPattern 200 200 15 9 (.int 1) = .ok m ∧
    scriptLoad D file' none = .ok { m with get := fun i j => if i % 7 = 0 then m.get i j * 0.999 else m.get i j } ∧
    unwarpScript refLibs (fun _ x => x) D id ⟨file, none, .none, 5, none⟩ = .ok r ∧
    unwarpScript refLibs (fun _ x => x) D id ⟨file', none, .none, 5, none⟩ = .ok r' ∧ r'.found = r.found ∧ DiffersBy 0.001 r.image r'.image := by
  obtain ⟨m, hm, h⟩ := drawn13_unwarps
  obtain ⟨D, file, file', r, l1, l2, e⟩ := h { m with get := fun i j => if i % 7 = 0 then m.get i j * 0.999 else m.get i j }
  obtain ⟨p1, p2, p3⟩ := drawn13_pixels hm
  have hpix : ∀ i < m.height, ∀ j < m.width, m.get i j = 0 ∧ (if i % 7 = 0 then m.get i j * 0.999 else m.get i j) = 0 ∨
      m.get i j = 1 ∧ |(if i % 7 = 0 then m.get i j * 0.999 else m.get i j) - 1| ≤ 0.001 := by
    intro i hi j hj
    rcases p3 i hi j hj with h | h
    · exact .inl ⟨h, by simp [h]⟩
    · refine .inr ⟨h, ?_⟩
      split_ifs <;> rw [h] <;> norm_num [abs_le]
  obtain ⟨b1, b2, e1, e2, hs⟩ := C129_black { m with get := fun i j => if i % 7 = 0 then m.get i j * 0.999 else m.get i j } m 512 (by norm_num) 0.3 0 1 0.001 (1.002 / 1024) le_rfl
    (by norm_num) (by norm_num) (by norm_num) rfl rfl hpix (drawn13_balance hm)
  obtain ⟨s1, s2, s3⟩ := hs
  obtain ⟨r', e', hf, hd⟩ := (C130_noise refLibs _ rfl coordRounding_id m { m with get := fun i j => if i % 7 = 0 then m.get i j * 0.999 else m.get i j } (by rw [p1]; norm_num) (by rw [p2]; norm_num) 0.001 ⟨rfl, rfl, fun i hi j hj => by
      dsimp only
      rcases hpix i hi j hj with ⟨h1, h2⟩ | ⟨h1, h2⟩
      · rw [h2, h1]
        norm_num
      · rw [h1] at h2 ⊢
        exact h2⟩ b2 b1 e2 e1 ⟨s1.symm, s2.symm, fun i hi j hj => (s3 i (by omega) j (by omega)).symm⟩ (fun _ x => x) 5 D).2 id ⟨file, none, .none, 5, none⟩ file' r rfl l1 l2 e
  exact ⟨m, D, file, file', r, r', hm, l2, e, e', hf, hd⟩

end Discorpy
