import Verif.Lemmas.DotScript
import Verif.Props.C108
import Verif.Props.C104

/-! # C113: the calibration scripts for dot patterns of `examples/readthedocs_demo`, and `example_03.py` -/

namespace Discorpy

open Spec

/-- What is asked of the library functions. -/
structure LibsSpec (lib : Libs) : Prop where
  polyfit : PolyfitSpec lib.polyfit
  argsort : ArgsortSpec lib.argsort
  lstsq : LstsqSpec lib.lstsq
  minimize : ExactMin lib.minimize
  radon : ∀ img angles, 0 < (lib.radon img angles).height ∧ (lib.radon img angles).width = angles.length
  sample : InterpolatesNodes lib.sample
  float32 : CoordRounding lib.float32
  axes : lib.axes = ellipseAxes

theorem refLibs_spec : LibsSpec refLibs :=
  ⟨refPolyfit_spec, refArgsort_spec, refLstsq_spec, refMinimize_exact, fun _ _ => ⟨by simp [refLibs], rfl⟩, linearInterp_interpolates _, coordRounding_id, rfl⟩

/-- All settings of the scripts are usable. -/
theorem dotOpts_usable : demo01Opts.Usable ∧ demo02Opts.Usable ∧ demo03Opts.Usable ∧ demo05Opts.Usable ∧ example03Opts.Usable := by
  refine ⟨?_, ?_, ?_, ?_, ?_⟩
  all_goals
    constructor
    · rintro a b h
      cases h <;> norm_num
    · constructor <;> norm_num [demo01Opts, demo02Opts, demo03Opts, demo05Opts, example03Opts]
    · norm_num [demo01Opts, demo02Opts, demo03Opts, demo05Opts, example03Opts]
    · constructor <;> norm_num [demo01Opts, demo02Opts, demo03Opts, demo05Opts, example03Opts]
    · rintro r h
      cases h <;> norm_num

/-! ## A drawn pattern -/

/-- The image `b` is the binarized drawing of a dot pattern, with two neighbouring dots in each direction inside the middle part, and upright. -/
structure IsDrawnBinary (lib : Libs) (height width : ℕ) (d ds s : ℤ) (margin : MarginArg) (mv mh : ℤ) (K L : ℕ) (b : Mat ℤ) : Prop where
  pattern : DrawnPattern height width d ds s margin mv mh K L
  otsu : ∃ nbins, 2 ≤ nbins ∧ lib.otsu = thresholdOtsu false nbins
  drawn : ∃ m, makeDotPattern height width d ds margin = .ok m ∧ binarization lib.otsu m 0.3 none true = .ok b
  rows : ∃ k, k + 1 < K ∧ TwoInMiddle height 0.3 (mv + (s / 2 + 1)) d s k
  cols : ∃ l, l + 1 < L ∧ TwoInMiddle width 0.3 (mh + (s / 2 + 1)) d s l
  upright : Upright lib.radon (realMat b) 0.3

/-- The dots of the drawing are found: their size and distance, no dot is removed, the slopes are 0, and the lines are the rows and the columns. -/
structure FindsDrawing (d s mv mh : ℤ) (K L : ℕ) (b : Mat ℤ) (f : DotsFound) : Prop where
  size : ∀ D, IsDot b D → (D.ncard : ℝ) = f.dotSize
  dist : f.dotDist = d
  selected : SameImage (realMat f.selected) (realMat b)
  slopes : f.horSlope = 0 ∧ f.verSlope = 0
  hor : f.hor = latticeRows ((mv + (s / 2 + 1) : ℤ) + 1 / 2) ((mh + (s / 2 + 1) : ℤ) + 1 / 2) d K L
  ver : f.ver = latticeCols ((mv + (s / 2 + 1) : ℤ) + 1 / 2) ((mh + (s / 2 + 1) : ℤ) + 1 / 2) d K L

section

variable {lib : Libs} {height width : ℕ} {d ds s : ℤ} {margin : MarginArg} {mv mh : ℤ} {K L : ℕ} {b : Mat ℤ}

/-- **C113 (lines).** With the settings of each of the scripts, in the binarized drawing of a dot pattern with at least 3 rows and 3 columns, the dots are found
exactly. -/
theorem C113_lines (hlib : LibsSpec lib) (h : IsDrawnBinary lib height width d ds s margin mv mh K L b) (hK : 3 ≤ K) (hL : 3 ≤ L) (o : DotOpts)
    (ho : o = demo01Opts ∨ o = demo02Opts ∨ o = demo03Opts ∨ o = demo05Opts ∨ o = example03Opts) :
    ∃ f, dotLines lib o b = .ok f ∧ FindsDrawing d s mv mh K L b f := by
  obtain ⟨k, hk, w1⟩ := h.rows
  obtain ⟨l, hl, w2⟩ := h.cols
  obtain ⟨n, hn, en⟩ := h.otsu
  obtain ⟨m, hm, hb⟩ := h.drawn
  obtain ⟨m', b', hm', _, _, hb', b1, b2, g⟩ := pattern_shows h.pattern n hn 0.3 0.3 (by norm_num) hk hl w1 w2
  rw [hm] at hm'
  cases hm'
  rw [en, hb'] at hb
  cases hb
  have hu : o.Usable := by
    obtain ⟨u1, u2, u3, u4, u5⟩ := dotOpts_usable
    rcases ho with rfl | rfl | rfl | rfl | rfl <;> assumption
  obtain ⟨f, e, f1, f2, f3, f4, f5, f6, f7⟩ := dotLines_drawn h.pattern hK hL hk hl w1 w2 hlib.polyfit hlib.argsort hlib.radon hlib.axes b1 b2 g h.upright hu
  exact ⟨f, e, f1, f2, f3, ⟨f4, f5⟩, f6, f7⟩

theorem lattice_residuals {y0 x0 d : ℝ} {K L : ℕ} (hlib : LibsSpec lib) (hK : 1 ≤ K) (hL : 1 ≤ L) (xc yc : ℝ) :
    ∃ t, lineResiduals lib (latticeRows y0 x0 d K L, latticeCols y0 x0 d K L) xc yc = .ok t ∧ (∀ r ∈ t.1, r.2 = 0) ∧ ∀ r ∈ t.2, r.2 = 0 := by
  have nh : latticeRows y0 x0 d K L ≠ [] := by rw [← List.length_pos_iff]; simp [latticeRows]; omega
  have nv : latticeCols y0 x0 d K L ≠ [] := by rw [← List.length_pos_iff]; simp [latticeCols]; omega
  obtain ⟨hd, eh, th, lh, _⟩ := C12_residual_hor lib.polyfit hlib.polyfit lib.argsort hlib.argsort _ xc yc nh fun l hl => latticeRows_ne hL hl
  obtain ⟨vd, ev, tv, lv, _⟩ := C12_residual_ver lib.polyfit hlib.polyfit lib.argsort hlib.argsort _ xc yc nv fun l hl => latticeCols_ne hK hl
  have zh := C12_straight_line_zero _ _ _ th (by
    intro l hl
    obtain ⟨k, _, rfl⟩ := latticeRows_mem hl
    refine ⟨0, y0 + k * d, fun p hp => ?_⟩
    obtain ⟨i, _, rfl⟩ := List.mem_map.1 hp
    simp [onHorLine])
  have zv := C12_straight_line_zero_ver _ _ _ tv (by
    intro l hl
    obtain ⟨k, _, rfl⟩ := latticeCols_mem hl
    refine ⟨0, x0 + k * d, fun p hp => ?_⟩
    obtain ⟨i, _, rfl⟩ := List.mem_map.1 hp
    simp [onVerLine])
  refine ⟨(hd, vd), ?_, zh, zv⟩
  unfold lineResiduals
  rw [eh, ok_bind, ev, ok_bind]

/-- **C113 (no distortion, demo_01).** For an image whose binarization is that of the drawing of a dot pattern, `demo_01.py` finds the dots; the residuals before
and after the correction are 0; the centre is halfway between the first two rows and columns, and the model is the identity: neither the lines
nor the image are changed, and the saved difference is 0. -/
theorem C113_demo01 (hlib : LibsSpec lib) (h : IsDrawnBinary lib height width d ds s margin mv mh K L b) (hK : 4 ≤ K) (hL : 4 ≤ L)
    (numCoef : ℕ) (hn1 : 1 ≤ numCoef) (hn : 2 * numCoef ≤ L + 1) (hn' : numCoef ≤ 32767)
    {α : Type} (D : Disk α) (file : FilePath) (mat0 : Mat ℝ) (hload : loadImageAt D.decode D.fs file true = .ok (.gray mat0))
    (hh : mat0.height ≤ 2 ^ 24) (hw : mat0.width ≤ 2 ^ 24) (hbin : binarization lib.otsu mat0 0.3 none true = .ok b) :
    ∃ f run, demo01 lib numCoef D file = .ok (b, f, run) ∧ FindsDrawing d s mv mh K L b f ∧ run.found = (f.hor, f.ver) ∧ run.grid = (f.hor, f.ver) ∧
      ((∀ r ∈ run.before.1, r.2 = 0) ∧ ∀ r ∈ run.before.2, r.2 = 0) ∧
      run.model.centre = ⟨(mv + (s / 2 + 1) : ℤ) + 1 / 2 + (d : ℝ) / 2, (mh + (s / 2 + 1) : ℤ) + 1 / 2 + (d : ℝ) / 2⟩ ∧
      run.model.coefs = 1 :: List.replicate (numCoef - 1) 0 ∧ run.model.warned = false ∧ run.unwarped = (f.hor, f.ver) ∧
      ((∀ r ∈ run.after.1, r.2 = 0) ∧ ∀ r ∈ run.after.2, r.2 = 0) ∧ SameImage run.corrected mat0 ∧
      ∀ i < mat0.height, ∀ j < mat0.width, run.difference.get i j = 0 := by
  have hp := h.pattern
  have h5 := hp.large
  have hap := hp.apart
  have hd0 : (0 : ℝ) < d := by exact_mod_cast (by omega : 0 < d)
  obtain ⟨f, ef, hf⟩ := C113_lines hlib h (by omega) (by omega) demo01Opts (.inl rfl)
  obtain ⟨t0, et0, z0⟩ := lattice_residuals (y0 := (mv + (s / 2 + 1) : ℤ) + 1 / 2) (x0 := (mh + (s / 2 + 1) : ℤ) + 1 / 2) (d := d) hlib
    (by omega : 1 ≤ K) (by omega : 1 ≤ L) 0 0
  set y0 : ℝ := (mv + (s / 2 + 1) : ℤ) + 1 / 2 with hy0
  set x0 : ℝ := (mh + (s / 2 + 1) : ℤ) + 1 / 2 with hx0
  set c : Pt := ⟨y0 + (d : ℝ) / 2, x0 + (d : ℝ) / 2⟩ with hc
  obtain ⟨t1, et1, z1⟩ := lattice_residuals (y0 := y0) (x0 := x0) (d := d) hlib (by omega : 1 ≤ K) (by omega : 1 ≤ L) c.x c.y
  obtain ⟨cb, _⟩ := models_lattice (y0 := y0) (x0 := x0) (d := (d : ℝ)) hd0 hK hL hlib.polyfit hlib.lstsq hn1 hn hn' (minimize := lib.minimize)
  have hib := C04_image_backward lib.sample hlib.sample lib.float32 hlib.float32 mat0 hh hw c.x c.y (numCoef - 1)
  have em : radialModel lib numCoef (f.hor, f.ver) = .ok ⟨c, 1 :: List.replicate (numCoef - 1) 0, false⟩ := by
    unfold radialModel
    simp only
    rw [hf.hor, hf.ver, cod_lattice hlib.polyfit hd0 (by omega) (by omega), ok_bind, cb, ok_bind]
  have eu : unwarpBoth lib ⟨c, 1 :: List.replicate (numCoef - 1) 0, false⟩ (f.hor, f.ver) = (f.hor, f.ver) := by
    unfold unwarpBoth
    simp only
    rw [unwarpLineBackward_one hlib.minimize, unwarpLineBackward_one hlib.minimize]
  obtain ⟨img, eimg⟩ : ∃ img, img = unwarpImageBackward lib.sample lib.float32 mat0 c.x c.y (1 :: List.replicate (numCoef - 1) 0) := ⟨_, rfl⟩
  rw [← eimg] at hib
  refine ⟨f, ⟨(f.hor, f.ver), (f.hor, f.ver), t0, ⟨c, 1 :: List.replicate (numCoef - 1) 0, false⟩, (f.hor, f.ver), t1, img, subMat img mat0⟩, ?_, hf, rfl, rfl,
    z0, rfl, rfl, rfl, rfl, z1, hib, ?_⟩
  · unfold demo01
    rw [hload, ok_bind]
    simp only [asGray]
    rw [ok_bind, show dotBinary lib (fun l _ => l) mat0 demo01Opts.bin = .ok b from hbin, ok_bind]
    unfold demo01Rest
    rw [ef, ok_bind, hf.hor, hf.ver, et0, ok_bind, ← hf.hor, ← hf.ver]
    unfold radialRun
    rw [em, ok_bind]
    simp only
    rw [eu, hf.hor, hf.ver, et1, eimg]
    rfl
  · intro i hi j hj
    simp only [subMat]
    rw [hib.2.2 i (by rw [hib.1]; exact hi) j (by rw [hib.2.1]; exact hj), sub_self]

/-- **C113 (no distortion, example_03).** The same for `example_03.py` with `perspective = False`: both models are the identity, and neither the distortion nor the
correction is reported. -/
theorem C113_example03 (hlib : LibsSpec lib) (h : IsDrawnBinary lib height width d ds s margin mv mh K L b) (hK : 4 ≤ K) (hL : 4 ≤ L)
    (numCoef : ℕ) (hn1 : 1 ≤ numCoef) (hn : 2 * numCoef ≤ L + 1) (hn' : numCoef ≤ 32767) (fsolve : (ℝ × ℝ → ℝ × ℝ) → ℝ × ℝ → ℝ × ℝ)
    (mat0 : Mat ℝ) (hh : mat0.height ≤ 2 ^ 24) (hw : mat0.width ≤ 2 ^ 24) :
    ∃ f run, example03Rest lib fsolve numCoef false mat0 b = .ok (f, run) ∧ FindsDrawing d s mv mh K L b f ∧ run.significant = false ∧ run.used = (f.hor, f.ver) ∧
      run.centre = ⟨(mv + (s / 2 + 1) : ℤ) + 1 / 2 + (d : ℝ) / 2, (mh + (s / 2 + 1) : ℤ) + 1 / 2 + (d : ℝ) / 2⟩ ∧
      run.forward = 1 :: List.replicate (numCoef - 1) 0 ∧ run.backward = 1 :: List.replicate (numCoef - 1) 0 ∧ run.warned = false ∧
      SameImage run.image mat0 ∧ (∀ i < mat0.height, ∀ j < mat0.width, run.difference.get i j = 0) ∧ run.unwarped = (f.hor, f.ver) ∧ run.bad = false := by
  have hp := h.pattern
  have h5 := hp.large
  have hap := hp.apart
  have hd0 : (0 : ℝ) < d := by exact_mod_cast (by omega : 0 < d)
  obtain ⟨f, ef, hf⟩ := C113_lines hlib h (by omega) (by omega) example03Opts (by tauto)
  set y0 : ℝ := (mv + (s / 2 + 1) : ℤ) + 1 / 2 with hy0
  set x0 : ℝ := (mh + (s / 2 + 1) : ℤ) + 1 / 2 with hx0
  set c : Pt := ⟨y0 + (d : ℝ) / 2, x0 + (d : ℝ) / 2⟩ with hc
  obtain ⟨_, cf, fw, cbf⟩ := models_lattice (y0 := y0) (x0 := x0) (d := (d : ℝ)) hd0 hK hL hlib.polyfit hlib.lstsq hn1 hn hn' (minimize := lib.minimize)
  have efw : fw = 1 :: List.replicate (numCoef - 1) 0 := by
    have := cbf
    unfold calcCoefBackwardFromForward at this
    rw [cf, ok_bind] at this
    simp only at this
    obtain ⟨_, _, this⟩ := bind_ok_iff.1 this
    obtain ⟨_, _, this⟩ := bind_ok_iff.1 this
    obtain ⟨_, _, this⟩ := bind_ok_iff.1 this
    cases this
    rfl
  subst efw
  have hib := C04_image_backward lib.sample hlib.sample lib.float32 hlib.float32 mat0 hh hw c.x c.y (numCoef - 1)
  have nd : ∀ xc yc, linesDistorted lib f.hor f.ver xc yc = .ok false := by
    intro xc yc
    rw [hf.hor, hf.ver]
    exact lattice_not_distorted lib hlib.polyfit hlib.argsort (by omega) (by omega) xc yc
  have ecod : findCodCoarse lib.polyfit f.hor f.ver = .ok c := by
    rw [hf.hor, hf.ver]
    exact cod_lattice hlib.polyfit hd0 (by omega) (by omega)
  have ecbf : calcCoefBackwardFromForward lib.polyfit lib.lstsq lib.minimize f.hor f.ver c.x c.y numCoef false 0.3 =
      .ok (1 :: List.replicate (numCoef - 1) 0, 1 :: List.replicate (numCoef - 1) 0, false) := by
    rw [hf.hor, hf.ver]
    exact cbf
  obtain ⟨img, eimg⟩ : ∃ img, img = unwarpImageBackward lib.sample lib.float32 mat0 c.x c.y (1 :: List.replicate (numCoef - 1) 0) := ⟨_, rfl⟩
  rw [← eimg] at hib
  refine ⟨f, ⟨false, (f.hor, f.ver), c, 1 :: List.replicate (numCoef - 1) 0, 1 :: List.replicate (numCoef - 1) 0, false, img,
    { img with get := fun i j => |img.get i j - mat0.get i j| }, (f.hor, f.ver), false⟩, ?_, hf, rfl, rfl, rfl, rfl, rfl, rfl, hib, ?_, rfl, rfl⟩
  · unfold example03Rest modelLines
    rw [ef, ok_bind, nd, ok_bind, if_neg (by simp), ok_bind]
    simp only
    rw [ecod, ok_bind, ecbf, ok_bind]
    simp only [C04_line_forward]
    rw [nd, ok_bind, eimg]
  · intro i hi j hj
    simp only
    rw [hib.2.2 i (by rw [hib.1]; exact hi) j (by rw [hib.2.1]; exact hj), sub_self, abs_zero]

/-- **C113 (no distortion, perspective).** With the correction of the perspective no script gives a result for an undistorted pattern: the approach of Bailey
divides by zero, and the lines, the model and the corrected image are not finite. -/
theorem C113_perspective (hlib : LibsSpec lib) (h : IsDrawnBinary lib height width d ds s margin mv mh K L b) (hK : 3 ≤ K) (hL : 3 ≤ L)
    (fsolve : (ℝ × ℝ → ℝ × ℝ) → ℝ × ℝ → ℝ × ℝ) (numCoef : ℤ) (mat0 : Mat ℝ) :
    demo02Rest lib fsolve numCoef mat0 b = .error .nonFinite ∧ demo03Rest lib fsolve numCoef mat0 b = .error .nonFinite ∧
    demo05Rest lib fsolve numCoef mat0 b = .error .nonFinite ∧ example03Rest lib fsolve numCoef true mat0 b = .error .nonFinite := by
  have hp := h.pattern
  have h5 := hp.large
  have hap := hp.apart
  have hd0 : (0 : ℝ) < d := by exact_mod_cast (by omega : 0 < d)
  obtain ⟨t0, et0, _⟩ := lattice_residuals (y0 := (mv + (s / 2 + 1) : ℤ) + 1 / 2) (x0 := (mh + (s / 2 + 1) : ℤ) + 1 / 2) (d := d) hlib
    (by omega : 1 ≤ K) (by omega : 1 ≤ L) 0 0
  refine ⟨?_, ?_, ?_, ?_⟩
  · obtain ⟨f, ef, hf⟩ := C113_lines hlib h hK hL demo02Opts (by tauto)
    unfold demo02Rest plottedParabolas
    rw [ef, ok_bind, hf.hor, hf.ver, et0, ok_bind]
    simp only
    rw [bailey_lattice hlib.polyfit hd0 hK hL]
    rfl
  · obtain ⟨f, ef, hf⟩ := C113_lines hlib h hK hL demo03Opts (by tauto)
    unfold demo03Rest
    rw [ef, ok_bind, hf.hor, hf.ver, et0, ok_bind, regenerate_lattice hlib.polyfit hd0 hK hL]
    rfl
  · obtain ⟨f, ef, hf⟩ := C113_lines hlib h hK hL demo05Opts (by tauto)
    unfold demo05Rest plottedParabolas
    rw [ef, ok_bind, hf.hor, hf.ver, et0, ok_bind]
    simp only
    rw [bailey_lattice hlib.polyfit hd0 hK hL]
    rfl
  · obtain ⟨f, ef, hf⟩ := C113_lines hlib h hK hL example03Opts (by tauto)
    unfold example03Rest modelLines
    rw [ef, ok_bind, hf.hor, hf.ver, lattice_not_distorted lib hlib.polyfit hlib.argsort (by omega) (by omega), ok_bind, if_pos rfl,
      regenerate_lattice hlib.polyfit hd0 hK hL]
    rfl

end

/-! ## What a finished run returns -/

/-- The radial part of a finished run: the residuals before the correction are those of the lines found; the model is the one found by the functions of the
package for the lines `run.grid`; the lines `lines` are unwarped with it, and the residuals after are theirs; the corrected image is read where
the model says, and the difference is the corrected image minus the image. -/
structure IsRadialRun (lib : Libs) (numCoef : ℤ) (mat0 : Mat ℝ) (lines : List (List Pt) × List (List Pt)) (run : LineRun) : Prop where
  before : AreResiduals run.found ⟨0, 0⟩ run.before
  centre : findCodCoarse lib.polyfit run.grid.1 run.grid.2 = .ok run.model.centre
  coefs : calcCoefBackward lib.polyfit lib.lstsq lib.minimize run.grid.1 run.grid.2 run.model.centre.x run.model.centre.y numCoef false 0.3 =
    .ok (run.model.coefs, run.model.warned)
  unwarped : run.unwarped.1 = unwarpLineBackward lib.minimize id lines.1 run.model.centre.x run.model.centre.y run.model.coefs ∧
    run.unwarped.2 = unwarpLineBackward lib.minimize id lines.2 run.model.centre.x run.model.centre.y run.model.coefs
  after : AreResiduals run.unwarped run.model.centre run.after
  corrected : ReadsBackward lib.sample lib.float32 mat0 run.model.centre run.model.coefs run.corrected
  difference : run.difference.height = mat0.height ∧ run.difference.width = mat0.width ∧
    ∀ i j, run.difference.get i j = run.corrected.get i j - mat0.get i j

theorem radialRun_ok {lib : Libs} (hpf : PolyfitSpec lib.polyfit) (has : ArgsortSpec lib.argsort) {numCoef : ℤ} {mat0 : Mat ℝ}
    {found grid : List (List Pt) × List (List Pt)} {before : List (ℝ × ℝ) × List (ℝ × ℝ)} {run : LineRun} (hb : lineResiduals lib found 0 0 = .ok before)
    (h : radialRun lib numCoef mat0 found grid before = .ok run) : run.found = found ∧ run.grid = grid ∧ IsRadialRun lib numCoef mat0 grid run := by
  unfold radialRun at h
  obtain ⟨m, h1, h⟩ := bind_ok_iff.1 h
  obtain ⟨t, h2, h⟩ := bind_ok_iff.1 h
  cases h
  obtain ⟨m1, m2⟩ := radialModel_ok h1
  exact ⟨rfl, rfl, residuals_ok hpf has hb, m1, m2, ⟨rfl, rfl⟩, residuals_ok hpf has h2, reads_any _ _ _, rfl, rfl, fun _ _ => rfl⟩

/-- The image loaded, its binarization and what is found in it. -/
structure Begins {α : Type} (lib : Libs) (zoom : List ℝ → ℕ → List ℝ) (o : DotOpts) (D : Disk α) (file : FilePath) (mat0 : Mat ℝ) (bin : Mat ℤ) (f : DotsFound) :
    Prop where
  load : loadImageAt D.decode D.fs file true = .ok (.gray mat0)
  binary : dotBinary lib zoom mat0 o.bin = .ok bin
  found : AreDotsFound lib bin f

theorem begins_ok {α : Type} {lib : Libs} (hpf : PolyfitSpec lib.polyfit) (has : ArgsortSpec lib.argsort) {zoom : List ℝ → ℕ → List ℝ} {o : DotOpts}
    {D : Disk α} {file : FilePath} {img : Img} {mat0 : Mat ℝ} {bin : Mat ℤ} {f : DotsFound} (h1 : loadImageAt D.decode D.fs file true = .ok img)
    (h2 : asGray img = .ok mat0) (h3 : dotBinary lib zoom mat0 o.bin = .ok bin) (h4 : dotLines lib o bin = .ok f) (hh : f.hor ≠ []) (hv : f.ver ≠ []) :
    Begins lib zoom o D file mat0 bin f := by
  have himg : img = .gray mat0 := by
    cases img with
    | gray m => cases h2; rfl
    | color _ _ _ _ => cases h2
  subst himg
  obtain ⟨m1, r, t, hb⟩ := binOpt_pixels h3
  have hs : ∃ v, calcSizeDistance (realMat bin) 0.3 = .ok v := by
    unfold dotLines at h4
    obtain ⟨v, hv, _⟩ := bind_ok_iff.1 h4
    exact ⟨v, hv⟩
  obtain ⟨v, hs⟩ := hs
  obtain ⟨w1, w2⟩ := wide_of_size hb hs
  exact ⟨h1, h3, dotLines_ok hpf has h4 (binarized_pixels hb) w1 (by omega) hh hv⟩

/-- **C113 (run, demo_01).** Whenever `demo_01.py` finishes, the dots are found as described by `AreDotsFound`, and the lines of dots are corrected as they are. -/
theorem C113_demo01_run {α : Type} (lib : Libs) (hpf : PolyfitSpec lib.polyfit) (has : ArgsortSpec lib.argsort) (numCoef : ℤ) (D : Disk α) (file : FilePath)
    (bin : Mat ℤ) (f : DotsFound) (run : LineRun) (h : demo01 lib numCoef D file = .ok (bin, f, run)) :
    ∃ mat0, Begins lib (fun l _ => l) demo01Opts D file mat0 bin f ∧ run.found = (f.hor, f.ver) ∧ run.grid = (f.hor, f.ver) ∧
      IsRadialRun lib numCoef mat0 run.grid run := by
  unfold demo01 at h
  obtain ⟨img, h1, k1⟩ := bind_ok_iff.1 h
  obtain ⟨mat0, h2, k2⟩ := bind_ok_iff.1 k1
  obtain ⟨bin', h3, k3⟩ := bind_ok_iff.1 k2
  obtain ⟨⟨f', run'⟩, h4, k4⟩ := bind_ok_iff.1 k3
  cases k4
  unfold demo01Rest at h4
  obtain ⟨f', e1, k⟩ := bind_ok_iff.1 h4
  obtain ⟨t, e2, k⟩ := bind_ok_iff.1 k
  obtain ⟨r, e3, k⟩ := bind_ok_iff.1 k
  cases k
  obtain ⟨⟨n1, _⟩, n2, _⟩ := residuals_ne hpf e2
  obtain ⟨r1, r2, r3⟩ := radialRun_ok hpf has e2 e3
  exact ⟨mat0, begins_ok hpf has h1 h2 h3 e1 n1 n2, r1, r2, r2 ▸ r3⟩

/-- **C113 (run, demo_02 and demo_03).** Whenever `demo_02.py` or `demo_03.py` finishes, the dots are found as described by `AreDotsFound`; the lines used are one
grid regenerated from them, with a point for each pair of lines. -/
theorem C113_demo02_run {α : Type} (lib : Libs) (hpf : PolyfitSpec lib.polyfit) (has : ArgsortSpec lib.argsort) (fsolve : (ℝ × ℝ → ℝ × ℝ) → ℝ × ℝ → ℝ × ℝ)
    (numCoef : ℤ) (D : Disk α) (file : FilePath) (bin : Mat ℤ) (f : DotsFound) (run : LineRun) :
    (demo02 lib fsolve numCoef D file = .ok (bin, f, run) →
      ∃ mat0, Begins lib (fun l _ => l) demo02Opts D file mat0 bin f ∧ run.found = (f.hor, f.ver) ∧
        regenerateGridParabola lib.polyfit fsolve f.hor f.ver true false = .ok run.grid ∧ SameGrid f.hor.length f.ver.length run.grid ∧
        IsRadialRun lib numCoef mat0 run.grid run) ∧
    ∀ zoom, demo03 lib zoom fsolve numCoef D file = .ok (bin, f, run) →
      ∃ mat0, Begins lib zoom demo03Opts D file mat0 bin f ∧ run.found = (f.hor, f.ver) ∧
        regenerateGridParabola lib.polyfit fsolve f.hor f.ver true false = .ok run.grid ∧ SameGrid f.hor.length f.ver.length run.grid ∧
        IsRadialRun lib numCoef mat0 run.grid run := by
  constructor
  · intro h
    unfold demo02 at h
    obtain ⟨img, h1, k1⟩ := bind_ok_iff.1 h
    obtain ⟨mat0, h2, k2⟩ := bind_ok_iff.1 k1
    obtain ⟨bin', h3, k3⟩ := bind_ok_iff.1 k2
    obtain ⟨⟨f', run'⟩, h4, k4⟩ := bind_ok_iff.1 k3
    cases k4
    unfold demo02Rest at h4
    obtain ⟨f', e1, k⟩ := bind_ok_iff.1 h4
    obtain ⟨t, e2, k⟩ := bind_ok_iff.1 k
    obtain ⟨_, _, k⟩ := bind_ok_iff.1 k
    obtain ⟨g, e4, k⟩ := bind_ok_iff.1 k
    obtain ⟨r, e3, k⟩ := bind_ok_iff.1 k
    cases k
    obtain ⟨⟨n1, _⟩, n2, _⟩ := residuals_ne hpf e2
    obtain ⟨r1, r2, r3⟩ := radialRun_ok hpf has e2 e3
    exact ⟨mat0, begins_ok hpf has h1 h2 h3 e1 n1 n2, r1, r2 ▸ e4, r2 ▸ regenerate_shape e4, r2 ▸ r3⟩
  · intro zoom h
    unfold demo03 at h
    obtain ⟨img, h1, k1⟩ := bind_ok_iff.1 h
    obtain ⟨mat0, h2, k2⟩ := bind_ok_iff.1 k1
    obtain ⟨bin', h3, k3⟩ := bind_ok_iff.1 k2
    obtain ⟨⟨f', run'⟩, h4, k4⟩ := bind_ok_iff.1 k3
    cases k4
    unfold demo03Rest at h4
    obtain ⟨f', e1, k⟩ := bind_ok_iff.1 h4
    obtain ⟨t, e2, k⟩ := bind_ok_iff.1 k
    obtain ⟨g, e4, k⟩ := bind_ok_iff.1 k
    obtain ⟨r, e3, k⟩ := bind_ok_iff.1 k
    cases k
    obtain ⟨⟨n1, _⟩, n2, _⟩ := residuals_ne hpf e2
    obtain ⟨r1, r2, r3⟩ := radialRun_ok hpf has e2 e3
    exact ⟨mat0, begins_ok hpf has h1 h2 h3 e1 n1 n2, r1, r2 ▸ e4, r2 ▸ regenerate_shape e4, r2 ▸ r3⟩

/-- **C113 (run, demo_05).** Whenever `demo_05.py` finishes: the model is found from the grid with the perspective corrected, the lines unwarped are the grid
without this correction; the image with both corrections is read in the radially corrected image where the coefficients (eight) send its
pixels, and the second difference is the one of these two images. -/
theorem C113_demo05_run {α : Type} (lib : Libs) (hpf : PolyfitSpec lib.polyfit) (has : ArgsortSpec lib.argsort) (zoom : List ℝ → ℕ → List ℝ)
    (fsolve : (ℝ × ℝ → ℝ × ℝ) → ℝ × ℝ → ℝ × ℝ) (numCoef : ℤ) (D : Disk α) (file : FilePath) (bin : Mat ℤ) (f : DotsFound) (r : PerspRun)
    (h : demo05 lib zoom fsolve numCoef D file = .ok (bin, f, r)) :
    ∃ mat0, Begins lib zoom demo05Opts D file mat0 bin f ∧ r.run.found = (f.hor, f.ver) ∧
      regenerateGridParabola lib.polyfit fsolve f.hor f.ver true false = .ok r.run.grid ∧ SameGrid f.hor.length f.ver.length r.run.grid ∧
      regenerateGridParabola lib.polyfit fsolve f.hor f.ver false false = .ok r.lines ∧ SameGrid f.hor.length f.ver.length r.lines ∧
      IsRadialRun lib numCoef mat0 r.lines r.run ∧
      generateSourceTarget lib.polyfit lib.minimize r.run.unwarped.1 r.run.unwarped.2 true .mean false = .ok (r.source, r.target) ∧
      calcPerspectiveCoefs lib.lstsq r.source r.target "backward" = .ok r.coefs ∧
      (∃ c : Fin 8 → ℝ, r.coefs = List.ofFn c ∧ ReadsProjective lib.sample lib.float32 (coefMatrix c) r.run.corrected r.image) ∧
      r.difference.height = mat0.height ∧ r.difference.width = mat0.width ∧ ∀ i j, r.difference.get i j = r.image.get i j - r.run.corrected.get i j := by
  unfold demo05 at h
  obtain ⟨img, h1, k1⟩ := bind_ok_iff.1 h
  obtain ⟨mat0, h2, k2⟩ := bind_ok_iff.1 k1
  obtain ⟨bin', h3, k3⟩ := bind_ok_iff.1 k2
  obtain ⟨⟨f', run'⟩, h4, k4⟩ := bind_ok_iff.1 k3
  cases k4
  unfold demo05Rest at h4
  obtain ⟨f', e1, k⟩ := bind_ok_iff.1 h4
  obtain ⟨t, e2, k⟩ := bind_ok_iff.1 k
  obtain ⟨_, _, k⟩ := bind_ok_iff.1 k
  obtain ⟨g, e4, k⟩ := bind_ok_iff.1 k
  obtain ⟨m, e5, k⟩ := bind_ok_iff.1 k
  obtain ⟨g', e6, k⟩ := bind_ok_iff.1 k
  obtain ⟨a, e7, k⟩ := bind_ok_iff.1 k
  obtain ⟨⟨so, ta⟩, e8, k⟩ := bind_ok_iff.1 k
  obtain ⟨co, e9, k⟩ := bind_ok_iff.1 k
  obtain ⟨im, e10, k⟩ := bind_ok_iff.1 k
  cases k
  obtain ⟨⟨n1, _⟩, n2, _⟩ := residuals_ne hpf e2
  obtain ⟨m1, m2⟩ := radialModel_ok e5
  have hco : ∃ c : Fin 8 → ℝ, co = List.ofFn c := by
    have hl : co.length = 8 := by
      by_contra hne
      unfold correctPerspectiveImage at e10
      rw [if_pos hne] at e10
      cases e10
    exact ⟨fun i => co[i.1]'(by rw [hl]; exact i.2), List.ext_getElem (by simp [hl]) fun i h1 h2 => by rw [List.getElem_ofFn]⟩
  obtain ⟨c, rfl⟩ := hco
  obtain ⟨out, eo, hr⟩ := correctPerspectiveImage_reads lib.sample lib.float32
    (unwarpImageBackward lib.sample lib.float32 mat0 m.centre.x m.centre.y m.coefs) c
  rw [e10] at eo
  cases eo
  refine ⟨mat0, begins_ok hpf has h1 h2 h3 e1 n1 n2, rfl, e4, regenerate_shape e4, e6, regenerate_shape_plain e6,
    ⟨residuals_ok hpf has e2, m1, m2, ⟨rfl, rfl⟩, residuals_ok hpf has e7, reads_any _ _ _, rfl, rfl, fun _ _ => rfl⟩, e8, e9, ⟨c, rfl, hr⟩, hr.1, hr.2.1,
    fun _ _ => rfl⟩

/-- **C113 (perspective removed).** If the lines that `demo_05.py` has unwarped are a photograph of a plane grid, in order, the last image shows this plane
from above: there is a rectangular grid in the plane of the image such that the pixel at the place with the coordinates `(a, b)` of this
grid is read where the place `(a, b)` of the plane is seen in the radially corrected image (unless the camera does not see what should be
shown at the corner of the frame). If the grid in the plane is a square one, the places are similar to those of the plane. -/
theorem C113_rectified {α : Type} (lib : Libs) (hpf : PolyfitSpec lib.polyfit) (has : ArgsortSpec lib.argsort) (hls : LstsqSpec lib.lstsq)
    (zoom : List ℝ → ℕ → List ℝ) (fsolve : (ℝ × ℝ → ℝ × ℝ) → ℝ × ℝ → ℝ × ℝ) (numCoef : ℤ) (D : Disk α) (file : FilePath) (bin : Mat ℤ) (f : DotsFound)
    (r : PerspRun) (h : demo05 lib zoom fsolve numCoef D file = .ok (bin, f, r)) (M : Matrix (Fin 3) (Fin 3) ℝ) (o w u : Pt)
    (hg : IsGridPhoto M o w u r.run.unwarped.1 r.run.unwarped.2) (h2 : 2 ≤ f.hor.length) (v2 : 2 ≤ f.ver.length)
    (hro : RowsInOrder r.run.unwarped.1) (hco : ColsInOrder r.run.unwarped.2) :
    ∃ o' w' u' : Pt, w'.x * u'.y ≠ w'.y * u'.x ∧ w'.x * u'.x + w'.y * u'.y = 0 ∧
      (w.x * u.x + w.y * u.y = 0 → ptDist w ⟨0, 0⟩ = ptDist u ⟨0, 0⟩ →
        ∃ k > 0, ∀ a b a' b', ptDist (gridPoint o' w' u' a b) (gridPoint o' w' u' a' b') =
          k * ptDist (gridPoint o w u a b) (gridPoint o w u a' b')) ∧
      ((∀ a b, gridPoint o' w' u' a b = ⟨0, 0⟩ → FiniteAt M (gridPoint o w u a b)) →
        ∀ i < r.run.corrected.height, ∀ j < r.run.corrected.width, ∀ a b q, gridPoint o' w' u' a b = ⟨(i : ℝ), (j : ℝ)⟩ → IsImage M (gridPoint o w u a b) q →
          r.image.get i j = lib.sample r.run.corrected (lib.float32 (clampTo ((r.run.corrected.height : ℝ) - 1) q.y))
            (lib.float32 (clampTo ((r.run.corrected.width : ℝ) - 1) q.x))) := by
  obtain ⟨mat0, _, _, _, _, _, ⟨p, g1, g2⟩, hrun, e8, e9, ⟨c, hc, hr⟩, _⟩ := C113_demo05_run lib hpf has zoom fsolve numCoef D file bin f r h
  obtain ⟨u1, u2⟩ := hrun.unwarped
  have l1 : r.run.unwarped.1.length = f.hor.length := by
    rw [u1, unwarpLineBackward_eq, g1]
    simp
  have l2 : r.run.unwarped.2.length = f.ver.length := by
    rw [u2, unwarpLineBackward_eq, g2]
    simp
  obtain ⟨so, ta, o', w', u', q1, q2, q3, q4, _, _, q5⟩ := C108_rectifies lib.polyfit hpf lib.lstsq hls lib.minimize r.run.unwarped.1 r.run.unwarped.2 M o w u hg
    (by omega) (by omega) hro hco true .mean false (by intro k hk; cases hk) (by intro hf; cases hf)
  rw [e8] at q1
  cases q1
  refine ⟨o', w', u', q2, q3, q5 rfl, ?_⟩
  intro hfin i hi j hj a b q hab hq
  obtain ⟨c', ec, hc'⟩ := q4 hfin
  rw [e9, hc] at ec
  have hcc : c = c' := List.ofFn_injective (Except.ok.inj ec)
  subst hcc
  exact hr.2.2 i hi j hj q (by rw [← hab]; exact (hc' a b q).2 hq)

/-- **C113 (run, example_03).** Whenever `example_03.py` finishes: the lines used are those found, or the regenerated grid; the two models are those found by the
functions of the package for them; the image is corrected with the backward model, the lines are unwarped with the forward one; and the
reports are verdicts on the lines found and on the unwarped lines. -/
theorem C113_example03_run {α : Type} (lib : Libs) (hpf : PolyfitSpec lib.polyfit) (has : ArgsortSpec lib.argsort)
    (fsolve : (ℝ × ℝ → ℝ × ℝ) → ℝ × ℝ → ℝ × ℝ) (numCoef : ℤ) (perspective : Bool) (D : Disk α) (file : FilePath) (bin : Mat ℤ) (f : DotsFound)
    (r : Example03Run) (h : example03 lib fsolve numCoef perspective D file = .ok (bin, f, r)) :
    ∃ mat0, Begins lib (fun l _ => l) example03Opts D file mat0 bin f ∧ IsVerdict f.hor f.ver ⟨0, 0⟩ r.significant ∧
      (perspective = false → r.used = (f.hor, f.ver)) ∧
      (perspective = true → regenerateGridParabola lib.polyfit fsolve f.hor f.ver true false = .ok r.used ∧ SameGrid f.hor.length f.ver.length r.used) ∧
      findCodCoarse lib.polyfit r.used.1 r.used.2 = .ok r.centre ∧
      calcCoefBackwardFromForward lib.polyfit lib.lstsq lib.minimize r.used.1 r.used.2 r.centre.x r.centre.y numCoef false 0.3 =
        .ok (r.forward, r.backward, r.warned) ∧
      ReadsBackward lib.sample lib.float32 mat0 r.centre r.backward r.image ∧
      (∀ i j, r.difference.get i j = |r.image.get i j - mat0.get i j|) ∧
      r.unwarped = (r.used.1.map (List.map (radialMap r.centre r.forward)), r.used.2.map (List.map (radialMap r.centre r.forward))) ∧
      IsVerdict r.unwarped.1 r.unwarped.2 r.centre r.bad := by
  unfold example03 at h
  obtain ⟨img, h1, k1⟩ := bind_ok_iff.1 h
  obtain ⟨mat0, h2, k2⟩ := bind_ok_iff.1 k1
  obtain ⟨bin', h3, k3⟩ := bind_ok_iff.1 k2
  obtain ⟨⟨f', run'⟩, h4, k4⟩ := bind_ok_iff.1 k3
  cases k4
  unfold example03Rest at h4
  obtain ⟨f', e1, k⟩ := bind_ok_iff.1 h4
  obtain ⟨sig, e2, k⟩ := bind_ok_iff.1 k
  obtain ⟨used, e3, k⟩ := bind_ok_iff.1 k
  obtain ⟨c, e4, k⟩ := bind_ok_iff.1 k
  obtain ⟨⟨fw, bw, wn⟩, e5, k⟩ := bind_ok_iff.1 k
  obtain ⟨bad, e6, k⟩ := bind_ok_iff.1 k
  cases k
  obtain ⟨⟨n1, n2⟩, n3, n4⟩ := verdict_ne hpf e2
  obtain ⟨m1, m2⟩ := verdict_ne hpf e6
  have hu : ∀ ls : List (List Pt), unwarpLineForward id ls c.x c.y fw = ls.map (List.map (radialMap c fw)) := fun ls => by
    rw [unwarpLineForward_eq]
    rfl
  refine ⟨mat0, begins_ok hpf has h1 h2 h3 e1 n1 n3, linesDistorted_verdict hpf has n1 n3 n2 n4 e2, ?_, ?_, e4, e5, reads_any _ _ _, fun _ _ => rfl, ?_,
    linesDistorted_verdict hpf has m1.1 m2.1 m1.2 m2.2 e6⟩
  · rintro rfl
    cases e3
    rfl
  · rintro rfl
    have e7 : regenerateGridParabola lib.polyfit fsolve f.hor f.ver true false = .ok used := by
      unfold modelLines at e3
      rw [if_pos rfl] at e3
      split at e3
      · cases e3
      · exact e3
    exact ⟨e7, regenerate_shape e7⟩
  · rw [hu, hu]

/-! ## The settings -/

/-- What is found in the binarized image, call by call: size and distance of the dots with `ratio = 0.3`; the slopes of the selected dots with `ratio = 0.3`; and the
lines `hor`, `ver` that `group_dots_hor_lines` and `group_dots_ver_lines` return with the arguments given. -/
structure GroupedBy (lib : Libs) (bin : Mat ℤ) (f : DotsFound) (ratio miss acceptedHor acceptedVer : ℝ) (hor ver : List (List Pt)) : Prop where
  size : calcSizeDistance (realMat bin) 0.3 = .ok (f.dotSize, f.dotDist)
  horSlope : calcHorSlope lib.polyfit lib.argsort lib.radon (realMat f.selected) 0.3 = .ok f.horSlope
  verSlope : calcVerSlope lib.polyfit lib.argsort lib.radon (realMat f.selected) 0.3 = .ok f.verSlope
  hor : groupDotsHorImage lib.argsort f.selected f.horSlope f.dotDist ratio miss acceptedHor = .ok hor
  ver : groupDotsVerImage lib.argsort f.selected f.verSlope f.dotDist ratio miss acceptedVer = .ok ver

theorem asGray_ok {img : Img} {m : Mat ℝ} (h : asGray img = .ok m) : img = .gray m := by
  cases img with
  | gray m' => cases h; rfl
  | color _ _ _ _ => cases h

theorem dotLines_calls {lib : Libs} {o : DotOpts} {bin : Mat ℤ} {f : DotsFound} (h : dotLines lib o bin = .ok f) :
    ∃ hor ver, selectDots lib o bin f.dotSize = .ok f.selected ∧ GroupedBy lib bin f o.groupRatio o.miss o.acceptedHor o.acceptedVer hor ver ∧
      dropHor lib o hor f.horSlope = .ok f.hor ∧ dropVer lib o ver f.verSlope = .ok f.ver := by
  unfold dotLines at h
  obtain ⟨⟨sz, ds⟩, h1, h⟩ := bind_ok_iff.1 h
  obtain ⟨sel, h2, h⟩ := bind_ok_iff.1 h
  obtain ⟨hs, h3, h⟩ := bind_ok_iff.1 h
  obtain ⟨vs, h4, h⟩ := bind_ok_iff.1 h
  obtain ⟨hor, h5, h⟩ := bind_ok_iff.1 h
  obtain ⟨ver, h6, h⟩ := bind_ok_iff.1 h
  obtain ⟨hor', h7, h⟩ := bind_ok_iff.1 h
  obtain ⟨ver', h8, h⟩ := bind_ok_iff.1 h
  cases h
  exact ⟨hor, ver, h2, ⟨h1, h3, h4, h5, h6⟩, h7, h8⟩

/-- **C113 (settings, demo_01 and demo_02).** Whenever one of these scripts finishes, the image, averaged over its colours, is binarized with `ratio = 0.3`; the dots
are selected by size and by shape with the ratio 0.3; up to 6 dots of a line may be missing; lines with at least 0.65 (horizontal) or
0.75 (vertical) of the median number of dots are kept, in `demo_02.py` 0.8; and dots further than 2.5 from the parabola of their line are removed. -/
theorem C113_settings_plain {α : Type} (lib : Libs) (numCoef : ℤ) (D : Disk α) (file : FilePath) (bin : Mat ℤ) (f : DotsFound) (run : LineRun) :
    (demo01 lib numCoef D file = .ok (bin, f, run) →
      ∃ mat0 hor ver, loadImageAt D.decode D.fs file true = .ok (.gray mat0) ∧ binarization lib.otsu mat0 0.3 none true = .ok bin ∧
        selectDotsBasedRatio lib.axes (realMat (selectDotsBasedSize (realMat bin) f.dotSize 0.3)) 0.3 = .ok f.selected ∧
        GroupedBy lib bin f 0.3 6 0.65 0.75 hor ver ∧
        removeResidualHor lib.polyfit hor f.horSlope 2.5 = .ok f.hor ∧ removeResidualVer lib.polyfit ver f.verSlope 2.5 = .ok f.ver) ∧
    ∀ fsolve, demo02 lib fsolve numCoef D file = .ok (bin, f, run) →
      ∃ mat0 hor ver, loadImageAt D.decode D.fs file true = .ok (.gray mat0) ∧ binarization lib.otsu mat0 0.3 none true = .ok bin ∧
        selectDotsBasedRatio lib.axes (realMat (selectDotsBasedSize (realMat bin) f.dotSize 0.3)) 0.3 = .ok f.selected ∧
        GroupedBy lib bin f 0.3 6 0.8 0.8 hor ver ∧
        removeResidualHor lib.polyfit hor f.horSlope 2.5 = .ok f.hor ∧ removeResidualVer lib.polyfit ver f.verSlope 2.5 = .ok f.ver := by
  refine ⟨fun h => ?_, fun fsolve h => ?_⟩
  · unfold demo01 at h
    obtain ⟨img, h1, k1⟩ := bind_ok_iff.1 h
    obtain ⟨mat0, h2, k2⟩ := bind_ok_iff.1 k1
    obtain ⟨bin', h3, k3⟩ := bind_ok_iff.1 k2
    obtain ⟨⟨f', run'⟩, h4, k4⟩ := bind_ok_iff.1 k3
    cases k4
    unfold demo01Rest at h4
    obtain ⟨f', e1, k⟩ := bind_ok_iff.1 h4
    obtain ⟨t, e2, k⟩ := bind_ok_iff.1 k
    obtain ⟨r, e3, k⟩ := bind_ok_iff.1 k
    cases k
    obtain ⟨hor, ver, c1, c2, c3, c4⟩ := dotLines_calls e1
    exact ⟨mat0, hor, ver, asGray_ok h2 ▸ h1, h3, c1, c2, c3, c4⟩
  · unfold demo02 at h
    obtain ⟨img, h1, k1⟩ := bind_ok_iff.1 h
    obtain ⟨mat0, h2, k2⟩ := bind_ok_iff.1 k1
    obtain ⟨bin', h3, k3⟩ := bind_ok_iff.1 k2
    obtain ⟨⟨f', run'⟩, h4, k4⟩ := bind_ok_iff.1 k3
    cases k4
    unfold demo02Rest at h4
    obtain ⟨f', e1, k⟩ := bind_ok_iff.1 h4
    obtain ⟨t, e2, k⟩ := bind_ok_iff.1 k
    obtain ⟨pl, e3, k⟩ := bind_ok_iff.1 k
    obtain ⟨g, e4, k⟩ := bind_ok_iff.1 k
    obtain ⟨r, e5, k⟩ := bind_ok_iff.1 k
    cases k
    obtain ⟨hor, ver, c1, c2, c3, c4⟩ := dotLines_calls e1
    exact ⟨mat0, hor, ver, asGray_ok h2 ▸ h1, h3, c1, c2, c3, c4⟩

/-- **C113 (settings, demo_03 and demo_05).** In these scripts the background is corrected with `sigma = 20` and `pad = 100` first, and the threshold comes from
the noise, for a bright background. `demo_05.py` keeps all dots, both in the image and in the lines. -/
theorem C113_settings_noise {α : Type} (lib : Libs) (zoom : List ℝ → ℕ → List ℝ) (fsolve : (ℝ × ℝ → ℝ × ℝ) → ℝ × ℝ → ℝ × ℝ) (numCoef : ℤ) (D : Disk α)
    (file : FilePath) (bin : Mat ℤ) (f : DotsFound) :
    (∀ run, demo03 lib zoom fsolve numCoef D file = .ok (bin, f, run) →
      ∃ mat0 mat1 thres hor ver, loadImageAt D.decode D.fs file true = .ok (.gray mat0) ∧ normalizationFft padReflect mat0 20 100 = .ok mat1 ∧
        calculateThreshold zoom lib.polyfit mat1 true 3 = .ok thres ∧ binarization lib.otsu mat1 0.5 (some thres) true = .ok bin ∧
        selectDotsBasedRatio lib.axes (realMat (selectDotsBasedSize (realMat bin) f.dotSize 0.8)) 0.8 = .ok f.selected ∧
        GroupedBy lib bin f 0.3 10 0.65 0.65 hor ver ∧
        removeResidualHor lib.polyfit hor f.horSlope 2 = .ok f.hor ∧ removeResidualVer lib.polyfit ver f.verSlope 2 = .ok f.ver) ∧
    ∀ r, demo05 lib zoom fsolve numCoef D file = .ok (bin, f, r) →
      ∃ mat0 mat1 thres, loadImageAt D.decode D.fs file true = .ok (.gray mat0) ∧ normalizationFft padReflect mat0 20 100 = .ok mat1 ∧
        calculateThreshold zoom lib.polyfit mat1 true 1.5 = .ok thres ∧ binarization lib.otsu mat1 0.3 (some thres) true = .ok bin ∧ f.selected = bin ∧
        GroupedBy lib bin f 0.3 2 0.6 0.6 f.hor f.ver := by
  refine ⟨fun run h => ?_, fun run h => ?_⟩
  · unfold demo03 at h
    obtain ⟨img, h1, k1⟩ := bind_ok_iff.1 h
    obtain ⟨mat0, h2, k2⟩ := bind_ok_iff.1 k1
    obtain ⟨bin', h3, k3⟩ := bind_ok_iff.1 k2
    obtain ⟨⟨f', run'⟩, h4, k4⟩ := bind_ok_iff.1 k3
    cases k4
    unfold demo03Rest at h4
    obtain ⟨f', e1, k⟩ := bind_ok_iff.1 h4
    obtain ⟨t, e2, k⟩ := bind_ok_iff.1 k
    obtain ⟨g, e4, k⟩ := bind_ok_iff.1 k
    obtain ⟨r, e5, k⟩ := bind_ok_iff.1 k
    cases k
    obtain ⟨hor, ver, c1, c2, c3, c4⟩ := dotLines_calls e1
    obtain ⟨mat1, d1, h3⟩ := bind_ok_iff.1 (show _ >>= _ = _ from h3)
    obtain ⟨th, d2, h3⟩ := bind_ok_iff.1 h3
    have e3 : (3.0 : ℝ) = 3 := by norm_num
    have e20 : (2.0 : ℝ) = 2 := by norm_num
    exact ⟨mat0, mat1, th, hor, ver, asGray_ok h2 ▸ h1, d1, e3 ▸ d2, h3, c1, c2, e20 ▸ c3, e20 ▸ c4⟩
  · unfold demo05 at h
    obtain ⟨img, h1, k1⟩ := bind_ok_iff.1 h
    obtain ⟨mat0, h2, k2⟩ := bind_ok_iff.1 k1
    obtain ⟨bin', h3, k3⟩ := bind_ok_iff.1 k2
    obtain ⟨⟨f', run'⟩, h4, k4⟩ := bind_ok_iff.1 k3
    cases k4
    have e1 : dotLines lib demo05Opts bin = .ok f := by
      unfold demo05Rest at h4
      obtain ⟨f', e1, k⟩ := bind_ok_iff.1 h4
      obtain ⟨t, e2, k⟩ := bind_ok_iff.1 k
      obtain ⟨pl, e3, k⟩ := bind_ok_iff.1 k
      obtain ⟨g, e4, k⟩ := bind_ok_iff.1 k
      obtain ⟨m, e5, k⟩ := bind_ok_iff.1 k
      obtain ⟨ls, e6, k⟩ := bind_ok_iff.1 k
      obtain ⟨af, e7, k⟩ := bind_ok_iff.1 k
      obtain ⟨⟨s, tg⟩, e8, k⟩ := bind_ok_iff.1 k
      obtain ⟨co, e9, k⟩ := bind_ok_iff.1 k
      obtain ⟨im, e10, k⟩ := bind_ok_iff.1 k
      cases k
      exact e1
    obtain ⟨hor, ver, c1, c2, c3, c4⟩ := dotLines_calls e1
    obtain ⟨mat1, d1, h3⟩ := bind_ok_iff.1 (show _ >>= _ = _ from h3)
    obtain ⟨th, d2, h3⟩ := bind_ok_iff.1 h3
    cases (show Except.ok hor = Except.ok f.hor from c3)
    cases (show Except.ok ver = Except.ok f.ver from c4)
    cases (show Except.ok bin = Except.ok f.selected from c1)
    exact ⟨mat0, mat1, th, asGray_ok h2 ▸ h1, d1, d2, h3, rfl, c2⟩

/-- **C113 (settings, example_03).** Here the background is corrected with `sigma = 5`, the threshold is that of Otsu, and the selection is wide: 0.9 by size,
1.0 by shape. -/
theorem C113_settings_example03 {α : Type} (lib : Libs) (fsolve : (ℝ × ℝ → ℝ × ℝ) → ℝ × ℝ → ℝ × ℝ) (numCoef : ℤ) (perspective : Bool) (D : Disk α)
    (file : FilePath) (bin : Mat ℤ) (f : DotsFound) (r : Example03Run) (h : example03 lib fsolve numCoef perspective D file = .ok (bin, f, r)) :
    ∃ mat0 mat1 hor ver, loadImageAt D.decode D.fs file true = .ok (.gray mat0) ∧ normalizationFft padReflect mat0 5 100 = .ok mat1 ∧
      binarization lib.otsu mat1 0.5 none true = .ok bin ∧
      selectDotsBasedRatio lib.axes (realMat (selectDotsBasedSize (realMat bin) f.dotSize 0.9)) 1 = .ok f.selected ∧
      GroupedBy lib bin f 0.3 10 0.6 0.6 hor ver ∧
      removeResidualHor lib.polyfit hor f.horSlope 2 = .ok f.hor ∧ removeResidualVer lib.polyfit ver f.verSlope 2 = .ok f.ver := by
  unfold example03 at h
  obtain ⟨img, h1, k1⟩ := bind_ok_iff.1 h
  obtain ⟨mat0, h2, k2⟩ := bind_ok_iff.1 k1
  obtain ⟨bin', h3, k3⟩ := bind_ok_iff.1 k2
  obtain ⟨⟨f', run'⟩, h4, k4⟩ := bind_ok_iff.1 k3
  cases k4
  unfold example03Rest at h4
  obtain ⟨f', e1, k⟩ := bind_ok_iff.1 h4
  obtain ⟨sig, e2, k⟩ := bind_ok_iff.1 k
  obtain ⟨used, e3, k⟩ := bind_ok_iff.1 k
  obtain ⟨c, e4, k⟩ := bind_ok_iff.1 k
  obtain ⟨⟨fw, bw, wn⟩, e5, k⟩ := bind_ok_iff.1 k
  obtain ⟨bad, e6, k⟩ := bind_ok_iff.1 k
  cases k
  obtain ⟨hor, ver, c1, c2, c3, c4⟩ := dotLines_calls e1
  obtain ⟨mat1, d1, h3⟩ := bind_ok_iff.1 (show _ >>= _ = _ from h3)
  have e10 : (1.0 : ℝ) = 1 := by norm_num
  have e20 : (2.0 : ℝ) = 2 := by norm_num
  exact ⟨mat0, mat1, hor, ver, asGray_ok h2 ▸ h1, d1, h3, e10 ▸ c1, c2, e20 ▸ c3, e20 ▸ c4⟩

/-! ## Examples -/

/-- The pattern of 13 × 13 dots meets the hypotheses. -/
theorem drawn13_binary : ∃ m b, makeDotPattern 200 200 15 9 (.int 1) = .ok m ∧ binarization refLibs.otsu m 0.3 none true = .ok b ∧ m.height = 200 ∧ m.width = 200 ∧
    IsDrawnBinary refLibs 200 200 15 9 9 (.int 1) 1 1 13 13 b := by
  obtain ⟨m, b, hm, mh, mw, hb, _⟩ := pattern_shows drawn13 512 (by norm_num) 0.3 0.3 (by norm_num) (by norm_num) (by norm_num) drawn13_middle drawn13_middle
  exact ⟨m, b, hm, hb, mh, mw, drawn13, ⟨512, by norm_num, rfl⟩, ⟨m, hm, hb⟩, ⟨5, by norm_num, drawn13_middle⟩, ⟨5, by norm_num, drawn13_middle⟩,
    refLibs_upright _ _⟩

/-- `demo_01.py` on a file with this pattern, with 5 coefficients: it ends, and the descriptions of the finished run hold. -/
example : ∃ (D : Disk Img) (file : FilePath) (m : Mat ℝ) (b : Mat ℤ) (f : DotsFound) (run : LineRun), makeDotPattern 200 200 15 9 (.int 1) = .ok m ∧
    demo01 refLibs (5 : ℕ) D file = .ok (b, f, run) ∧ f.dotDist = 15 ∧ run.model.centre = ⟨14, 14⟩ ∧ run.model.coefs = [1, 0, 0, 0, 0] ∧
    SameImage run.corrected m ∧ Begins refLibs (fun l _ => l) demo01Opts D file m b f ∧ ∃ hor ver, GroupedBy refLibs b f 0.3 6 0.65 0.75 hor ver := by
  obtain ⟨m, b, hm, hb, mh, mw, h⟩ := drawn13_binary
  have hload : loadImageAt (imageDisk fun _ => some (.file (.gray m))).decode (imageDisk fun _ => some (.file (.gray m))).fs ⟨[], "dots.tif".toList⟩ true =
      .ok (.gray m) := rfl
  obtain ⟨f, run, e, hf, _, _, _, hc, hco, _, _, _, hs, _⟩ := C113_demo01 refLibs_spec h (by norm_num) (by norm_num) 5 (by norm_num) (by norm_num) (by norm_num)
    (imageDisk fun _ => some (.file (.gray m))) ⟨[], "dots.tif".toList⟩ m hload (by rw [mh]; norm_num) (by rw [mw]; norm_num) hb
  obtain ⟨mat0, hbg, _⟩ := C113_demo01_run refLibs refLibs_spec.polyfit refLibs_spec.argsort _ _ _ _ _ _ e
  have hm0 := hbg.load
  rw [hload] at hm0
  cases hm0
  obtain ⟨_, hor, ver, _, _, _, hg, _⟩ := (C113_settings_plain refLibs _ _ _ _ _ _).1 e
  refine ⟨_, _, m, b, f, run, hm, e, by rw [hf.dist]; norm_num, ?_, by rw [hco]; rfl, hs, hbg, hor, ver, hg⟩
  rw [hc]
  norm_num

/-- The other scripts do not give a result for this pattern. -/
example (fsolve : (ℝ × ℝ → ℝ × ℝ) → ℝ × ℝ → ℝ × ℝ) (mat0 : Mat ℝ) : ∃ b, demo02Rest refLibs fsolve 5 mat0 b = .error .nonFinite ∧
    ∃ f, dotLines refLibs demo02Opts b = .ok f ∧ f.hor.length = 13 := by
  obtain ⟨m, b, _, _, _, _, h⟩ := drawn13_binary
  obtain ⟨f, ef, hf⟩ := C113_lines refLibs_spec h (by norm_num) (by norm_num) demo02Opts (by tauto)
  exact ⟨b, (C113_perspective refLibs_spec h (by norm_num) (by norm_num) fsolve 5 mat0).1, f, ef, by rw [hf.hor]; simp [latticeRows]⟩

end Discorpy
