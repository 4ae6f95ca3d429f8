import Verif.Lemmas.Fisheye
import Verif.Lemmas.UnwarpScript
import Verif.Props.C82
import Verif.Props.C94

/-! # C106: the calibration of a fisheye camera (`fisheye_calibration_dot_pattern.py`, `…_line_pattern.py`, `…_chessboard.py`) -/

namespace Discorpy

open Spec

/-! ## The steps for any image -/

/-- **C106 (steps).** A script finishes with the results `r` exactly if: the image can be loaded as a 2D image and its background corrected
(sigma 10, 100 pixels of padding); the points can be found; the model is found from them; and the image and the test image, if there is one, can be
loaded again and corrected with this model. -/
theorem C106_steps {α : Type} (lib : Libs) (ext : LineLibs) (roots : RootsFn) (rot : Mat ℝ → ℝ → Mat ℝ) (padIdx : ℕ → ℤ → ℕ) (D : Disk α)
    (target : FisheyeTarget) (file : FilePath) (test : Option FilePath) (r : FisheyeRun) :
    fisheyeScript lib ext roots rot padIdx D target file test = .ok r ↔
      ∃ img0 norm pts, loadImageAt D.decode D.fs file true = .ok (.gray img0) ∧ normalizationFft padIdx img0 10 100 = .ok norm ∧
        fisheyeFind lib ext norm target = .ok pts ∧
        fisheyeModel lib roots rot target.opts img0.height img0.width pts = .ok r.found ∧
        (∃ img, loadImageAt D.decode D.fs file false = .ok img ∧
          unwarpColorImageBackward lib.lstsq lib.sample lib.float32 (fun _ _ _ => 0) img r.found.centre.x r.found.centre.y r.found.coefs (.int 400) =
            .ok r.image) ∧
        match test, r.test with
        | none, t => t = none
        | some _, none => False
        | some p, some t => ∃ img, loadImageAt D.decode D.fs p false = .ok img ∧
            unwarpColorImageBackward lib.lstsq lib.sample lib.float32 (fun _ _ _ => 0) img r.found.centre.x r.found.centre.y r.found.coefs
              (.int 400) = .ok t := by
  unfold fisheyeScript
  constructor
  · intro h
    obtain ⟨i0, h0, ha⟩ := bind_ok_iff.1 h
    obtain ⟨img0, h1, hb⟩ := bind_ok_iff.1 ha
    obtain ⟨norm, h2, hc⟩ := bind_ok_iff.1 hb
    obtain ⟨pts, h3, hd⟩ := bind_ok_iff.1 hc
    obtain ⟨found, h4, he⟩ := bind_ok_iff.1 hd
    obtain ⟨image, h5, hf⟩ := bind_ok_iff.1 he
    have hg : i0 = .gray img0 := by
      cases i0 with
      | gray m => cases h1; rfl
      | color => cases h1
    subst hg
    clear h ha hb hc hd he
    unfold fisheyeCorrect at hf h5
    cases test with
    | none =>
      cases hf
      exact ⟨img0, norm, pts, h0, h2, h3, h4, bind_ok_iff.1 h5, rfl⟩
    | some p =>
      simp only at hf
      obtain ⟨t, h6, hg⟩ := bind_ok_iff.1 hf
      cases hg
      exact ⟨img0, norm, pts, h0, h2, h3, h4, bind_ok_iff.1 h5, bind_ok_iff.1 h6⟩
  · rintro ⟨img0, norm, pts, h0, h2, h3, h4, h5, h6⟩
    rw [h0, ok_bind]
    simp only [asGray, ok_bind]
    rw [h2, ok_bind, h3, ok_bind, h4, ok_bind]
    unfold fisheyeCorrect
    rw [bind_ok_iff.2 h5, ok_bind]
    obtain ⟨found, image, t⟩ := r
    cases test with
    | none =>
      simp only at h6
      subst h6
      rfl
    | some p =>
      cases t with
      | none => exact h6.elim
      | some t =>
        simp only
        rw [bind_ok_iff.2 h6, ok_bind]

/-- **C106 (dots).** The points found in the image of a dot pattern serve as points of rows and of columns: they are the middles of the dots of
the binarized image, in scan order. Both distances are the median distance of neighbouring dots in the middle 30 % of this image, and the slopes
are measured there. -/
theorem C106_dots (lib : Libs) (ext : LineLibs) (norm : Mat ℝ) (pts : FisheyePoints) (h : fisheyeFind lib ext norm .dots = .ok pts) :
    ∃ b, binarization lib.otsu norm 0.3 none true = .ok b ∧ MiddlesOf b pts.hor ∧ pts.ver = pts.hor ∧ pts.distVer = pts.distHor ∧
      (∃ roi mask, IsMiddlePart (realMat b) 0.3 roi ∧ IsInnerMask roi mask ∧ DotMedian mask (NearestDist mask) pts.distHor) ∧
      calcHorSlope lib.polyfit lib.argsort lib.radon (realMat b) 0.3 = .ok pts.slopeHor ∧
      calcVerSlope lib.polyfit lib.argsort lib.radon (realMat b) 0.3 = .ok pts.slopeVer := by
  unfold fisheyeFind fisheyeDots at h
  obtain ⟨b, h1, h⟩ := bind_ok_iff.1 h
  obtain ⟨⟨size, dist⟩, h2, h⟩ := bind_ok_iff.1 h
  obtain ⟨sh, h3, h⟩ := bind_ok_iff.1 h
  obtain ⟨sv, h4, h⟩ := bind_ok_iff.1 h
  obtain ⟨l, h5, h⟩ := bind_ok_iff.1 h
  cases h
  obtain ⟨e1, e2, D, hD, o1, o0, _⟩ := C81_shape _ _ _ _ _ _ h1
  obtain ⟨q1, q2⟩ := binarization_pos h1
  have hbin : ∀ i < b.height, ∀ j < b.width, b.get i j = 0 ∨ b.get i j = 1 := by
    intro i hi j hj
    by_cases hm : (i, j) ∈ D
    · exact .inr (o1 _ hm)
    · exact .inl (o0 (i, j) ⟨by omega, by omega⟩ hm)
  have hreal : ∀ i < b.height, ∀ j < b.width, (realMat b).get i j = 0 ∨ (realMat b).get i j = 1 := by
    intro i hi j hj
    simp only [realMat]
    exact_mod_cast hbin i hi j hj
  refine ⟨b, h1, ?_, rfl, rfl, ?_, h3, h4⟩
  · have hz : ∃ i < b.height, ∃ j < b.width, (realMat b).get i j = 0 := by
      by_contra hc
      have := C82_refused lib.otsu (realMat b) 0.3 none (.inr (.inl hc))
      rw [h5] at this
      cases this
    have ho : ∃ i < b.height, ∃ j < b.width, (realMat b).get i j = 1 := by
      by_contra hc
      have := C82_refused lib.otsu (realMat b) 0.3 none (.inr (.inr hc))
      rw [h5] at this
      cases this
    obtain ⟨l', h6, h7⟩ := C82_binary lib.otsu (realMat b) 0.3 none (fun i hi j hj => by
      rcases hreal i hi j hj with e | e <;> rw [e] <;> norm_num) hz ho
    rw [h5] at h6
    cases h6
    refine middlesOf_congr (fun p => ?_) h7
    unfold Lit onesOf realMat
    simp only
    refine and_congr_right fun hp => and_congr_right fun hq => ?_
    rcases hbin p.1 hp p.2 hq with e | e <;> simp [e]
  · obtain ⟨roi, mask, m1, m2, -, m3⟩ := C67_median (realMat b) (fun i hi j hj => by
      simpa using hreal i hi j hj) q1 q2 0.3 size dist h2
    exact ⟨roi, mask, m1, m2, m3⟩

/-- **C106 (drawn dots).** In a drawn dot pattern, as in C94, the script for dots finds the centres of all dots, no slopes, and the distance of the
drawing. -/
theorem C106_drawn {height width : ℕ} {d ds s : ℤ} {margin : MarginArg} {mv mh : ℤ} {K L : ℕ}
    (hp : DrawnPattern height width d ds s margin mv mh K L) {k l : ℕ} (hk : k + 1 < K) (hl : l + 1 < L)
    (w1 : TwoInMiddle height 0.3 (mv + (s / 2 + 1)) d s k) (w2 : TwoInMiddle width 0.3 (mh + (s / 2 + 1)) d s l)
    (lib : Libs) (ext : LineLibs) (hpf : PolyfitSpec lib.polyfit) (has : ArgsortSpec lib.argsort)
    (hr : ∀ img angles, 0 < (lib.radon img angles).height ∧ (lib.radon img angles).width = angles.length) (nbins : ℕ) (hnb : 2 ≤ nbins)
    (hotsu : lib.otsu = thresholdOtsu false nbins) :
    ∃ m b, makeDotPattern height width d ds margin = .ok m ∧ binarization lib.otsu m 0.3 none true = .ok b ∧
      (Upright lib.radon (realMat b) 0.3 → ∃ pts, fisheyeFind lib ext m .dots = .ok ⟨pts, pts, 0, 0, d, d⟩ ∧ pts.Nodup ∧
        ∀ c, c ∈ pts ↔ ∃ k < K, ∃ l < L, c = ⟨(mv + (s / 2 + 1) : ℤ) + 1 / 2 + (k : ℕ) * (d : ℝ), (mh + (s / 2 + 1) : ℤ) + 1 / 2 + (l : ℕ) * (d : ℝ)⟩) := by
  have h5 := hp.large
  have hap := hp.apart
  have ht : (0.3 : ℝ) = max 0.05 (min 0.3 1) := by norm_num
  obtain ⟨m, b, hm, e1, e2, hb, b1, b2, g⟩ := pattern_shows hp nbins hnb 0.3 0.3 ht hk hl w1 w2
  have t1 := inDot_far hp.odd hp.large
  have t2 := zPluses_symm (zMed_symm inDot_symm) _ _ t1
  obtain ⟨N, hN⟩ := pattern_number hp g
  have hd : 0 < d := by omega
  have s1 := centreSet_steps (n := height) (mv := mv) (s := s) hd
  have s2 := centreSet_steps (n := width) (mv := mh) (s := s) hd
  have m1 := twoInMiddle_window hp.rows hk w1
  have m2 := twoInMiddle_window hp.cols hl w2
  refine ⟨m, b, hm, by rw [hotsu]; exact hb, fun hup => ?_⟩
  have esd := g.sizeDistance ⟨0, t1⟩ ⟨0, t2⟩ hd s1 s2 ht (by rw [b1]; exact m1) (by rw [b2]; exact m2) hN
  obtain ⟨eh, ev⟩ := g.slopes ⟨0, t1⟩ ⟨0, t2⟩ hd ht (by rw [b1]; exact m1) (by rw [b2]; exact m2) hpf has hr ⟨rfl, rfl, fun _ _ _ _ => rfl⟩ hup
  have hp0 := (hp.rows 0).1 (by omega)
  have hq0 := (hp.cols 0).1 (by omega)
  have hpm : mv + (s / 2 + 1) + (0 : ℕ) * d ∈ centreSet height mv s d := ⟨0, rfl, hp0⟩
  have hqm : mh + (s / 2 + 1) + (0 : ℕ) * d ∈ centreSet width mh s d := ⟨0, rfl, hq0⟩
  have l1 := g.grid.rows.low _ hpm
  have l2 := g.grid.cols.low _ hqm
  have u1 := g.grid.rows.high _ hpm
  have u2 := g.grid.cols.high _ hqm
  have hzero : b.get 0 0 = 0 := by
    refine g.zero (0, 0) ⟨by show 0 < b.height; omega, by show 0 < b.width; omega⟩ ?_
    rintro ⟨p, hpp, q, hq, hx⟩
    have := g.grid.ge1 hx
    have := g.grid.rows.low p hpp
    simp only [Nat.cast_zero] at *
    omega
  obtain ⟨P, eP⟩ : ∃ P : ℕ, (P : ℤ) = mv + (s / 2 + 1) + (0 : ℕ) * d + s / 2 := ⟨_, Int.toNat_of_nonneg (by omega)⟩
  obtain ⟨Q, eQ⟩ : ∃ Q : ℕ, (Q : ℤ) = mh + (s / 2 + 1) + (0 : ℕ) * d := ⟨_, Int.toNat_of_nonneg (by omega)⟩
  have hone : b.get P Q = 1 := by
    refine g.one (P, Q) ⟨_, hpm, _, hqm, ?_⟩
    show zPluses (zMed (InDot s)) ((P : ℤ) - _) ((Q : ℤ) - _)
    rw [eP, eQ, add_sub_cancel_left, sub_self]
    exact t1
  obtain ⟨pts, ep, -⟩ := C82_binary lib.otsu (realMat b) 0.3 none (fun i hi j hj => by
      rcases g.binary i hi j hj with e | e <;> rw [e] <;> norm_num)
    ⟨0, by show 0 < b.height; omega, 0, by show 0 < b.width; omega, by simp only [realMat]; exact_mod_cast hzero⟩
    ⟨P, by show P < b.height; omega, Q, by show Q < b.width; omega, by simp only [realMat]; exact_mod_cast hone⟩
  have ef : fisheyeFind lib ext m .dots = .ok ⟨pts, pts, 0, 0, d, d⟩ := by
    unfold fisheyeFind fisheyeDots
    simp only
    rw [hotsu, hb, ok_bind, esd, ok_bind]
    simp only
    rw [eh, ok_bind, ev, ok_bind, ← hotsu, ep, ok_bind]
  obtain ⟨b', hb', hmid, -⟩ := C106_dots lib ext m _ ef
  rw [hotsu, hb] at hb'
  cases hb'
  obtain ⟨hnd, hmem⟩ := g.grid.middles g.lit ⟨_, _, t1⟩ hmid
  refine ⟨pts, ef, hnd, fun c => (hmem c).trans ?_⟩
  simp only [Int.cast_one]
  constructor
  · rintro ⟨p, ⟨k, ek, h1⟩, q, ⟨l, el, h2⟩, rfl⟩
    refine ⟨k, (hp.rows k).2 (by omega), l, (hp.cols l).2 (by omega), ?_⟩
    rw [ek, el, Pt.mk.injEq]
    constructor <;> push_cast <;> ring
  · rintro ⟨k, hk, l, hl, rfl⟩
    refine ⟨_, ⟨k, rfl, (hp.rows k).1 hk⟩, _, ⟨l, rfl, (hp.cols l).1 hl⟩, ?_⟩
    rw [Pt.mk.injEq]
    constructor <;> push_cast <;> ring

/-- **C106 (lines).** The points of a line pattern and of a chessboard: points on horizontal lines are searched along lines with the slope and 0.3
times the distance of the vertical lines, and conversely; the sensitivity is 0.1 for lines and 0.3 for a chessboard. -/
theorem C106_lines (lib : Libs) (ext : LineLibs) (norm : Mat ℝ) (target : FisheyeTarget) (chessboard : Bool) (sensitive : ℝ)
    (ht : (target, chessboard, sensitive) ∈ [(FisheyeTarget.lines, false, 0.1), (.chessboard, true, 0.3)]) (pts : FisheyePoints)
    (h : fisheyeFind lib ext norm target = .ok pts) (E : Ext) (hE : E = ⟨lib.polyfit, lib.argsort, ext.gaussFilter, ext.gaussFit⟩) :
    calcSlopeDistanceHor E ext.filter2 ext.chess lib.radon norm 0.3 30 9 0.1 true true true true chessboard none = .ok (pts.slopeHor, pts.distHor) ∧
    calcSlopeDistanceVer E ext.filter2 ext.chess lib.radon norm 0.3 30 9 0.1 true true true true chessboard none = .ok (pts.slopeVer, pts.distVer) ∧
    getCrossPointsHorLines E lib.sample ext.fft5 ext.filter2 lib.float32 norm pts.slopeVer pts.distVer 0.3 0 true true chessboard true true 9
      sensitive none = .ok pts.hor ∧
    getCrossPointsVerLines E lib.sample ext.fft5 ext.filter2 lib.float32 norm pts.slopeHor pts.distHor 0.3 0 true true chessboard true true 9
      sensitive none = .ok pts.ver := by
  subst hE
  have key : fisheyeLines lib ext chessboard sensitive norm = .ok pts := by
    simp only [List.mem_cons, Prod.mk.injEq, List.not_mem_nil, or_false] at ht
    rcases ht with ⟨rfl, rfl, rfl⟩ | ⟨rfl, rfl, rfl⟩ <;> exact h
  unfold fisheyeLines at key
  obtain ⟨⟨sh, dh⟩, h1, h⟩ := bind_ok_iff.1 key
  obtain ⟨⟨sv, dv⟩, h2, h⟩ := bind_ok_iff.1 h
  obtain ⟨hp, h3, h⟩ := bind_ok_iff.1 h
  obtain ⟨vp, h4, h⟩ := bind_ok_iff.1 h
  cases h
  exact ⟨h1, h2, h3, h4⟩

/-- **C106 (model).** Whenever the model is found: the points inside the four parabolas of the script are grouped into lines with the parameters of
the script; dots more than 2 or 3 pixels off are removed; the centre is that of the vanishing points; the coefficients are the five backward
coefficients for the lines corrected for perspective. -/
theorem C106_model (lib : Libs) (roots : RootsFn) (rot : Mat ℝ → ℝ → Mat ℝ) (target : FisheyeTarget) (left right top bot residual : ℝ)
    (ht : (target, left, right, top, bot, residual) ∈ [(FisheyeTarget.dots, 450, 100, 100, 100, 2), (.lines, 400, 300, 150, 200, 3),
      (.chessboard, 500, 450, 250, 250, 3)])
    (height width : ℕ) (pts : FisheyePoints) (r : FisheyeModel) (h : fisheyeModel lib roots rot target.opts height width pts = .ok r) :
    left + right ≤ width ∧ top + bot ≤ height ∧
    (open Classical in ∃ l, groupPolyfitHor lib.polyfit lib.argsort
        (pts.hor.filter fun p => decide (InsideMask height width top bot left right p)) pts.slopeHor pts.distHor 0.1 3 0.65 0.5 2 = .ok l ∧
      removeResidualHor lib.polyfit l pts.slopeHor residual = .ok r.hor) ∧
    (open Classical in ∃ l, groupPolyfitVer lib.polyfit lib.argsort
        (pts.ver.filter fun p => decide (InsideMask height width top bot left right p)) pts.slopeVer pts.distVer 0.1 3 0.65 0.5 2 = .ok l ∧
      removeResidualVer lib.polyfit l pts.slopeVer residual = .ok r.ver) ∧
    findCentreVanishingIter lib.polyfit lib.lstsq roots lib.argsort r.hor r.ver 2 .mean = .ok r.centre ∧
    correctPerspectiveEffect lib.polyfit lib.lstsq lib.argsort r.hor r.ver r.centre.x r.centre.y .mean .mean = .ok (r.corrHor, r.corrVer) ∧
    calcCoefBackward lib.polyfit lib.lstsq lib.minimize r.corrHor r.corrVer r.centre.x r.centre.y 5 false 0.3 = .ok (r.coefs, r.warned) := by
  have ho : target.opts = ⟨left, right, top, bot, residual⟩ := by
    simp only [List.mem_cons, Prod.mk.injEq, List.not_mem_nil, or_false] at ht
    rcases ht with ⟨rfl, rfl, rfl, rfl, rfl, rfl⟩ | ⟨rfl, rfl, rfl, rfl, rfl, rfl⟩ | ⟨rfl, rfl, rfl, rfl, rfl, rfl⟩ <;>
      norm_num [FisheyeTarget.opts, dotOpts, lineOpts, chessOpts]
  rw [ho] at h
  unfold fisheyeModel at h
  obtain ⟨kh, h1, h⟩ := bind_ok_iff.1 h
  obtain ⟨kv, h2, h⟩ := bind_ok_iff.1 h
  obtain ⟨lh, h3, h⟩ := bind_ok_iff.1 h
  obtain ⟨lv, h4, h⟩ := bind_ok_iff.1 h
  obtain ⟨hor, h5, h⟩ := bind_ok_iff.1 h
  obtain ⟨ver, h6, h⟩ := bind_ok_iff.1 h
  obtain ⟨c, h7, h⟩ := bind_ok_iff.1 h
  obtain ⟨⟨ch, cv⟩, h8, h⟩ := bind_ok_iff.1 h
  obtain ⟨⟨co, w⟩, h9, h⟩ := bind_ok_iff.1 h
  cases h
  obtain ⟨mask, hm, -⟩ := bind_ok_iff.1 (show (makeParabolaMask rot height width 0.4 0.3 _ _ 0 >>= _) = _ from h1)
  obtain ⟨-, -, f3, f4⟩ := mask_fits hm
  have k1 := (kept_of_ok h1).2.2
  have k2 := (kept_of_ok h2).2.2
  rw [k1] at h3
  rw [k2] at h4
  exact ⟨f3, f4, ⟨lh, h3, h5⟩, ⟨lv, h4, h6⟩, h7, h8, h9⟩

/-- **C106 (small images).** An image narrower or lower than the margins is refused with `ValueError`. -/
theorem C106_small (lib : Libs) (roots : RootsFn) (rot : Mat ℝ → ℝ → Mat ℝ) (target : FisheyeTarget) (w h : ℕ)
    (ht : (target, w, h) ∈ [(FisheyeTarget.dots, 550, 200), (.lines, 700, 350), (.chessboard, 950, 500)])
    (height width : ℕ) (h0 : 0 < height) (w0 : 0 < width) (hs : width < w ∨ height < h) (pts : FisheyePoints) :
    fisheyeModel lib roots rot target.opts height width pts = .error .valueError := by
  have key : ∀ o : FisheyeOpts, o.left + o.right > width ∨ o.top + o.bot > height →
      fisheyeModel lib roots rot o height width pts = .error .valueError := by
    intro o ho
    have := (C33_mask rot height width h0 w0 0.4 0.3 (.seq [o.left, o.right]) (.seq [o.top, o.bot]) o.top o.bot o.left o.right rfl rfl).1.2 ho
    unfold fisheyeModel removePointsMask
    simp only [this]
    rfl
  refine key _ ?_
  simp only [List.mem_cons, Prod.mk.injEq, List.not_mem_nil, or_false] at ht
  rcases ht with ⟨rfl, rfl, rfl⟩ | ⟨rfl, rfl, rfl⟩ | ⟨rfl, rfl, rfl⟩ <;>
  · rcases hs with hs | hs
    · left
      have : (width : ℝ) < _ := Nat.cast_lt.2 hs
      norm_num [FisheyeTarget.opts, dotOpts, lineOpts, chessOpts] at this ⊢
      linarith
    · right
      have : (height : ℝ) < _ := Nat.cast_lt.2 hs
      norm_num [FisheyeTarget.opts, dotOpts, lineOpts, chessOpts] at this ⊢
      linarith

/-! ## The corrected images -/

theorem isCorrected_padded (S : Sampler) (rnd : ℝ → ℝ) (m : Mat ℝ) (c : Pt) (coefs : List ℝ) :
    IsCorrected S rnd 400 c coefs m (unwarpPadded S rnd (fun _ _ _ => 0) m ⟨400, 400, 400, 400⟩ c.x c.y coefs) := by
  refine ⟨padMat (fun _ _ _ => 0) m 400 400 400 400, ⟨rfl, rfl, fun i hi j hj => ?_, fun i j h => ?_⟩, rfl, rfl, fun i hi j hj => ?_⟩
  · simp only [padMat]
    rw [if_pos ⟨by omega, by omega, by omega, by omega⟩, Nat.add_sub_cancel_left, Nat.add_sub_cancel_left]
  · simp only [padMat]
    rw [if_neg (by omega)]
  · have c1 : (0 : ℝ) ≤ ((padMat (fun _ _ _ => 0) m 400 400 400 400).height : ℝ) - 1 := by
      simp only [padMat]
      push_cast
      have : (0 : ℝ) ≤ m.height := Nat.cast_nonneg _
      linarith
    have c2 : (0 : ℝ) ≤ ((padMat (fun _ _ _ => 0) m 400 400 400 400).width : ℝ) - 1 := by
      simp only [padMat]
      push_cast
      have : (0 : ℝ) ≤ m.width := Nat.cast_nonneg _
      linarith
    have e : Int.toNat 400 = 400 := rfl
    simp only [unwarpPadded, polySum_eq_radial, e, clip_eq_clampTo c1, clip_eq_clampTo c2]
    norm_num
    rfl

theorem unwarpColor_400 {lstsq : List (List ℝ) → List ℝ → List ℝ} {S : Sampler} {rnd : ℝ → ℝ} {img out : Img} {c : Pt} {coefs : List ℝ}
    (h : unwarpColorImageBackward lstsq S rnd (fun _ _ _ => 0) img c.x c.y coefs (.int 400) = .ok out) :
    IsCorrectedImg S rnd 400 c coefs img out := by
  unfold unwarpColorImageBackward calcPad at h
  cases img with
  | gray m =>
    simp only [ok_bind] at h
    rw [if_neg (by omega)] at h
    cases h
    exact isCorrected_padded S rnd m c coefs
  | color hh w k g =>
    simp only [ok_bind] at h
    rw [if_neg (by omega)] at h
    cases h
    exact ⟨rfl, rfl, rfl, fun ch _ => isCorrected_padded S rnd ⟨hh, w, fun i j => g i j ch⟩ c coefs⟩

/-- **C106 (images).** Whenever a script finishes, the corrected image shows the loaded image with 400 more pixels on each side, in each colour;
the same holds for the test image. -/
theorem C106_images {α : Type} (lib : Libs) (ext : LineLibs) (roots : RootsFn) (rot : Mat ℝ → ℝ → Mat ℝ) (padIdx : ℕ → ℤ → ℕ) (D : Disk α)
    (target : FisheyeTarget) (file : FilePath) (test : Option FilePath) (r : FisheyeRun)
    (h : fisheyeScript lib ext roots rot padIdx D target file test = .ok r) :
    (∃ img, loadImageAt D.decode D.fs file false = .ok img ∧ IsCorrectedImg lib.sample lib.float32 400 r.found.centre r.found.coefs img r.image) ∧
    ∀ p, test = some p → ∃ img t, r.test = some t ∧ loadImageAt D.decode D.fs p false = .ok img ∧
      IsCorrectedImg lib.sample lib.float32 400 r.found.centre r.found.coefs img t := by
  obtain ⟨img0, norm, pts, -, -, -, -, ⟨img, h1, h2⟩, h3⟩ := (C106_steps lib ext roots rot padIdx D target file test r).1 h
  refine ⟨⟨img, h1, unwarpColor_400 h2⟩, ?_⟩
  rintro p rfl
  cases ht : r.test with
  | none =>
    rw [ht] at h3
    exact h3.elim
  | some t =>
    rw [ht] at h3
    obtain ⟨img', h4, h5⟩ := h3
    exact ⟨img', t, rfl, h4, unwarpColor_400 h5⟩

/-! ## Patterns of bent lines -/

section
variable (lib : Libs) (hpf : PolyfitSpec lib.polyfit) (has : ArgsortSpec lib.argsort) (hls : LstsqSpec lib.lstsq) (roots : RootsFn)
  (hr : RootsSpec roots) (rot : Mat ℝ → ℝ → Mat ℝ) (opts : FisheyeOpts) (hres : 0 < opts.residual) (height width : ℕ)
  (hw : opts.left + opts.right ≤ width) (hh : opts.top + opts.bot ≤ height) (h0 : 0 < height) (w0 : 0 < width) (c : Pt)
  (κ o d s κ' o' d' s' : ℝ) (K N K' N' : ℕ) (pts : FisheyePoints)
  (hor : pts.hor.Perm (tableRows (bentRowDot c κ o d s N) K (2 * N + 1)).flatten)
  (ver : pts.ver.Perm (tableRows (bentColDot c κ' o' d' s' N') K' (2 * N' + 1)).flatten)
  (hin : ∀ p ∈ pts.hor ++ pts.ver, InsideMask height width opts.top opts.bot opts.left opts.right p)
  (slopes : pts.slopeHor = 0 ∧ pts.slopeVer = 0) (dists : pts.distHor = d ∧ pts.distVer = d')
  (fh : IsFisheyeFamily κ o d s K N) (fv : IsFisheyeFamily κ' o' d' s' K' N')

include hpf has hres hw hh h0 w0 hor ver hin slopes dists fh fv in
/-- The steps up to the lines. -/
theorem fisheye_lines_found :
    fisheyeModel lib roots rot opts height width pts = (do
      let c' ← findCentreVanishingIter lib.polyfit lib.lstsq roots lib.argsort (tableRows (bentRowDot c κ o d s N) K (2 * N + 1))
        (tableRows (bentColDot c κ' o' d' s' N') K' (2 * N' + 1)) 2 .mean
      let (corrHor, corrVer) ← correctPerspectiveEffect lib.polyfit lib.lstsq lib.argsort (tableRows (bentRowDot c κ o d s N) K (2 * N + 1))
        (tableRows (bentColDot c κ' o' d' s' N') K' (2 * N' + 1)) c'.x c'.y .mean .mean
      let (coefs, warned) ← calcCoefBackward lib.polyfit lib.lstsq lib.minimize corrHor corrVer c'.x c'.y 5 false 0.3
      .ok ⟨tableRows (bentRowDot c κ o d s N) K (2 * N + 1), tableRows (bentColDot c κ' o' d' s' N') K' (2 * N' + 1), c', corrHor, corrVer, coefs,
        warned⟩) := by
  have b := bent_pattern c (κ := κ) (o := o) (d := d) (κ' := κ') (o' := o') (d' := d') (K := K) (K' := K') fh.step fh.dots fv.step fv.dots
  have n1 : offsets o d K ≠ [] := by
    have := fh.lines
    rw [← List.length_pos_iff, offsets_length]
    omega
  have n2 : offsets o' d' K' ≠ [] := by
    have := fv.lines
    rw [← List.length_pos_iff, offsets_length]
    omega
  unfold fisheyeModel
  simp only
  rw [kept_all rot hw hh h0 w0 fun p hp => hin p (List.mem_append_left _ hp), ok_bind,
    kept_all rot hw hh h0 w0 fun p hp => hin p (List.mem_append_right _ hp), ok_bind, slopes.1, slopes.2, dists.1, dists.2,
    fisheye_rows hpf has c fh hor, ok_bind, fisheye_columns hpf has c fv ver, ok_bind, rows_kept hpf b.hor n1 0 hres, ok_bind,
    columns_kept hpf b.ver n2 0 hres, ok_bind]

include hpf has hls hres hw hh h0 w0 hor ver hin slopes dists fh fv in
/-- Once the centre is found, perspective correction changes nothing and the coefficients fit the bending. -/
theorem fisheye_fit (hκ : κ ≠ 0) (hκ' : κ' ≠ 0)
    (hc : findCentreVanishingIter lib.polyfit lib.lstsq roots lib.argsort (tableRows (bentRowDot c κ o d s N) K (2 * N + 1))
      (tableRows (bentColDot c κ' o' d' s' N') K' (2 * N' + 1)) 2 .mean = .ok c) :
    ∃ r, fisheyeModel lib roots rot opts height width pts = .ok r ∧
      r.hor = tableRows (bentRowDot c κ o d s N) K (2 * N + 1) ∧ r.ver = tableRows (bentColDot c κ' o' d' s' N') K' (2 * N' + 1) ∧
      r.centre = c ∧ r.corrHor = r.hor ∧ r.corrVer = r.ver ∧ r.warned = false ∧ r.coefs.length = 5 ∧
      ∀ coefs : List ℝ, coefs.length = 5 →
        (r.hor.flatten.map (bendError Pt.x c κ r.coefs)).sum + (r.ver.flatten.map (bendError Pt.y c κ' r.coefs)).sum ≤
          (r.hor.flatten.map (bendError Pt.x c κ coefs)).sum + (r.ver.flatten.map (bendError Pt.y c κ' coefs)).sum := by
  have b := bent_pattern c (κ := κ) (o := o) (d := d) (κ' := κ') (o' := o') (d' := d') (K := K) (K' := K') fh.step fh.dots fv.step fv.dots
  rw [fisheye_lines_found lib hpf has roots rot opts hres height width hw hh h0 w0 c κ o d s κ' o' d' s' K N K' N' pts hor ver hin slopes dists fh fv,
    hc, ok_bind, C75_fixed lib.polyfit hpf lib.lstsq hls lib.argsort has c κ κ' _ _ _ _ b hκ hκ' (family_signs fh) (family_signs fv) .mean .mean
      (fun f hf => by cases hf), ok_bind]
  simp only
  obtain ⟨k, e, hk, hm⟩ := C80_ideal_backward lib.polyfit hpf lib.lstsq hls lib.minimize c κ κ' _ _ _ _ b o d o' d' (offsets_arith o d K)
    (offsets_arith o' d' K') (fh.step.trans_le fh.close).ne' (fv.step.trans_le fv.close).ne' (by rw [offsets_length]; exact fh.lines)
    (by rw [offsets_length]; exact fv.lines) (family_clear fh) (family_clear fv)
    (fun line hl p hp => by
      obtain ⟨k, -, rfl⟩ := mem_tableRows hl
      obtain ⟨i, hi, rfl⟩ := List.mem_map.1 hp
      have := bend_pos fh (List.mem_range.1 hi)
      simpa [bentRowDot] using this.ne')
    (fun line hl p hp => by
      obtain ⟨k, -, rfl⟩ := mem_tableRows hl
      obtain ⟨i, hi, rfl⟩ := List.mem_map.1 hp
      have := bend_pos fv (List.mem_range.1 hi)
      simpa [bentColDot] using this.ne') 5 (by norm_num) false (by simp) 0.3 (by norm_num)
  rw [e, ok_bind]
  have hk5 : k.length = 5 := by
    have : max (5 : ℤ) 1 = 5 := rfl
    omega
  refine ⟨_, rfl, rfl, rfl, rfl, rfl, rfl, rfl, hk5, fun k' hk' => ?_⟩
  have := hm k' (by omega)
  simp only at this
  rw [bentSum_flat b.hor.length_eq, bentSum_flat b.ver.length_eq, bentSum_flat b.hor.length_eq, bentSum_flat b.ver.length_eq] at this
  exact this

include hpf has hls hr hres hw hh h0 w0 hor ver hin slopes dists fh fv in
/-- **C106 (barrel distortion).** Points on rows and columns bent in proportion to their distance from a point `c`, as by a fisheye lens: if all are
inside the mask, each script finds exactly the rows and columns, and `c` as the centre of distortion; the perspective correction changes nothing; and the
five coefficients fit the bending best in the sense of least squares. -/
theorem C106_barrel (hκ : κ < 0) (hκ' : κ' < 0) :
    ∃ r, fisheyeModel lib roots rot opts height width pts = .ok r ∧
      r.hor = tableRows (bentRowDot c κ o d s N) K (2 * N + 1) ∧ r.ver = tableRows (bentColDot c κ' o' d' s' N') K' (2 * N' + 1) ∧
      r.centre = c ∧ r.corrHor = r.hor ∧ r.corrVer = r.ver ∧ r.warned = false ∧ r.coefs.length = 5 ∧
      ∀ coefs : List ℝ, coefs.length = 5 →
        (r.hor.flatten.map (bendError Pt.x c κ r.coefs)).sum + (r.ver.flatten.map (bendError Pt.y c κ' r.coefs)).sum ≤
          (r.hor.flatten.map (bendError Pt.x c κ coefs)).sum + (r.ver.flatten.map (bendError Pt.y c κ' coefs)).sum := by
  have b := bent_pattern c (κ := κ) (o := o) (d := d) (κ' := κ') (o' := o') (d' := d') (K := K) (K' := K') fh.step fh.dots fv.step fv.dots
  exact fisheye_fit lib hpf has hls roots rot opts hres height width hw hh h0 w0 c κ o d s κ' o' d' s' K N K' N' pts hor ver hin slopes dists fh fv
    hκ.ne hκ'.ne (C76_iteration lib.polyfit hpf lib.lstsq hls roots hr lib.argsort has c κ κ' _ _ _ _ b hκ hκ'
      (by rw [offsets_length]; have := fh.lines; omega) (by rw [offsets_length]; have := fv.lines; omega)
      (offsets_nodup o (fh.step.trans_le fh.close) K) (offsets_nodup o' (fv.step.trans_le fv.close) K') (family_signs fh) (family_signs fv) 2 .mean)

include hpf has hls hr hres hw hh h0 w0 hor ver hin slopes dists fh fv in
/-- **C106 (pincushion distortion).** The same for lines bent outwards, unless the averages of two neighbouring rows and of two neighbouring columns
can be parallel lines. -/
theorem C106_pincushion (hκ : 0 < κ) (hκ' : 0 < κ')
    (hpar : ∀ k l : ℕ, κ * c.x * (2 * o + (2 * k + 1) * d) * (κ' * c.y * (2 * o' + (2 * l + 1) * d')) ≠ 1) :
    ∃ r, fisheyeModel lib roots rot opts height width pts = .ok r ∧
      r.hor = tableRows (bentRowDot c κ o d s N) K (2 * N + 1) ∧ r.ver = tableRows (bentColDot c κ' o' d' s' N') K' (2 * N' + 1) ∧
      r.centre = c ∧ r.corrHor = r.hor ∧ r.corrVer = r.ver ∧ r.warned = false ∧ r.coefs.length = 5 ∧
      ∀ coefs : List ℝ, coefs.length = 5 →
        (r.hor.flatten.map (bendError Pt.x c κ r.coefs)).sum + (r.ver.flatten.map (bendError Pt.y c κ' r.coefs)).sum ≤
          (r.hor.flatten.map (bendError Pt.x c κ coefs)).sum + (r.ver.flatten.map (bendError Pt.y c κ' coefs)).sum := by
  have b := bent_pattern c (κ := κ) (o := o) (d := d) (κ' := κ') (o' := o') (d' := d') (K := K) (K' := K') fh.step fh.dots fv.step fv.dots
  obtain ⟨a, ha⟩ := coarse_bent hpf b (by have := fh.lines; omega) (by have := fv.lines; omega) hpar
  exact fisheye_fit lib hpf has hls roots rot opts hres height width hw hh h0 w0 c κ o d s κ' o' d' s' K N K' N' pts hor ver hin slopes dists fh fv
    hκ.ne' hκ'.ne' ((C76_pincushion lib.polyfit hpf lib.lstsq hls roots hr lib.argsort has c κ κ' _ _ _ _ b hκ hκ'
      (offsets_nodup o (fh.step.trans_le fh.close) K) (family_signs fh) (family_signs fv) a ha).2.2 2 .mean)

include hpf has hr hres hw hh h0 w0 hor ver hin slopes dists fh fv in
/-- **C106 (no distortion).** For straight rows and columns the scripts end with `ValueError`: there are no vanishing points. -/
theorem C106_straight (hκ : κ = 0) (hκ' : κ' = 0) : fisheyeModel lib roots rot opts height width pts = .error .valueError := by
  have b := bent_pattern c (κ := κ) (o := o) (d := d) (κ' := κ') (o' := o') (d' := d') (K := K) (K' := K') fh.step fh.dots fv.step fv.dots
  rw [fisheye_lines_found lib hpf has roots rot opts hres height width hw hh h0 w0 c κ o d s κ' o' d' s' K N K' N' pts hor ver hin slopes dists fh fv]
  subst hκ hκ'
  rw [(C76_straight lib.polyfit hpf lib.lstsq roots hr lib.argsort has c _ _ _ _ b (both_two (family_signs fh)).1 (both_two (family_signs fv)).1).2.2 2
    .mean]
  rfl

end

/-! ## Examples -/

/-- Points in the middle of an image of 2000 × 3000 pixels are inside the mask for margins up to 500. -/
theorem inside_middle {top bot left right : ℝ} (m1 : top ≤ 500) (m2 : bot ≤ 500) (m3 : left ≤ 500) (m4 : right ≤ 500) {p : Pt}
    (hy : |p.y - 1000| ≤ 210) (hx : |p.x - 1500| ≤ 210) : InsideMask 2000 3000 top bot left right p := by
  rw [abs_le] at hy hx
  have fy := Nat.floor_le (show 0 ≤ p.y by linarith [hy.1])
  have fx := Nat.floor_le (show 0 ≤ p.x by linarith [hx.1])
  have gy := Nat.lt_floor_add_one p.y
  have gx := Nat.lt_floor_add_one p.x
  have by1 : (⌊p.y⌋₊ : ℝ) < 2000 := by linarith [hy.2]
  have bx1 : (⌊p.x⌋₊ : ℝ) < 3000 := by linarith [hx.2]
  refine ⟨⌊p.y⌋₊, by exact_mod_cast by1, ⌊p.x⌋₊, by exact_mod_cast bx1, ⟨fun _ => by push_cast; exact ⟨fy, gy⟩, fun h => by linarith [hy.1]⟩,
    ⟨fun _ => by push_cast; exact ⟨fx, gx⟩, fun h => by linarith [hx.1]⟩, ?_⟩
  have sx : ((⌊p.x⌋₊ : ℝ) - 3000 / 2) ^ 2 ≤ 211 ^ 2 := by
    apply sq_le_sq'
    · linarith [hx.1]
    · linarith [hx.2]
  have sy : ((⌊p.y⌋₊ : ℝ) - 2000 / 2) ^ 2 ≤ 211 ^ 2 := by
    apply sq_le_sq'
    · linarith [hy.1]
    · linarith [hy.2]
  constructor <;> push_cast <;> norm_num at sx sy ⊢ <;> linarith [hy.1, hy.2, hx.1, hx.2]

/-- Four lines, 60 pixels apart, of 21 dots, 20 pixels apart, bent by 4 % at the ends. -/
theorem family4 {κ : ℝ} (h : |κ| ≤ 1 / 1000000) : IsFisheyeFamily κ (-90) 60 20 4 10 where
  lines := le_rfl
  dots := by norm_num
  step := by norm_num
  close := by norm_num
  small := by norm_num
  bend := by norm_num at h ⊢; linarith
  middle := by
    intro k hk
    have : |(-90 : ℝ) + k * 60| ≤ 90 := by interval_cases k <;> norm_num [abs_le]
    nlinarith [abs_nonneg κ, abs_nonneg ((-90 : ℝ) + k * 60)]
  below := by norm_num
  above := by norm_num
  clear := by intro k hk; interval_cases k <;> norm_num

theorem family4_near {κ : ℝ} (h : |κ| ≤ 1 / 1000000) {k i : ℕ} (hk : k < 4) (hi : i < 2 * 10 + 1) :
    |(-90 + k * 60) * (1 + κ * (((i : ℝ) - (10 : ℕ)) * 20) ^ 2)| ≤ 210 ∧ |((i : ℝ) - (10 : ℕ)) * 20| ≤ 210 := by
  have h1 : |((i : ℝ) - (10 : ℕ)) * 20| ≤ 200 := by
    have : (i : ℝ) ≤ 20 := by exact_mod_cast (by omega : i ≤ 20)
    have : (0 : ℝ) ≤ i := Nat.cast_nonneg i
    rw [abs_le]
    constructor <;> push_cast <;> linarith
  have h2 : |(-90 : ℝ) + k * 60| ≤ 90 := by interval_cases k <;> norm_num [abs_le]
  have h3 : (((i : ℝ) - (10 : ℕ)) * 20) ^ 2 ≤ 200 ^ 2 := by
    rw [← sq_abs]
    exact pow_le_pow_left₀ (abs_nonneg _) h1 2
  have h4 : |1 + κ * (((i : ℝ) - (10 : ℕ)) * 20) ^ 2| ≤ 2 := by
    refine (abs_add_le _ _).trans ?_
    rw [abs_mul, abs_of_nonneg (sq_nonneg (((i : ℝ) - (10 : ℕ)) * 20)), abs_one]
    nlinarith [abs_nonneg κ, sq_nonneg (((i : ℝ) - (10 : ℕ)) * 20)]
  refine ⟨?_, h1.trans (by norm_num)⟩
  rw [abs_mul]
  nlinarith [abs_nonneg ((-90 : ℝ) + k * 60), abs_nonneg (1 + κ * (((i : ℝ) - (10 : ℕ)) * 20) ^ 2)]

/-- The points of four rows and four columns around the pixel (1000, 1500). -/
noncomputable def fisheyePts4 (κ : ℝ) : FisheyePoints :=
  ⟨(tableRows (bentRowDot ⟨1000, 1500⟩ κ (-90) 60 20 10) 4 (2 * 10 + 1)).flatten, (tableRows (bentColDot ⟨1000, 1500⟩ κ (-90) 60 20 10) 4 (2 * 10 + 1)).flatten,
    0, 0, 60, 60⟩

theorem fisheyePts4_inside {κ : ℝ} (h : |κ| ≤ 1 / 1000000) {top bot left right : ℝ} (m1 : top ≤ 500) (m2 : bot ≤ 500) (m3 : left ≤ 500) (m4 : right ≤ 500) :
    ∀ p ∈ (fisheyePts4 κ).hor ++ (fisheyePts4 κ).ver, InsideMask 2000 3000 top bot left right p := by
  intro p hp
  rcases List.mem_append.1 hp with hp | hp <;> obtain ⟨line, hl, hp⟩ := List.mem_flatten.1 hp <;> obtain ⟨k, hk, rfl⟩ := mem_tableRows hl <;>
    obtain ⟨i, hi, rfl⟩ := List.mem_map.1 hp <;> obtain ⟨n1, n2⟩ := family4_near h hk (List.mem_range.1 hi)
  · refine inside_middle m1 m2 m3 m4 ?_ ?_
    · simpa [bentRowDot] using n1
    · simpa [bentRowDot] using n2
  · refine inside_middle m1 m2 m3 m4 ?_ ?_
    · simpa [bentColDot] using n2
    · simpa [bentColDot] using n1

/-- A camera image of 2000 × 3000 pixels with barrel distortion, for all three scripts. -/
example (target : FisheyeTarget) : ∃ r, fisheyeModel refLibs refRoots (fun m _ => m) target.opts 2000 3000 (fisheyePts4 (-1 / 1000000)) = .ok r ∧
    r.centre = ⟨1000, 1500⟩ ∧ r.hor.length = 4 ∧ r.coefs.length = 5 := by
  have hκ : |(-1 / 1000000 : ℝ)| ≤ 1 / 1000000 := by norm_num [abs_le]
  obtain ⟨r, e, h1, h2, h3, -, -, -, h4, -⟩ := C106_barrel refLibs refPolyfit_spec refArgsort_spec refLstsq_spec refRoots refRoots_spec (fun m _ => m)
    target.opts (by cases target <;> norm_num [FisheyeTarget.opts, dotOpts, lineOpts, chessOpts]) 2000 3000
    (by cases target <;> norm_num [FisheyeTarget.opts, dotOpts, lineOpts, chessOpts])
    (by cases target <;> norm_num [FisheyeTarget.opts, dotOpts, lineOpts, chessOpts]) (by norm_num) (by norm_num) ⟨1000, 1500⟩ _ _ _ _ _ _ _ _ _ _ _ _
    (fisheyePts4 (-1 / 1000000)) (List.Perm.refl _) (List.Perm.refl _)
    (fisheyePts4_inside hκ (by cases target <;> norm_num [FisheyeTarget.opts, dotOpts, lineOpts, chessOpts])
      (by cases target <;> norm_num [FisheyeTarget.opts, dotOpts, lineOpts, chessOpts])
      (by cases target <;> norm_num [FisheyeTarget.opts, dotOpts, lineOpts, chessOpts])
      (by cases target <;> norm_num [FisheyeTarget.opts, dotOpts, lineOpts, chessOpts])) ⟨rfl, rfl⟩ ⟨rfl, rfl⟩ (family4 hκ) (family4 hκ) (by norm_num) (by norm_num)
  exact ⟨r, e, h3, by rw [h1]; simp [tableRows], h4⟩

/-- The same pattern with pincushion distortion, in the script for dots. -/
example : ∃ r, fisheyeModel refLibs refRoots (fun m _ => m) FisheyeTarget.dots.opts 2000 3000 (fisheyePts4 (1 / 1000000)) = .ok r ∧
    r.centre = ⟨1000, 1500⟩ := by
  have hκ : |(1 / 1000000 : ℝ)| ≤ 1 / 1000000 := by norm_num [abs_le]
  obtain ⟨r, e, -, -, h3, -⟩ := C106_pincushion refLibs refPolyfit_spec refArgsort_spec refLstsq_spec refRoots refRoots_spec (fun m _ => m)
    FisheyeTarget.dots.opts (by norm_num [FisheyeTarget.opts, dotOpts]) 2000 3000 (by norm_num [FisheyeTarget.opts, dotOpts])
    (by norm_num [FisheyeTarget.opts, dotOpts]) (by norm_num) (by norm_num) ⟨1000, 1500⟩ _ _ _ _ _ _ _ _ _ _ _ _
    (fisheyePts4 (1 / 1000000)) (List.Perm.refl _) (List.Perm.refl _)
    (fisheyePts4_inside hκ (by norm_num [FisheyeTarget.opts, dotOpts]) (by norm_num [FisheyeTarget.opts, dotOpts])
      (by norm_num [FisheyeTarget.opts, dotOpts]) (by norm_num [FisheyeTarget.opts, dotOpts])) ⟨rfl, rfl⟩ ⟨rfl, rfl⟩ (family4 hκ) (family4 hκ)
    (by norm_num) (by norm_num) (fun k l h => by
      have h2 : ((1500 : ℝ) * (2 * -90 + (2 * k + 1) * 60) * (1000 * (2 * -90 + (2 * l + 1) * 60))) = 1000000 * 1000000 := by
        simp only at h
        linarith
      have h3 : ((k : ℝ) - 1) * ((l : ℝ) - 1) * 54 = 2500 := by linarith
      have h4 : ((k : ℤ) - 1) * ((l : ℤ) - 1) * 54 = 2500 := by exact_mod_cast h3
      omega)
  exact ⟨r, e, h3⟩

/-- The same pattern without distortion is refused. -/
example : fisheyeModel refLibs refRoots (fun m _ => m) FisheyeTarget.dots.opts 2000 3000 (fisheyePts4 0) = .error .valueError := by
  have hκ : |(0 : ℝ)| ≤ 1 / 1000000 := by norm_num
  exact C106_straight refLibs refPolyfit_spec refArgsort_spec refRoots refRoots_spec (fun m _ => m)
    FisheyeTarget.dots.opts (by norm_num [FisheyeTarget.opts, dotOpts]) 2000 3000 (by norm_num [FisheyeTarget.opts, dotOpts])
    (by norm_num [FisheyeTarget.opts, dotOpts]) (by norm_num) (by norm_num) ⟨1000, 1500⟩ _ _ _ _ _ _ _ _ _ _ _ _
    (fisheyePts4 0) (List.Perm.refl _) (List.Perm.refl _)
    (fisheyePts4_inside hκ (by norm_num [FisheyeTarget.opts, dotOpts]) (by norm_num [FisheyeTarget.opts, dotOpts])
      (by norm_num [FisheyeTarget.opts, dotOpts]) (by norm_num [FisheyeTarget.opts, dotOpts])) ⟨rfl, rfl⟩ ⟨rfl, rfl⟩ (family4 hκ) (family4 hκ) rfl rfl

/-- An image of 600 × 600 pixels is too small for a line pattern but not for dots. -/
example (pts : FisheyePoints) : fisheyeModel refLibs refRoots (fun m _ => m) FisheyeTarget.lines.opts 600 600 pts = .error .valueError :=
  C106_small refLibs refRoots (fun m _ => m) .lines 700 350 (by simp) 600 600 (by norm_num) (by norm_num) (.inl (by norm_num)) pts

/-- The pattern of 13 × 13 dots. -/
example (ext : LineLibs) : ∃ m pts, makeDotPattern 200 200 15 9 (.int 1) = .ok m ∧ fisheyeFind refLibs ext m .dots = .ok pts ∧ pts.hor.length ≠ 0 ∧
    pts.slopeHor = 0 ∧ pts.distHor = 15 := by
  obtain ⟨m, b, hm, hb, h⟩ := C106_drawn drawn13 (by norm_num) (by norm_num) drawn13_middle drawn13_middle refLibs ext refPolyfit_spec refArgsort_spec
    (fun _ _ => ⟨by simp [refLibs], rfl⟩) 512 (by norm_num) rfl
  obtain ⟨pts, e, -, hmem⟩ := h (refLibs_upright _ _)
  refine ⟨m, _, hm, e, ?_, rfl, by norm_num⟩
  have := (hmem _).2 ⟨0, by norm_num, 0, by norm_num, rfl⟩
  exact fun hz => by
    rw [List.length_eq_zero_iff] at hz
    simp only at hz
    rw [hz] at this
    cases this

end Discorpy
