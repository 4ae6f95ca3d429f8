import Verif.Lemmas.Workflow

/-! # C94: the whole calibration with a drawn dot pattern -/

namespace Discorpy

open Spec

theorem ShowsGrid.centres {b : Mat ℤ} {e r : ℤ} {P Q : Set ℤ} {S : ℤ → ℤ → Prop} (g : ShowsGrid b e r P Q S) :
    ∃ pts, dotCentres b = .ok pts ∧ MiddlesOf b pts := by
  unfold dotCentres
  refine middles_of (m := b) fun p hp => ?_
  rw [← dotPixels_set]
  refine middle_real (m := realMat b) (dotPixels_ne hp) (dotPixels_nodup _ _) fun q hq => ?_
  have := g.one q ((g.lit q).1 (SameDot.lit (mem_dotPixels.1 hq)))
  simp only [realMat]
  exact_mod_cast this

section

variable {height width : ℕ} {d ds s : ℤ} {margin : MarginArg} {mv mh : ℤ} {K L : ℕ}

theorem twoInMiddle_window {n : ℕ} {t : ℝ} {mv d s : ℤ} {K k : ℕ} (hK : ∀ k : ℕ, k < K ↔ mv + (s / 2 + 1) + k * d < n - (mv + (s / 2 + 1)))
    (hk : k + 1 < K) (h : TwoInMiddle n t (mv + (s / 2 + 1)) d s k) : MiddleTwo n t (centreSet n mv s d) d 1 (s / 2) := by
  have h1 := (hK k).1 (by omega)
  have h2 := (hK (k + 1)).1 hk
  refine ⟨mv + (s / 2 + 1) + k * d, ⟨k, rfl, h1⟩, ⟨k + 1, by push_cast; ring, ?_⟩, ?_, ?_⟩
  · push_cast at h2
    linarith
  · rw [show mv + (s / 2 + 1) + k * d + 1 - s / 2 - 1 = mv + (s / 2 + 1) + k * d - s / 2 by ring]
    exact h.1
  · rw [show mv + (s / 2 + 1) + k * d + d + s / 2 + 2 = mv + (s / 2 + 1) + (k + 1) * d + s / 2 + 2 by ring]
    exact h.2

/-- The binarized drawing, with the threshold found. -/
theorem pattern_shows (hp : DrawnPattern height width d ds s margin mv mh K L) (n : ℕ) (hn : 2 ≤ n) (ratio t : ℝ) (ht : t = max 0.05 (min ratio 1))
    {k l : ℕ} (hk : k + 1 < K) (hl : l + 1 < L) (w1 : TwoInMiddle height t (mv + (s / 2 + 1)) d s k)
    (w2 : TwoInMiddle width t (mh + (s / 2 + 1)) d s l) :
    ∃ m b, makeDotPattern height width d ds margin = .ok m ∧ m.height = height ∧ m.width = width ∧
      binarization (thresholdOtsu false n) m ratio none true = .ok b ∧ b.height = height ∧ b.width = width ∧
      ShowsGrid b 1 (s / 2) (centreSet height mv s d) (centreSet width mh s d) (zPluses (zMed (InDot s))) := by
  have h5 := hp.large
  have hap := hp.apart
  have hds : (s : ℝ) < d := by exact_mod_cast (by omega : s < d)
  have hd0 : (0 : ℝ) < d := by exact_mod_cast (by omega : 0 < d)
  have hs0 : (0 : ℝ) ≤ ((s / 2 : ℤ) : ℝ) := by exact_mod_cast (by omega : 0 ≤ s / 2)
  obtain ⟨a1, a2⟩ := id w1
  obtain ⟨a3, a4⟩ := id w2
  push_cast at a1 a2 a3 a4
  obtain ⟨m, th, hm, t0, t1, hb⟩ := pattern_threshold hp.margin hp.ver hp.hor hp.size hp.large hp.odd hp.apart n hn ratio t ht
    ⟨k, l, _, _, ⟨rfl, (hp.rows k).1 (by omega)⟩, ⟨rfl, (hp.cols l).1 (by omega)⟩, by push_cast; linarith, by push_cast; linarith,
      by push_cast; linarith, by push_cast; linarith⟩
  obtain ⟨m', b, pts, hm', hb', b1, b2, _, _, hval, g, hlit⟩ := pattern_binarized hp.margin hp.ver hp.hor hp.size (by omega) hp.odd hp.apart
    (thresholdOtsu false n) ratio th t0 t1
  rw [hm] at hm'
  injection hm' with hm'
  subst hm'
  obtain ⟨m', hm', e1, e2, _⟩ := C68_pixels hp.margin hp.ver hp.hor hp.size (by omega) (by omega : s ≤ d)
  rw [hm] at hm'
  injection hm' with hm'
  subst hm'
  refine ⟨m, b, hm, e1, e2, hb.trans hb', b1, b2, by rw [b1, b2]; exact g, ?_, ?_⟩
  · intro x hx
    have hf := g.frame hx
    exact (hval x.1 hf.1 x.2 hf.2).1 hx
  · rw [b1, b2]
    intro x hf hx
    exact (hval x.1 hf.1 x.2 hf.2).2 hx

theorem pattern_number (hp : DrawnPattern height width d ds s margin mv mh K L) {b : Mat ℤ}
    (g : ShowsGrid b 1 (s / 2) (centreSet height mv s d) (centreSet width mh s d) (zPluses (zMed (InDot s)))) :
    ∃ N : ℕ, ∀ p ∈ centreSet height mv s d, ∀ q ∈ centreSet width mh s d, (dotAt (zPluses (zMed (InDot s))) p q).ncard = N := by
  by_cases h : ∃ p ∈ centreSet height mv s d, ∃ q ∈ centreSet width mh s d, True
  · obtain ⟨p, hp, q, hq, _⟩ := h
    exact ⟨_, fun p' hp' q' hq' => g.grid.ncard g.grid hp' hq' hp hq⟩
  · push Not at h
    exact ⟨0, fun p hp q hq => (h p hp q hq).elim⟩

/-- **C94 (size and distance).** For the binarized drawing of a dot pattern, the size found from the middle part is the number of pixels of
each of its dots, and the distance found is exactly the distance asked for. -/
theorem C94_size_distance (hp : DrawnPattern height width d ds s margin mv mh K L) (n : ℕ) (hn : 2 ≤ n) (ratio t : ℝ)
    (ht : t = max 0.05 (min ratio 1)) {k l : ℕ} (hk : k + 1 < K) (hl : l + 1 < L) (w1 : TwoInMiddle height t (mv + (s / 2 + 1)) d s k)
    (w2 : TwoInMiddle width t (mh + (s / 2 + 1)) d s l) :
    ∃ m b, makeDotPattern height width d ds margin = .ok m ∧ binarization (thresholdOtsu false n) m ratio none true = .ok b ∧
      ∃ N : ℕ, (∀ D, IsDot b D → D.ncard = N) ∧ calcSizeDistance (realMat b) ratio = .ok ((N : ℝ), (d : ℝ)) := by
  have h5 := hp.large
  have hap := hp.apart
  obtain ⟨m, b, hm, _, _, hb, b1, b2, g⟩ := pattern_shows hp n hn ratio t ht hk hl w1 w2
  have t1 := inDot_far hp.odd hp.large
  have t2 := zPluses_symm (zMed_symm inDot_symm) _ _ t1
  obtain ⟨N, hN⟩ := pattern_number hp g
  refine ⟨m, b, hm, hb, N, ?_, g.sizeDistance ⟨0, t1⟩ ⟨0, t2⟩ (by omega) (centreSet_steps (by omega)) (centreSet_steps (by omega)) ht
    (by rw [b1]; exact twoInMiddle_window hp.rows hk w1) (by rw [b2]; exact twoInMiddle_window hp.cols hl w2) hN⟩
  intro D hD
  obtain ⟨p, hp, q, hq, rfl⟩ := (g.grid.isDot_iff g.lit ⟨_, _, t1⟩ D).1 hD
  exact hN p hp q hq

/-- **C94.** The script `examples/example_01.py` on the drawing of a dot pattern (with at least 4 rows and `2·n - 1` columns for `n`
coefficients). The size is the number of pixels of each dot and the distance the one asked for; no dot is removed; the slopes are 0; the
lines are the rows and the columns of the pattern; the distortion is reported as not significant; the centre is halfway between the first
two rows and columns; and all three models are the identity, with which neither the image nor a dot is changed, and none is reported as not
accurate. -/
theorem C94_script (hp : DrawnPattern height width d ds s margin mv mh K L) (hK : 4 ≤ K) (hL : 4 ≤ L) (hKL : 25 ≤ K * L)
    (hh : height ≤ 2 ^ 24) (hw : width ≤ 2 ^ 24) {k l : ℕ} (hk : k + 1 < K) (hl : l + 1 < L)
    (w1 : TwoInMiddle height 0.3 (mv + (s / 2 + 1)) d s k) (w2 : TwoInMiddle width 0.3 (mh + (s / 2 + 1)) d s l)
    (numCoef : ℕ) (hn1 : 1 ≤ numCoef) (hn : 2 * numCoef ≤ L + 1) (hn' : numCoef ≤ 32767)
    (lib : Libs) (hpf : PolyfitSpec lib.polyfit) (has : ArgsortSpec lib.argsort) (hls : LstsqSpec lib.lstsq) (hmin : ExactMin lib.minimize)
    (hr : ∀ img angles, 0 < (lib.radon img angles).height ∧ (lib.radon img angles).width = angles.length)
    (hS : InterpolatesNodes lib.sample) (hround : CoordRounding lib.float32) (nbins : ℕ) (hnb : 2 ≤ nbins)
    (hotsu : lib.otsu = thresholdOtsu false nbins) (hax : lib.axes = ellipseAxes) :
    ∃ m b, makeDotPattern height width d ds margin = .ok m ∧ binarization lib.otsu m 0.3 none true = .ok b ∧
      (Upright lib.radon (realMat b) 0.3 → ∃ c, runExample lib m numCoef = .ok c ∧ c.binarized = b ∧
        (∀ D, IsDot b D → (D.ncard : ℝ) = c.dotSize) ∧ c.dotDist = d ∧
        (∀ i < height, ∀ j < width, c.selected.get i j = b.get i j) ∧ c.horSlope = 0 ∧ c.verSlope = 0 ∧
        c.hor = latticeRows ((mv + (s / 2 + 1) : ℤ) + 1 / 2) ((mh + (s / 2 + 1) : ℤ) + 1 / 2) d K L ∧
        c.ver = latticeCols ((mv + (s / 2 + 1) : ℤ) + 1 / 2) ((mh + (s / 2 + 1) : ℤ) + 1 / 2) d K L ∧
        c.significant = false ∧
        c.centre = ⟨(mv + (s / 2 + 1) : ℤ) + 1 / 2 + (d : ℝ) / 2, (mh + (s / 2 + 1) : ℤ) + 1 / 2 + (d : ℝ) / 2⟩ ∧
        ∀ r, r = c.backward ∨ r = c.forward ∨ r = c.backFromForward →
          r.coefs = 1 :: List.replicate (numCoef - 1) 0 ∧ r.warned = false ∧ SameImage r.image m ∧ r.hor = c.hor ∧ r.ver = c.ver ∧
          r.bad = false) := by
  have h5 := hp.large
  have hap := hp.apart
  have ht : (0.3 : ℝ) = max 0.05 (min 0.3 1) := by norm_num
  obtain ⟨m, b, hm, e1, e2, hb, b1, b2, g⟩ := pattern_shows hp nbins hnb 0.3 0.3 ht hk hl w1 w2
  have t1 := inDot_far hp.odd hp.large
  have t2 := zPluses_symm (zMed_symm inDot_symm) _ _ t1
  obtain ⟨N, hN⟩ := pattern_number hp g
  have hd : 0 < d := by omega
  have hd0 : (0 : ℝ) < d := by exact_mod_cast hd
  have s1 := centreSet_steps (n := height) (mv := mv) (s := s) hd
  have s2 := centreSet_steps (n := width) (mv := mh) (s := s) hd
  have m1 := twoInMiddle_window hp.rows hk w1
  have m2 := twoInMiddle_window hp.cols hl w2
  have hne : ∃ u v, zPluses (zMed (InDot s)) u v := ⟨_, _, t1⟩
  refine ⟨m, b, hm, by rw [hotsu]; exact hb, fun hup => ?_⟩
  set y0 : ℝ := (mv + (s / 2 + 1) : ℤ) + 1 / 2 with hy0
  set x0 : ℝ := (mh + (s / 2 + 1) : ℤ) + 1 / 2 with hx0
  -- the dots of an image with the pixels of `b`
  have lattice : ∀ {b' : Mat ℤ}, ShowsGrid b' 1 (s / 2) (centreSet height mv s d) (centreSet width mh s d) (zPluses (zMed (InDot s))) →
      ∃ pts, dotCentres b' = .ok pts ∧ pts.Nodup ∧ ∀ c, c ∈ pts ↔ ∃ k < K, ∃ l < L, c = ⟨y0 + (k : ℕ) * (d : ℝ), x0 + (l : ℕ) * (d : ℝ)⟩ := by
    intro b' g'
    obtain ⟨pts, ep, hmid⟩ := g'.centres
    obtain ⟨hnd, hmem⟩ := g'.grid.middles g'.lit hne hmid
    refine ⟨pts, ep, hnd, fun c => (hmem c).trans ?_⟩
    simp only [Int.cast_one]
    constructor
    · rintro ⟨p, ⟨k, ek, h1⟩, q, ⟨l, el, h2⟩, rfl⟩
      refine ⟨k, (hp.rows k).2 (by omega), l, (hp.cols l).2 (by omega), ?_⟩
      rw [ek, el, Pt.mk.injEq]
      constructor <;> push_cast [hy0, hx0] <;> ring
    · rintro ⟨k, hk, l, hl, rfl⟩
      refine ⟨_, ⟨k, rfl, (hp.rows k).1 hk⟩, _, ⟨l, rfl, (hp.cols l).1 hl⟩, ?_⟩
      rw [Pt.mk.injEq]
      constructor <;> push_cast [hy0, hx0] <;> ring
  have group : ∀ {pts : List Pt}, pts.Nodup → (∀ c, c ∈ pts ↔ ∃ k < K, ∃ l < L, c = ⟨y0 + (k : ℕ) * (d : ℝ), x0 + (l : ℕ) * (d : ℝ)⟩) →
      groupDotsHor lib.argsort pts 0 d 0.3 6 0.7 = .ok (latticeRows y0 x0 d K L) ∧
      groupDotsVer lib.argsort pts 0 d 0.3 6 0.7 = .ok (latticeCols y0 x0 d K L) := fun hnd hmem =>
    ⟨group_lattice lib.argsort has hd0 (by omega) (by omega) hnd hmem (by norm_num) (by norm_num) (by norm_num) (by norm_num),
      group_lattice_ver lib.argsort has hd0 (by omega) (by omega) hnd hmem (by norm_num) (by norm_num) (by norm_num) (by norm_num)⟩
  -- enough dots
  have hcount : checkNumDots b = false := by
    obtain ⟨pts, ep, hnd, hmem⟩ := lattice g
    have hlen := (mapM_ok_iff.1 ep).length_eq
    obtain ⟨hsub, _⟩ := C29_lines lib.argsort has pts 0 d 0.3 6 0.7 _ (group hnd hmem).1
    have h1 := hsub.length_le
    have h2 : (latticeRows y0 x0 d K L).flatten.length = K * L := by simp [latticeRows, List.length_flatten, Function.comp_def]
    unfold checkNumDots
    rw [decide_eq_false_iff_not]
    omega
  have esd := g.sizeDistance ⟨0, t1⟩ ⟨0, t2⟩ hd s1 s2 ht (by rw [b1]; exact m1) (by rw [b2]; exact m2) hN
  obtain ⟨g2, v2⟩ := g.size hne hN (ratio := 0.3) (by norm_num)
  obtain ⟨sel, esel, g3, v3⟩ := g2.ratio ⟨0, t1⟩ (by omega) (zPluses_symm (zMed_symm inDot_symm)) (ratio := 0.5) (by norm_num)
  set mat2 := selectDotsBasedSize (realMat b) N 0.3 with hmat2
  obtain ⟨d1, d2, _⟩ := C41_size (realMat b) N 0.3
  obtain ⟨sel', esel', d3, d4, _⟩ := C93_binary (realMat mat2) g2.binary 0.5
  rw [esel] at esel'
  injection esel' with esel'
  subst esel'
  have dh : sel.height = height := d3.trans (d1.trans b1)
  have dw : sel.width = width := d4.trans (d2.trans b2)
  have vsel : ∀ i < height, ∀ j < width, sel.get i j = b.get i j := by
    intro i hi j hj
    rw [v3 i (by rw [show mat2.height = height from d1.trans b1]; exact hi) j (by rw [show mat2.width = width from d2.trans b2]; exact hj),
      v2 i (by omega) j (by omega)]
  have hsame : SameImage (realMat sel) (realMat b) := by
    refine ⟨dh.trans b1.symm, dw.trans b2.symm, fun i hi j hj => ?_⟩
    simp only [realMat]
    rw [vsel i (by rw [← dh]; exact hi) j (by rw [← dw]; exact hj)]
  obtain ⟨eh, ev⟩ := g3.slopes ⟨0, t1⟩ ⟨0, t2⟩ hd ht (by rw [dh]; exact m1) (by rw [dw]; exact m2) hpf has hr hsame hup
  -- the lines
  obtain ⟨pts, ep, hnd, hmem⟩ := lattice g3
  obtain ⟨gh, gv⟩ := group hnd hmem
  have hpne : pts ≠ [] := List.ne_nil_of_mem ((hmem _).2 ⟨0, by omega, 0, by omega, rfl⟩)
  have hw2 : 2 < sel.width := by
    have h1 := hp.size
    omega
  have egh : groupDotsHorImage lib.argsort sel 0 d 0.3 6 0.7 = .ok (latticeRows y0 x0 d K L) := by
    unfold groupDotsHorImage
    rw [if_pos hw2, ep, ok_bind, if_neg hpne, gh]
  have egv : groupDotsVerImage lib.argsort sel 0 d 0.3 6 0.7 = .ok (latticeCols y0 x0 d K L) := by
    unfold groupDotsVerImage
    rw [if_pos hw2, ep, ok_bind, if_neg hpne, gv]
  obtain ⟨rh, rv⟩ := residual_lattice (y0 := y0) (x0 := x0) (d := d) (K := K) (L := L) hpf (by omega) (by omega) 0 (residual := 2) (by norm_num)
  -- the models
  obtain ⟨cb, cf, fg, cbf⟩ := models_lattice (y0 := y0) (x0 := x0) (d := (d : ℝ)) hd0 hK hL hpf hls hn1 hn hn' (minimize := lib.minimize)
  have fin : ∀ img, SameImage img m → ∀ r : Corrected, r = ⟨1 :: List.replicate (numCoef - 1) 0, false, img, latticeRows y0 x0 d K L,
      latticeCols y0 x0 d K L, false⟩ → r.coefs = 1 :: List.replicate (numCoef - 1) 0 ∧ r.warned = false ∧ SameImage r.image m ∧
        r.hor = latticeRows y0 x0 d K L ∧ r.ver = latticeCols y0 x0 d K L ∧ r.bad = false := by
    rintro img hi r rfl
    exact ⟨rfl, rfl, hi, rfl, rfl, rfl⟩
  set c : Pt := ⟨y0 + (d : ℝ) / 2, x0 + (d : ℝ) / 2⟩ with hc
  have ecb : correctBackward lib m (latticeRows y0 x0 d K L) (latticeCols y0 x0 d K L) c (1 :: List.replicate (numCoef - 1) 0) false =
      .ok ⟨1 :: List.replicate (numCoef - 1) 0, false, unwarpImageBackward lib.sample lib.float32 m c.x c.y (1 :: List.replicate (numCoef - 1) 0),
        latticeRows y0 x0 d K L, latticeCols y0 x0 d K L, false⟩ := by
    unfold correctBackward
    rw [unwarpLineBackward_one hmin, unwarpLineBackward_one hmin]
    simp only [lattice_not_distorted lib hpf has (by omega : 1 ≤ K) (by omega : 1 ≤ L), ok_bind]
  obtain ⟨img, eimg, himg⟩ := C04_image_forward m c.x c.y (numCoef - 1) (by have := hp.size; omega) (by have := hp.size; omega)
  have ecf : correctForward lib m (latticeRows y0 x0 d K L) (latticeCols y0 x0 d K L) c (1 :: List.replicate (numCoef - 1) 0) false =
      .ok ⟨1 :: List.replicate (numCoef - 1) 0, false, img, latticeRows y0 x0 d K L, latticeCols y0 x0 d K L, false⟩ := by
    unfold correctForward
    rw [eimg, ok_bind, C04_line_forward, C04_line_forward]
    simp only [lattice_not_distorted lib hpf has (by omega : 1 ≤ K) (by omega : 1 ≤ L), ok_bind]
  have hib := C04_image_backward lib.sample hS lib.float32 hround m (by omega) (by omega) c.x c.y (numCoef - 1)
  have hrun : runExample lib m numCoef = .ok ⟨b, N, d, sel, 0, 0, latticeRows y0 x0 d K L, latticeCols y0 x0 d K L, false, c,
      ⟨1 :: List.replicate (numCoef - 1) 0, false, unwarpImageBackward lib.sample lib.float32 m c.x c.y (1 :: List.replicate (numCoef - 1) 0),
        latticeRows y0 x0 d K L, latticeCols y0 x0 d K L, false⟩,
      ⟨1 :: List.replicate (numCoef - 1) 0, false, img, latticeRows y0 x0 d K L, latticeCols y0 x0 d K L, false⟩,
      ⟨1 :: List.replicate (numCoef - 1) 0, false, unwarpImageBackward lib.sample lib.float32 m c.x c.y (1 :: List.replicate (numCoef - 1) 0),
        latticeRows y0 x0 d K L, latticeCols y0 x0 d K L, false⟩⟩ := by
    unfold runExample
    rw [hotsu, hb, ok_bind]
    simp only [hcount]
    rw [if_neg (by simp), esd, ok_bind]
    simp only
    rw [hax, ← hmat2, esel, ok_bind, eh, ok_bind, ev, ok_bind, egh, ok_bind, egv, ok_bind, rh, ok_bind, rv, ok_bind,
      lattice_not_distorted lib hpf has (by omega) (by omega), ok_bind, cod_lattice hpf hd0 (by omega) (by omega), ok_bind, cb, ok_bind]
    simp only
    rw [ecb, ok_bind, cf, ok_bind]
    simp only
    rw [ecf, ok_bind, cbf, ok_bind]
    simp only
    rw [ecb, ok_bind]
  refine ⟨_, hrun, rfl, ?_, rfl, vsel, rfl, rfl, rfl, rfl, rfl, rfl, ?_⟩
  · intro D hD
    obtain ⟨p, hp, q, hq, rfl⟩ := (g.grid.isDot_iff g.lit hne D).1 hD
    rw [hN p hp q hq]
  · rintro r (hr | hr | hr)
    · exact fin _ hib r hr
    · exact fin _ himg r hr
    · exact fin _ hib r hr

end

/-- A pattern of 13 × 13 dots of size 9 with distance 15. -/
theorem drawn13 : DrawnPattern 200 200 15 9 9 (.int 1) 1 1 13 13 :=
  ⟨.inl ⟨rfl, rfl⟩, by norm_num, by norm_num, by norm_num, by norm_num, by norm_num, by norm_num, fun k => by omega, fun k => by omega⟩

theorem drawn13_middle : TwoInMiddle 200 0.3 (1 + (9 / 2 + 1)) 15 9 5 := by
  constructor <;> norm_num

/-- Two neighbouring dots of this pattern are in the middle part; size and distance are found. -/
example : ∃ m b, makeDotPattern 200 200 15 9 (.int 1) = .ok m ∧ binarization (thresholdOtsu false 512) m 0.3 none true = .ok b ∧
    ∃ N : ℕ, calcSizeDistance (realMat b) 0.3 = .ok ((N : ℝ), 15) := by
  obtain ⟨m, b, hm, hb, N, _, h⟩ := C94_size_distance drawn13 512 (by norm_num) 0.3 0.3 (by norm_num) (by norm_num) (by norm_num) drawn13_middle
    drawn13_middle
  exact ⟨m, b, hm, hb, N, by rw [h]; norm_num⟩

/-- Reference versions of the library functions (only the Radon transform is a dummy, with a peak at the angle 0). -/
noncomputable def refLibs : Libs where
  polyfit := refPolyfit
  argsort := refArgsort
  lstsq := refLstsq
  minimize := refMinimize
  radon := fun _ angles => ⟨1, angles.length, fun _ j => if j = 30 then 1 else 0⟩
  sample := linearInterp ⟨fun _ _ _ => 0, fun _ _ _ => 0⟩
  float32 := id
  otsu := thresholdOtsu false 512
  axes := ellipseAxes

theorem refLibs_upright (m : Mat ℝ) (ratio : ℝ) : Upright refLibs.radon m ratio := by
  intro m' roi mask _ _ _ k
  constructor
  all_goals
    rintro ⟨_, i, _, h⟩
    by_contra hk
    have := h 0 30 (by simp [refLibs]) (by simp [refLibs])
    simp [refLibs, hk] at this
    linarith

/-- The script run on this pattern. -/
example : ∃ m c, makeDotPattern 200 200 15 9 (.int 1) = .ok m ∧ runExample refLibs m 5 = .ok c ∧ c.dotDist = 15 ∧ c.centre = ⟨14, 14⟩ ∧
    c.backFromForward.coefs = [1, 0, 0, 0, 0] ∧ SameImage c.forward.image m := by
  obtain ⟨m, b, hm, hb, h⟩ := C94_script drawn13 (by norm_num) (by norm_num) (by norm_num) (by norm_num) (by norm_num) (by norm_num) (by norm_num)
    drawn13_middle drawn13_middle 5 (by norm_num) (by norm_num) (by norm_num) refLibs refPolyfit_spec refArgsort_spec refLstsq_spec
    refMinimize_exact (fun _ _ => ⟨by simp [refLibs], rfl⟩) (linearInterp_interpolates _) coordRounding_id 512 (by norm_num) rfl rfl
  obtain ⟨c, hc, _, _, h1, _, _, _, _, _, _, h2, h3⟩ := h (refLibs_upright _ _)
  refine ⟨m, c, hm, hc, by rw [h1]; norm_num, by rw [h2]; norm_num, ?_, (h3 _ (.inr (.inl rfl))).2.2.1⟩
  rw [(h3 _ (.inr (.inr rfl))).1]
  rfl

end Discorpy
