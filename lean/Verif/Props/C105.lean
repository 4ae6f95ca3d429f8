import Verif.Lemmas.StackScript
import Verif.Props.C02
import Verif.Props.C104

/-! # C105: the scripts `example_02.py`, `example_04.py` and `example_05.py` -/

namespace Discorpy

open Spec

/-! ## The short calibration -/

/-- Dots selected by their size and their shape are dots of the binarized image. -/
theorem selected_pixels {otsu : Mat ℝ → Except PyErr ℝ} {axes : Mat ℤ → Except PyErr (ℝ × ℝ)} {m : Mat ℝ} {r : ℝ} {thres : Option ℝ} {denoise : Bool}
    {b sel : Mat ℤ} {size r1 r2 : ℝ} (hb : binarization otsu m r thres denoise = .ok b)
    (hs : selectDotsBasedRatio axes (realMat (selectDotsBasedSize (realMat b) size r1)) r2 = .ok sel) :
    sel.height = b.height ∧ sel.width = b.width ∧
    ∀ i < b.height, ∀ j < b.width, (b.get i j = 0 ∨ b.get i j = 1) ∧ (sel.get i j = 1 → b.get i j = 1) ∧ (sel.get i j = 0 ∨ sel.get i j = 1) := by
  obtain ⟨e1, e2, D, hD, h1, h0, _⟩ := C81_shape _ _ _ _ _ _ hb
  obtain ⟨a1, a2, a3⟩ := keepsDots_pixels (C41_size (realMat b) size r1)
  obtain ⟨b1, b2, b3⟩ := keepsDots_pixels (C41_ratio axes _ r2 _ hs)
  refine ⟨b1.trans a1, b2.trans a2, fun i hi j hj => ?_⟩
  have hb : b.get i j = 0 ∨ b.get i j = 1 := by
    by_cases hm : (i, j) ∈ D
    · exact .inr (h1 _ hm)
    · exact .inl (h0 (i, j) ⟨by omega, by omega⟩ hm)
  have ha := a3 i hi j hj
  rw [int16_of_small hb] at ha
  have hc := b3 i (by show i < (selectDotsBasedSize _ _ _).height; rw [a1]; exact hi) j
    (by show j < (selectDotsBasedSize _ _ _).width; rw [a2]; exact hj)
  rw [int16_of_small (by rcases ha with ha | ha <;> rw [ha] <;> simp [hb])] at hc
  refine ⟨hb, fun h => ?_, ?_⟩
  · rcases hc with hc | hc
    · rcases ha with ha | ha <;> omega
    · omega
  · rcases hc with hc | hc
    · rcases ha with ha | ha <;> omega
    · omega

/-- **C105 (calibration).** Whenever `calc_distor_coef` returns: the size and the distance used are medians over the dots in the middle of the
binarized image; the selected image is binary and lit only where the binarized image is; the lines are made of the centres of its dots, each
dot belongs to at most one horizontal and one vertical line, and the dots of a line come in order; they are found with the slopes of the
selected image and the default parameters, the share of rows accepted being 0.65 and that of columns 0.75; with `perspective` these lines are replaced
by the regenerated grid; the centre and the coefficients are those found by the functions of the package for the lines. -/
theorem C105_model (lib : Libs) (hpf : PolyfitSpec lib.polyfit) (has : ArgsortSpec lib.argsort) (fsolve : (ℝ × ℝ → ℝ × ℝ) → ℝ × ℝ → ℝ × ℝ) (mat : Mat ℝ)
    (numCoef : ℤ) (perspective : Bool) (c : Pt) (coefs : List ℝ) (warned : Bool)
    (h : calcDistorCoef lib fsolve mat numCoef perspective = .ok (c, coefs, warned)) :
    ∃ b sel pts hor ver usedHor usedVer size dist horSlope verSlope, binarization lib.otsu mat 0.3 none true = .ok b ∧
      (∃ roi mask, IsMiddlePart (realMat b) 0.3 roi ∧ IsInnerMask roi mask ∧
        DotMedian mask (fun D x => x = D.ncard) size ∧ DotMedian mask (NearestDist mask) dist) ∧
      selectDotsBasedRatio lib.axes (realMat (selectDotsBasedSize (realMat b) size 0.3)) 0.3 = .ok sel ∧
      sel.height = mat.height ∧ sel.width = mat.width ∧
      (∀ i < mat.height, ∀ j < mat.width, (sel.get i j = 0 ∨ sel.get i j = 1) ∧ (sel.get i j = 1 → b.get i j = 1)) ∧
      CentresOf sel pts ∧ AreLinesOf Pt.x pts hor ∧ AreLinesOf Pt.y pts ver ∧
      calcHorSlope lib.polyfit lib.argsort lib.radon (realMat sel) 0.3 = .ok horSlope ∧
      calcVerSlope lib.polyfit lib.argsort lib.radon (realMat sel) 0.3 = .ok verSlope ∧
      (∃ lines, groupDotsHor lib.argsort pts horSlope dist 0.3 6 0.65 = .ok lines ∧ removeResidualHor lib.polyfit lines horSlope 2.5 = .ok hor) ∧
      (∃ lines, groupDotsVer lib.argsort pts verSlope dist 0.3 6 0.75 = .ok lines ∧ removeResidualVer lib.polyfit lines verSlope 2.5 = .ok ver) ∧
      (perspective = false → usedHor = hor ∧ usedVer = ver) ∧
      (perspective = true → regenerateGridParabola lib.polyfit fsolve hor ver true false = .ok (usedHor, usedVer)) ∧
      findCodCoarse lib.polyfit usedHor usedVer = .ok c ∧
      calcCoefBackward lib.polyfit lib.lstsq lib.minimize usedHor usedVer c.x c.y numCoef false 0.3 = .ok (coefs, warned) := by
  unfold calcDistorCoef at h
  obtain ⟨b, h1, h⟩ := bind_ok_iff.1 h
  obtain ⟨⟨size, dist⟩, h2, h⟩ := bind_ok_iff.1 h
  obtain ⟨sel, h3, h⟩ := bind_ok_iff.1 h
  obtain ⟨hs, h4, h⟩ := bind_ok_iff.1 h
  obtain ⟨vs, h5, h⟩ := bind_ok_iff.1 h
  obtain ⟨hl, h6, h⟩ := bind_ok_iff.1 h
  obtain ⟨vl, h7, h⟩ := bind_ok_iff.1 h
  obtain ⟨hor, h8, h⟩ := bind_ok_iff.1 h
  obtain ⟨ver, h9, h⟩ := bind_ok_iff.1 h
  obtain ⟨⟨uh, uv⟩, h10, h⟩ := bind_ok_iff.1 h
  obtain ⟨c', h11, h⟩ := bind_ok_iff.1 h
  obtain ⟨⟨co, w⟩, h12, h⟩ := bind_ok_iff.1 h
  cases h
  obtain ⟨p1, p2, p3⟩ := selected_pixels h1 h3
  obtain ⟨e1, e2, _⟩ := C81_shape _ _ _ _ _ _ h1
  obtain ⟨q1, q2⟩ := binarization_pos h1
  obtain ⟨hw, _⟩ := wide_of_measured h1 h2
  rw [← p2] at hw
  unfold groupDotsHorImage at h6
  unfold groupDotsVerImage at h7
  rw [if_pos hw] at h6 h7
  obtain ⟨pts, hp, h6⟩ := bind_ok_iff.1 h6
  rw [hp, ok_bind] at h7
  split_ifs at h6 h7
  refine ⟨b, sel, pts, hor, ver, uh, uv, size, dist, hs, vs, h1, ?_, h3, p1.trans e1, p2.trans e2,
    fun i hi j hj => ⟨(p3 i (by omega) j (by omega)).2.2, (p3 i (by omega) j (by omega)).2.1⟩,
    dotCentres_centresOf hp, lines_hor hpf has h6 h8, lines_ver hpf has h7 h9, h4, h5, ⟨hl, h6, h8⟩, ⟨vl, h7, h9⟩, ?_, ?_, h11, h12⟩
  · refine C67_median (realMat b) (fun i hi j hj => ?_) q1 q2 0.3 size dist h2
    have := (p3 i hi j hj).1
    simp only [realMat]
    exact_mod_cast this
  · rintro rfl
    unfold modelLines at h10
    cases h10
    exact ⟨rfl, rfl⟩
  · rintro rfl
    unfold modelLines at h10
    rw [if_pos rfl] at h10
    generalize regenerateGridParabola lib.polyfit fsolve hor ver true false = q at h10 ⊢
    cases q with
    | ok v => exact h10
    | error e => cases e <;> cases h10

theorem calc_pos {lib : Libs} {fsolve : (ℝ × ℝ → ℝ × ℝ) → ℝ × ℝ → ℝ × ℝ} {mat : Mat ℝ} {numCoef : ℤ} {perspective : Bool} {v : Pt × List ℝ × Bool}
    (h : calcDistorCoef lib fsolve mat numCoef perspective = .ok v) : 2 < mat.height ∧ 2 < mat.width := by
  unfold calcDistorCoef at h
  obtain ⟨b, h1, h⟩ := bind_ok_iff.1 h
  obtain ⟨sd, h2, h⟩ := bind_ok_iff.1 h
  obtain ⟨e1, e2, _⟩ := C81_shape _ _ _ _ _ _ h1
  obtain ⟨hw, hh⟩ := wide_of_measured h1 h2
  exact ⟨by omega, by omega⟩

/-! ## One image -/

/-- **C105 (image).** Whenever `example_02.py` finishes, its centre and coefficients are those of `calc_distor_coef`, each pixel of the corrected
image is read in the image where the model moves it, and the saved difference is that of the two images. -/
theorem C105_image (lib : Libs) (fsolve : (ℝ × ℝ → ℝ × ℝ) → ℝ × ℝ → ℝ × ℝ) (mat0 : Mat ℝ) (numCoef : ℤ) (perspective : Bool) (r : SimpleRun)
    (h : simpleScript lib fsolve mat0 numCoef perspective = .ok r) :
    (∃ warned, calcDistorCoef lib fsolve mat0 numCoef perspective = .ok (r.centre, r.coefs, warned)) ∧
    ReadsBackward lib.sample lib.float32 mat0 r.centre r.coefs r.corrected ∧
    r.difference.height = mat0.height ∧ r.difference.width = mat0.width ∧
    ∀ i < mat0.height, ∀ j < mat0.width, mat0.get i j + r.difference.get i j = r.corrected.get i j := by
  unfold simpleScript at h
  obtain ⟨⟨c, co, w⟩, h1, h⟩ := bind_ok_iff.1 h
  cases h
  obtain ⟨p1, p2⟩ := calc_pos h1
  refine ⟨⟨w, h1⟩, ⟨rfl, rfl, fun i hi j hj => ?_⟩, rfl, rfl, fun i _ j _ => by simp only; ring⟩
  have c1 : (0 : ℝ) ≤ (mat0.height : ℝ) - 1 := by
    have : (1 : ℝ) ≤ mat0.height := by exact_mod_cast (by omega : 1 ≤ mat0.height)
    linarith
  have c2 : (0 : ℝ) ≤ (mat0.width : ℝ) - 1 := by
    have : (1 : ℝ) ≤ mat0.width := by exact_mod_cast (by omega : 1 ≤ mat0.width)
    linarith
  simp only [unwarpImageBackward, polySum_eq_radial, clip_eq_clampTo c1, clip_eq_clampTo c2]
  rfl

/-! ## Slices of a stack -/

/-- **C105 (slices).** If the calibration succeeds, the last index lies inside the image, and the model does not fold on a disc that contains
the pixels of the first and the last row: `example_04.py` saves a pair of slices for each index from `start` to `stop - 1`, in this order. Every
line of the slice before is the row of the image with this index, every line of the slice after that of the unwarped image. -/
theorem C105_slices (lib : Libs) (hround : CoordRounding lib.float32) (B B' : Boundary) (cast : ℝ → ℝ) (fsolve : (ℝ × ℝ → ℝ × ℝ) → ℝ × ℝ → ℝ × ℝ)
    (mat0 : Mat ℝ) (numCoef : ℤ) (perspective : Bool) (depth start stop : ℕ) (c : Pt) (coefs : List ℝ) (warned : Bool)
    (h : calcDistorCoef lib fsolve mat0 numCoef perspective = .ok (c, coefs, warned))
    (hss : start ≤ stop) (hsh : stop < mat0.height) (hh : mat0.height ≤ 32767) (hw : mat0.width ≤ 2 ^ 24) (R : ℝ) (hc : NoFold coefs R)
    (hR1 : ∀ j < mat0.width, ptDist ⟨start, j⟩ c ≤ R) (hR2 : ∀ j < mat0.width, ptDist ⟨stop, j⟩ c ≤ R) :
    ∃ r, chunkScript lib B cast fsolve mat0 numCoef perspective depth start stop = .ok r ∧ r.centre = c ∧ r.coefs = coefs ∧
      r.files.length = stop - start ∧ ∀ k < stop - start, ∃ f, r.files[k]? = some f ∧ f.number = sliceNumber (start + k) ∧
        ShowsRow depth ⟨mat0.height, mat0.width, fun i j => cast (mat0.get i j)⟩ (start + k) f.before ∧
        ShowsRow depth (unwarpImageBackward (linearInterp B') lib.float32 ⟨mat0.height, mat0.width, fun i j => cast (mat0.get i j)⟩ c.x c.y coefs)
          (start + k) f.after := by
  obtain ⟨p1, p2⟩ := calc_pos h
  obtain ⟨out, e, _, ho⟩ := C02_chunk_eq_image_rows B B' lib.float32 hround depth mat0.height mat0.width (stackOf cast depth mat0).get c.x c.y coefs R
    start stop hss hsh hh (by omega) hw hc (fun j hj => by simpa [ptDist, add_comm] using hR1 j hj) (fun j hj => by simpa [ptDist, add_comm] using hR2 j hj)
  have e' : unwarpChunkSlicesBackward B lib.float32 (stackOf cast depth mat0) c.x c.y coefs start stop = .ok out := e
  unfold chunkScript
  rw [h, ok_bind]
  simp only
  rw [e', ok_bind]
  have hl : rangeLen (start : ℤ) stop 1 = stop - start := by
    unfold rangeLen
    rw [if_pos (by norm_num)]
    omega
  refine ⟨_, rfl, rfl, rfl, ?_, fun k hk => ⟨⟨sliceNumber (start + k), ⟨depth, mat0.width, fun d j => (stackOf cast depth mat0).get [d, start + k, j]⟩,
    ⟨depth, mat0.width, fun d j => out.get [d, k, j]⟩⟩, ?_, rfl, ⟨rfl, rfl, fun d hd j hj => ?_⟩, ⟨rfl, rfl, fun d hd j hj => ?_⟩⟩⟩
  · simp [rangeList, hl]
  · rw [List.getElem?_map]
    unfold rangeList
    rw [List.getElem?_map, List.getElem?_range (by omega)]
    simp only [Option.map_some, Option.some.injEq, SlicePair.mk.injEq]
    have e1 : ((start : ℤ) + (k : ℤ) * 1).toNat = start + k := by omega
    have e2 : ((start : ℤ) + (k : ℤ) * 1 - start).toNat = k := by omega
    rw [e1, e2]
    exact ⟨rfl, rfl, rfl⟩
  · rfl
  · exact ho d hd k (by omega) j hj

/-- **C105 (errors).** An index outside the image is a `ValueError`: `example_04.py` needs images with more than `stop` rows, though it saves
no slice with the index `stop`. An error of the calibration is passed on. -/
theorem C105_errors (lib : Libs) (B : Boundary) (cast : ℝ → ℝ) (fsolve : (ℝ × ℝ → ℝ × ℝ) → ℝ × ℝ → ℝ × ℝ) (mat0 : Mat ℝ) (numCoef : ℤ) (perspective : Bool)
    (depth start stop : ℕ) (hh : mat0.height ≤ 32767) :
    (∀ v, calcDistorCoef lib fsolve mat0 numCoef perspective = .ok v → mat0.height ≤ stop →
      chunkScript lib B cast fsolve mat0 numCoef perspective depth start stop = .error .valueError) ∧
    ∀ e, calcDistorCoef lib fsolve mat0 numCoef perspective = .error e →
      chunkScript lib B cast fsolve mat0 numCoef perspective depth start stop = .error e ∧ simpleScript lib fsolve mat0 numCoef perspective = .error e := by
  constructor
  · rintro ⟨c, co, w⟩ h hs
    unfold chunkScript
    rw [h, ok_bind]
    simp only
    have : unwarpChunkSlicesBackward B lib.float32 (stackOf cast depth mat0) c.x c.y co start stop = .error .valueError := by
      unfold unwarpChunkSlicesBackward stackOf
      simp only
      have hne : (stop : ℤ) ≠ -1 := by omega
      simp only [hne, if_false]
      rw [if_pos]
      right
      rw [mem_indexList16 (by omega)]
      omega
    rw [this]
    rfl
  · intro e h
    unfold chunkScript simpleScript
    rw [h]
    exact ⟨rfl, rfl⟩

/-- **C105 (numbers).** The number in the name of a slice has five digits, the last five of the index. So slices have the same name exactly if
their indices differ by a multiple of 100000. -/
theorem C105_numbers (i : ℕ) :
    (∀ ch ∈ sliceNumber i, ch.isDigit) ∧ (sliceNumber i).length = 5 ∧ decimalValue (sliceNumber i) = i % 100000 ∧
    ∀ j, sliceNumber i = sliceNumber j ↔ i % 100000 = j % 100000 := by
  obtain ⟨a1, a2, a3⟩ := sliceNumber_spec i
  refine ⟨a1, a2, a3, fun j => ?_⟩
  obtain ⟨b1, b2, b3⟩ := sliceNumber_spec j
  exact ⟨fun h => by rw [← a3, ← b3, h], fun h => decimalValue_inj a1 b1 (a2.trans b2.symm) (by rw [a3, b3, h])⟩

/-! ## The search of a centre -/

/-- **C105 (search).** `example_05.py` with a positive step saves, for each pair of shifts of its range, one slice: that of the given index with
the centre moved by the shifts, each line of which is the row with this index of the image unwarped with this centre. No two slices have the
same name. -/
theorem C105_search (B B' : Boundary) (cast : ℝ → ℝ) (mat0 : Mat ℝ) (c : Pt) (coefs : List ℝ) (hne : coefs ≠ []) (depth index : ℕ) (range step : ℤ) (hs : 0 < step)
    (hi : index < mat0.height) (hh : mat0.height ≤ 32767) (hw : 0 < mat0.width) :
    ∃ files, centreSearch B cast mat0 c coefs depth range step index = .ok files ∧ (files.map Prod.fst).Nodup ∧
      (∀ x y, IsShift range step x → IsShift range step y → ∃ s, (centreName (c.x + x) (c.y + y), s) ∈ files) ∧
      ∀ f ∈ files, ∃ x y, IsShift range step x ∧ IsShift range step y ∧ f.1 = centreName (c.x + x) (c.y + y) ∧
        ShowsRow depth (unwarpImageBackward (linearInterp B') id ⟨mat0.height, mat0.width, fun i j => cast (mat0.get i j)⟩ (c.x + x) (c.y + y) coefs)
          index f.2 := by
  have slice : ∀ x y : ℤ, ∃ s, unwarpSliceBackward B (stackOf cast depth mat0) (c.x + x) (c.y + y) coefs index = .ok s ∧
      ShowsRow depth (unwarpImageBackward (linearInterp B') id ⟨mat0.height, mat0.width, fun i j => cast (mat0.get i j)⟩ (c.x + x) (c.y + y) coefs)
          index s := by
    intro x y
    obtain ⟨s, e, h1, h2, h3⟩ := C01_slice_eq_image_row B B' depth mat0.height mat0.width (stackOf cast depth mat0).get (c.x + x) (c.y + y) coefs hne
      index hi hh hw
    exact ⟨s, e, h1, h2, fun d hd j hj => h3 d hd j hj⟩
  choose S hS hrow using slice
  set xs := rangeList (-range) (range + step) step with hxs
  have hm := fun x => mem_rangeList_shift (range := range) hs x
  have hnd : xs.Nodup := rangeList_nodup hs
  have key : centreSearch B cast mat0 c coefs depth range step index =
      .ok ((xs.flatMap fun x => xs.map fun y => (x, y)).map fun s : ℤ × ℤ => (centreName (c.x + s.1) (c.y + s.2), S s.1 s.2)) := by
    unfold centreSearch pyRange
    rw [if_neg hs.ne', ok_bind, ← hxs]
    rw [mapM_ok_iff]
    rw [List.forall₂_map_right_iff, List.forall₂_same]
    intro s _
    rw [hS, ok_bind]
  refine ⟨_, key, ?_, fun x y hx hy => ⟨S x y, ?_⟩, ?_⟩
  · rw [List.map_map]
    refine List.Nodup.map_on ?_ ?_
    · rintro ⟨x, y⟩ _ ⟨x', y'⟩ _ h
      simp only [Function.comp_apply] at h
      obtain ⟨a, b⟩ := centreName_near h
      have close : ∀ {u v : ℤ} {z : ℝ}, |(z + u) - (z + v)| ≤ 1 / 100 → u = v := by
        intro u v z h
        have h : |((u - v : ℤ) : ℝ)| ≤ 1 / 100 := by
          rw [show (z + u) - (z + v) = ((u - v : ℤ) : ℝ) by push_cast; ring] at h
          exact h
        have h2 : |((u - v : ℤ) : ℝ)| < 1 := by linarith
        rw [← Int.cast_abs] at h2
        have h2 : |u - v| < 1 := by exact_mod_cast h2
        rw [Int.abs_lt_one_iff] at h2
        omega
      rw [close a, close b]
    · rw [List.nodup_flatMap]
      refine ⟨fun x _ => hnd.map (fun a b h => (Prod.mk.inj h).2), ?_⟩
      refine hnd.imp fun {x x'} hne => ?_
      intro p h1 h2
      obtain ⟨_, _, rfl⟩ := List.mem_map.1 h1
      obtain ⟨_, _, h⟩ := List.mem_map.1 h2
      exact hne (Prod.mk.inj h).1.symm
  · exact List.mem_map.2 ⟨(x, y), List.mem_flatMap.2 ⟨x, (hm x).2 hx, List.mem_map.2 ⟨y, (hm y).2 hy, rfl⟩⟩, rfl⟩
  · rintro f hf
    obtain ⟨⟨x, y⟩, hmem, rfl⟩ := List.mem_map.1 hf
    obtain ⟨x', hx, hmem⟩ := List.mem_flatMap.1 hmem
    obtain ⟨y', hy, e⟩ := List.mem_map.1 hmem
    cases e
    exact ⟨x, y, (hm x).1 hx, (hm y).1 hy, rfl, hrow x y⟩

/-- **C105 (range).** The shifts of the search start at `-range` and are `step` apart. The given centre itself is tried exactly if the step divides
the range; the search ends at `range` exactly if the step divides twice the range, and otherwise goes on beyond it. -/
theorem C105_range (range step : ℤ) (hs : 0 < step) (hr : 0 ≤ range) :
    IsShift range step (-range) ∧ (IsShift range step 0 ↔ step ∣ range) ∧ (IsShift range step range ↔ step ∣ 2 * range) ∧
    ((∀ x, IsShift range step x → x ≤ range) ↔ step ∣ 2 * range) := by
  have h2 : IsShift range step range ↔ step ∣ 2 * range := by
    constructor
    · rintro ⟨k, hk, _⟩
      exact ⟨k, by linarith⟩
    · rintro ⟨k, hk⟩
      have : 0 ≤ k := by
        by_contra hneg
        push Not at hneg
        have : step * k < 0 := mul_neg_of_pos_of_neg hs hneg
        omega
      refine ⟨k.toNat, ?_, by omega⟩
      rw [Int.toNat_of_nonneg this]
      linarith
  refine ⟨⟨0, by simp, by omega⟩, ⟨?_, ?_⟩, h2, ⟨fun h => ?_, ?_⟩⟩
  · rintro ⟨k, hk, _⟩
    exact ⟨k, by linarith⟩
  · rintro ⟨k, rfl⟩
    have : 0 ≤ k := by
      by_contra hneg
      push Not at hneg
      have : step * k < 0 := mul_neg_of_pos_of_neg hs hneg
      omega
    refine ⟨k.toNat, ?_, by omega⟩
    rw [Int.toNat_of_nonneg this]
    ring
  · -- the last shift below `range + step`
    set q := (2 * range + step - 1) / step with hq
    have e := Int.mul_ediv_add_emod (2 * range + step - 1) step
    have l1 := Int.emod_nonneg (2 * range + step - 1) hs.ne'
    have l2 := Int.emod_lt_of_pos (2 * range + step - 1) hs
    rw [← hq] at e
    have hq0 : 0 ≤ q := Int.ediv_nonneg (by omega) hs.le
    have hle := h (-range + q * step) ⟨q.toNat, by rw [Int.toNat_of_nonneg hq0], by nlinarith⟩
    exact ⟨q, by nlinarith⟩
  · rintro ⟨k, hk⟩ x ⟨n, rfl, hlt⟩
    have : (n : ℤ) * step < (k + 1) * step := by nlinarith
    have := lt_of_mul_lt_mul_right this hs.le
    nlinarith

/-! ## A drawn pattern -/

/-- **C105 (drawn pattern).** For the image of a drawn dot pattern (as in C94) the calibration finds the coefficients 1, 0, …, 0. So the image
saved by `example_02.py` is the image itself and the difference is zero, and the slices saved by `example_04.py` before and after are equal. -/
theorem C105_drawn {height width : ℕ} {d ds s : ℤ} {margin : MarginArg} {mv mh : ℤ} {K L : ℕ}
    (hp : DrawnPattern height width d ds s margin mv mh K L) (hK : 4 ≤ K) (hL : 4 ≤ L)
    (hh : height ≤ 32767) (hw : width ≤ 2 ^ 24) {k l : ℕ} (hk : k + 1 < K) (hl : l + 1 < L)
    (w1 : TwoInMiddle height 0.3 (mv + (s / 2 + 1)) d s k) (w2 : TwoInMiddle width 0.3 (mh + (s / 2 + 1)) d s l)
    (numCoef : ℕ) (hn1 : 1 ≤ numCoef) (hn : 2 * numCoef ≤ L + 1) (hn' : numCoef ≤ 32767)
    (lib : Libs) (hpf : PolyfitSpec lib.polyfit) (has : ArgsortSpec lib.argsort) (hls : LstsqSpec lib.lstsq)
    (hr : ∀ img angles, 0 < (lib.radon img angles).height ∧ (lib.radon img angles).width = angles.length)
    (hS : InterpolatesNodes lib.sample) (hround : CoordRounding lib.float32) (nbins : ℕ) (hnb : 2 ≤ nbins)
    (hotsu : lib.otsu = thresholdOtsu false nbins) (hax : lib.axes = ellipseAxes) (fsolve : (ℝ × ℝ → ℝ × ℝ) → ℝ × ℝ → ℝ × ℝ) :
    ∃ m b, makeDotPattern height width d ds margin = .ok m ∧ binarization lib.otsu m 0.3 none true = .ok b ∧
      (Upright lib.radon (realMat b) 0.3 →
        (∃ r, simpleScript lib fsolve m numCoef false = .ok r ∧
          r.centre = ⟨(mv + (s / 2 + 1) : ℤ) + 1 / 2 + (d : ℝ) / 2, (mh + (s / 2 + 1) : ℤ) + 1 / 2 + (d : ℝ) / 2⟩ ∧
          r.coefs = 1 :: List.replicate (numCoef - 1) 0 ∧ SameImage r.corrected m ∧
          ∀ i < height, ∀ j < width, r.difference.get i j = 0) ∧
        ∀ (B : Boundary) (cast : ℝ → ℝ) (depth start stop : ℕ), start ≤ stop → stop < height →
          ∃ r, chunkScript lib B cast fsolve m numCoef false depth start stop = .ok r ∧ r.files.length = stop - start ∧
            ∀ f ∈ r.files, f.before.height = depth ∧ f.before.width = width ∧ SameImage f.after f.before) := by
  have h5 := hp.large
  have hap := hp.apart
  have ht : (0.3 : ℝ) = max 0.05 (min 0.3 1) := by norm_num
  obtain ⟨m, b, hm, e1, e2, hb, b1, b2, g⟩ := pattern_shows hp nbins hnb 0.3 0.3 ht hk hl w1 w2
  have t1 := inDot_far hp.odd hp.large
  have t2 := zPluses_symm (zMed_symm inDot_symm) _ _ t1
  obtain ⟨N, hN⟩ := pattern_number hp g
  have hd : 0 < d := by omega
  have hd0 : (0 : ℝ) < d := by exact_mod_cast hd
  have s1 := centreSet_steps (n := height) (mv := mv) (s := s) hd
  have s2 := centreSet_steps (n := width) (mv := mh) (s := s) hd
  have m1 := twoInMiddle_window hp.rows hk w1
  have m2 := twoInMiddle_window hp.cols hl w2
  have hne : ∃ u v, zPluses (zMed (InDot s)) u v := ⟨_, _, t1⟩
  refine ⟨m, b, hm, by rw [hotsu]; exact hb, fun hup => ?_⟩
  set y0 : ℝ := (mv + (s / 2 + 1) : ℤ) + 1 / 2 with hy0
  set x0 : ℝ := (mh + (s / 2 + 1) : ℤ) + 1 / 2 with hx0
  have esd := g.sizeDistance ⟨0, t1⟩ ⟨0, t2⟩ hd s1 s2 ht (by rw [b1]; exact m1) (by rw [b2]; exact m2) hN
  obtain ⟨g2, v2⟩ := g.size hne hN (ratio := 0.3) (by norm_num)
  obtain ⟨sel, esel, g3, v3⟩ := g2.ratio ⟨0, t1⟩ (by omega) (zPluses_symm (zMed_symm inDot_symm)) (ratio := 0.3) (by norm_num)
  set mat2 := selectDotsBasedSize (realMat b) N 0.3 with hmat2
  obtain ⟨d1, d2, _⟩ := C41_size (realMat b) N 0.3
  obtain ⟨sel', esel', d3, d4, _⟩ := C93_binary (realMat mat2) g2.binary 0.3
  rw [esel] at esel'
  injection esel' with esel'
  subst esel'
  have dh : sel.height = height := d3.trans (d1.trans b1)
  have dw : sel.width = width := d4.trans (d2.trans b2)
  have vsel : ∀ i < height, ∀ j < width, sel.get i j = b.get i j := by
    intro i hi j hj
    rw [v3 i (by rw [show mat2.height = height from d1.trans b1]; exact hi) j (by rw [show mat2.width = width from d2.trans b2]; exact hj),
      v2 i (by omega) j (by omega)]
  have hsame : SameImage (realMat sel) (realMat b) := by
    refine ⟨dh.trans b1.symm, dw.trans b2.symm, fun i hi j hj => ?_⟩
    simp only [realMat]
    rw [vsel i (by rw [← dh]; exact hi) j (by rw [← dw]; exact hj)]
  obtain ⟨eh, ev⟩ := g3.slopes ⟨0, t1⟩ ⟨0, t2⟩ hd ht (by rw [dh]; exact m1) (by rw [dw]; exact m2) hpf has hr hsame hup
  -- the lines
  obtain ⟨pts, ep, hnd, hmem⟩ : ∃ pts, dotCentres sel = .ok pts ∧ pts.Nodup ∧
      ∀ c, c ∈ pts ↔ ∃ k < K, ∃ l < L, c = ⟨y0 + (k : ℕ) * (d : ℝ), x0 + (l : ℕ) * (d : ℝ)⟩ := by
    obtain ⟨pts, ep, hmid⟩ := g3.centres
    obtain ⟨hnd, hmem⟩ := g3.grid.middles g3.lit hne hmid
    refine ⟨pts, ep, hnd, fun c => (hmem c).trans ?_⟩
    simp only [Int.cast_one]
    constructor
    · rintro ⟨p, ⟨k, ek, h1⟩, q, ⟨l, el, h2⟩, rfl⟩
      refine ⟨k, (hp.rows k).2 (by omega), l, (hp.cols l).2 (by omega), ?_⟩
      rw [ek, el, Pt.mk.injEq]
      constructor <;> push_cast [hy0, hx0] <;> ring
    · rintro ⟨k, hk, l, hl, rfl⟩
      refine ⟨_, ⟨k, rfl, (hp.rows k).1 hk⟩, _, ⟨l, rfl, (hp.cols l).1 hl⟩, ?_⟩
      rw [Pt.mk.injEq]
      constructor <;> push_cast [hy0, hx0] <;> ring
  have gh : groupDotsHor lib.argsort pts 0 d 0.3 6 0.65 = .ok (latticeRows y0 x0 d K L) :=
    group_lattice lib.argsort has hd0 (by omega) (by omega) hnd hmem (by norm_num) (by norm_num) (by norm_num) (by norm_num)
  have gv : groupDotsVer lib.argsort pts 0 d 0.3 6 0.75 = .ok (latticeCols y0 x0 d K L) :=
    group_lattice_ver lib.argsort has hd0 (by omega) (by omega) hnd hmem (by norm_num) (by norm_num) (by norm_num) (by norm_num)
  have hpne : pts ≠ [] := List.ne_nil_of_mem ((hmem _).2 ⟨0, by omega, 0, by omega, rfl⟩)
  have hw2 : 2 < sel.width := by
    have h1 := hp.size
    omega
  have egh : groupDotsHorImage lib.argsort sel 0 d 0.3 6 0.65 = .ok (latticeRows y0 x0 d K L) := by
    unfold groupDotsHorImage
    rw [if_pos hw2, ep, ok_bind, if_neg hpne, gh]
  have egv : groupDotsVerImage lib.argsort sel 0 d 0.3 6 0.75 = .ok (latticeCols y0 x0 d K L) := by
    unfold groupDotsVerImage
    rw [if_pos hw2, ep, ok_bind, if_neg hpne, gv]
  obtain ⟨rh, rv⟩ := residual_lattice (y0 := y0) (x0 := x0) (d := d) (K := K) (L := L) hpf (by omega) (by omega) 0 (residual := 2.5) (by norm_num)
  -- the model
  obtain ⟨cb, _, _, _⟩ := models_lattice (y0 := y0) (x0 := x0) (d := (d : ℝ)) hd0 hK hL hpf hls hn1 hn hn' (minimize := lib.minimize)
  set c : Pt := ⟨y0 + (d : ℝ) / 2, x0 + (d : ℝ) / 2⟩ with hc
  have mh' : m.height = height := e1
  have mw' : m.width = width := e2
  have hcal : calcDistorCoef lib fsolve m numCoef false = .ok (c, 1 :: List.replicate (numCoef - 1) 0, false) := by
    unfold calcDistorCoef
    rw [hotsu, hb, ok_bind, esd, ok_bind]
    simp only
    rw [hax, ← hmat2, esel, ok_bind, eh, ok_bind, ev, ok_bind, egh, ok_bind, egv, ok_bind, rh, ok_bind, rv, ok_bind]
    unfold modelLines
    rw [if_neg (by simp), ok_bind]
    simp only
    rw [cod_lattice hpf hd0 (by omega) (by omega), ok_bind, cb, ok_bind]
  refine ⟨?_, fun B cast depth start stop hss hsh => ?_⟩
  · have hib := C04_image_backward lib.sample hS lib.float32 hround m (by omega) (by omega) c.x c.y (numCoef - 1)
    refine ⟨_, by unfold simpleScript; rw [hcal, ok_bind], rfl, rfl, hib, fun i hi j hj => ?_⟩
    simp only
    rw [hib.2.2 i (by show i < m.height; omega) j (by show j < m.width; omega), sub_self]
  · have hone : ∀ r : ℝ, radial (1 :: List.replicate (numCoef - 1) 0) r = 1 := fun r => by
      rw [← polySum_eq_radial]
      exact polySum_one _ _
    obtain ⟨r, er, _, _, hlen, hf⟩ := C105_slices lib hround B B cast fsolve m numCoef false depth start stop c _ false hcal hss (by omega) (by omega)
      (by omega) (max (∑ j ∈ Finset.range m.width, ptDist ⟨start, j⟩ c) (∑ j ∈ Finset.range m.width, ptDist ⟨stop, j⟩ c))
      ⟨fun a b _ h _ => by rw [hone, hone, mul_one, mul_one]; exact h, fun a _ _ => by rw [hone]; norm_num⟩
      (fun j hj => le_max_of_le_left (Finset.single_le_sum (f := fun j : ℕ => ptDist ⟨start, j⟩ c) (fun _ _ => Real.sqrt_nonneg _) (Finset.mem_range.2 hj)))
      (fun j hj => le_max_of_le_right (Finset.single_le_sum (f := fun j : ℕ => ptDist ⟨stop, j⟩ c) (fun _ _ => Real.sqrt_nonneg _) (Finset.mem_range.2 hj)))
    refine ⟨r, er, hlen, fun f hm => ?_⟩
    obtain ⟨q, hq, eq⟩ := List.getElem_of_mem hm
    obtain ⟨f', ef, _, ⟨u1, u2, u3⟩, v1, v2, v3⟩ := hf q (by omega)
    rw [List.getElem?_eq_getElem hq, eq] at ef
    cases ef
    have hib := C04_image_backward (linearInterp B) (linearInterp_interpolates B) lib.float32 hround ⟨m.height, m.width, fun i j => cast (m.get i j)⟩
      (by show m.height ≤ _; omega) (by show m.width ≤ _; omega) c.x c.y (numCoef - 1)
    refine ⟨u1, u2.trans mw', v1.trans u1.symm, v2.trans u2.symm, fun i hi j hj => ?_⟩
    have hi' : i < depth := by rw [v1] at hi; exact hi
    have hj' : j < m.width := by rw [v2] at hj; exact hj
    rw [v3 i hi' j hj', u3 i hi' j hj', hib.2.2 _ (by show start + q < m.height; omega) j hj']

/-! ## Examples -/

/-- The pattern of 13 × 13 dots with the settings of the scripts: slices 14 to 19 of a stack of 600 copies. -/
example (B : Boundary) : ∃ m r, makeDotPattern 200 200 15 9 (.int 1) = .ok m ∧ chunkScript refLibs B id (fun _ x => x) m 5 false 600 14 20 = .ok r ∧
    r.files.length = 6 := by
  obtain ⟨m, b, hm, hb, h⟩ := C105_drawn drawn13 (by norm_num) (by norm_num) (by norm_num) (by norm_num) (by norm_num) (by norm_num)
    drawn13_middle drawn13_middle 5 (by norm_num) (by norm_num) (by norm_num) refLibs refPolyfit_spec refArgsort_spec refLstsq_spec
    (fun _ _ => ⟨by simp [refLibs], rfl⟩) (linearInterp_interpolates _) coordRounding_id 512 (by norm_num) rfl rfl (fun _ x => x)
  obtain ⟨r, e, hl, _⟩ := (h (refLibs_upright _ _)).2 B id 600 14 20 (by norm_num) (by norm_num)
  exact ⟨m, r, hm, e, hl⟩

/-- The settings of `example_05.py`: the search ends at 100 and tries the given centre; with a step of 30 it would do neither. -/
example : IsShift 100 20 0 ∧ IsShift 100 20 100 ∧ ¬ IsShift 100 30 0 ∧ IsShift 100 30 110 :=
  ⟨((C105_range 100 20 (by norm_num) (by norm_num)).2.1).2 ⟨5, by norm_num⟩, ((C105_range 100 20 (by norm_num) (by norm_num)).2.2.1).2 ⟨10, by norm_num⟩,
    fun h => absurd (((C105_range 100 30 (by norm_num) (by norm_num)).2.1).1 h) (by norm_num), ⟨7, by norm_num, by norm_num⟩⟩

/-- The search for a small image with a curved model. -/
example (B : Boundary) : ∃ files, centreSearch B id ⟨20, 3, fun i j => i * j⟩ ⟨10, 1⟩ [1, 1 / 100] 600 100 20 (14 : ℕ) = .ok files ∧ (files.map Prod.fst).Nodup := by
  obtain ⟨f, e, hn, _⟩ := C105_search B B id ⟨20, 3, fun i j => i * j⟩ ⟨10, 1⟩ [1, 1 / 100] (by simp) 600 14 100 20 (by norm_num) (by norm_num) (by norm_num) (by norm_num)
  exact ⟨f, e, hn⟩

/-- Slices 14 and 100014 have the same name. -/
example : sliceNumber 14 = "00014".toList ∧ sliceNumber 100014 = sliceNumber 14 :=
  ⟨by decide, ((C105_numbers 100014).2.2.2 14).2 (by norm_num)⟩

theorem drawn13_simple : ∃ (m : Mat ℝ) (r : SimpleRun), simpleScript refLibs (fun _ x => x) m 5 false = .ok r := by
  obtain ⟨m, b, hm, hb, h⟩ := C105_drawn drawn13 (by norm_num) (by norm_num) (by norm_num) (by norm_num) (by norm_num) (by norm_num)
    drawn13_middle drawn13_middle 5 (by norm_num) (by norm_num) (by norm_num) refLibs refPolyfit_spec refArgsort_spec refLstsq_spec
    (fun _ _ => ⟨by simp [refLibs], rfl⟩) (linearInterp_interpolates _) coordRounding_id 512 (by norm_num) rfl rfl (fun _ x => x)
  obtain ⟨r, e, -⟩ := (h (refLibs_upright _ _)).1
  exact ⟨m, r, e⟩

/-- The image, the model and the errors for this pattern. -/
example := C105_image refLibs _ _ 5 false _ drawn13_simple.choose_spec.choose_spec
example := C105_model refLibs refPolyfit_spec refArgsort_spec _ _ 5 false _ _ _
  (C105_image refLibs _ _ 5 false _ drawn13_simple.choose_spec.choose_spec).1.choose_spec
example (B : Boundary) := (C105_errors refLibs B id (fun _ x => x) ⟨3, 3, fun i j => i + j⟩ 5 false 600 1 7 (by norm_num)).1

/-- The model found for this pattern does not fold; the slices 14 to 19 written are those of the unwarped image. -/
example (B B' : Boundary) : ∃ (m : Mat ℝ) (c : Pt) (coefs : List ℝ) (r : ChunkRun), chunkScript refLibs B id (fun _ x => x) m 5 false 600 14 20 = .ok r ∧
    ∀ k < 6, ∃ f, r.files[k]? = some f ∧ f.number = sliceNumber (14 + k) ∧
      ShowsRow 600 (unwarpImageBackward (linearInterp B') id m c.x c.y coefs) (14 + k) f.after := by
  obtain ⟨m, b, hm, hb, h⟩ := C105_drawn drawn13 (by norm_num) (by norm_num) (by norm_num) (by norm_num) (by norm_num) (by norm_num)
    drawn13_middle drawn13_middle 5 (by norm_num) (by norm_num) (by norm_num) refLibs refPolyfit_spec refArgsort_spec refLstsq_spec
    (fun _ _ => ⟨by simp [refLibs], rfl⟩) (linearInterp_interpolates _) coordRounding_id 512 (by norm_num) rfl rfl (fun _ x => x)
  obtain ⟨r, e, hc, hco, hs, -⟩ := (h (refLibs_upright _ _)).1
  obtain ⟨w, hw⟩ := (C105_image refLibs _ _ _ false _ e).1
  have hsz : m.height = 200 ∧ m.width = 200 := by
    obtain ⟨m', b', hm', mh, mw, -⟩ := pattern_shows drawn13 512 (by norm_num) 0.3 0.3 (by norm_num) (by norm_num) (by norm_num) drawn13_middle drawn13_middle
    rw [hm] at hm'
    cases hm'
    exact ⟨mh, mw⟩
  have hN : NoFold r.coefs (∑ j ∈ Finset.range 200, (ptDist ⟨(14 : ℕ), j⟩ r.centre + ptDist ⟨(20 : ℕ), j⟩ r.centre)) := by
    have er : ∀ t, radial r.coefs t = 1 := fun t => by rw [hco]; simp [radial, List.replicate, Fin.sum_univ_succ]
    exact ⟨fun a b _ h _ => by rw [er, er]; linarith, fun t _ _ => by rw [er]; norm_num⟩
  have hle : ∀ j < m.width, ptDist ⟨(14 : ℕ), j⟩ r.centre + ptDist ⟨(20 : ℕ), j⟩ r.centre ≤
      ∑ j ∈ Finset.range 200, (ptDist ⟨(14 : ℕ), j⟩ r.centre + ptDist ⟨(20 : ℕ), j⟩ r.centre) := fun j hj =>
    Finset.single_le_sum (f := fun j : ℕ => ptDist ⟨(14 : ℕ), j⟩ r.centre + ptDist ⟨(20 : ℕ), j⟩ r.centre)
      (fun _ _ => add_nonneg (Real.sqrt_nonneg _) (Real.sqrt_nonneg _)) (Finset.mem_range.2 (hsz.2 ▸ hj))
  obtain ⟨q, e', _, _, _, hq⟩ := C105_slices refLibs coordRounding_id B B' id (fun _ x => x) m 5 false 600 14 20 r.centre r.coefs w hw (by norm_num)
    (by rw [hsz.1]; norm_num) (by rw [hsz.1]; norm_num) (by rw [hsz.2]; norm_num) _ hN
    (fun j hj => (le_add_of_nonneg_right (Real.sqrt_nonneg _)).trans (hle j hj)) (fun j hj => (le_add_of_nonneg_left (Real.sqrt_nonneg _)).trans (hle j hj))
  refine ⟨m, r.centre, r.coefs, q, e', fun k hk => ?_⟩
  obtain ⟨f, h1, h2, _, h4⟩ := hq k hk
  exact ⟨f, h1, h2, h4⟩

end Discorpy
