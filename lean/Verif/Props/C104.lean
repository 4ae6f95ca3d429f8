import Verif.Lemmas.UnwarpScript

/-! # C104: the standalone script `examples/unwarp.py` -/

namespace Discorpy

open Spec

/-! ## Loading -/

/-- **C104 (loading).** A file named `….hdf` or `….nxs` is read by `load_hdf_file`, every other file by `load_image`; errors are passed on. -/
theorem C104_load {α : Type} (D : Disk α) (p : FilePath) (key : Option PyStr) :
    (HasHdfName p.name → ∀ a, loadHdfFileAt D.parse D.h5List D.f32 D.fs p key .none 0 = .ok a →
      (∀ h w, a.shape = [h, w] → scriptLoad D p key = .ok ⟨h, w, fun i j => a.get [i, j]⟩) ∧
      ∀ d h w, a.shape = [d, h, w] → (d = 0 → scriptLoad D p key = .error .nonFinite) ∧
        (0 < d → ∃ m, scriptLoad D p key = .ok m ∧ IsStackAverage a.get d h w m)) ∧
    (HasHdfName p.name → ∀ e, loadHdfFileAt D.parse D.h5List D.f32 D.fs p key .none 0 = .error e → scriptLoad D p key = .error e) ∧
    (¬ HasHdfName p.name → (∀ m, loadImageAt D.decode D.fs p true = .ok (.gray m) → scriptLoad D p key = .ok m) ∧
      ∀ e, loadImageAt D.decode D.fs p true = .error e → scriptLoad D p key = .error e) := by
  refine ⟨fun hn a ha => ⟨fun h w hs => ?_, fun d h w hs => ⟨?_, fun hd => ?_⟩⟩, fun hn e he => ?_, fun hn => ⟨fun m hm => ?_, fun e he => ?_⟩⟩
  · unfold scriptLoad
    rw [if_pos ((hasHdfName_iff _).2 hn), ha, ok_bind]
    unfold stackAverage
    rw [hs]
  · rintro rfl
    unfold scriptLoad
    rw [if_pos ((hasHdfName_iff _).2 hn), ha, ok_bind]
    unfold stackAverage
    rw [hs]
    rfl
  · unfold scriptLoad
    rw [if_pos ((hasHdfName_iff _).2 hn), ha, ok_bind]
    unfold stackAverage
    rw [hs]
    refine ⟨_, by simp only; rw [if_neg (by omega)], rfl, rfl, fun i _ j _ => ?_⟩
    have : (d : ℝ) ≠ 0 := by exact_mod_cast (by omega : d ≠ 0)
    simp only
    rw [mul_div_cancel₀ _ this]
    rfl
  · unfold scriptLoad
    rw [if_pos ((hasHdfName_iff _).2 hn), he]
    rfl
  · unfold scriptLoad
    rw [if_neg (fun h => hn ((hasHdfName_iff _).1 h)), hm]
    rfl
  · unfold scriptLoad
    rw [if_neg (fun h => hn ((hasHdfName_iff _).1 h)), he]
    rfl

/-- **C104 (extensions).** A file with another extension that Pillow cannot read, such as an HDF file named `….h5`, `….hdf5` or `….HDF`,
is a `ValueError`, whatever its content. -/
theorem C104_extension {α : Type} (D : Disk α) (p : FilePath) (key : Option PyStr) (stem ext : PyStr) (hp : p.name = stem ++ '.' :: ext)
    (hd : '.' ∉ ext) (h1 : ext ≠ "hdf".toList) (h2 : ext ≠ "nxs".toList)
    (hdec : ∀ c, readFile D.fs p = .ok c → ∃ e, D.decode c = .error e) : scriptLoad D p key = .error .valueError := by
  have hn : ¬ HasHdfName p.name := by
    rw [← hasHdfName_iff, hp, splitExt_append hd]
    have e1 : ".hdf".toList = '.' :: "hdf".toList := rfl
    have e2 : ".nxs".toList = '.' :: "nxs".toList := rfl
    rw [e1, e2]
    rintro (h | h) <;> split_ifs at h with hc
    · exact h1 (List.cons.inj h).2
    · exact h2 (List.cons.inj h).2
  refine ((C104_load D p key).2.2 hn).2 _ ?_
  unfold loadImageAt
  cases hr : readFile D.fs p with
  | error e => rfl
  | ok c =>
    obtain ⟨e, he⟩ := hdec c hr
    rw [ok_bind, he]

/-- **C104 (stack of one image).** A stack of `d` copies of an image gives this image. -/
theorem C104_copies {α : Type} (D : Disk α) (p : FilePath) (key : Option PyStr) (hn : HasHdfName p.name) (a : NdArr ℝ) (d h w : ℕ)
    (hl : loadHdfFileAt D.parse D.h5List D.f32 D.fs p key .none 0 = .ok a) (hs : a.shape = [d, h, w]) (hd : 0 < d) (g : ℕ → ℕ → ℝ)
    (hg : ∀ k < d, ∀ i < h, ∀ j < w, a.get [k, i, j] = g i j) : ∃ m, scriptLoad D p key = .ok m ∧ SameImage m ⟨h, w, g⟩ := by
  obtain ⟨m, e, m1, m2, m3⟩ := (((C104_load D p key).1 hn a hl).2 d h w hs).2 hd
  refine ⟨m, e, m1, m2, fun i hi j hj => ?_⟩
  have h3 := m3 i (by omega) j (by omega)
  rw [Finset.sum_congr rfl fun k hk => hg k (Finset.mem_range.1 hk) i (by omega) j (by omega), Finset.sum_const, Finset.card_range,
    nsmul_eq_mul] at h3
  exact mul_left_cancel₀ (by exact_mod_cast (by omega : d ≠ 0)) h3

/-! ## The option `-p` -/

/-- **C104 (perspective).** The option `-p` has no effect: whatever text is given with it, the results of the script are those without it,
and the model is made from the lines of dots as they are. -/
theorem C104_perspective {α : Type} (lib : Libs) (fsolve : (ℝ × ℝ → ℝ × ℝ) → ℝ × ℝ → ℝ × ℝ) (D : Disk α) (store : ℝ → ℝ) (args : UnwarpArgs) :
    unwarpScript lib fsolve D store args = unwarpScript lib fsolve D store { args with perspective := none } ∧
    ∀ r, unwarpScript lib fsolve D store args = .ok r → r.found.usedHor = r.found.hor ∧ r.found.usedVer = r.found.ver := by
  have h0 : (perspectiveArg args.perspective).isTrue = false := by
    cases args.perspective <;> rfl
  have h1 : unwarpScript lib fsolve D store args = unwarpScript lib fsolve D store { args with perspective := none } := by
    unfold unwarpScript
    simp only [h0]
    rfl
  refine ⟨h1, fun r hr => ?_⟩
  unfold unwarpScript at hr
  rw [h0] at hr
  obtain ⟨mat0, _, hr⟩ := bind_ok_iff.1 hr
  obtain ⟨mat1, _, hr⟩ := bind_ok_iff.1 hr
  have s := unwarpSteps_ok hr
  exact ⟨s.usedHor, s.usedVer⟩

/-! ## The flat-field -/

/-- **C104 (flat-field).** A flat-field with another number of rows than the image, or with another number of columns if neither has a single
one, is a `ValueError`. With the columns of the image, or (this is not refused) with a single column, each pixel of the image is divided by
the pixel of the flat-field in its place, by the mean of the flat-field if this is zero; if also the stored mean is zero, the result is not
finite. -/
theorem C104_flat (store : ℝ → ℝ) (mat0 flat : Mat ℝ) :
    (flat.height ≠ mat0.height → flatField store mat0 flat = .error .valueError) ∧
    (flat.width ≠ mat0.width → flat.width ≠ 1 → mat0.width ≠ 1 → flatField store mat0 flat = .error .valueError) ∧
    (flat.height = mat0.height → flat.width = mat0.width ∨ flat.width = 1 → 0 < mat0.height → 0 < mat0.width → ∀ mean, IsImageMean flat mean →
      (store mean = 0 → (∃ i < flat.height, ∃ j < flat.width, flat.get i j = 0) → flatField store mat0 flat = .error .nonFinite) ∧
      (store mean ≠ 0 ∨ (∀ i < flat.height, ∀ j < flat.width, flat.get i j ≠ 0) →
        ∃ out, flatField store mat0 flat = .ok out ∧ out.height = mat0.height ∧ out.width = mat0.width ∧
          ∀ i < mat0.height, ∀ j < mat0.width, ∀ v, IsDivisor flat (store mean) i j v → v ≠ 0 ∧ out.get i j * v = mat0.get i j)) := by
  refine ⟨fun h => ?_, fun h1 h2 h3 => ?_, fun hh hw h0 w0 mean hm => ?_⟩
  · unfold flatField
    rw [if_pos (.inl (Ne.symm h))]
  · unfold flatField divideImages
    split_ifs with ha
    · rfl
    · simp only
      rw [if_pos ⟨Ne.symm h1, h3, h2⟩]
  · have hw0 : 0 < flat.width := by omega
    have hmean : flat.flat.sum / flat.flat.length = mean := by
      have : ((flat.height * flat.width : ℕ) : ℝ) ≠ 0 := by
        have := Nat.mul_pos (by omega : 0 < flat.height) hw0
        exact_mod_cast this.ne'
      rw [flat_sum, flat_length, ← hm, mul_div_cancel_right₀ _ this]
    have hshape : ¬ (mat0.height ≠ flat.height ∨ mat0.width ≠ mat0.width) := by
      push Not
      exact ⟨hh.symm, rfl⟩
    have hwidth : ¬ (mat0.width ≠ flat.width ∧ mat0.width ≠ 1 ∧ flat.width ≠ 1) := by
      rcases hw with h | h <;> simp [h]
    unfold flatField divideImages
    rw [if_neg hshape]
    simp only
    rw [if_neg hwidth, hmean]
    constructor
    · rintro hz ⟨i, hi, j, hj, hij⟩
      rw [if_pos]
      refine ⟨List.any_eq_true.2 ⟨0, mem_flat.2 ⟨i, hi, j, hj, ?_⟩, by simp⟩, w0⟩
      simp only
      rw [if_pos hij, hz]
    · intro hnz
      have hval : ∀ i < flat.height, ∀ j < flat.width, (if flat.get i j = 0 then store mean else flat.get i j) ≠ 0 := by
        intro i hi j hj
        split_ifs with hij
        · rcases hnz with h | h
          · exact h
          · exact absurd hij (h i hi j hj)
        · exact hij
      rw [if_neg]
      · refine ⟨_, rfl, rfl, ?_, fun i hi j hj v hv => ?_⟩
        · simp only
          rcases hw with h | h <;> split_ifs <;> omega
        · obtain ⟨k, hk, e1, e2⟩ := hv
          have hkw : k < flat.width := by omega
          have hk' : (if flat.width = 1 then 0 else j) = k := by
            rcases hk with ⟨a, b⟩ | ⟨a, b⟩
            · rw [if_neg b, a]
            · rw [if_pos b, a]
          have hj' : (if mat0.width = 1 then 0 else j) = j := by
            split_ifs <;> omega
          have hv : v = if flat.get i k = 0 then store mean else flat.get i k := by
            split_ifs with hik
            · exact e2 hik
            · exact e1 hik
          have hv0 : v ≠ 0 := by
            rw [hv]
            exact hval i (by omega) k hkw
          refine ⟨hv0, ?_⟩
          simp only
          rw [hk', hj', ← hv, div_mul_cancel₀ _ hv0]
      · rintro ⟨ha, _⟩
        obtain ⟨x, hx, h2⟩ := List.any_eq_true.1 ha
        obtain ⟨i, hi, j, hj, rfl⟩ := mem_flat.1 hx
        exact hval i hi j hj (by simpa using h2)

/-- The image of the dots of a photograph corrected by its illumination. -/
theorem flatField_lit {photo light surface : Mat ℝ} (hl : IsLitBy photo light surface) (h0 : 0 < photo.height) (w0 : 0 < photo.width)
    {flat : Mat ℝ} {c : ℝ} (hc : c ≠ 0) (hf : SameImage flat ⟨light.height, light.width, fun i j => c * light.get i j⟩) (store : ℝ → ℝ) :
    ∃ m, flatField store photo flat = .ok m ∧ SameImage m ⟨surface.height, surface.width, fun i j => surface.get i j / c⟩ := by
  obtain ⟨l1, l2, l3, l4, l5⟩ := hl
  obtain ⟨f1, f2, f3⟩ := hf
  simp only at f1 f2 f3
  have hfne : ∀ i < flat.height, ∀ j < flat.width, flat.get i j ≠ 0 := by
    intro i hi j hj
    rw [f3 i hi j hj]
    exact mul_ne_zero hc (l5 i (by omega) j (by omega)).1
  obtain ⟨out, e, o1, o2, o3⟩ := ((C104_flat store photo flat).2.2 (by omega) (.inl (by omega)) h0 w0
    (flat.flat.sum / flat.flat.length) (by
      unfold IsImageMean
      rw [flat_length, ← flat_sum, div_mul_cancel₀]
      have := Nat.mul_pos (by omega : 0 < flat.height) (by omega : 0 < flat.width)
      exact_mod_cast this.ne')).2 (.inr hfne)
  refine ⟨out, e, by simp only; omega, by simp only; omega, fun i hi j hj => ?_⟩
  obtain ⟨hv, hout⟩ := o3 i (by omega) j (by omega) (flat.get i j) (by
    by_cases h1 : flat.width = 1
    · exact ⟨0, .inr ⟨rfl, h1⟩, fun _ => by rw [show j = 0 by omega], fun h => absurd h (hfne i (by omega) 0 (by omega))⟩
    · exact ⟨j, .inl ⟨rfl, h1⟩, fun _ => rfl, fun h => absurd h (hfne i (by omega) j (by omega))⟩)
  obtain ⟨hl0, hp⟩ := l5 i (by omega) j (by omega)
  have hfv := f3 i (by omega) j (by omega)
  rw [hp, hfv] at hout
  simp only
  rw [eq_div_iff hc]
  refine mul_left_cancel₀ hl0 ?_
  rw [← hout]
  ring

theorem bind_map_congr {α β γ : Type} (e : Except PyErr α) {f f' : α → Except PyErr β} {g : β → γ} (h : ∀ x, (f x).map g = (f' x).map g) :
    (e >>= f).map g = (e >>= f').map g := by
  cases e with
  | error _ => rfl
  | ok x => exact h x

/-- What the script finds depends on the image of the dots only. -/
theorem steps_found {lib : Libs} {fsolve : (ℝ × ℝ → ℝ × ℝ) → ℝ × ℝ → ℝ × ℝ} {a0 a1 b0 b1 : Mat ℝ} {order : ℤ} {p : Bool}
    (h : binarization lib.otsu a1 0.3 none true = binarization lib.otsu b1 0.3 none true) :
    (unwarpSteps lib fsolve a0 a1 order p).map UnwarpRun.found = (unwarpSteps lib fsolve b0 b1 order p).map UnwarpRun.found := by
  unfold unwarpSteps correctBackward
  rw [h]
  refine bind_map_congr _ fun bin => bind_map_congr _ fun sd => bind_map_congr _ fun sel => bind_map_congr _ fun hs => bind_map_congr _ fun vs =>
    bind_map_congr _ fun h1 => bind_map_congr _ fun v1 => bind_map_congr _ fun h2 => bind_map_congr _ fun v2 => bind_map_congr _ fun _ =>
    bind_map_congr _ fun _ => bind_map_congr _ fun u => bind_map_congr _ fun c => bind_map_congr _ fun cf => ?_
  simp only
  generalize linesDistorted lib _ _ _ _ = q
  cases q <;> rfl

/-- **C104 (illumination).** The photograph of a surface under an uneven illumination, with a photograph of the illumination alone as
flat-field, gives the dots, lines, centre, coefficients and verdict that the script finds for the evenly lit surface without a flat-field. -/
theorem C104_illumination {α : Type} (lib : Libs) (fsolve : (ℝ × ℝ → ℝ × ℝ) → ℝ × ℝ → ℝ × ℝ) (D : Disk α) (store : ℝ → ℝ) (args : UnwarpArgs)
    (pf : FilePath) (ps : FilePath) (photo light surface : Mat ℝ) (hl : IsLitBy photo light surface) (h0 : 0 < photo.height) (w0 : 0 < photo.width)
    (l1 : scriptLoad D args.input args.key = .ok photo) (l2 : scriptLoad D pf args.key = .ok light) (l3 : scriptLoad D ps args.key = .ok surface) :
    (unwarpScript lib fsolve D store { args with flat := .file pf }).map UnwarpRun.found =
      (unwarpScript lib fsolve D store { args with input := ps, flat := .none }).map UnwarpRun.found := by
  obtain ⟨m, e, hm⟩ := flatField_lit hl h0 w0 (flat := light) one_ne_zero ⟨rfl, rfl, fun i _ j _ => by simp⟩ store
  have hb : SameImage m surface := by
    obtain ⟨a, b, c⟩ := hm
    exact ⟨a, b, fun i hi j hj => by rw [c i hi j hj]; simp⟩
  have hs : 0 < m.height ∧ 0 < m.width := by
    rw [hb.1, hb.2.1, hl.2.2.1, hl.2.2.2.1]
    exact ⟨h0, w0⟩
  unfold unwarpScript
  simp only
  rw [l1, l3, ok_bind, ok_bind]
  unfold dotImage
  simp only
  rw [l2, ok_bind, e, ok_bind, ok_bind]
  exact steps_found (binarization_sameImage hb hs.1 hs.2 lib.otsu 0.3 none)

/-- **C104 (exposure).** The exposure of the flat-field does not matter: with `c` times the illumination as flat-field, `c` positive, the
same is found. -/
theorem C104_exposure {α : Type} (lib : Libs) (n : ℕ) (hn : 2 ≤ n) (ho : lib.otsu = thresholdOtsu false n)
    (fsolve : (ℝ × ℝ → ℝ × ℝ) → ℝ × ℝ → ℝ × ℝ) (D : Disk α) (store : ℝ → ℝ)
    (args : UnwarpArgs) (pf : FilePath) (ps : FilePath) (photo light surface flat : Mat ℝ) (hl : IsLitBy photo light surface) (h0 : 0 < photo.height)
    (w0 : 0 < photo.width) (c : ℝ) (hc : 0 < c) (hf : SameImage flat ⟨light.height, light.width, fun i j => c * light.get i j⟩)
    (l1 : scriptLoad D args.input args.key = .ok photo) (l2 : scriptLoad D pf args.key = .ok flat) (l3 : scriptLoad D ps args.key = .ok surface) :
    (unwarpScript lib fsolve D store { args with flat := .file pf }).map UnwarpRun.found =
      (unwarpScript lib fsolve D store { args with input := ps, flat := .none }).map UnwarpRun.found := by
  obtain ⟨m, e, hm⟩ := flatField_lit hl h0 w0 hc.ne' hf store
  have hs : 0 < surface.height ∧ 0 < surface.width := by
    rw [hl.2.2.1, hl.2.2.2.1]
    exact ⟨h0, w0⟩
  have hs' : 0 < m.height ∧ 0 < m.width := by
    rw [hm.1, hm.2.1]
    exact hs
  unfold unwarpScript
  simp only
  rw [l1, l3, ok_bind, ok_bind]
  unfold dotImage
  simp only
  rw [l2, ok_bind, e, ok_bind, ok_bind]
  refine steps_found ?_
  rw [binarization_sameImage hm hs'.1 hs'.2, ho]
  have := binarization_scale (n := n) hn (inv_pos.2 hc) hs.1 hs.2 0.3
  simpa only [div_eq_inv_mul] using this

/-! ## The results -/

/-- **C104 (stages).** Whenever the script finishes, its image and its image of the dots have been loaded, and the results are those of the
steps after loading. -/
theorem script_steps {α : Type} {lib : Libs} {fsolve : (ℝ × ℝ → ℝ × ℝ) → ℝ × ℝ → ℝ × ℝ} {D : Disk α} {store : ℝ → ℝ} {args : UnwarpArgs} {r : UnwarpRun}
    (h : unwarpScript lib fsolve D store args = .ok r) :
    ∃ mat0 mat1, scriptLoad D args.input args.key = .ok mat0 ∧ dotImage D store mat0 args.key args.flat = .ok mat1 ∧
      ScriptSteps lib mat0 mat1 args.order r := by
  unfold unwarpScript at h
  rw [show (perspectiveArg args.perspective).isTrue = false by cases args.perspective <;> rfl] at h
  obtain ⟨mat0, h1, h⟩ := bind_ok_iff.1 h
  obtain ⟨mat1, h2, h⟩ := bind_ok_iff.1 h
  exact ⟨mat0, mat1, h1, h2, unwarpSteps_ok h⟩

theorem ScriptSteps.pixels {lib : Libs} {mat0 mat1 : Mat ℝ} {order : ℤ} {r : UnwarpRun} (s : ScriptSteps lib mat0 mat1 order r) :
    r.found.selected.height = r.found.binarized.height ∧ r.found.selected.width = r.found.binarized.width ∧
    ∀ i < r.found.binarized.height, ∀ j < r.found.binarized.width, (r.found.binarized.get i j = 0 ∨ r.found.binarized.get i j = 1) ∧
      (r.found.selected.get i j = 1 → r.found.binarized.get i j = 1) ∧ (r.found.selected.get i j = 0 ∨ r.found.selected.get i j = 1) := by
  obtain ⟨e1, e2, D, hD, h1, h0, _⟩ := C81_shape _ _ _ _ _ _ s.binary
  obtain ⟨a1, a2, a3⟩ := keepsDots_pixels (C41_size (realMat r.found.binarized) r.found.dotSize 0.5)
  obtain ⟨b1, b2, b3⟩ := keepsDots_pixels (C41_ratio lib.axes _ 0.3 _ s.selected)
  refine ⟨b1.trans a1, b2.trans a2, fun i hi j hj => ?_⟩
  have hb : r.found.binarized.get i j = 0 ∨ r.found.binarized.get i j = 1 := by
    by_cases hm : (i, j) ∈ D
    · exact .inr (h1 _ hm)
    · exact .inl (h0 (i, j) ⟨by omega, by omega⟩ hm)
  have ha := a3 i hi j hj
  rw [int16_of_small hb] at ha
  have hc := b3 i (by show i < (selectDotsBasedSize _ _ _).height; rw [a1]; exact hi) j
    (by show j < (selectDotsBasedSize _ _ _).width; rw [a2]; exact hj)
  rw [int16_of_small (by rcases ha with ha | ha <;> rw [ha] <;> simp [hb])] at hc
  refine ⟨hb, fun h => ?_, ?_⟩
  · rcases hc with hc | hc
    · rcases ha with ha | ha <;> omega
    · omega
  · rcases hc with hc | hc
    · rcases ha with ha | ha <;> omega
    · omega

theorem dotImage_pos {α : Type} {D : Disk α} {store : ℝ → ℝ} {mat0 mat1 : Mat ℝ} {key : Option PyStr} {fl : FlatArg} {b : Mat ℤ}
    {otsu : Mat ℝ → Except PyErr ℝ} {ratio : ℝ} {thres : Option ℝ} {denoise : Bool}
    (hd : dotImage D store mat0 key fl = .ok mat1) (hb : binarization otsu mat1 ratio thres denoise = .ok b) : 0 < mat0.height ∧ 0 < mat0.width := by
  obtain ⟨p1, p2⟩ := binarization_pos hb
  obtain ⟨e1, e2, _⟩ := C81_shape _ _ _ _ _ _ hb
  rw [e1] at p1
  rw [e2] at p2
  cases fl with
  | none =>
    cases hd
    exact ⟨p1, p2⟩
  | norm =>
    unfold dotImage normalizationFft applyFftFilter at hd
    simp only at hd
    obtain ⟨_, hd, _⟩ := bind_ok_iff.1 hd
    by_cases h : mat0.height = 0 ∨ mat0.width = 0
    · rw [if_pos h] at hd
      cases hd
    · omega
  | file p =>
    unfold dotImage at hd
    simp only at hd
    obtain ⟨flat, _, hd⟩ := bind_ok_iff.1 hd
    unfold flatField divideImages at hd
    simp only at hd
    split_ifs at hd with h1 h2 h3 h4 <;> cases hd <;> simp only at p1 p2 <;> first | omega | (rw [if_pos h4] at p2; omega) | (rw [if_neg h4] at p2; omega)

/-- **C104 (lines).** Whenever the script finishes, the selected image is binary and lit only where the binarized image is, and the lines are
made of the centres of its dots: each dot belongs to at most one horizontal and one vertical line, and the dots of a line come in order. -/
theorem C104_lines {α : Type} (lib : Libs) (hpf : PolyfitSpec lib.polyfit) (has : ArgsortSpec lib.argsort)
    (fsolve : (ℝ × ℝ → ℝ × ℝ) → ℝ × ℝ → ℝ × ℝ) (D : Disk α) (store : ℝ → ℝ) (args : UnwarpArgs) (r : UnwarpRun)
    (h : unwarpScript lib fsolve D store args = .ok r) :
    r.found.selected.height = r.found.binarized.height ∧ r.found.selected.width = r.found.binarized.width ∧
    (∀ i < r.found.binarized.height, ∀ j < r.found.binarized.width, (r.found.selected.get i j = 0 ∨ r.found.selected.get i j = 1) ∧
      (r.found.selected.get i j = 1 → r.found.binarized.get i j = 1)) ∧
    ∃ pts, CentresOf r.found.selected pts ∧ AreLinesOf Pt.x pts r.found.hor ∧ AreLinesOf Pt.y pts r.found.ver := by
  obtain ⟨mat0, mat1, _, _, s⟩ := script_steps h
  obtain ⟨p1, p2, p3⟩ := s.pixels
  refine ⟨p1, p2, fun i hi j hj => ⟨(p3 i hi j hj).2.2, (p3 i hi j hj).2.1⟩, ?_⟩
  obtain ⟨hw, _⟩ := wide_of_measured s.binary s.size
  rw [← p2] at hw
  obtain ⟨l1, g1, r1⟩ := s.hor
  obtain ⟨l2, g2, r2⟩ := s.ver
  unfold groupDotsHorImage at g1
  unfold groupDotsVerImage at g2
  rw [if_pos hw] at g1 g2
  obtain ⟨pts, hp, g1⟩ := bind_ok_iff.1 g1
  rw [hp, ok_bind] at g2
  split_ifs at g1 g2
  exact ⟨pts, dotCentres_centresOf hp, lines_hor hpf has g1 r1, lines_ver hpf has g2 r2⟩

/-- **C104 (stages).** Whenever the script finishes: dots within half of the median size and 0.3 of the median shape are selected; the slopes are
those of the selected image; the lines are found among the centres of its dots with these slopes, the measured distance and the parameters of
the script, and dots more than two pixels off are removed. -/
theorem C104_stages {α : Type} (lib : Libs) (fsolve : (ℝ × ℝ → ℝ × ℝ) → ℝ × ℝ → ℝ × ℝ) (D : Disk α) (store : ℝ → ℝ) (args : UnwarpArgs) (r : UnwarpRun)
    (h : unwarpScript lib fsolve D store args = .ok r) :
    (∃ mat0 mat1, scriptLoad D args.input args.key = .ok mat0 ∧ dotImage D store mat0 args.key args.flat = .ok mat1 ∧
      binarization lib.otsu mat1 0.3 none true = .ok r.found.binarized) ∧
    selectDotsBasedRatio lib.axes (realMat (selectDotsBasedSize (realMat r.found.binarized) r.found.dotSize 0.5)) 0.3 = .ok r.found.selected ∧
    calcHorSlope lib.polyfit lib.argsort lib.radon (realMat r.found.selected) 0.3 = .ok r.found.horSlope ∧
    calcVerSlope lib.polyfit lib.argsort lib.radon (realMat r.found.selected) 0.3 = .ok r.found.verSlope ∧
    ∃ pts, CentresOf r.found.selected pts ∧
      (∃ l, groupDotsHor lib.argsort pts r.found.horSlope r.found.dotDist 0.3 6 0.65 = .ok l ∧
        removeResidualHor lib.polyfit l r.found.horSlope 2 = .ok r.found.hor) ∧
      ∃ l, groupDotsVer lib.argsort pts r.found.verSlope r.found.dotDist 0.3 6 0.65 = .ok l ∧
        removeResidualVer lib.polyfit l r.found.verSlope 2 = .ok r.found.ver := by
  obtain ⟨mat0, mat1, hl, hd, s⟩ := script_steps h
  obtain ⟨p1, p2, p3⟩ := s.pixels
  refine ⟨⟨mat0, mat1, hl, hd, s.binary⟩, s.selected, s.horSlope, s.verSlope, ?_⟩
  obtain ⟨hw, _⟩ := wide_of_measured s.binary s.size
  rw [← p2] at hw
  obtain ⟨l1, g1, r1⟩ := s.hor
  obtain ⟨l2, g2, r2⟩ := s.ver
  unfold groupDotsHorImage at g1
  unfold groupDotsVerImage at g2
  rw [if_pos hw] at g1 g2
  obtain ⟨pts, hp, g1⟩ := bind_ok_iff.1 g1
  rw [hp, ok_bind] at g2
  split_ifs at g1 g2
  exact ⟨pts, dotCentres_centresOf hp, ⟨l1, g1, r1⟩, ⟨l2, g2, r2⟩⟩

/-- **C104 (size and distance).** The size and the distance are medians over the dots in the middle half of the image. -/
theorem C104_size {α : Type} (lib : Libs) (fsolve : (ℝ × ℝ → ℝ × ℝ) → ℝ × ℝ → ℝ × ℝ) (D : Disk α) (store : ℝ → ℝ) (args : UnwarpArgs) (r : UnwarpRun)
    (h : unwarpScript lib fsolve D store args = .ok r) :
    ∃ roi mask, IsMiddlePart (realMat r.found.binarized) 0.5 roi ∧ IsInnerMask roi mask ∧
      DotMedian mask (fun D x => x = D.ncard) r.found.dotSize ∧ DotMedian mask (NearestDist mask) r.found.dotDist := by
  obtain ⟨mat0, mat1, _, _, s⟩ := script_steps h
  obtain ⟨_, _, p3⟩ := s.pixels
  obtain ⟨hh, hw⟩ := binarization_pos s.binary
  refine C67_median (realMat r.found.binarized) (fun i hi j hj => ?_) hh hw 0.5 r.found.dotSize r.found.dotDist s.size
  have := (p3 i hi j hj).1
  simp only [realMat]
  exact_mod_cast this

/-- **C104 (model).** Whenever the script finishes, the centre and the coefficients are those found by the functions of the package for its
lines of dots, with the number of coefficients of the option `-n`, and the lines are judged by their residuals after unwarping. -/
theorem C104_model {α : Type} (lib : Libs) (hpf : PolyfitSpec lib.polyfit) (has : ArgsortSpec lib.argsort)
    (fsolve : (ℝ × ℝ → ℝ × ℝ) → ℝ × ℝ → ℝ × ℝ) (D : Disk α) (store : ℝ → ℝ) (args : UnwarpArgs) (r : UnwarpRun)
    (h : unwarpScript lib fsolve D store args = .ok r) :
    findCodCoarse lib.polyfit r.found.hor r.found.ver = .ok r.found.centre ∧
    (∃ ff, calcCoefBackwardFromForward lib.polyfit lib.lstsq lib.minimize r.found.hor r.found.ver r.found.centre.x r.found.centre.y args.order
      false 0.3 = .ok (ff, r.found.coefs, r.found.warned)) ∧
    IsVerdict r.found.unwarpedHor r.found.unwarpedVer r.found.centre r.found.bad := by
  obtain ⟨_, _, _, pts, _, lh, lv⟩ := C104_lines lib hpf has fsolve D store args r h
  obtain ⟨mat0, mat1, _, _, s⟩ := script_steps h
  refine ⟨s.centre, s.coefs, ?_⟩
  obtain ⟨_, _, _, e1, e2, e3⟩ := correctBackward_ok s.corrected
  rw [unwarpLineBackward_eq] at e1 e2
  obtain ⟨a1, a2⟩ := map_lines_ne (f := fun p => _) lh.1 fun l hl => (lh.2.2 l hl).1
  obtain ⟨a3, a4⟩ := map_lines_ne (f := fun p => _) lv.1 fun l hl => (lv.2.2 l hl).1
  rw [← e1] at a1 a2
  rw [← e2] at a3 a4
  exact linesDistorted_verdict hpf has a1 a3 a2 a4 e3

/-- **C104 (correction).** Whenever the script finishes: each pixel of the corrected image is read in the loaded image (not in the one
divided by the flat-field) where the model moves it; and if the model reaches the dots and the optimiser finds the best radius, the model
moves the unwarped lines exactly onto the lines of dots. -/
theorem C104_correction {α : Type} (lib : Libs) (fsolve : (ℝ × ℝ → ℝ × ℝ) → ℝ × ℝ → ℝ × ℝ) (D : Disk α) (store : ℝ → ℝ) (args : UnwarpArgs)
    (r : UnwarpRun) (h : unwarpScript lib fsolve D store args = .ok r) (mat0 : Mat ℝ) (hl : scriptLoad D args.input args.key = .ok mat0) :
    ReadsBackward lib.sample lib.float32 mat0 r.found.centre r.found.coefs r.image ∧
    ((∀ l ∈ r.found.hor ++ r.found.ver, ∀ p ∈ l, ∃ t, 0 ≤ t ∧ ptDist p r.found.centre = t * radial r.found.coefs t) →
      (∀ l ∈ r.found.hor ++ r.found.ver, ∀ p ∈ l,
        0 ≤ lib.minimize (fun t => (ptDist p r.found.centre - t * radial r.found.coefs t) ^ 2) (ptDist p r.found.centre) ∧ ∀ t, 0 ≤ t →
          (ptDist p r.found.centre - lib.minimize (fun t => (ptDist p r.found.centre - t * radial r.found.coefs t) ^ 2) (ptDist p r.found.centre) *
            radial r.found.coefs (lib.minimize (fun t => (ptDist p r.found.centre - t * radial r.found.coefs t) ^ 2) (ptDist p r.found.centre))) ^ 2 ≤
          (ptDist p r.found.centre - t * radial r.found.coefs t) ^ 2) →
      r.found.unwarpedHor.map (fun l => l.map (radialMap r.found.centre r.found.coefs)) = r.found.hor ∧
      r.found.unwarpedVer.map (fun l => l.map (radialMap r.found.centre r.found.coefs)) = r.found.ver) := by
  obtain ⟨m0, mat1, hl', hd, s⟩ := script_steps h
  rw [hl] at hl'
  cases hl'
  obtain ⟨h0, w0⟩ := dotImage_pos hd s.binary
  obtain ⟨_, _, e0, e1, e2, _⟩ := correctBackward_ok s.corrected
  simp only at e0 e1 e2
  have hfun : (fun q => mappedPoint q r.found.centre r.found.coefs) = radialMap r.found.centre r.found.coefs := funext fun q => mappedPoint_eq _ _ _
  refine ⟨?_, fun hreach hopt => ⟨?_, ?_⟩⟩
  · rw [e0]
    refine ⟨rfl, rfl, fun i hi j hj => ?_⟩
    have c1 : (0 : ℝ) ≤ (mat0.height : ℝ) - 1 := by
      have : (1 : ℝ) ≤ mat0.height := by exact_mod_cast (by omega : 1 ≤ mat0.height)
      linarith
    have c2 : (0 : ℝ) ≤ (mat0.width : ℝ) - 1 := by
      have : (1 : ℝ) ≤ mat0.width := by exact_mod_cast (by omega : 1 ≤ mat0.width)
      linarith
    simp only [unwarpImageBackward, polySum_eq_radial, clip_eq_clampTo c1, clip_eq_clampTo c2]
    rfl
  · rw [e1]
    have := C10_line_backward_inverts lib.minimize r.found.hor r.found.centre r.found.coefs (fun l hl => hreach l (List.mem_append_left _ hl))
      (fun l hl => hopt l (List.mem_append_left _ hl))
    rwa [hfun] at this
  · rw [e2]
    have := C10_line_backward_inverts lib.minimize r.found.ver r.found.centre r.found.coefs (fun l hl => hreach l (List.mem_append_right _ hl))
      (fun l hl => hopt l (List.mem_append_right _ hl))
    rwa [hfun] at this

/-! ## A drawn pattern -/

theorem twoInMiddle_mono {n : ℕ} {t t' : ℝ} {p0 d s : ℤ} {k : ℕ} (ht : t ≤ t') (h : TwoInMiddle n t p0 d s k) : TwoInMiddle n t' p0 d s k := by
  have := mul_le_mul_of_nonneg_right ht (Nat.cast_nonneg (α := ℝ) n)
  exact ⟨by linarith [h.1], by linarith [h.2]⟩

/-- **C104 (drawn pattern).** Let a drawn dot pattern (as in C94) be photographed without distortion under an uneven illumination, with a
photograph of the illumination as flat-field. The script finds the lattice of the drawing, a centre, the coefficients 1, 0, …, 0, reports no
missing accuracy, and the corrected image is the photograph itself. -/
theorem C104_drawn {height width : ℕ} {d ds s : ℤ} {margin : MarginArg} {mv mh : ℤ} {K L : ℕ}
    (hp : DrawnPattern height width d ds s margin mv mh K L) (hK : 4 ≤ K) (hL : 4 ≤ L)
    (hh : height ≤ 2 ^ 24) (hw : width ≤ 2 ^ 24) {k l : ℕ} (hk : k + 1 < K) (hl : l + 1 < L)
    (w1 : TwoInMiddle height 0.3 (mv + (s / 2 + 1)) d s k) (w2 : TwoInMiddle width 0.3 (mh + (s / 2 + 1)) d s l)
    (numCoef : ℕ) (hn1 : 1 ≤ numCoef) (hn : 2 * numCoef ≤ L + 1) (hn' : numCoef ≤ 32767)
    (lib : Libs) (hpf : PolyfitSpec lib.polyfit) (has : ArgsortSpec lib.argsort) (hls : LstsqSpec lib.lstsq) (hmin : ExactMin lib.minimize)
    (hr : ∀ img angles, 0 < (lib.radon img angles).height ∧ (lib.radon img angles).width = angles.length)
    (hS : InterpolatesNodes lib.sample) (hround : CoordRounding lib.float32) (nbins : ℕ) (hnb : 2 ≤ nbins)
    (hotsu : lib.otsu = thresholdOtsu false nbins) (hax : lib.axes = ellipseAxes) (fsolve : (ℝ × ℝ → ℝ × ℝ) → ℝ × ℝ → ℝ × ℝ) :
    ∃ m b, makeDotPattern height width d ds margin = .ok m ∧ binarization lib.otsu m 0.3 none true = .ok b ∧
      (Upright lib.radon (realMat b) 0.3 → ∀ (α : Type) (D : Disk α) (store : ℝ → ℝ) (args : UnwarpArgs) (pf : FilePath) (photo light : Mat ℝ),
        args.flat = .file pf → args.order = numCoef → scriptLoad D args.input args.key = .ok photo → scriptLoad D pf args.key = .ok light →
        IsLitBy photo light m → ∃ r, unwarpScript lib fsolve D store args = .ok r ∧ r.found.binarized = b ∧
        (∀ D, IsDot b D → (D.ncard : ℝ) = r.found.dotSize) ∧ r.found.dotDist = d ∧
        (∀ i < height, ∀ j < width, r.found.selected.get i j = b.get i j) ∧ r.found.horSlope = 0 ∧ r.found.verSlope = 0 ∧
        r.found.hor = latticeRows ((mv + (s / 2 + 1) : ℤ) + 1 / 2) ((mh + (s / 2 + 1) : ℤ) + 1 / 2) d K L ∧
        r.found.ver = latticeCols ((mv + (s / 2 + 1) : ℤ) + 1 / 2) ((mh + (s / 2 + 1) : ℤ) + 1 / 2) d K L ∧
        r.found.centre = ⟨(mv + (s / 2 + 1) : ℤ) + 1 / 2 + (d : ℝ) / 2, (mh + (s / 2 + 1) : ℤ) + 1 / 2 + (d : ℝ) / 2⟩ ∧
        r.found.coefs = 1 :: List.replicate (numCoef - 1) 0 ∧ r.found.warned = false ∧ r.found.unwarpedHor = r.found.hor ∧
        r.found.unwarpedVer = r.found.ver ∧ r.found.bad = false ∧ SameImage r.image photo) := by
  have h5 := hp.large
  have hap := hp.apart
  have ht : (0.3 : ℝ) = max 0.05 (min 0.3 1) := by norm_num
  obtain ⟨m, b, hm, e1, e2, hb, b1, b2, g⟩ := pattern_shows hp nbins hnb 0.3 0.3 ht hk hl w1 w2
  have t1 := inDot_far hp.odd hp.large
  have t2 := zPluses_symm (zMed_symm inDot_symm) _ _ t1
  obtain ⟨N, hN⟩ := pattern_number hp g
  have hd : 0 < d := by omega
  have hd0 : (0 : ℝ) < d := by exact_mod_cast hd
  have s1 := centreSet_steps (n := height) (mv := mv) (s := s) hd
  have s2 := centreSet_steps (n := width) (mv := mh) (s := s) hd
  have ht5 : (0.5 : ℝ) = max 0.05 (min 0.5 1) := by norm_num
  have m1' := twoInMiddle_window hp.rows hk (twoInMiddle_mono (by norm_num) w1 : TwoInMiddle height 0.5 _ _ _ _)
  have m2' := twoInMiddle_window hp.cols hl (twoInMiddle_mono (by norm_num) w2 : TwoInMiddle width 0.5 _ _ _ _)
  have m1 := twoInMiddle_window hp.rows hk w1
  have m2 := twoInMiddle_window hp.cols hl w2
  have hne : ∃ u v, zPluses (zMed (InDot s)) u v := ⟨_, _, t1⟩
  refine ⟨m, b, hm, by rw [hotsu]; exact hb, fun hup α D store args pf photo light ef eo el1 el2 hlit => ?_⟩
  set y0 : ℝ := (mv + (s / 2 + 1) : ℤ) + 1 / 2 with hy0
  set x0 : ℝ := (mh + (s / 2 + 1) : ℤ) + 1 / 2 with hx0
  -- the dots of an image with the pixels of `b`
  have lattice : ∀ {b' : Mat ℤ}, ShowsGrid b' 1 (s / 2) (centreSet height mv s d) (centreSet width mh s d) (zPluses (zMed (InDot s))) →
      ∃ pts, dotCentres b' = .ok pts ∧ pts.Nodup ∧ ∀ c, c ∈ pts ↔ ∃ k < K, ∃ l < L, c = ⟨y0 + (k : ℕ) * (d : ℝ), x0 + (l : ℕ) * (d : ℝ)⟩ := by
    intro b' g'
    obtain ⟨pts, ep, hmid⟩ := g'.centres
    obtain ⟨hnd, hmem⟩ := g'.grid.middles g'.lit hne hmid
    refine ⟨pts, ep, hnd, fun c => (hmem c).trans ?_⟩
    simp only [Int.cast_one]
    constructor
    · rintro ⟨p, ⟨k, ek, h1⟩, q, ⟨l, el, h2⟩, rfl⟩
      refine ⟨k, (hp.rows k).2 (by omega), l, (hp.cols l).2 (by omega), ?_⟩
      rw [ek, el, Pt.mk.injEq]
      constructor <;> push_cast [hy0, hx0] <;> ring
    · rintro ⟨k, hk, l, hl, rfl⟩
      refine ⟨_, ⟨k, rfl, (hp.rows k).1 hk⟩, _, ⟨l, rfl, (hp.cols l).1 hl⟩, ?_⟩
      rw [Pt.mk.injEq]
      constructor <;> push_cast [hy0, hx0] <;> ring
  have group : ∀ {pts : List Pt}, pts.Nodup → (∀ c, c ∈ pts ↔ ∃ k < K, ∃ l < L, c = ⟨y0 + (k : ℕ) * (d : ℝ), x0 + (l : ℕ) * (d : ℝ)⟩) →
      groupDotsHor lib.argsort pts 0 d 0.3 6 0.65 = .ok (latticeRows y0 x0 d K L) ∧
      groupDotsVer lib.argsort pts 0 d 0.3 6 0.65 = .ok (latticeCols y0 x0 d K L) := fun hnd hmem =>
    ⟨group_lattice lib.argsort has hd0 (by omega) (by omega) hnd hmem (by norm_num) (by norm_num) (by norm_num) (by norm_num),
      group_lattice_ver lib.argsort has hd0 (by omega) (by omega) hnd hmem (by norm_num) (by norm_num) (by norm_num) (by norm_num)⟩
  have esd := g.sizeDistance ⟨0, t1⟩ ⟨0, t2⟩ hd s1 s2 ht5 (by rw [b1]; exact m1') (by rw [b2]; exact m2') hN
  obtain ⟨g2, v2⟩ := g.size hne hN (ratio := 0.5) (by norm_num)
  obtain ⟨sel, esel, g3, v3⟩ := g2.ratio ⟨0, t1⟩ (by omega) (zPluses_symm (zMed_symm inDot_symm)) (ratio := 0.3) (by norm_num)
  set mat2 := selectDotsBasedSize (realMat b) N 0.5 with hmat2
  obtain ⟨d1, d2, _⟩ := C41_size (realMat b) N 0.5
  obtain ⟨sel', esel', d3, d4, _⟩ := C93_binary (realMat mat2) g2.binary 0.3
  rw [esel] at esel'
  injection esel' with esel'
  subst esel'
  have dh : sel.height = height := d3.trans (d1.trans b1)
  have dw : sel.width = width := d4.trans (d2.trans b2)
  have vsel : ∀ i < height, ∀ j < width, sel.get i j = b.get i j := by
    intro i hi j hj
    rw [v3 i (by rw [show mat2.height = height from d1.trans b1]; exact hi) j (by rw [show mat2.width = width from d2.trans b2]; exact hj),
      v2 i (by omega) j (by omega)]
  have hsame : SameImage (realMat sel) (realMat b) := by
    refine ⟨dh.trans b1.symm, dw.trans b2.symm, fun i hi j hj => ?_⟩
    simp only [realMat]
    rw [vsel i (by rw [← dh]; exact hi) j (by rw [← dw]; exact hj)]
  obtain ⟨eh, ev⟩ := g3.slopes ⟨0, t1⟩ ⟨0, t2⟩ hd ht (by rw [dh]; exact m1) (by rw [dw]; exact m2) hpf has hr hsame hup
  -- the lines
  obtain ⟨pts, ep, hnd, hmem⟩ := lattice g3
  obtain ⟨gh, gv⟩ := group hnd hmem
  have hpne : pts ≠ [] := List.ne_nil_of_mem ((hmem _).2 ⟨0, by omega, 0, by omega, rfl⟩)
  have hw2 : 2 < sel.width := by
    have h1 := hp.size
    omega
  have egh : groupDotsHorImage lib.argsort sel 0 d 0.3 6 0.65 = .ok (latticeRows y0 x0 d K L) := by
    unfold groupDotsHorImage
    rw [if_pos hw2, ep, ok_bind, if_neg hpne, gh]
  have egv : groupDotsVerImage lib.argsort sel 0 d 0.3 6 0.65 = .ok (latticeCols y0 x0 d K L) := by
    unfold groupDotsVerImage
    rw [if_pos hw2, ep, ok_bind, if_neg hpne, gv]
  obtain ⟨rh, rv⟩ := residual_lattice (y0 := y0) (x0 := x0) (d := d) (K := K) (L := L) hpf (by omega) (by omega) 0 (residual := 2) (by norm_num)
  -- the models
  obtain ⟨cb, cf, fg, cbf⟩ := models_lattice (y0 := y0) (x0 := x0) (d := (d : ℝ)) hd0 hK hL hpf hls hn1 hn hn' (minimize := lib.minimize)
  set c : Pt := ⟨y0 + (d : ℝ) / 2, x0 + (d : ℝ) / 2⟩ with hc
  have ecb : correctBackward lib photo (latticeRows y0 x0 d K L) (latticeCols y0 x0 d K L) c (1 :: List.replicate (numCoef - 1) 0) false =
      .ok ⟨1 :: List.replicate (numCoef - 1) 0, false, unwarpImageBackward lib.sample lib.float32 photo c.x c.y (1 :: List.replicate (numCoef - 1) 0),
        latticeRows y0 x0 d K L, latticeCols y0 x0 d K L, false⟩ := by
    unfold correctBackward
    rw [unwarpLineBackward_one hmin, unwarpLineBackward_one hmin]
    simp only [lattice_not_distorted lib hpf has (by omega : 1 ≤ K) (by omega : 1 ≤ L), ok_bind]
  obtain ⟨q1, q2, q3, q4, q5⟩ := hlit
  have mh' : m.height = height := e1
  have mw' : m.width = width := e2
  have hpos : 0 < height ∧ 0 < width := by
    have := hp.size
    omega
  have hib := C04_image_backward lib.sample hS lib.float32 hround photo (by omega) (by omega) c.x c.y (numCoef - 1)
  obtain ⟨mat1, emat, hmat⟩ := flatField_lit ⟨q1, q2, q3, q4, q5⟩ (by omega) (by omega) (flat := light) one_ne_zero
    ⟨rfl, rfl, fun i _ j _ => by simp⟩ store
  have hmat : SameImage mat1 m := by
    obtain ⟨x, y, z⟩ := hmat
    exact ⟨x, y, fun i hi j hj => by rw [z i hi j hj]; simp⟩
  have hb1 : binarization (thresholdOtsu false nbins) mat1 0.3 none true = .ok b := by
    rw [binarization_sameImage hmat (by rw [hmat.1]; omega) (by rw [hmat.2.1]; omega), hb]
  have hnd := lattice_not_distorted (y0 := y0) (x0 := x0) (d := (d : ℝ)) lib hpf has (by omega : 1 ≤ K) (by omega : 1 ≤ L) 0 0
  unfold linesDistorted at hnd
  obtain ⟨hdt, ehd, hnd⟩ := bind_ok_iff.1 hnd
  obtain ⟨vdt, evd, _⟩ := bind_ok_iff.1 hnd
  have hrun : unwarpScript lib fsolve D store args = .ok ⟨⟨b, N, d, sel, 0, 0, latticeRows y0 x0 d K L, latticeCols y0 x0 d K L,
      latticeRows y0 x0 d K L, latticeCols y0 x0 d K L, c, 1 :: List.replicate (numCoef - 1) 0, false, latticeRows y0 x0 d K L,
      latticeCols y0 x0 d K L, false⟩, unwarpImageBackward lib.sample lib.float32 photo c.x c.y (1 :: List.replicate (numCoef - 1) 0)⟩ := by
    unfold unwarpScript
    rw [el1, ok_bind, ef]
    unfold dotImage
    simp only
    rw [el2, ok_bind, emat, ok_bind]
    unfold unwarpSteps
    rw [hotsu, hb1, ok_bind, esd, ok_bind]
    simp only
    rw [hax, ← hmat2, esel, ok_bind, eh, ok_bind, ev, ok_bind, egh, ok_bind, egv, ok_bind, rh, ok_bind, rv, ok_bind]
    rw [ehd, ok_bind, evd, ok_bind]
    have epl : modelLines lib fsolve (latticeRows y0 x0 d K L) (latticeCols y0 x0 d K L) (perspectiveArg args.perspective).isTrue =
        .ok (latticeRows y0 x0 d K L, latticeCols y0 x0 d K L) := by
      cases args.perspective <;> rfl
    rw [epl, ok_bind]
    simp only
    rw [cod_lattice hpf hd0 (by omega) (by omega), ok_bind, eo, cbf, ok_bind]
    simp only
    rw [ecb, ok_bind]
  refine ⟨_, hrun, rfl, ?_, rfl, vsel, rfl, rfl, rfl, rfl, rfl, rfl, rfl, rfl, rfl, rfl, hib⟩
  intro D hD
  obtain ⟨p, hp, q, hq, rfl⟩ := (g.grid.isDot_iff g.lit hne D).1 hD
  rw [hN p hp q hq]

/-! ## Examples -/

/-- A disk with images only, as a table of paths. -/
noncomputable def imageDisk (files : List PyStr → Option (Node Img)) : Disk Img where
  fs := files
  parse := fun _ => .error .osError
  decode := .ok
  h5List := fun _ _ => .error .typeError
  f32 := id

theorem imageDisk_load {files : List PyStr → Option (Node Img)} {p : FilePath} {m : Mat ℝ} (hf : files p.comps = some (.file (.gray m)))
    (hn : ¬ HasHdfName p.name) (key : Option PyStr) : scriptLoad (imageDisk files) p key = .ok m := by
  refine ((C104_load (imageDisk files) p key).2.2 hn).1 m ?_
  unfold loadImageAt readFile imageDisk
  simp only
  rw [hf]
  rfl

theorem no_hdf_name {stem ext : PyStr} (hd : '.' ∉ ext) (h1 : ext ≠ "hdf".toList) (h2 : ext ≠ "nxs".toList) : ¬ HasHdfName (stem ++ '.' :: ext) := by
  rw [← hasHdfName_iff, splitExt_append hd]
  have e1 : ".hdf".toList = '.' :: "hdf".toList := rfl
  have e2 : ".nxs".toList = '.' :: "nxs".toList := rfl
  rw [e1, e2]
  rintro (h | h) <;> split_ifs at h with hc
  · exact h1 (List.cons.inj h).2
  · exact h2 (List.cons.inj h).2

/-- The photograph `photo.tif` of the pattern of 13 × 13 dots under a light that grows from the upper left to the lower right, corrected with
the flat-field `flat.tif`: the centre and the coefficients are those of the drawing, and the corrected image is the photograph. -/
theorem photo_finishes : ∃ (D : Disk Img) (args : UnwarpArgs) (pf : FilePath) (photo light : Mat ℝ) (r : UnwarpRun), scriptLoad D args.input args.key = .ok photo ∧
    args.flat = .file pf ∧ scriptLoad D pf args.key = .ok light ∧ light.get 0 0 ≠ light.get 0 1 ∧
    unwarpScript refLibs (fun _ x => x) D id args = .ok r ∧ r.found.centre = ⟨14, 14⟩ ∧ r.found.coefs = [1, 0, 0, 0, 0] ∧ SameImage r.image photo := by
  obtain ⟨m, b, hm, hb, h⟩ := C104_drawn drawn13 (by norm_num) (by norm_num) (by norm_num) (by norm_num) (by norm_num) (by norm_num)
    drawn13_middle drawn13_middle 5 (by norm_num) (by norm_num) (by norm_num) refLibs refPolyfit_spec refArgsort_spec refLstsq_spec
    refMinimize_exact (fun _ _ => ⟨by simp [refLibs], rfl⟩) (linearInterp_interpolates _) coordRounding_id 512 (by norm_num) rfl rfl (fun _ x => x)
  set light : Mat ℝ := ⟨m.height, m.width, fun i j => 1 + i + j⟩ with hlight
  set photo : Mat ℝ := ⟨m.height, m.width, fun i j => (1 + i + j) * m.get i j⟩ with hphoto
  set files : List PyStr → Option (Node Img) := fun q =>
    if q = ["photo.tif".toList] then some (.file (.gray photo)) else if q = ["flat.tif".toList] then some (.file (.gray light)) else none with hfiles
  have l1 : scriptLoad (imageDisk files) ⟨[], "photo.tif".toList⟩ none = .ok photo := imageDisk_load (by rw [hfiles]; rfl)
    (no_hdf_name (stem := "photo".toList) (ext := "tif".toList) (by decide) (by decide) (by decide)) none
  have l2 : scriptLoad (imageDisk files) ⟨[], "flat.tif".toList⟩ none = .ok light := imageDisk_load (by rw [hfiles]; rfl)
    (no_hdf_name (stem := "flat".toList) (ext := "tif".toList) (by decide) (by decide) (by decide)) none
  obtain ⟨r, e, _, _, _, _, _, _, _, _, hc, hco, _, _, _, _, hi⟩ := h (refLibs_upright _ _) Img (imageDisk files) id
    ⟨⟨[], "photo.tif".toList⟩, none, .file ⟨[], "flat.tif".toList⟩, 5, some "True".toList⟩ ⟨[], "flat.tif".toList⟩ photo light rfl rfl l1 l2
    ⟨rfl, rfl, rfl, rfl, fun i _ j _ => ⟨by simp only [hlight]; positivity, rfl⟩⟩
  exact ⟨_, _, _, photo, light, r, l1, rfl, l2, by norm_num [hlight], e, by rw [hc]; norm_num, by rw [hco]; rfl, hi⟩

/-- A flat-field with a single column is accepted for an image with three. -/
example : ∃ out, flatField id ⟨2, 3, fun i j => i + j + 1⟩ ⟨2, 1, fun i _ => if i = 0 then 0 else 4⟩ = .ok out ∧ out.get 0 2 = 3 / 2 ∧ out.get 1 2 = 1 := by
  obtain ⟨out, e, _, _, h⟩ := ((C104_flat id (⟨2, 3, fun i j => (i : ℝ) + j + 1⟩ : Mat ℝ) ⟨2, 1, fun i _ => if i = 0 then 0 else 4⟩).2.2 rfl (.inr rfl)
    (by norm_num) (by norm_num) 2 (by norm_num [IsImageMean, Finset.sum_range_succ])).2 (.inl (by norm_num))
  refine ⟨out, e, ?_, ?_⟩
  · have := (h 0 (by norm_num) 2 (by norm_num) 2 ⟨0, .inr ⟨rfl, rfl⟩, by simp, by simp⟩).2
    norm_num at this
    linarith
  · have := (h 1 (by norm_num) 2 (by norm_num) 4 ⟨0, .inr ⟨rfl, rfl⟩, by simp, by simp⟩).2
    norm_num at this
    linarith

/-- A file `stack.h5` cannot be loaded even if h5py reads it. -/
example (f : H5File) : scriptLoad (⟨fun _ => some (.file ()), fun _ => .ok f, fun _ => .error .osError, fun _ _ => .error .typeError, id⟩ : Disk Unit)
    ⟨[], "stack.h5".toList⟩ none = .error .valueError :=
  C104_extension _ _ none "stack".toList "h5".toList rfl (by decide) (by decide) (by decide) fun _ _ => ⟨_, rfl⟩

/-- A stack of two copies of an image in `stack.nxs`. -/
example : ∃ m, scriptLoad (⟨fun _ => some (.file ()), fun _ => .ok [("data".toList, .dataset ⟨[2, 1, 2], fun idx => (idx.getLastD 0 : ℕ)⟩ [])],
      fun _ => .error .osError, fun _ _ => .error .typeError, id⟩ : Disk Unit) ⟨[], "stack.nxs".toList⟩ (some "data".toList) = .ok m ∧
    SameImage m ⟨1, 2, fun _ j => j⟩ :=
  C104_copies _ _ _ ⟨"stack".toList, ⟨'s', by decide, by decide⟩, .inr rfl⟩ ⟨[2, 1, 2], fun idx => (idx.getLastD 0 : ℕ)⟩ 2 1 2 (by rfl) rfl (by norm_num) _
    fun _ _ _ _ _ _ => rfl

/-- What the theorems say about the run for the photograph. -/
example : ∃ (D : Disk Img) (args : UnwarpArgs) (photo : Mat ℝ) (r : UnwarpRun), unwarpScript refLibs (fun _ x => x) D id args = .ok r ∧
    (∃ pts, CentresOf r.found.selected pts ∧ AreLinesOf Pt.x pts r.found.hor ∧ AreLinesOf Pt.y pts r.found.ver) ∧
    (∃ mat0, scriptLoad D args.input args.key = .ok mat0) ∧
    (∃ roi, IsMiddlePart (realMat r.found.binarized) 0.5 roi) ∧
    IsVerdict r.found.unwarpedHor r.found.unwarpedVer r.found.centre r.found.bad ∧
    ReadsBackward refLibs.sample refLibs.float32 photo r.found.centre r.found.coefs r.image := by
  obtain ⟨D, args, _, photo, _, r, l, -, -, -, h, -⟩ := photo_finishes
  obtain ⟨roi, _, hr, -⟩ := C104_size refLibs _ D id args r h
  obtain ⟨⟨mat0, _, h0, -⟩, -⟩ := C104_stages refLibs _ D id args r h
  exact ⟨D, args, photo, r, h, (C104_lines refLibs refPolyfit_spec refArgsort_spec _ D id args r h).2.2.2, ⟨mat0, h0⟩, ⟨roi, hr⟩,
    (C104_model refLibs refPolyfit_spec refArgsort_spec _ D id args r h).2.2, (C104_correction refLibs _ D id args r h photo l).1⟩

/-- The surface of a small photograph under a light that grows to the right, and the same with a flat-field twice as bright. -/
example : ∃ (D : Disk Img) (args args' : UnwarpArgs), (unwarpScript refLibs (fun _ x => x) D id args).map UnwarpRun.found =
    (unwarpScript refLibs (fun _ x => x) D id args').map UnwarpRun.found ∧ args.input ≠ args'.input := by
  set light : Mat ℝ := ⟨2, 3, fun _ j => 1 + j⟩ with hlight
  set surface : Mat ℝ := ⟨2, 3, fun i j => i + 2 * j⟩ with hsurface
  set photo : Mat ℝ := ⟨2, 3, fun i j => (1 + j) * (i + 2 * j)⟩ with hphoto
  set flat : Mat ℝ := ⟨2, 3, fun _ j => 2 * (1 + j)⟩ with hflat
  set files : List PyStr → Option (Node Img) := fun q =>
    if q = ["photo.tif".toList] then some (.file (.gray photo)) else if q = ["flat.tif".toList] then some (.file (.gray flat))
    else if q = ["light.tif".toList] then some (.file (.gray light)) else if q = ["page.tif".toList] then some (.file (.gray surface)) else none with hfiles
  have l1 : scriptLoad (imageDisk files) ⟨[], "photo.tif".toList⟩ none = .ok photo := imageDisk_load (by rw [hfiles]; rfl)
    (no_hdf_name (stem := "photo".toList) (ext := "tif".toList) (by decide) (by decide) (by decide)) none
  have l2 : scriptLoad (imageDisk files) ⟨[], "flat.tif".toList⟩ none = .ok flat := imageDisk_load (by rw [hfiles]; rfl)
    (no_hdf_name (stem := "flat".toList) (ext := "tif".toList) (by decide) (by decide) (by decide)) none
  have l3 : scriptLoad (imageDisk files) ⟨[], "page.tif".toList⟩ none = .ok surface := imageDisk_load (by rw [hfiles]; rfl)
    (no_hdf_name (stem := "page".toList) (ext := "tif".toList) (by decide) (by decide) (by decide)) none
  have l4 : scriptLoad (imageDisk files) ⟨[], "light.tif".toList⟩ none = .ok light := imageDisk_load (by rw [hfiles]; rfl)
    (no_hdf_name (stem := "light".toList) (ext := "tif".toList) (by decide) (by decide) (by decide)) none
  have hl : IsLitBy photo light surface := ⟨rfl, rfl, rfl, rfl, fun i _ j _ => ⟨by simp only [hlight]; positivity, rfl⟩⟩
  have e1 := C104_illumination refLibs (fun _ x => x) (imageDisk files) id ⟨⟨[], "photo.tif".toList⟩, none, .none, 5, some "True".toList⟩
    ⟨[], "light.tif".toList⟩ ⟨[], "page.tif".toList⟩ photo light surface hl (by norm_num [hphoto]) (by norm_num [hphoto]) l1 l4 l3
  have e2 := C104_exposure refLibs 512 (by norm_num) rfl (fun _ x => x) (imageDisk files) id
    ⟨⟨[], "photo.tif".toList⟩, none, .none, 5, some "True".toList⟩ ⟨[], "flat.tif".toList⟩ ⟨[], "page.tif".toList⟩ photo light surface flat hl
    (by norm_num [hphoto]) (by norm_num [hphoto]) 2 (by norm_num) ⟨rfl, rfl, fun i _ j _ => rfl⟩ l1 l2 l3
  exact ⟨_, _, _, e2, by decide⟩

/-- The theorem for the pattern of 13 × 13 dots. -/
example := C104_drawn drawn13 (by norm_num) (by norm_num) (by norm_num) (by norm_num) (by norm_num) (by norm_num) drawn13_middle drawn13_middle 5 (by norm_num)
  (by norm_num) (by norm_num) refLibs refPolyfit_spec refArgsort_spec refLstsq_spec refMinimize_exact (fun _ _ => ⟨by simp [refLibs], rfl⟩)
  (linearInterp_interpolates _) coordRounding_id 512 (by norm_num) rfl rfl (fun _ x => x)

end Discorpy
