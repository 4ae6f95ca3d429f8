import Verif.Lemmas.RoverScript
import Verif.Props.C56
import Verif.Props.C70
import Verif.Props.C91

/-! # C109 — correction without a calibration pattern -/

namespace Discorpy

open Spec

/-! ## The ruled sheet over the photograph -/

/-- **C109 (sheet).** The warped sheet of demo_08.py (unrotated, `b = 2`) and of forward_model_estimation.py (`b = 1`) shows at each pixel, up to the
rounding of coordinates, the brightness of straight lines at the row to which the forward model moves the pixel: the photograph of a straight line is
where the sheet is bright. -/
theorem C109_sheet (B : Boundary) (rnd : ℝ → ℝ) (hr : CoordRounding rnd) (h w pad : ℕ) (b : ℤ) (hb0 : 0 ≤ b) (hb : b ≤ 19) (δ : ℝ)
    (hδ : ∀ v, 0 ≤ v → v ≤ max ((pad + h + pad : ℕ) : ℝ) (pad + w + pad : ℕ) → |rnd v - v| ≤ δ)
    (h1 : pad + h + pad ≤ 2 ^ 24) (w1 : pad + w + pad ≤ 2 ^ 24) (xc yc : ℝ) (f : List ℝ) (i j : ℕ) (hi : i < h) (hj : j < w) :
    ∃ v, RuledBrightness h b (radialMap ⟨yc, xc⟩ f ⟨i, j⟩).y v ∧
      |(warpedSheet (linearInterp B) rnd (padFrame (ruledSheet h w b) pad) pad h w xc yc f).get i j - v| ≤ δ := by
  obtain ⟨s1, s2, _⟩ := ruledSheet_get (h := h) (w := w) hb0 hb
  refine warped_rounded B hr hb0 hb pad (fun v h0 hv => hδ v h0 (hv.trans ?_)) h1 w1 xc yc f hi hj
  simp only [padFrame, s1, s2]
  exact max_le_max (by linarith) (by linarith)

/-- **C109 (padding).** Apart from the rounding of coordinates the padding of the sheet changes nothing, as long as the sheet is not rotated. -/
theorem C109_padding (B B' : Boundary) (h w pad pad' : ℕ) (b : ℤ) (hb0 : 0 ≤ b) (hb : b ≤ 19) (xc yc : ℝ) (f : List ℝ) (i j : ℕ) (hi : i < h) (hj : j < w) :
    (warpedSheet (linearInterp B) id (padFrame (ruledSheet h w b) pad) pad h w xc yc f).get i j =
      (warpedSheet (linearInterp B') id (padFrame (ruledSheet h w b) pad') pad' h w xc yc f).get i j :=
  ruled_unique hb (warped_exact B hb0 hb pad xc yc f hi hj) (warped_exact B' hb0 hb pad' xc yc f hi hj)

/-- **C109 (overlay).** forward_model_estimation.py saves the photograph divided by its maximum plus half the brightness of the warped lines; the
centre lies `(dx, dy)` from the middle of the image. The script fails exactly when the maximum is zero. -/
theorem C109_overlay (B : Boundary) (rnd : ℝ → ℝ) (hr : CoordRounding rnd) (img : Img) (m : Mat ℝ) (hload : loadImageData img true = .ok (.gray m))
    (top : ℝ) (htop : IsTop m top) (dx dy : ℝ) (f : List ℝ) (δ : ℝ)
    (hδ : ∀ v, 0 ≤ v → v ≤ max ((m.width + m.height + m.width : ℕ) : ℝ) (m.width + m.width + m.width : ℕ) → |rnd v - v| ≤ δ)
    (h1 : m.width + m.height + m.width ≤ 2 ^ 24) (w1 : m.width + m.width + m.width ≤ 2 ^ 24) :
    (top = 0 → estimateForward (linearInterp B) rnd img dx dy f = .error .nonFinite) ∧
    (top ≠ 0 → ∃ out, estimateForward (linearInterp B) rnd img dx dy f = .ok out ∧ out.height = m.height ∧ out.width = m.width ∧
      ∀ i < m.height, ∀ j < m.width, ∃ v,
        RuledBrightness m.height 1 (radialMap ⟨(m.height : ℝ) / 2 + dy, (m.width : ℝ) / 2 + dx⟩ f ⟨i, j⟩).y v ∧
        |out.get i j - (m.get i j / top + v / 2)| ≤ δ / 2) := by
  unfold estimateForward
  rw [hload, ok_bind]
  simp only [scaleToMax_ok htop]
  constructor
  · intro h0
    rw [if_pos h0]
    rfl
  · intro h0
    rw [if_neg h0, ok_bind]
    refine ⟨_, rfl, rfl, rfl, fun i hi j hj => ?_⟩
    obtain ⟨v, hv, hd⟩ := C109_sheet B rnd hr m.height m.width m.width 1 (by norm_num) (by norm_num) δ hδ h1 w1 ((m.width : ℝ) / 2 + dx)
      ((m.height : ℝ) / 2 + dy) f i j hi hj
    refine ⟨v, hv, ?_⟩
    simp only [overlay]
    rw [show ∀ a s : ℝ, a + 0.5 * s - (a + v / 2) = (s - v) / 2 from fun a s => by ring, abs_div, abs_of_pos (by norm_num : (0 : ℝ) < 2)]
    linarith

/-! ## The scans of demo_08.py -/

/-- **C109 (scan of a coefficient).** `scan_coef` saves into the first folder that does not exist yet two images for each value
`start, start + step, …` below `stop + step`: the overlay for the model with this value added to the coefficient, and the photograph unwarped by the
best inverse of that model. No name is used twice if the step is larger than 0.01. -/
theorem C109_scan_coef (lstsq : LstsqFn) (hl : LstsqSpec lstsq) (S : Sampler) (rnd : ℝ → ℝ) (isdir : PyStr → Bool) (hfin : {s | isdir s = true}.Finite)
    (idx : ℕ) (start stop step : ℝ) (hs : 0 < step) (coef power : List ℝ) (hlen : power.length = coef.length) (hidx : idx < coef.length)
    (hnum : coef.length ≤ 2000) (mat0 matPad : Mat ℝ) (hh0 : 0 < mat0.height) (hw0 : 0 < mat0.width) (hh : mat0.height ≤ 32767) (hw : mat0.width ≤ 32767)
    (pad : ℕ) (xc yc : ℝ) (ntime : ℕ)
    (hne : ∀ (k : ℕ) f, start + k * step < stop + step → IsTried coef power idx (start + k * step) f →
      ∃ p ∈ spreadPoints mat0.height mat0.width, radial f (ptDist p ⟨yc, xc⟩) ≠ 0) :
    ∃ files folder N, scanCoef lstsq S rnd isdir idx start stop step coef power mat0 matPad pad xc yc ntime true = .ok files ∧
      IsNewFolder isdir ("/coef_".toList ++ Nat.toDigits 10 idx) ntime folder ∧ IsScanLength start stop step N ∧ files.length = 2 * N ∧
      (1 / 100 < step → (files.map Prod.fst).Nodup) ∧
      ∀ k < N, ∃ name f g out, name = "coef_".toList ++ Nat.toDigits 10 idx ++ "_val_".toList ++ fmtFixed2 4 (coef.getD idx 0 + (start + k * step)) ∧
        IsTried coef power idx (start + k * step) f ∧ IsInverseFit ⟨yc, xc⟩ (spreadPoints mat0.height mat0.width) f g ∧
        files[2 * k]? = some (folder ++ "/forward/img_".toList ++ name ++ ".jpg".toList,
          overlay mat0 (warpedSheet S rnd matPad pad mat0.height mat0.width xc yc f)) ∧
        files[2 * k + 1]? = some (folder ++ "/backward/img_".toList ++ name ++ ".jpg".toList, out) ∧ ReadsBackward S rnd mat0 ⟨yc, xc⟩ g out := by
  obtain ⟨folder, e1, hf⟩ := scanFolder_ok hfin ("/coef_".toList ++ Nat.toDigits 10 idx) ntime
  have hN := scanLength_spec (start := start) (stop := stop) hs
  set N := scanLength start stop step with hNdef
  let name := fun k : ℕ => "coef_".toList ++ Nat.toDigits 10 idx ++ "_val_".toList ++ fmtFixed2 4 (coef[idx] + (start + k * step))
  have hturn : ∀ k < N, ∃ f g, IsTried coef power idx (start + k * step) f ∧ IsInverseFit ⟨yc, xc⟩ (spreadPoints mat0.height mat0.width) f g ∧
      timesPowers power (coef.set idx (coef[idx] + (start + k * step))) = .ok f ∧
      scanTurn lstsq S rnd mat0 matPad pad xc yc xc yc f folder (name k) true =
        .ok [(folder ++ "/forward/img_".toList ++ name k ++ ".jpg".toList, overlay mat0 (warpedSheet S rnd matPad pad mat0.height mat0.width xc yc f)),
          (folder ++ "/backward/img_".toList ++ name k ++ ".jpg".toList, unwarpImageBackward S rnd mat0 xc yc g)] := by
    intro k hk
    obtain ⟨f, ef, hf⟩ := timesPowers_tried hlen hidx (start + k * step)
    obtain ⟨g, hg, eg⟩ := scanTurn_ok hl S rnd mat0 matPad pad xc yc xc yc f folder (name k) hh hw (hf.1.le.trans hnum) (hne k f ((hN k).1 hk) hf)
    exact ⟨f, g, hf, hg, ef, eg⟩
  choose! f g h1 h2 h3 h4 using hturn
  let a := fun k : ℕ => (folder ++ "/forward/img_".toList ++ name k ++ ".jpg".toList, overlay mat0 (warpedSheet S rnd matPad pad mat0.height mat0.width xc yc (f k)))
  let b := fun k : ℕ => (folder ++ "/backward/img_".toList ++ name k ++ ".jpg".toList, unwarpImageBackward S rnd mat0 xc yc (g k))
  obtain ⟨q1, q2⟩ := flatten_pairs a b (List.range N)
  refine ⟨((List.range N).map fun k => [a k, b k]).flatten, folder, N, ?_, hf, hN, by simpa using q1, fun hstep => ?_, fun k hk => ?_⟩
  · unfold scanCoef
    rw [e1, ok_bind, scanValues_ok hs.ne', ok_bind]
    have em : ((List.range N).map fun k : ℕ => start + (k : ℝ) * step).mapM (fun num => (do
        let old ← npGet coef idx
        let est := coef.set idx (old + num)
        let ffact ← timesPowers power est
        let name := "coef_".toList ++ Nat.toDigits 10 idx ++ "_val_".toList ++ fmtFixed2 4 (old + num)
        scanTurn lstsq S rnd mat0 matPad pad xc yc xc yc ffact folder name true : Except PyErr (List (PyStr × Mat ℝ)))) =
        .ok ((List.range N).map fun k => [a k, b k]) := by
      rw [mapM_ok_iff, List.forall₂_map_left_iff, List.forall₂_map_right_iff, List.forall₂_same]
      intro k hk
      rw [npGet_of_lt hidx, ok_bind]
      simp only
      rw [h3 k (List.mem_range.1 hk), ok_bind]
      exact h4 k (List.mem_range.1 hk)
    rw [← hNdef, em, ok_bind]
  · have e : (((List.range N).map fun k => [a k, b k]).flatten).map Prod.fst = ((List.range N).map fun k => [(a k).1, (b k).1]).flatten := by
      rw [List.map_flatten, List.map_map]
      rfl
    rw [e]
    have hn : ∀ i j, name i = name j → i = j := by
      intro i j hij
      have hh := fmtFixed2_near (List.append_cancel_left hij)
      by_contra hne
      have hge : (1 : ℝ) ≤ |(i : ℝ) - j| := by
        have : (1 : ℤ) ≤ |(i : ℤ) - j| := Int.one_le_abs (by omega)
        exact_mod_cast this
      rw [show coef[idx] + (start + (i : ℝ) * step) - (coef[idx] + (start + j * step)) = ((i : ℝ) - j) * step by ring, abs_mul, abs_of_pos hs] at hh
      nlinarith
    exact flatten_nodup _ _ _ (fun i j _ _ hij => hn i j (scan_paths.1 hij)) (fun i j _ _ hij => hn i j (scan_paths.2.1 hij)) fun i j => scan_paths.2.2
  · refine ⟨name k, f k, g k, _, ?_, h1 k hk, h2 k hk, ?_, ?_, reads_unwarp hh0 hw0 xc yc (g k)⟩
    · rw [List.getD_eq_getElem _ _ hidx]
    · rw [(q2 k).1]
      simp [hk, a]
    · rw [(q2 k).2]
      simp [hk, b]

/-- **C109 (scan of the centre).** `scan_center` does the same with the centre moved by each value along one axis (the first for `axis="x"`, the
second for any other string); the model stays, and so does its inverse: it is always fitted around the centre that is not moved. -/
theorem C109_scan_centre (lstsq : LstsqFn) (hl : LstsqSpec lstsq) (S : Sampler) (rnd : ℝ → ℝ) (isdir : PyStr → Bool) (hfin : {s | isdir s = true}.Finite)
    (axis : PyStr) (start stop step : ℝ) (hs : 0 < step) (coef power : List ℝ) (hlen : power.length = coef.length)
    (hnum : coef.length ≤ 2000) (mat0 matPad : Mat ℝ) (hh0 : 0 < mat0.height) (hw0 : 0 < mat0.width) (hh : mat0.height ≤ 32767) (hw : mat0.width ≤ 32767)
    (pad : ℕ) (xc yc : ℝ) (ntime : ℕ)
    (hne : ∀ f, IsTried coef power 0 0 f → ∃ p ∈ spreadPoints mat0.height mat0.width, radial f (ptDist p ⟨yc, xc⟩) ≠ 0) :
    ∃ files folder N f g, scanCenter lstsq S rnd isdir xc yc start stop step coef power mat0 matPad pad axis ntime true = .ok files ∧
      IsNewFolder isdir ("/".toList ++ axis ++ "_center".toList) ntime folder ∧ IsScanLength start stop step N ∧ files.length = 2 * N ∧
      IsTried coef power 0 0 f ∧ IsInverseFit ⟨yc, xc⟩ (spreadPoints mat0.height mat0.width) f g ∧
      (1 / 100 < step → (files.map Prod.fst).Nodup) ∧
      ∀ k < N, ∃ name c out,
        (axis = "x".toList → c = ⟨yc, xc + (start + k * step)⟩ ∧ name = "xcenter_".toList ++ fmtFixed2 7 c.x) ∧
        (axis ≠ "x".toList → c = ⟨yc + (start + k * step), xc⟩ ∧ name = "ycenter_".toList ++ fmtFixed2 7 c.y) ∧
        files[2 * k]? = some (folder ++ "/forward/img_".toList ++ name ++ ".jpg".toList,
          overlay mat0 (warpedSheet S rnd matPad pad mat0.height mat0.width c.x c.y f)) ∧
        files[2 * k + 1]? = some (folder ++ "/backward/img_".toList ++ name ++ ".jpg".toList, out) ∧ ReadsBackward S rnd mat0 c g out := by
  obtain ⟨folder, e1, hf⟩ := scanFolder_ok hfin ("/".toList ++ axis ++ "_center".toList) ntime
  have hN := scanLength_spec (start := start) (stop := stop) hs
  set N := scanLength start stop step with hNdef
  obtain ⟨f, ef, hfT⟩ := timesPowers_same hlen
  obtain ⟨g, e, hg⟩ := transformCoef_fit hl ⟨yc, xc⟩ (spreadPoints mat0.height mat0.width) f "backward"
    (by unfold spreadPoints; simpa using hfT.1.le.trans hnum) (hne f hfT)
  have hturn : ∀ (xt yt : ℝ) (name : PyStr), scanTurn lstsq S rnd mat0 matPad pad xc yc xt yt f folder name true =
        .ok [(folder ++ "/forward/img_".toList ++ name ++ ".jpg".toList, overlay mat0 (warpedSheet S rnd matPad pad mat0.height mat0.width xt yt f)),
          (folder ++ "/backward/img_".toList ++ name ++ ".jpg".toList, unwarpImageBackward S rnd mat0 xt yt g)] := by
    intro xt yt name
    unfold scanTurn
    rw [scanRefPoints_eq hh hw]
    simp only [if_true, e, ok_bind]
  have apart : ∀ (z : ℝ) (w : ℕ) (i j : ℕ), 1 / 100 < step → fmtFixed2 w (z + (start + i * step)) = fmtFixed2 w (z + (start + j * step)) → i = j := by
    intro z w i j hstep hij
    have hd := fmtFixed2_near hij
    by_contra hne
    have hge : (1 : ℝ) ≤ |(i : ℝ) - j| := by
      have : (1 : ℤ) ≤ |(i : ℤ) - j| := Int.one_le_abs (by omega)
      exact_mod_cast this
    rw [show z + (start + (i : ℝ) * step) - (z + (start + j * step)) = ((i : ℝ) - j) * step by ring, abs_mul, abs_of_pos hs] at hd
    nlinarith
  by_cases hax : axis = "x".toList
  · let name := fun k : ℕ => "xcenter_".toList ++ fmtFixed2 7 (xc + (start + k * step))
    let a := fun k : ℕ => (folder ++ "/forward/img_".toList ++ name k ++ ".jpg".toList,
      overlay mat0 (warpedSheet S rnd matPad pad mat0.height mat0.width (xc + (start + k * step)) yc f))
    let b := fun k : ℕ => (folder ++ "/backward/img_".toList ++ name k ++ ".jpg".toList, unwarpImageBackward S rnd mat0 (xc + (start + k * step)) yc g)
    obtain ⟨q1, q2⟩ := flatten_pairs a b (List.range N)
    refine ⟨((List.range N).map fun k => [a k, b k]).flatten, folder, N, f, g, ?_, hf, hN, by simpa using q1, hfT, hg, fun hstep => ?_, fun k hk => ?_⟩
    · unfold scanCenter
      rw [e1, ok_bind, ef, ok_bind, scanValues_ok hs.ne', ok_bind, if_pos hax]
      have em : ((List.range N).map fun k : ℕ => start + (k : ℝ) * step).mapM (fun num =>
          scanTurn lstsq S rnd mat0 matPad pad xc yc (xc + num) yc f folder ("xcenter_".toList ++ fmtFixed2 7 (xc + num)) true) =
          .ok ((List.range N).map fun k => [a k, b k]) := by
        rw [mapM_ok_iff, List.forall₂_map_left_iff, List.forall₂_map_right_iff, List.forall₂_same]
        intro k _
        exact hturn _ _ _
      rw [← hNdef, em, ok_bind]
    · have e : (((List.range N).map fun k => [a k, b k]).flatten).map Prod.fst = ((List.range N).map fun k => [(a k).1, (b k).1]).flatten := by
        rw [List.map_flatten, List.map_map]
        rfl
      rw [e]
      have hn : ∀ i j, name i = name j → i = j := fun i j hij => apart xc 7 i j hstep (List.append_cancel_left hij)
      exact flatten_nodup _ _ _ (fun i j _ _ hij => hn i j (scan_paths.1 hij)) (fun i j _ _ hij => hn i j (scan_paths.2.1 hij)) fun i j => scan_paths.2.2
    · refine ⟨name k, ⟨yc, xc + (start + k * step)⟩, _, fun _ => ⟨rfl, rfl⟩, fun h => absurd hax h, ?_, ?_, reads_unwarp hh0 hw0 (xc + (start + k * step)) yc g⟩
      · rw [(q2 k).1]
        simp [hk, a]
      · rw [(q2 k).2]
        simp [hk, b]
  · let name := fun k : ℕ => "ycenter_".toList ++ fmtFixed2 7 (yc + (start + k * step))
    let a := fun k : ℕ => (folder ++ "/forward/img_".toList ++ name k ++ ".jpg".toList,
      overlay mat0 (warpedSheet S rnd matPad pad mat0.height mat0.width xc (yc + (start + k * step)) f))
    let b := fun k : ℕ => (folder ++ "/backward/img_".toList ++ name k ++ ".jpg".toList, unwarpImageBackward S rnd mat0 xc (yc + (start + k * step)) g)
    obtain ⟨q1, q2⟩ := flatten_pairs a b (List.range N)
    refine ⟨((List.range N).map fun k => [a k, b k]).flatten, folder, N, f, g, ?_, hf, hN, by simpa using q1, hfT, hg, fun hstep => ?_, fun k hk => ?_⟩
    · unfold scanCenter
      rw [e1, ok_bind, ef, ok_bind, scanValues_ok hs.ne', ok_bind, if_neg hax]
      have em : ((List.range N).map fun k : ℕ => start + (k : ℝ) * step).mapM (fun num =>
          scanTurn lstsq S rnd mat0 matPad pad xc yc xc (yc + num) f folder ("ycenter_".toList ++ fmtFixed2 7 (yc + num)) true) =
          .ok ((List.range N).map fun k => [a k, b k]) := by
        rw [mapM_ok_iff, List.forall₂_map_left_iff, List.forall₂_map_right_iff, List.forall₂_same]
        intro k _
        exact hturn _ _ _
      rw [← hNdef, em, ok_bind]
    · have e : (((List.range N).map fun k => [a k, b k]).flatten).map Prod.fst = ((List.range N).map fun k => [(a k).1, (b k).1]).flatten := by
        rw [List.map_flatten, List.map_map]
        rfl
      rw [e]
      have hn : ∀ i j, name i = name j → i = j := fun i j hij => apart yc 7 i j hstep (List.append_cancel_left hij)
      exact flatten_nodup _ _ _ (fun i j _ _ hij => hn i j (scan_paths.1 hij)) (fun i j _ _ hij => hn i j (scan_paths.2.1 hij)) fun i j => scan_paths.2.2
    · refine ⟨name k, ⟨yc + (start + k * step), xc⟩, _, fun h => absurd h hax, fun _ => ⟨rfl, rfl⟩, ?_, ?_, reads_unwarp hh0 hw0 xc (yc + (start + k * step)) g⟩
      · rw [(q2 k).1]
        simp [hk, a]
      · rw [(q2 k).2]
        simp [hk, b]

/-- **C109 (forward only).** With `backward=False` a scan saves the overlays only. -/
theorem C109_forward_only (lstsq : LstsqFn) (S : Sampler) (rnd : ℝ → ℝ) (isdir : PyStr → Bool) (hfin : {s | isdir s = true}.Finite)
    (idx : ℕ) (axis : PyStr) (start stop step : ℝ) (hs : 0 < step) (coef power : List ℝ) (hlen : power.length = coef.length) (hidx : idx < coef.length)
    (mat0 matPad : Mat ℝ) (pad : ℕ) (xc yc : ℝ) (ntime : ℕ) :
    (∃ files folder N, scanCoef lstsq S rnd isdir idx start stop step coef power mat0 matPad pad xc yc ntime false = .ok files ∧
      IsNewFolder isdir ("/coef_".toList ++ Nat.toDigits 10 idx) ntime folder ∧ IsScanLength start stop step N ∧ files.length = N ∧
      ∀ k < N, ∃ name f, name = "coef_".toList ++ Nat.toDigits 10 idx ++ "_val_".toList ++ fmtFixed2 4 (coef.getD idx 0 + (start + k * step)) ∧
        IsTried coef power idx (start + k * step) f ∧
        files[k]? = some (folder ++ "/forward/img_".toList ++ name ++ ".jpg".toList,
          overlay mat0 (warpedSheet S rnd matPad pad mat0.height mat0.width xc yc f))) ∧
    (∃ files folder N f, scanCenter lstsq S rnd isdir xc yc start stop step coef power mat0 matPad pad axis ntime false = .ok files ∧
      IsNewFolder isdir ("/".toList ++ axis ++ "_center".toList) ntime folder ∧ IsScanLength start stop step N ∧ files.length = N ∧
      IsTried coef power 0 0 f ∧
      ∀ k < N, ∃ (name : PyStr) (c : Pt),
        (axis = "x".toList → c = ⟨yc, xc + (start + k * step)⟩ ∧ name = "xcenter_".toList ++ fmtFixed2 7 c.x) ∧
        (axis ≠ "x".toList → c = ⟨yc + (start + k * step), xc⟩ ∧ name = "ycenter_".toList ++ fmtFixed2 7 c.y) ∧
        files[k]? = some (folder ++ "/forward/img_".toList ++ name ++ ".jpg".toList,
          overlay mat0 (warpedSheet S rnd matPad pad mat0.height mat0.width c.x c.y f))) := by
  have hN := scanLength_spec (start := start) (stop := stop) hs
  set N := scanLength start stop step with hNdef
  have single : ∀ a : ℕ → PyStr × Mat ℝ, ((List.range N).map fun k => [a k]).flatten = (List.range N).map a := by
    intro a
    rw [← List.flatMap_def]
    simp [← List.map_eq_flatMap]
  constructor
  · obtain ⟨folder, e1, hf⟩ := scanFolder_ok hfin ("/coef_".toList ++ Nat.toDigits 10 idx) ntime
    let name := fun k : ℕ => "coef_".toList ++ Nat.toDigits 10 idx ++ "_val_".toList ++ fmtFixed2 4 (coef[idx] + (start + k * step))
    have hturn : ∀ k : ℕ, ∃ f, IsTried coef power idx (start + k * step) f ∧ timesPowers power (coef.set idx (coef[idx] + (start + k * step))) = .ok f := by
      intro k
      obtain ⟨f, ef, hf⟩ := timesPowers_tried hlen hidx (start + k * step)
      exact ⟨f, hf, ef⟩
    choose f h1 h3 using hturn
    let a := fun k : ℕ => (folder ++ "/forward/img_".toList ++ name k ++ ".jpg".toList, overlay mat0 (warpedSheet S rnd matPad pad mat0.height mat0.width xc yc (f k)))
    refine ⟨(List.range N).map a, folder, N, ?_, hf, hN, by simp, fun k hk => ⟨name k, f k, ?_, h1 k, by simp [hk, a]⟩⟩
    · unfold scanCoef
      rw [e1, ok_bind, scanValues_ok hs.ne', ok_bind]
      have em : ((List.range N).map fun k : ℕ => start + (k : ℝ) * step).mapM (fun num => (do
          let old ← npGet coef idx
          let est := coef.set idx (old + num)
          let ffact ← timesPowers power est
          let name := "coef_".toList ++ Nat.toDigits 10 idx ++ "_val_".toList ++ fmtFixed2 4 (old + num)
          scanTurn lstsq S rnd mat0 matPad pad xc yc xc yc ffact folder name false : Except PyErr (List (PyStr × Mat ℝ)))) =
          .ok ((List.range N).map fun k => [a k]) := by
        rw [mapM_ok_iff, List.forall₂_map_left_iff, List.forall₂_map_right_iff, List.forall₂_same]
        intro k hk
        rw [npGet_of_lt hidx, ok_bind]
        simp only
        rw [h3 k, ok_bind]
        rfl
      rw [← hNdef, em, ok_bind, single]
    · rw [List.getD_eq_getElem _ _ hidx]
  · obtain ⟨folder, e1, hf⟩ := scanFolder_ok hfin ("/".toList ++ axis ++ "_center".toList) ntime
    obtain ⟨f, ef, hfT⟩ := timesPowers_same hlen
    by_cases hax : axis = "x".toList
    · let name := fun k : ℕ => "xcenter_".toList ++ fmtFixed2 7 (xc + (start + k * step))
      let a := fun k : ℕ => (folder ++ "/forward/img_".toList ++ name k ++ ".jpg".toList,
        overlay mat0 (warpedSheet S rnd matPad pad mat0.height mat0.width (xc + (start + k * step)) yc f))
      refine ⟨(List.range N).map a, folder, N, f, ?_, hf, hN, by simp, hfT,
        fun k hk => ⟨name k, ⟨yc, xc + (start + k * step)⟩, fun _ => ⟨rfl, rfl⟩, fun h => absurd hax h, by simp [hk, a]⟩⟩
      unfold scanCenter
      rw [e1, ok_bind, ef, ok_bind, scanValues_ok hs.ne', ok_bind, if_pos hax]
      have em : ((List.range N).map fun k : ℕ => start + (k : ℝ) * step).mapM (fun num =>
          scanTurn lstsq S rnd mat0 matPad pad xc yc (xc + num) yc f folder ("xcenter_".toList ++ fmtFixed2 7 (xc + num)) false) =
          .ok ((List.range N).map fun k => [a k]) := by
        rw [mapM_ok_iff, List.forall₂_map_left_iff, List.forall₂_map_right_iff, List.forall₂_same]
        intro k _
        rfl
      rw [← hNdef, em, ok_bind, single]
    · let name := fun k : ℕ => "ycenter_".toList ++ fmtFixed2 7 (yc + (start + k * step))
      let a := fun k : ℕ => (folder ++ "/forward/img_".toList ++ name k ++ ".jpg".toList,
        overlay mat0 (warpedSheet S rnd matPad pad mat0.height mat0.width xc (yc + (start + k * step)) f))
      refine ⟨(List.range N).map a, folder, N, f, ?_, hf, hN, by simp, hfT,
        fun k hk => ⟨name k, ⟨yc + (start + k * step), xc⟩, fun h => absurd h hax, fun _ => ⟨rfl, rfl⟩, by simp [hk, a]⟩⟩
      unfold scanCenter
      rw [e1, ok_bind, ef, ok_bind, scanValues_ok hs.ne', ok_bind, if_neg hax]
      have em : ((List.range N).map fun k : ℕ => start + (k : ℝ) * step).mapM (fun num =>
          scanTurn lstsq S rnd mat0 matPad pad xc yc xc (yc + num) f folder ("ycenter_".toList ++ fmtFixed2 7 (yc + num)) false) =
          .ok ((List.range N).map fun k => [a k]) := by
        rw [mapM_ok_iff, List.forall₂_map_left_iff, List.forall₂_map_right_iff, List.forall₂_same]
        intro k _
        rfl
      rw [← hNdef, em, ok_bind, single]

/-- **C109 (errors of the scans).** A step of zero is a `ZeroDivisionError`; with no values to try nothing is saved; a position beyond the
coefficients is an `IndexError` and lists of different lengths a `ValueError`. -/
theorem C109_scan_errors (lstsq : LstsqFn) (S : Sampler) (rnd : ℝ → ℝ) (isdir : PyStr → Bool) (hfin : {s | isdir s = true}.Finite)
    (idx : ℕ) (axis : PyStr) (start stop step : ℝ) (coef power : List ℝ) (mat0 matPad : Mat ℝ) (pad : ℕ) (xc yc : ℝ) (ntime : ℕ) (backward : Bool) :
    (step = 0 → scanCoef lstsq S rnd isdir idx start stop step coef power mat0 matPad pad xc yc ntime backward = .error .zeroDivisionError) ∧
    (0 < step → stop + step ≤ start → scanCoef lstsq S rnd isdir idx start stop step coef power mat0 matPad pad xc yc ntime backward = .ok []) ∧
    (0 < step → start < stop + step → coef.length ≤ idx →
      scanCoef lstsq S rnd isdir idx start stop step coef power mat0 matPad pad xc yc ntime backward = .error .indexError) ∧
    (0 < step → start < stop + step → idx < coef.length → power.length ≠ coef.length →
      scanCoef lstsq S rnd isdir idx start stop step coef power mat0 matPad pad xc yc ntime backward = .error .valueError) ∧
    (power.length ≠ coef.length →
      scanCenter lstsq S rnd isdir xc yc start stop step coef power mat0 matPad pad axis ntime backward = .error .valueError) ∧
    (step = 0 → power.length = coef.length →
      scanCenter lstsq S rnd isdir xc yc start stop step coef power mat0 matPad pad axis ntime backward = .error .zeroDivisionError) := by
  obtain ⟨folder, e1, -⟩ := scanFolder_ok hfin ("/coef_".toList ++ Nat.toDigits 10 idx) ntime
  obtain ⟨folder', e1', -⟩ := scanFolder_ok hfin ("/".toList ++ axis ++ "_center".toList) ntime
  unfold scanCoef scanCenter
  rw [e1, ok_bind, e1', ok_bind]
  have pos : 0 < step → start < stop + step → ∃ l : List ℝ, scanValues start stop step = .ok (start :: l) := by
    intro hs hlt
    have h0 : 0 < scanLength start stop step := (scanLength_spec hs 0).2 (by simpa using hlt)
    obtain ⟨n, hn⟩ := Nat.exists_eq_succ_of_ne_zero h0.ne'
    rw [scanValues_ok hs.ne', hn, List.range_succ_eq_map]
    exact ⟨((List.range n).map Nat.succ).map fun k : ℕ => start + (k : ℝ) * step, by rw [List.map_cons]; simp⟩
  refine ⟨?_, ?_, ?_, ?_, ?_, ?_⟩
  · rintro rfl
    unfold scanValues
    rw [if_pos rfl]
    rfl
  · intro hs hle
    have h0 : scanLength start stop step = 0 := by
      by_contra h
      have := (scanLength_spec (start := start) (stop := stop) hs 0).1 (Nat.pos_of_ne_zero h)
      simp at this
      linarith
    rw [scanValues_ok hs.ne', h0]
    rfl
  · intro hs hlt hi
    obtain ⟨l, e⟩ := pos hs hlt
    have e2 : npGet coef idx = .error .indexError := by unfold npGet; rw [List.getElem?_eq_none hi]
    rw [e, ok_bind, List.mapM_cons, e2]
    rfl
  · intro hs hlt hi hne
    obtain ⟨l, e⟩ := pos hs hlt
    have e2 : ∀ v, timesPowers power (coef.set idx v) = .error .valueError := fun v => by
      unfold timesPowers
      rw [if_neg (by simpa using hne)]
    rw [e, ok_bind, List.mapM_cons, npGet_of_lt hi, ok_bind]
    simp only [e2]
    rfl
  · intro hne
    unfold timesPowers
    rw [if_neg hne]
    rfl
  · rintro rfl hlen
    unfold timesPowers scanValues
    rw [if_pos hlen, if_pos rfl]
    rfl

/-! ## Correction of the photographs -/

/-- **C109 (correction).** demo_08.py unwarps each channel of each photograph, around the centre found and with the best inverse of the model found
on a grid of every fiftieth pixel. -/
theorem C109_correct (lstsq : LstsqFn) (hl : LstsqSpec lstsq) (S : Sampler) (rnd : ℝ → ℝ) (height width : ℕ) (xc yc : ℝ) (coef power : List ℝ)
    (hlen : power.length = coef.length) (hnum : coef.length ≤ (everyFifty 0 height width).length)
    (hne : ∀ f, IsTried coef power 0 0 f → ∃ p ∈ everyFifty 0 height width, radial f (ptDist p ⟨yc, xc⟩) ≠ 0) (imgs : List Img)
    (himg : ∀ img ∈ imgs, ∃ h w n get, img = .color h w n get ∧ 0 < h ∧ 0 < w) :
    ∃ f g outs, demo08Correction lstsq S rnd height width xc yc coef power imgs = .ok outs ∧ IsTried coef power 0 0 f ∧
      IsInverseFit ⟨yc, xc⟩ (everyFifty 0 height width) f g ∧ List.Forall₂ (CorrectsChannels S rnd ⟨yc, xc⟩ g) imgs outs := by
  obtain ⟨f, ef, hf⟩ := timesPowers_same (power := coef) (coef := power) hlen.symm
  have hT : IsTried coef power 0 0 f := ⟨hf.1.trans hlen, fun i hi => by
    rw [hf.2 i (by omega)]
    simp [mul_comm]⟩
  obtain ⟨g, e, hg⟩ := transformCoef_fit hl ⟨yc, xc⟩ (everyFifty 0 height width) f "backward" (hT.1.le.trans hnum) (hne f hT)
  have hpts := fiftyPoints_eq 0 height width xc yc
  simp only [Nat.cast_zero, sub_zero] at hpts
  have step : ∃ outs, imgs.mapM (fun img => (do
      let img ← loadImageData img false
      unwarpChannels S rnd img xc yc g : Except PyErr Img)) = .ok outs ∧ List.Forall₂ (CorrectsChannels S rnd ⟨yc, xc⟩ g) imgs outs := by
    clear hnum hne e hg
    induction imgs with
    | nil => exact ⟨[], rfl, .nil⟩
    | cons img imgs ih =>
      obtain ⟨outs, e1, h1⟩ := ih fun img hi => himg img (by simp [hi])
      obtain ⟨h, w, n, get, rfl, hh, hw⟩ := himg _ (List.mem_cons_self ..)
      refine ⟨.color h w n (fun i j c => (unwarpImageBackward S rnd (channel h w get c) xc yc g).get i j) :: outs, ?_, .cons ?_ h1⟩
      · rw [List.mapM_cons]
        show (do let outs ← imgs.mapM _; Except.ok (_ :: outs)) = _
        rw [e1]
        rfl
      · exact ⟨h, w, n, get, _, rfl, rfl, fun k _ => reads_unwarp (m := channel h w get k) hh hw xc yc g⟩
  obtain ⟨outs, e1, h1⟩ := step
  refine ⟨f, g, outs, ?_, hT, hg, h1⟩
  unfold demo08Correction
  rw [ef, ok_bind]
  simp only [hpts, e, ok_bind, e1]

/-- **C109 (grey photographs).** The correction of demo_08.py and of apply_correction_to_images.py fails for a grey photograph. -/
theorem C109_grey {F : Type} (val : F → ℝ) (float : PyStr → Except PyErr F) (S : Sampler) (rnd : ℝ → ℝ) (xc yc : ℝ) (bfact : List ℝ) (m : Mat ℝ)
    (fs : FS PyStr) (p : FilePath) :
    unwarpChannels S rnd (.gray m) xc yc bfact = .error .indexError ∧
    (∀ r, loadMetadataTxt float fs p = .ok r → applyCorrection val float S rnd fs p (.gray m) = .error .indexError) := by
  refine ⟨rfl, fun r hr => ?_⟩
  unfold applyCorrection
  rw [hr]
  rfl

/-- **C109 (scene).** Let the photograph show a scene through a lens with the forward model `f`, and let `g` be a backward model that undoes it at
a pixel up to the relative error `ε`. Then the unwarped photograph shows at this pixel the brightness of the scene, up to the error of the linear
interpolation and the change of the brightness over `ε` times the distance from the centre. -/
theorem C109_scene (B : Boundary) (rnd : ℝ → ℝ) (hr : CoordRounding rnd) (δ : ℝ) (m : Mat ℝ) (hδ : RoundsBy δ rnd m) (gs : Pt → ℝ) (xc yc : ℝ) (f g : List ℝ)
    (hm : Shows gs (radialMap ⟨yc, xc⟩ f) m) (L K ε : ℝ) (hL : 0 ≤ L) (hK : 0 ≤ K) (hlip : ChangesAtMost L gs (radialMap ⟨yc, xc⟩ f) m)
    (hscene : ∀ p q : Pt, |gs p - gs q| ≤ K * ptDist p q) (hh : m.height ≤ 2 ^ 24) (hw : m.width ≤ 2 ^ 24) (i j : ℕ) (hi : i < m.height) (hj : j < m.width)
    (hin : Spec.InFrame m (radialMap ⟨yc, xc⟩ g ⟨i, j⟩).y (radialMap ⟨yc, xc⟩ g ⟨i, j⟩).x)
    (hpos : 0 ≤ radial g (ptDist ⟨i, j⟩ ⟨yc, xc⟩))
    (hinv : |radial f (radial g (ptDist ⟨i, j⟩ ⟨yc, xc⟩) * ptDist ⟨i, j⟩ ⟨yc, xc⟩) * radial g (ptDist ⟨i, j⟩ ⟨yc, xc⟩) - 1| ≤ ε) :
    |(unwarpImageBackward (linearInterp B) rnd m xc yc g).get i j - gs ⟨i, j⟩| ≤ L * (√2 * (1 + δ)) + K * (ε * ptDist ⟨i, j⟩ ⟨yc, xc⟩) := by
  set T := radialMap ⟨yc, xc⟩ f with hT
  set q := radialMap ⟨yc, xc⟩ g ⟨i, j⟩ with hq
  set r := ptDist ⟨(i : ℝ), (j : ℝ)⟩ ⟨yc, xc⟩ with hrr
  have h1 : |(unwarpImageBackward (linearInterp B) rnd m xc yc g).get i j - gs (T q)| ≤ L * (√2 * (1 + δ)) := by
    have back : ∀ a : Pt, (⟨a.y - q.y + i + q.y - i, a.x - q.x + j + q.x - j⟩ : Pt) = a := fun a => by
      ext <;> simp only <;> ring
    have := C91_scene B hr m hδ (fun p => gs (T ⟨p.y + q.y - i, p.x + q.x - j⟩)) (fun p => ⟨p.y - q.y + i, p.x - q.x + j⟩)
      (fun a ha b hb => by rw [hm a ha b hb]; simp only; rw [back ⟨a, b⟩]) L hL
      (fun a b ha hb => by simp only [back]; exact hlip a b ha hb) xc yc g hh hw i j hi hj
      hin (by rw [← hq]; simp)
    simpa using this
  have hd : ptDist (T q) ⟨i, j⟩ ≤ ε * r := by
    have hqd : ptDist q ⟨yc, xc⟩ = radial g r * r := by
      rw [hq]
      unfold radialMap
      rw [← hrr]
      have : ptDist (⟨yc + radial g r * ((i : ℝ) - yc), xc + radial g r * ((j : ℝ) - xc)⟩ : Pt) ⟨yc, xc⟩ = radial g r * r := by
        generalize radial g r = k at hpos
        rw [hrr]
        unfold ptDist
        simp only [add_sub_cancel_left]
        rw [show ∀ k a b : ℝ, (k * a) ^ 2 + (k * b) ^ 2 = k ^ 2 * (a ^ 2 + b ^ 2) from fun k a b => by ring, Real.sqrt_mul (sq_nonneg _),
          Real.sqrt_sq hpos]
      exact this
    have e : T q = ⟨yc + radial f (radial g r * r) * radial g r * (i - yc), xc + radial f (radial g r * r) * radial g r * (j - xc)⟩ := by
      rw [hT]
      unfold radialMap
      rw [hqd, hq]
      simp only [radialMap, ← hrr, add_sub_cancel_left, mul_assoc]
    have e2 : ptDist (T q) ⟨i, j⟩ = |radial f (radial g r * r) * radial g r - 1| * r := by
      rw [e, hrr]
      unfold ptDist
      simp only
      rw [show ∀ k a b c d : ℝ, (c + k * (a - c) - a) ^ 2 + (d + k * (b - d) - b) ^ 2 = (k - 1) ^ 2 * ((a - c) ^ 2 + (b - d) ^ 2) from
        fun k a b c d => by ring, Real.sqrt_mul (sq_nonneg _), Real.sqrt_sq_eq_abs]
    rw [e2]
    exact mul_le_mul_of_nonneg_right hinv (Real.sqrt_nonneg _)
  have h2 := (hscene (T q) ⟨i, j⟩).trans (mul_le_mul_of_nonneg_left hd hK)
  have := abs_sub_le ((unwarpImageBackward (linearInterp B) rnd m xc yc g).get i j) (gs (T q)) (gs ⟨i, j⟩)
  linarith

/-! ## The scripts for the rover -/

/-- **C109 (backward mapping).** backward_mapping.py saves the photograph divided by its maximum, the best inverse of the model on a grid of every
fiftieth pixel from 20 on, and the photograph unwarped with it. If the grid has at least as many points as the model coefficients, this is what
the function of the library gives. -/
theorem C109_backward_mapping (lstsq : LstsqFn) (hl : LstsqSpec lstsq) (S : Sampler) (rnd : ℝ → ℝ) (img : Img) (m : Mat ℝ)
    (hload : loadImageData img true = .ok (.gray m)) (top : ℝ) (htop : IsTop m top) (h0 : top ≠ 0) (dx dy : ℝ) (f : List ℝ)
    (hne : ∃ p ∈ everyFifty 20 m.height m.width, radial f (ptDist p ⟨(m.height : ℝ) / 2 + dy, (m.width : ℝ) / 2 + dx⟩) ≠ 0) :
    ∃ r, backwardMapping lstsq S rnd img dx dy f = .ok r ∧ r.xcenter = (m.width : ℝ) / 2 + dx ∧ r.ycenter = (m.height : ℝ) / 2 + dy ∧
      r.before.height = m.height ∧ r.before.width = m.width ∧ (∀ i j, r.before.get i j = m.get i j / top) ∧
      IsInverseFit ⟨r.ycenter, r.xcenter⟩ (everyFifty 20 m.height m.width) f r.bfact ∧
      ReadsBackward S rnd r.before ⟨r.ycenter, r.xcenter⟩ r.bfact r.after ∧
      (f.length ≤ (everyFifty 20 m.height m.width).length → ∀ mapping,
        transformCoef lstsq f mapping (some ((everyFifty 20 m.height m.width).map fun p => ⟨p.y - r.ycenter, p.x - r.xcenter⟩)) = .ok r.bfact) := by
  obtain ⟨⟨i0, hi0, j0, hj0, _⟩, _⟩ := htop
  set c : Pt := ⟨(m.height : ℝ) / 2 + dy, (m.width : ℝ) / 2 + dx⟩ with hc
  obtain ⟨g, e, hg⟩ := lstsqChecked_fit hl c (everyFifty 20 m.height m.width) f hne
  have hpts : roverPoints m.height m.width ((m.width : ℝ) / 2 + dx) ((m.height : ℝ) / 2 + dy) = fromCentre c (everyFifty 20 m.height m.width) :=
    fiftyPoints_eq 20 m.height m.width _ _
  refine ⟨⟨_, _, g, { m with get := fun i j => m.get i j / top }, _⟩, ?_, rfl, rfl, rfl, rfl, fun i j => rfl, hg,
    reads_unwarp (m := { m with get := fun i j => m.get i j / top }) (by show 0 < m.height; omega) (by show 0 < m.width; omega)
      ((m.width : ℝ) / 2 + dx) ((m.height : ℝ) / 2 + dy) g, fun hlen mapping => ?_⟩
  · unfold backwardMapping
    rw [hload, ok_bind]
    simp only
    rw [scaleToMax_ok ⟨⟨i0, hi0, j0, hj0, ‹_›⟩, ‹_›⟩, if_neg h0, ok_bind]
    simp only [hpts, e, ok_bind]
    rfl
  · unfold transformCoef
    simp only [if_neg (not_lt.2 (by simpa using hlen : f.length ≤ ((everyFifty 20 m.height m.width).map fun p : Pt =>
      (⟨p.y - ((m.height : ℝ) / 2 + dy), p.x - ((m.width : ℝ) / 2 + dx)⟩ : Pt)).length))]
    show (if mapping = "forward" then _ else _) = _
    rw [ite_self]
    exact e

/-- **C109 (errors of the rover scripts).** An empty photograph is a `ValueError`, a maximum of zero gives values that are not finite, and an image
with at most 40 rows or columns (without grid), or a model that is zero on the grid, a `LinAlgError`; where the library raises a `ValueError` for too
few points the script does not. -/
theorem C109_rover_errors (lstsq : LstsqFn) (S : Sampler) (rnd : ℝ → ℝ) (img : Img) (m : Mat ℝ) (hload : loadImageData img true = .ok (.gray m))
    (dx dy : ℝ) (f : List ℝ) :
    (m.height = 0 ∨ m.width = 0 → estimateForward S rnd img dx dy f = .error .valueError ∧ backwardMapping lstsq S rnd img dx dy f = .error .valueError) ∧
    (IsTop m 0 → backwardMapping lstsq S rnd img dx dy f = .error .nonFinite) ∧
    (∀ top, IsTop m top → top ≠ 0 → m.height ≤ 40 ∨ m.width ≤ 40 → backwardMapping lstsq S rnd img dx dy f = .error .linAlgError ∧
      (f ≠ [] → ∀ mapping, transformCoef lstsq f mapping (some (everyFifty 20 m.height m.width)) = .error .valueError)) ∧
    (∀ top, IsTop m top → top ≠ 0 →
      (∀ p ∈ everyFifty 20 m.height m.width, radial f (ptDist p ⟨(m.height : ℝ) / 2 + dy, (m.width : ℝ) / 2 + dx⟩) = 0) →
      backwardMapping lstsq S rnd img dx dy f = .error .linAlgError) := by
  have hpts : roverPoints m.height m.width ((m.width : ℝ) / 2 + dx) ((m.height : ℝ) / 2 + dy) =
      fromCentre ⟨(m.height : ℝ) / 2 + dy, (m.width : ℝ) / 2 + dx⟩ (everyFifty 20 m.height m.width) := fiftyPoints_eq 20 m.height m.width _ _
  have zero : ∀ top, IsTop m top → top ≠ 0 →
      (∀ p ∈ everyFifty 20 m.height m.width, radial f (ptDist p ⟨(m.height : ℝ) / 2 + dy, (m.width : ℝ) / 2 + dx⟩) = 0) →
      backwardMapping lstsq S rnd img dx dy f = .error .linAlgError := by
    intro top ht h0 hz
    unfold backwardMapping
    rw [hload, ok_bind]
    simp only
    rw [scaleToMax_ok ht, if_neg h0, ok_bind]
    have e : (roverPoints m.height m.width ((m.width : ℝ) / 2 + dx) ((m.height : ℝ) / 2 + dy)).filterMap (inverseRow f) = [] := by
      rw [List.filterMap_eq_nil_iff, hpts]
      intro p hp
      obtain ⟨q, hq, rfl⟩ := List.mem_map.1 hp
      rw [inverseRow_eq, if_neg]
      rw [not_not, ← hz q hq]
      congr 1
      rw [← ptDist_fromCentre]
      unfold ptDist
      simp [sq, add_comm]
    simp only [e]
    rfl
  refine ⟨fun h => ?_, fun ht => ?_, fun top ht h0 hs => ?_, zero⟩
  · unfold estimateForward backwardMapping
    rw [hload, ok_bind, ok_bind]
    simp only
    rw [scaleToMax_empty h]
    exact ⟨rfl, rfl⟩
  · unfold backwardMapping
    rw [hload, ok_bind]
    simp only
    rw [scaleToMax_ok ht, if_pos rfl]
    rfl
  · have e : everyFifty 20 m.height m.width = [] := by
      unfold everyFifty
      rcases hs with hs | hs
      · rw [show (m.height - 2 * 20 + 49) / 50 = 0 by omega]
        rfl
      · rw [show (m.width - 2 * 20 + 49) / 50 = 0 by omega]
        simp
    refine ⟨zero top ht h0 (by rw [e]; simp), fun hf mapping => ?_⟩
    rw [C24_valueError_iff, e]
    simpa using List.length_pos_of_ne_nil hf

/-- **C109 (apply).** apply_correction_to_images.py unwarps each channel of a photograph with the centre and the coefficients that were saved by
`save_metadata_txt`. -/
theorem C109_apply {F : Type} (val : F → ℝ) (lower : PyStr → PyStr) (str : F → PyStr) (float : PyStr → Except PyErr F) (hn : NumberText str float) (S : Sampler)
    (rnd : ℝ → ℝ) (fs : FS PyStr) (p q : FilePath) (xc yc : F) (l : List F) (overwrite : Bool)
    (hsave : (saveMetadataTxt lower str fs p xc yc l overwrite).1 = .ok q) (h w n : ℕ) (get : ℕ → ℕ → ℕ → ℝ) (hh : 0 < h) (hw : 0 < w) :
    ∃ out, applyCorrection val float S rnd (saveMetadataTxt lower str fs p xc yc l overwrite).2 q (.color h w n get) = .ok out ∧
      CorrectsChannels S rnd ⟨val yc, val xc⟩ (l.map val) (.color h w n get) out := by
  unfold applyCorrection
  rw [C56_roundtrip lower str float hn fs p q xc yc l overwrite hsave, ok_bind]
  exact ⟨_, rfl, h, w, n, get, _, rfl, rfl, fun k _ => reads_unwarp (m := channel h w get k) hh hw (val xc) (val yc) (l.map val)⟩

/-- **C109 (mean).** With linear interpolation the mean of the corrected channels is the corrected grey photograph of backward_mapping.py, times the
maximum of the photograph. -/
theorem C109_mean (B : Boundary) (rnd : ℝ → ℝ) (hr : CoordRounding rnd) (lstsq : LstsqFn) (h w n : ℕ) (get : ℕ → ℕ → ℕ → ℝ) (hn : 0 < n) (hnh : n < h)
    (hnw : n < w) (hh : h ≤ 2 ^ 24) (hw : w ≤ 2 ^ 24) (top : ℝ) (htop : IsTop ⟨h, w, channelMean n get⟩ top) (dx dy : ℝ) (f : List ℝ) (r : RoverRun)
    (hrun : backwardMapping lstsq (linearInterp B) rnd (.color h w n get) dx dy f = .ok r) :
    ∃ get', unwarpChannels (linearInterp B) rnd (.color h w n get) r.xcenter r.ycenter r.bfact = .ok (.color h w n get') ∧
      ∀ i < h, ∀ j < w, channelMean n get' i j = top * r.after.get i j := by
  unfold backwardMapping at hrun
  rw [(C70_channels id ".tif".toList (.inl rfl) .float h w n get hn hnh hnw).1, ok_bind] at hrun
  simp only at hrun
  rw [scaleToMax_ok htop] at hrun
  split_ifs at hrun with h0
  · cases hrun
  · rw [ok_bind] at hrun
    simp only [bind_ok_iff] at hrun
    obtain ⟨g, -, e⟩ := hrun
    injection e with e
    subst e
    refine ⟨_, rfl, fun i hi j hj => ?_⟩
    have hf := fun (M : Mat ℝ) (e1 : M.height = h) (e2 : M.width = w) y x =>
      inFrame_rnd hr (inFrame_clip (m := M) (by omega) (by omega) y x) (by omega) (by omega) (by omega) (by omega)
    unfold channelMean
    simp only [unwarpImageBackward, channel]
    have e1 := fun k y x => linearInterp_eq B ⟨h, w, fun i j => get i j k⟩ (hf ⟨h, w, fun i j => get i j k⟩ rfl rfl y x)
    have e2 := fun y x => linearInterp_eq B ⟨h, w, fun i j => (∑ k ∈ Finset.range n, get i j k) / n / top⟩
      (hf ⟨h, w, fun i j => (∑ k ∈ Finset.range n, get i j k) / n / top⟩ rfl rfl y x)
    simp only at e1 e2
    rw [e2]
    simp only [e1, bilinear]
    simp only [Finset.sum_add_distrib, ← Finset.mul_sum]
    have hn' : (n : ℝ) ≠ 0 := by exact_mod_cast hn.ne'
    field_simp

/-! ## Concrete cases -/

/-- The sheet for an image of 200 rows is bright at the row 50 and half bright one pixel and a half away. -/
example : RuledBrightness 200 1 50 1 ∧ RuledBrightness 200 1 (103 / 2) (1 / 2) ∧ RuledBrightness 200 1 70 0 := by
  refine ⟨.inl ⟨50, ⟨⟨0, by norm_num⟩, by norm_num⟩, by norm_num, rfl⟩,
    .inr (.inl ⟨50, ⟨⟨0, by norm_num⟩, by norm_num⟩, by norm_num [abs_of_pos], by norm_num [abs_of_pos], by norm_num [abs_of_pos]⟩),
    .inr (.inr ⟨fun c hc => ?_, rfl⟩)⟩
  obtain ⟨⟨k, rfl⟩, _⟩ := hc
  rw [le_abs]
  rcases Nat.eq_zero_or_pos k with rfl | hk
  · left
    norm_num
  · right
    have : (1 : ℝ) ≤ k := by exact_mod_cast hk
    push_cast
    linarith

/-- The sheet warped by a model without distortion is the sheet. -/
example (B : Boundary) : (warpedSheet (linearInterp B) id (padFrame (ruledSheet 200 300 2) 7) 7 200 300 150 100 [1]).get 50 3 = 1 := by
  obtain ⟨v, hv, hd⟩ := C109_sheet B id coordRounding_id 200 300 7 2 (by norm_num) (by norm_num) 0 (fun v _ _ => by simp) (by norm_num) (by norm_num) 150 100
    [1] 50 3 (by norm_num) (by norm_num)
  have hv1 : RuledBrightness 200 2 (radialMap ⟨100, 150⟩ [1] ⟨(50 : ℕ), (3 : ℕ)⟩).y 1 := by
    refine .inl ⟨50, ⟨⟨0, by norm_num⟩, by norm_num⟩, ?_, rfl⟩
    norm_num [radialMap, radial]
  rw [ruled_unique (by norm_num) hv hv1] at hd
  exact sub_eq_zero.1 (abs_nonpos_iff.1 hd)

/-- A photograph of 200 × 300 pixels with three channels, brighter to the right: the first channel counts the columns. -/
noncomputable def roverPhoto : Img := .color 200 300 3 fun _ j c => (j : ℝ) + c

theorem roverPhoto_load : loadImageData roverPhoto true = .ok (.gray ⟨200, 300, channelMean 3 fun _ j c => (j : ℝ) + c⟩) :=
  (C70_channels id ".tif".toList (.inl rfl) .float 200 300 3 (fun _ j c => (j : ℝ) + c) (by norm_num) (by norm_num) (by norm_num)).1

theorem roverPhoto_mean (i j : ℕ) : channelMean 3 (fun _ j c => (j : ℝ) + c) i j = j + 1 := by
  unfold channelMean
  simp only [Finset.sum_range_succ, Finset.sum_range_zero]
  norm_num
  ring

theorem roverPhoto_top : IsTop ⟨200, 300, channelMean 3 fun _ j c => (j : ℝ) + c⟩ 300 := by
  refine ⟨⟨0, by norm_num, 299, by norm_num, by simp only; rw [roverPhoto_mean]; norm_num⟩, fun i _ j hj => ?_⟩
  simp only
  rw [roverPhoto_mean]
  have : j + 1 ≤ 300 := hj
  exact_mod_cast this

/-- The overlay of the photograph and the lines: at the row 50 of a model without distortion half is added. -/
example (B : Boundary) : ∃ out, estimateForward (linearInterp B) id roverPhoto 0 0 [1] = .ok out ∧ out.get 50 29 = 30 / 300 + 1 / 2 := by
  obtain ⟨out, e, _, _, h⟩ := (C109_overlay B id coordRounding_id roverPhoto _ roverPhoto_load 300 roverPhoto_top 0 0 [1] 0 (fun v _ _ => by simp)
    (by norm_num) (by norm_num)).2 (by norm_num)
  obtain ⟨v, hv, hd⟩ := h 50 (by norm_num) 29 (by norm_num)
  have hv1 : RuledBrightness 200 1 (radialMap ⟨((200 : ℕ) : ℝ) / 2 + 0, ((300 : ℕ) : ℝ) / 2 + 0⟩ [1] ⟨(50 : ℕ), (29 : ℕ)⟩).y 1 := by
    refine .inl ⟨50, ⟨⟨0, by norm_num⟩, by norm_num⟩, ?_, rfl⟩
    norm_num [radialMap, radial]
  rw [ruled_unique (by norm_num) hv hv1] at hd
  simp only at hd
  rw [roverPhoto_mean] at hd
  norm_num at hd
  refine ⟨out, e, ?_⟩
  rw [sub_eq_zero.1 hd]
  norm_num

theorem spread_corner (h w : ℕ) : (⟨0, 0⟩ : Pt) ∈ spreadPoints h w := by
  unfold spreadPoints
  rw [List.mem_flatMap]
  exact ⟨0, by simp, List.mem_map.2 ⟨0, by simp, by simp⟩⟩

theorem tried_first {a b : ℝ} {power : List ℝ} {p0 p1 d : ℝ} (hp : power = [p0, p1]) {f : List ℝ} (h : IsTried [a, b] power 1 d f) : radial f 0 = p0 * a := by
  obtain ⟨hl, hv⟩ := h
  match f, hl with
  | [x, y], _ =>
    have := hv 0 (by simp)
    simp [hp] at this
    simp [radial, this]

/-- A scan of the second coefficient over three values saves six files. -/
example (S : Sampler) : ∃ files, scanCoef refLstsq S id (fun _ => false) 1 0 1 (1 / 2) [1, 2] [1, 1 / 10] ⟨3, 3, fun _ _ => 1⟩ ⟨5, 5, fun _ _ => 0⟩ 1 0 0 1 true =
    .ok files ∧ files.length = 6 ∧ (files.map Prod.fst).Nodup := by
  obtain ⟨files, folder, N, e, _, hN, hlen, hnd, _⟩ := C109_scan_coef refLstsq refLstsq_spec S id (fun _ => false) (by simp) 1 0 1 (1 / 2) (by norm_num) [1, 2]
    [1, 1 / 10] rfl (by norm_num) (by norm_num) ⟨3, 3, fun _ _ => 1⟩ ⟨5, 5, fun _ _ => 0⟩ (by norm_num) (by norm_num) (by norm_num) (by norm_num) 1 0 0 1
    (fun k f _ hf => ⟨⟨0, 0⟩, spread_corner _ _, by rw [show ptDist (⟨0, 0⟩ : Pt) ⟨0, 0⟩ = 0 by simp [ptDist], tried_first rfl hf]; norm_num⟩)
  have h3 : N = 3 := by
    have a1 := (hN 2).2 (by norm_num)
    have a2 := mt (hN 3).1 (by norm_num)
    omega
  exact ⟨files, e, by rw [hlen, h3], hnd (by norm_num)⟩

theorem tried_same {a b : ℝ} {p0 p1 : ℝ} {f : List ℝ} (h : IsTried [a, b] [p0, p1] 0 0 f) : radial f 0 = p0 * a := by
  obtain ⟨hl, hv⟩ := h
  match f, hl with
  | [x, y], _ =>
    have := hv 0 (by simp)
    simp at this
    simp [radial, this]

/-- A scan of the centre. -/
example (S : Sampler) : ∃ files, scanCenter refLstsq S id (fun _ => false) 0 0 (-10) 10 10 [1, 2] [1, 1 / 10] ⟨3, 3, fun _ _ => 1⟩ ⟨5, 5, fun _ _ => 0⟩ 1 "x".toList 1
    true = .ok files ∧ files.length = 6 := by
  obtain ⟨files, folder, N, f, g, e, _, hN, hlen, _⟩ := C109_scan_centre refLstsq refLstsq_spec S id (fun _ => false) (by simp) "x".toList (-10) 10 10 (by norm_num)
    [1, 2] [1, 1 / 10] rfl (by norm_num) ⟨3, 3, fun _ _ => 1⟩ ⟨5, 5, fun _ _ => 0⟩ (by norm_num) (by norm_num) (by norm_num) (by norm_num) 1 0 0 1
    (fun f hf => ⟨⟨0, 0⟩, spread_corner _ _, by rw [show ptDist (⟨0, 0⟩ : Pt) ⟨0, 0⟩ = 0 by simp [ptDist], tried_same hf]; norm_num⟩)
  have h3 : N = 3 := by
    have a1 := (hN 2).2 (by norm_num)
    have a2 := mt (hN 3).1 (by norm_num)
    omega
  exact ⟨files, e, by rw [hlen, h3]⟩

/-- The grid of an image of 200 × 300 pixels has its first point in the corner, and 24 points. -/
example : (⟨0, 0⟩ : Pt) ∈ everyFifty 0 200 300 ∧ (everyFifty 0 200 300).length = 24 ∧ (⟨20, 20⟩ : Pt) ∈ everyFifty 20 200 300 := by
  unfold everyFifty
  refine ⟨List.mem_flatMap.2 ⟨0, by simp, List.mem_map.2 ⟨0, by simp, by simp⟩⟩, by simp,
    List.mem_flatMap.2 ⟨0, by simp, List.mem_map.2 ⟨0, by simp, by simp⟩⟩⟩

/-- The correction of a photograph around its corner. -/
example (S : Sampler) : ∃ f g outs, demo08Correction refLstsq S id 200 300 0 0 [1, 2] [1, 1 / 10] [roverPhoto] = .ok outs ∧
    IsTried [1, 2] [1, 1 / 10] 0 0 f ∧ IsInverseFit ⟨0, 0⟩ (everyFifty 0 200 300) f g ∧ List.Forall₂ (CorrectsChannels S id ⟨0, 0⟩ g) [roverPhoto] outs := by
  refine C109_correct refLstsq refLstsq_spec S id 200 300 0 0 [1, 2] [1, 1 / 10] rfl (by unfold everyFifty; simp) (fun f hf => ⟨⟨0, 0⟩, ?_, ?_⟩) [roverPhoto]
    (fun img hi => ⟨200, 300, 3, _, List.mem_singleton.1 hi, by norm_num, by norm_num⟩)
  · unfold everyFifty
    exact List.mem_flatMap.2 ⟨0, by simp, List.mem_map.2 ⟨0, by simp, by simp⟩⟩
  · rw [show ptDist (⟨0, 0⟩ : Pt) ⟨0, 0⟩ = 0 by simp [ptDist], tried_same hf]
    norm_num

/-- The script for the rover, for a model without distortion. -/
example (S : Sampler) : ∃ r, backwardMapping refLstsq S id roverPhoto 5 (-5) [1] = .ok r ∧ r.xcenter = 155 ∧ r.ycenter = 95 := by
  obtain ⟨r, e, h1, h2, _⟩ := C109_backward_mapping refLstsq refLstsq_spec S id roverPhoto _ roverPhoto_load 300 roverPhoto_top (by norm_num) 5 (-5) [1] (by
    refine ⟨⟨20, 20⟩, ?_, by norm_num [radial]⟩
    unfold everyFifty
    exact List.mem_flatMap.2 ⟨0, by simp, List.mem_map.2 ⟨0, by simp, by simp⟩⟩)
  exact ⟨r, e, by rw [h1]; norm_num, by rw [h2]; norm_num⟩

/-- The mean of the corrected channels of this photograph. -/
example (B : Boundary) : ∃ r get', backwardMapping refLstsq (linearInterp B) id roverPhoto 5 (-5) [1] = .ok r ∧
    unwarpChannels (linearInterp B) id roverPhoto r.xcenter r.ycenter r.bfact = .ok (.color 200 300 3 get') ∧
    channelMean 3 get' 20 20 = 300 * r.after.get 20 20 := by
  obtain ⟨r, e, h1, h2, _⟩ := C109_backward_mapping refLstsq refLstsq_spec (linearInterp B) id roverPhoto _ roverPhoto_load 300 roverPhoto_top (by norm_num) 5
    (-5) [1] (by
      refine ⟨⟨20, 20⟩, ?_, by norm_num [radial]⟩
      unfold everyFifty
      exact List.mem_flatMap.2 ⟨0, by simp, List.mem_map.2 ⟨0, by simp, by simp⟩⟩)
  obtain ⟨get', h3, h4⟩ := C109_mean B id coordRounding_id refLstsq 200 300 3 _ (by norm_num) (by norm_num) (by norm_num) (by norm_num) (by norm_num) 300
    roverPhoto_top 5 (-5) [1] r e
  exact ⟨r, get', e, h3, h4 20 (by norm_num) 20 (by norm_num)⟩

/-- A metadata file with whole numbers, and the photograph corrected with it. -/
example (S : Sampler) : ∃ out, applyCorrection (fun n : ℕ => (n : ℝ)) (fun s => .ok (decimalValue s)) S id
      (saveMetadataTxt (F := ℕ) id (Nat.toDigits 10) (fun q => if q = [] then some .dir else none) ⟨[], "c.txt".toList⟩ 12 7 [1, 0, 3] false).2
      ⟨[], "c.txt".toList⟩ roverPhoto = .ok out ∧
    CorrectsChannels S id ⟨7, 12⟩ [1, 0, 3] roverPhoto out := by
  have hs : (saveMetadataTxt (F := ℕ) id (Nat.toDigits 10) (fun q => if q = [] then some .dir else none) ⟨[], "c.txt".toList⟩ 12 7 [1, 0, 3] false).1 =
      .ok ⟨[], "c.txt".toList⟩ := by
    have h1 : normalise id .txt ⟨[], "c.txt".toList⟩ = .ok ⟨[], "c.txt".toList⟩ := by rfl
    have h2 : createFolder (fun q => if q = [] then some .dir else none : FS PyStr) ⟨[], "c.txt".toList⟩ =
        .ok (fun q => if q = [] then some .dir else none) := by rfl
    unfold saveMetadataTxt save prepareSave
    simp only [h1, h2]
    rw [if_neg (by simp), createFileName_free (by rfl)]
    rfl
  obtain ⟨out, e, h⟩ := C109_apply (fun n : ℕ => (n : ℝ)) id (Nat.toDigits 10) (fun s => .ok (decimalValue s))
    ⟨fun x => by rw [decimalValue_toDigits], fun x => Nat.toDigits_ne_nil, fun x c hc => toDigits_noSpace hc⟩ S id _ ⟨[], "c.txt".toList⟩ _ 12 7 [1, 0, 3]
    false hs 200 300 3 (fun _ j c => (j : ℝ) + c) (by norm_num) (by norm_num)
  exact ⟨out, e, by simpa [roverPhoto] using h⟩

/-- A scene seen through the model `[2]` around the corner and unwarped with `[1/2]`, where `ε = 0`. -/
example (B : Boundary) (i j : ℕ) (hi : i < 5) (hj : j < 5) :
    |(unwarpImageBackward (linearInterp B) id ⟨5, 5, fun i _ => 2 * (i : ℝ)⟩ 0 0 [1 / 2]).get i j - i| ≤ 2 * √2 := by
  have hd : ∀ p q : Pt, |p.y - q.y| ≤ ptDist p q := fun p q => Real.abs_le_sqrt (by nlinarith [sq_nonneg (p.x - q.x)])
  have := C109_scene B id coordRounding_id 0 ⟨5, 5, fun i _ => 2 * (i : ℝ)⟩ (fun v _ _ => by simp) (fun p => p.y) 0 0 [2] [1 / 2]
    (fun a _ b _ => by simp [radialMap, radial]) 2 1 0 (by norm_num) (by norm_num)
    (fun p q _ _ => by
      have e : ∀ p : Pt, (radialMap ⟨0, 0⟩ [2] p).y = 2 * p.y := fun p => by simp [radialMap, radial]
      simp only
      rw [e, e, ← mul_sub, abs_mul, abs_of_pos (by norm_num : (0 : ℝ) < 2)]
      linarith [hd p q])
    (fun p q => by linarith [hd p q]) (by norm_num) (by norm_num) i j hi hj
    (by
      have h1 : (i : ℝ) ≤ 4 := by exact_mod_cast (by omega : i ≤ 4)
      have h2 : (j : ℝ) ≤ 4 := by exact_mod_cast (by omega : j ≤ 4)
      have h3 : (0 : ℝ) ≤ i := Nat.cast_nonneg _
      have h4 : (0 : ℝ) ≤ j := Nat.cast_nonneg _
      simp only [radialMap, radial, Spec.InFrame]
      norm_num
      refine ⟨?_, ?_⟩ <;> linarith)
    (by norm_num [radial]) (by norm_num [radial])
  simpa using this

/-- The amount of padding for a strong model: row 50 of the sheet of 200 rows. -/
example (B B' : Boundary) := C109_padding B B' 200 300 7 100 2 (by norm_num) (by norm_num) 150 100 [1, 1 / 100] 50 3 (by norm_num) (by norm_num)

/-- The same scans without the backward model save three files. -/
example (S : Sampler) := C109_forward_only refLstsq S id (fun _ => false) (by simp) 1 "y".toList 0 1 (1 / 2) (by norm_num) [1, 2] [1, 1 / 10] rfl (by norm_num)
  ⟨3, 3, fun _ _ => 1⟩ ⟨5, 5, fun _ _ => 0⟩ 1 0 0 1

/-- A step of zero, and a list of powers that is too short. -/
example (S : Sampler) : scanCoef refLstsq S id (fun _ => false) 1 0 1 0 [1, 2] [1, 1 / 10] ⟨3, 3, fun _ _ => 1⟩ ⟨5, 5, fun _ _ => 0⟩ 1 0 0 1 true =
      .error .zeroDivisionError ∧
    scanCoef refLstsq S id (fun _ => false) 1 0 1 (1 / 2) [1, 2] [1] ⟨3, 3, fun _ _ => 1⟩ ⟨5, 5, fun _ _ => 0⟩ 1 0 0 1 true = .error .valueError :=
  ⟨(C109_scan_errors refLstsq S id (fun _ => false) (by simp) 1 "x".toList 0 1 0 _ _ _ _ 1 0 0 1 true).1 rfl,
    (C109_scan_errors refLstsq S id (fun _ => false) (by simp) 1 "x".toList 0 1 (1 / 2) _ _ _ _ 1 0 0 1 true).2.2.2.1 (by norm_num) (by norm_num) (by norm_num)
      (by norm_num)⟩

/-- The photograph with a model that is zero. -/
example (S : Sampler) : backwardMapping refLstsq S id roverPhoto 0 0 [0] = .error .linAlgError :=
  (C109_rover_errors refLstsq S id roverPhoto _ roverPhoto_load 0 0 [0]).2.2.2 300 roverPhoto_top (by norm_num) fun p _ => by simp [radial]

end Discorpy
