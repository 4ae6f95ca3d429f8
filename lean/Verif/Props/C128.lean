import Verif.Spec.Exposure
import Verif.Props.C90
import Verif.Props.C103

/-! # C128 — the exposure of the photograph does not matter -/

namespace Discorpy

open Spec

/-- The entries of the array outside of the image play no role: `fillHoles` gives them a fixed value. -/
theorem binarization_outside {otsu : Mat ℝ → Except PyErr ℝ} {m : Mat ℝ} {ratio : ℝ} {thres : Option ℝ} {denoise : Bool} {b : Mat ℤ}
    (h : binarization otsu m ratio thres denoise = .ok b) {i j : ℕ} (hij : ¬ (i < b.height ∧ j < b.width)) : b.get i j = 1 := by
  unfold binarization at h
  simp only [bind_ok_iff] at h
  obtain ⟨t, _, c, _, d, _, h⟩ := h
  cases h
  simp only [fillHoles]
  rw [if_neg]
  rintro ⟨q, _, hd, _⟩
  exact hij hd.1

theorem binarization_same {otsu otsu' : Mat ℝ → Except PyErr ℝ} {m m' : Mat ℝ} {ratio : ℝ} {thres thres' : Option ℝ} {denoise denoise' : Bool} {b b' : Mat ℤ}
    (h : binarization otsu m ratio thres denoise = .ok b) (h' : binarization otsu' m' ratio thres' denoise' = .ok b') (hs : SameMask b b') : b' = b := by
  obtain ⟨s1, s2, s3⟩ := id hs
  have hg : b'.get = b.get := by
    funext i j
    by_cases hij : i < b.height ∧ j < b.width
    · first | exact s3 i hij.1 j hij.2 | exact (s3 i hij.1 j hij.2).symm
    · rw [binarization_outside h hij, binarization_outside h' (by omega)]
  cases b
  cases b'
  simp_all

/-- **C128 (binarization).** The automatically binarized image is the same for every brightness and contrast. -/
theorem C128_binarization (integer : Bool) (m : Mat ℝ) (n : ℕ) (α β : ℝ) (hα : 0 < α) (ratio : ℝ) (denoise : Bool)
    (hp : denoise = true → ∀ i < m.height, ∀ j < m.width, 0 ≤ m.get i j ∧ 0 ≤ α * m.get i j + β)
    (hz : integer = true → ∀ i < m.height, ∀ j < m.width, (∃ z : ℤ, m.get i j = z) ∧ ∃ z : ℤ, α * m.get i j + β = z)
    (b : Mat ℤ) (hb : binarization (thresholdOtsu integer n) m ratio none denoise = .ok b) :
    binarization (thresholdOtsu integer n) (exposed α β m) ratio none denoise = .ok b := by
  obtain ⟨b', e, hs⟩ := C90_mask integer m n α β hα ratio denoise hp hz b hb
  rw [← binarization_same hb e hs]
  exact e

/-- **C128 (dots).** So are the dots found in it. -/
theorem C128_points (integer : Bool) (m : Mat ℝ) (n : ℕ) (α β : ℝ) (hα : 0 < α) (ratio : ℝ)
    (hp : ∀ i < m.height, ∀ j < m.width, 0 ≤ m.get i j ∧ 0 ≤ α * m.get i j + β)
    (hz : integer = true → ∀ i < m.height, ∀ j < m.width, (∃ z : ℤ, m.get i j = z) ∧ ∃ z : ℤ, α * m.get i j + β = z)
    (pts : List Pt) (h : getPointsDotPattern (thresholdOtsu integer n) m true ratio none = .ok pts) :
    getPointsDotPattern (thresholdOtsu integer n) (exposed α β m) true ratio none = .ok pts := by
  simp only [getPointsDotPattern, if_true] at h ⊢
  rw [bind_ok_iff] at h
  obtain ⟨b, hb, h⟩ := h
  rw [C128_binarization integer m n α β hα ratio true (fun _ => hp) hz b hb, ok_bind]
  exact h

theorem bilinear_exposed (α β : ℝ) (m : Mat ℝ) (y x : ℝ) : bilinear (exposed α β m) y x = α * bilinear m y x + β := by
  simp only [bilinear, exposed]
  ring

/-- **C128 (corrected image).** The corrected photograph has the brightness and contrast of the photograph. -/
theorem C128_image (B B' : Boundary) (rnd : ℝ → ℝ) (hr : CoordRounding rnd) (m : Mat ℝ) (α β : ℝ) (hh : m.height ≤ 2 ^ 24) (hw : m.width ≤ 2 ^ 24)
    (xc yc : ℝ) (f : List ℝ) :
    IsExposed α β (unwarpImageBackward (linearInterp B) rnd m xc yc f) (unwarpImageBackward (linearInterp B') rnd (exposed α β m) xc yc f) := by
  refine ⟨rfl, rfl, fun i hi j hj => ?_⟩
  replace hi : i < m.height := hi
  replace hj : j < m.width := hj
  have hf := inFrame_rnd hr (inFrame_clip (m := m) (by omega) (by omega) (yc + polySum f √(((j : ℝ) - xc) ^ 2 + ((i : ℝ) - yc) ^ 2) * (i - yc))
    (xc + polySum f √(((j : ℝ) - xc) ^ 2 + ((i : ℝ) - yc) ^ 2) * (j - xc))) (by omega) (by omega) hh hw
  have e1 := linearInterp_eq B m hf
  have e2 := linearInterp_eq B' (exposed α β m) (y := _) (x := _) hf
  exact e2.trans ((bilinear_exposed α β m _ _).trans (by rw [← e1]; rfl))

/-- **C128 (image, forward).** Likewise for the forward way, except for the pixels that are not written: they are 0. -/
theorem C128_forward (m : Mat ℝ) (α β : ℝ) (hh : 0 < m.height) (hw : 0 < m.width) (xc yc : ℝ) (f : List ℝ) :
    ∃ out out', unwarpImageForward m xc yc f = .ok out ∧ unwarpImageForward (exposed α β m) xc yc f = .ok out' ∧ IsExposedOrBlank α β out out' := by
  obtain ⟨out, eo, o1, o2, o3⟩ := foldlM_setItem (forwardIndex m.height m.width xc yc f) (fun p => m.get p.1 p.2) (pixels m.height m.width)
    { height := m.height, width := m.width, get := fun _ _ => (0 : ℝ) } (fun p _ => forwardIndex_mem hh hw xc yc f p)
  obtain ⟨out', eo', o1', o2', o3'⟩ := foldlM_setItem (forwardIndex m.height m.width xc yc f) (fun p => α * m.get p.1 p.2 + β) (pixels m.height m.width)
    { height := m.height, width := m.width, get := fun _ _ => (0 : ℝ) } (fun p _ => forwardIndex_mem hh hw xc yc f p)
  refine ⟨out, out', eo, eo', o1'.trans o1.symm, o2'.trans o2.symm, fun i _ j _ => ?_⟩
  rw [o3, o3']
  cases (pixels m.height m.width).reverse.find? (fun p => decide (forwardIndex m.height m.width xc yc f p = ((i : ℤ), (j : ℤ)))) with
  | none => exact Or.inr ⟨rfl, rfl⟩
  | some p => exact Or.inl rfl

theorem correctBackward_related {lib : Libs} {rel : Mat ℝ → Mat ℝ → Prop} {m m' : Mat ℝ}
    (hrel : ∀ (c : Pt) f, rel (unwarpImageBackward lib.sample lib.float32 m c.x c.y f) (unwarpImageBackward lib.sample lib.float32 m' c.x c.y f))
    {hor ver : List (List Pt)} {c : Pt} {f : List ℝ} {w : Bool} {r : Corrected} (h : correctBackward lib m hor ver c f w = .ok r) :
    ∃ r', correctBackward lib m' hor ver c f w = .ok r' ∧ SameCorrection rel r r' := by
  unfold correctBackward at h ⊢
  rw [bind_ok_iff] at h
  obtain ⟨bad, e, h⟩ := h
  cases h
  simp only [e, ok_bind]
  exact ⟨_, rfl, rfl, rfl, rfl, rfl, rfl, hrel c f⟩

theorem correctForward_related {lib : Libs} {relF : Mat ℝ → Mat ℝ → Prop} {m m' : Mat ℝ}
    (hrel : ∀ (c : Pt) f, ∃ out out', unwarpImageForward m c.x c.y f = .ok out ∧ unwarpImageForward m' c.x c.y f = .ok out' ∧ relF out out')
    {hor ver : List (List Pt)} {c : Pt} {f : List ℝ} {w : Bool} {r : Corrected} (h : correctForward lib m hor ver c f w = .ok r) :
    ∃ r', correctForward lib m' hor ver c f w = .ok r' ∧ SameCorrection relF r r' := by
  obtain ⟨out, out', e1, e2, hrel⟩ := hrel c f
  unfold correctForward at h ⊢
  simp only [bind_ok_iff] at h
  obtain ⟨img, e, bad, eb, h⟩ := h
  rw [e1] at e
  cases e
  cases h
  simp only [e2, eb, ok_bind]
  exact ⟨_, rfl, rfl, rfl, rfl, rfl, rfl, hrel⟩

/-- The script uses the photograph only for the mask and for the corrected images. -/
theorem runExample_related {lib : Libs} {rel relF : Mat ℝ → Mat ℝ → Prop} {m m' : Mat ℝ}
    (hrel : ∀ (c : Pt) f, rel (unwarpImageBackward lib.sample lib.float32 m c.x c.y f) (unwarpImageBackward lib.sample lib.float32 m' c.x c.y f))
    (hrelF : ∀ (c : Pt) f, ∃ out out', unwarpImageForward m c.x c.y f = .ok out ∧ unwarpImageForward m' c.x c.y f = .ok out' ∧ relF out out')
    {b : Mat ℤ} (hb : binarization lib.otsu m 0.3 none true = .ok b) (hb' : binarization lib.otsu m' 0.3 none true = .ok b)
    {numCoef : ℤ} {r : Calibration} (h : runExample lib m numCoef = .ok r) :
    ∃ r', runExample lib m' numCoef = .ok r' ∧ SameCalibration rel relF r r' := by
  unfold runExample at h ⊢
  rw [hb, ok_bind] at h
  rw [hb', ok_bind]
  split_ifs at h ⊢ with hn
  simp only [bind_ok_iff] at h
  obtain ⟨⟨s, d⟩, e1, m3, e2, hs, e3, vs, e4, ho, e5, ve, e6, ho', e7, ve', e8, sg, e9, c, e10, ⟨bw, w1⟩, e11, bk, e12, ⟨fw, w2⟩, e13, fo, e14,
    ⟨bf0, bf, w3⟩, e15, bff, e16, h⟩ := h
  cases h
  obtain ⟨bk', f1, g1⟩ := correctBackward_related hrel e12
  obtain ⟨fo', f2, g2⟩ := correctForward_related hrelF e14
  obtain ⟨bff', f3, g3⟩ := correctBackward_related hrel e16
  simp only [e1, e2, e3, e4, e5, e6, e7, e8, e9, e10, e11, f1, e13, f2, e15, f3, ok_bind]
  exact ⟨_, rfl, rfl, rfl, rfl, rfl, rfl, rfl, rfl, rfl, rfl, rfl, g1, g2, g3⟩

theorem runExample_mask {lib : Libs} {m : Mat ℝ} {numCoef : ℤ} {r : Calibration} (h : runExample lib m numCoef = .ok r) :
    binarization lib.otsu m 0.3 none true = .ok r.binarized := by
  unfold runExample at h
  rw [bind_ok_iff] at h
  obtain ⟨b, hb, h⟩ := h
  split_ifs at h with hn
  simp only [bind_ok_iff] at h
  obtain ⟨⟨s, d⟩, e1, m3, e2, hs, e3, vs, e4, ho, e5, ve, e6, ho', e7, ve', e8, sg, e9, c, e10, ⟨bw, w1⟩, e11, bk, e12, ⟨fw, w2⟩, e13, fo, e14,
    ⟨bf0, bf, w3⟩, e15, bff, e16, h⟩ := h
  cases h
  exact hb

/-- **C128 (calibration script).** The calibration script gives the same lines, centre, models and messages for every brightness and contrast of the
photograph, and corrected photographs with the same brightness and contrast. -/
theorem C128_script (lib : Libs) (integer : Bool) (n : ℕ) (hotsu : lib.otsu = thresholdOtsu integer n) (B : Boundary) (hS : lib.sample = linearInterp B)
    (hr : CoordRounding lib.float32) (m : Mat ℝ) (hh : m.height ≤ 2 ^ 24) (hw : m.width ≤ 2 ^ 24) (α β : ℝ) (hα : 0 < α)
    (hp : ∀ i < m.height, ∀ j < m.width, 0 ≤ m.get i j ∧ 0 ≤ α * m.get i j + β)
    (hz : integer = true → ∀ i < m.height, ∀ j < m.width, (∃ z : ℤ, m.get i j = z) ∧ ∃ z : ℤ, α * m.get i j + β = z)
    (numCoef : ℤ) (r : Calibration) (h : runExample lib m numCoef = .ok r) :
    ∃ r', runExample lib (exposed α β m) numCoef = .ok r' ∧ SameCalibration (IsExposed α β) (IsExposedOrBlank α β) r r' := by
  have hb := runExample_mask h
  have hsz : 0 < m.height ∧ 0 < m.width := by
    have := hb
    rw [hotsu, binarization_denoise] at this
    exact (binarization_none_ok this).2
  refine runExample_related (fun c f => ?_) (fun c f => C128_forward m α β hsz.1 hsz.2 c.x c.y f) hb ?_ h
  · rw [hS]
    exact C128_image B B lib.float32 hr m α β hh hw c.x c.y f
  · rw [hotsu] at hb ⊢
    exact C128_binarization integer m n α β hα 0.3 true (fun _ => hp) hz _ hb

theorem exposed_back (α β : ℝ) (hα : 0 < α) (m : Mat ℝ) : exposed α⁻¹ (-β / α) (exposed α β m) = m := by
  have e : ∀ i j, α⁻¹ * (α * m.get i j + β) + -β / α = m.get i j := by
    intro i j
    field_simp
    ring
  simp only [exposed, e]

/-- **C128 (failures).** The script fails for one of the photographs exactly if it fails for the other. -/
theorem C128_fails (lib : Libs) (integer : Bool) (n : ℕ) (hotsu : lib.otsu = thresholdOtsu integer n) (B : Boundary) (hS : lib.sample = linearInterp B)
    (hr : CoordRounding lib.float32) (m : Mat ℝ) (hh : m.height ≤ 2 ^ 24) (hw : m.width ≤ 2 ^ 24) (α β : ℝ) (hα : 0 < α)
    (hp : ∀ i < m.height, ∀ j < m.width, 0 ≤ m.get i j ∧ 0 ≤ α * m.get i j + β)
    (hz : integer = true → ∀ i < m.height, ∀ j < m.width, (∃ z : ℤ, m.get i j = z) ∧ ∃ z : ℤ, α * m.get i j + β = z) (numCoef : ℤ) :
    (∃ e, runExample lib m numCoef = .error e) ↔ ∃ e, runExample lib (exposed α β m) numCoef = .error e := by
  have back : ∀ i j, α⁻¹ * (α * m.get i j + β) + -β / α = m.get i j := by
    intro i j
    field_simp
    ring
  constructor
  · rintro ⟨e, he⟩
    cases h : runExample lib (exposed α β m) numCoef with
    | error x => exact ⟨x, rfl⟩
    | ok r =>
      obtain ⟨r', h', _⟩ := C128_script lib integer n hotsu B hS hr (exposed α β m) hh hw α⁻¹ (-β / α) (inv_pos.2 hα)
        (fun i hi j hj => ⟨(hp i hi j hj).2, by simp only [exposed, back]; exact (hp i hi j hj).1⟩)
        (fun hi i hi' j hj => ⟨(hz hi i hi' j hj).2, by simp only [exposed, back]; exact (hz hi i hi' j hj).1⟩) numCoef r h
      rw [exposed_back α β hα, he] at h'
      cases h'
  · rintro ⟨e, he⟩
    cases h : runExample lib m numCoef with
    | error x => exact ⟨x, rfl⟩
    | ok r =>
      obtain ⟨r', h', _⟩ := C128_script lib integer n hotsu B hS hr m hh hw α β hα hp hz numCoef r h
      rw [he] at h'
      cases h'

/-! ## Concrete cases -/

/-- The drawn pattern of C94 has 200 × 200 pixels 0 and 1. -/
theorem drawn13_pixels {m : Mat ℝ} (hm : makeDotPattern 200 200 15 9 (.int 1) = .ok m) :
    m.height = 200 ∧ m.width = 200 ∧ ∀ i < m.height, ∀ j < m.width, m.get i j = 0 ∨ m.get i j = 1 := by
  obtain ⟨r, e, h1, h2, h3⟩ := C68_pixels (height := 200) (width := 200) (d := 15) (ds := 9) (s := 9) (margin := .int 1) (mv := 1) (mh := 1)
    (.inl ⟨rfl, rfl⟩) (by norm_num) (by norm_num) (by norm_num) (by norm_num) (by norm_num)
  rw [hm] at e
  cases e
  refine ⟨h1, h2, fun i hi j hj => ?_⟩
  obtain ⟨a, b⟩ := h3 i j (by omega) (by omega)
  by_cases hc : ∃ k l : ℕ, ∃ p q : ℤ, DotCentre (1 + (9 / 2 + 1)) ((200 : ℕ) - (1 + (9 / 2 + 1))) 15 k p ∧
      DotCentre (1 + (9 / 2 + 1)) ((200 : ℕ) - (1 + (9 / 2 + 1))) 15 l q ∧ InDot 9 (i - p) (j - q)
  · exact .inl (a hc)
  · exact .inr (b hc)

theorem drawn13_exposed {m : Mat ℝ} (hm : makeDotPattern 200 200 15 9 (.int 1) = .ok m) (i : ℕ) (hi : i < m.height) (j : ℕ) (hj : j < m.width) :
    0 ≤ m.get i j ∧ 0 ≤ 180.5 * m.get i j + 20 := by
  rcases (drawn13_pixels hm).2.2 i hi j hj with h | h <;> rw [h] <;> norm_num

/-- The script run on a photograph of this pattern with grey values 20 and 200.5 finds the same lines, and the same centre and models. -/
example : ∃ m c c', makeDotPattern 200 200 15 9 (.int 1) = .ok m ∧ runExample refLibs m 5 = .ok c ∧ runExample refLibs (exposed 180.5 20 m) 5 = .ok c' ∧
    c'.hor = c.hor ∧ c'.centre = c.centre ∧ c'.backward.coefs = c.backward.coefs ∧ c'.forward.coefs = c.forward.coefs := by
  obtain ⟨m, c, hm, hc, _⟩ := drawn13_finishes
  obtain ⟨c', hc', h⟩ := C128_script refLibs false 512 rfl _ rfl coordRounding_id m (by rw [(drawn13_pixels hm).1]; norm_num)
    (by rw [(drawn13_pixels hm).2.1]; norm_num) 180.5 20 (by norm_num) (drawn13_exposed hm) (by simp) 5 c hc
  exact ⟨m, c, c', hm, hc, hc', h.hor, h.centre, h.backward.1, h.forward.1⟩

example {m : Mat ℝ} (hm : makeDotPattern 200 200 15 9 (.int 1) = .ok m) : ∃ c, runExample refLibs (exposed 180.5 20 m) 5 = .ok c := by
  obtain ⟨m', c, hm', hc, _⟩ := drawn13_finishes
  rw [hm] at hm'
  cases hm'
  cases h : runExample refLibs (exposed 180.5 20 m) 5 with
  | ok c => exact ⟨c, rfl⟩
  | error e =>
    obtain ⟨e', he'⟩ := (C128_fails refLibs false 512 rfl _ rfl coordRounding_id m (by rw [(drawn13_pixels hm).1]; norm_num)
      (by rw [(drawn13_pixels hm).2.1]; norm_num) 180.5 20 (by norm_num) (drawn13_exposed hm) (by simp) 5).2 ⟨e, h⟩
    rw [hc] at he'
    cases he'

/-- A mask of an image of integers (12 × 12 pixels, all dark but one block), with twice the contrast and brightness 7. -/
example (b : Mat ℤ) (hb : binarization (thresholdOtsu true 512) ⟨12, 12, fun i j => if i / 4 = 1 ∧ j / 4 = 1 then 1 else 0⟩ 0.3 none true = .ok b) :
    binarization (thresholdOtsu true 512) (exposed 2 7 ⟨12, 12, fun i j => if i / 4 = 1 ∧ j / 4 = 1 then 1 else 0⟩) 0.3 none true = .ok b := by
  refine C128_binarization true _ 512 2 7 (by norm_num) 0.3 true (fun _ i _ j _ => ?_) (fun _ i _ j _ => ?_) b hb
  · dsimp only
    split_ifs <;> norm_num
  · dsimp only
    split_ifs
    · exact ⟨⟨1, by norm_num⟩, 9, by norm_num⟩
    · exact ⟨⟨0, by norm_num⟩, 7, by norm_num⟩

/-- The dots of the drawn pattern in the photograph. -/
example {m : Mat ℝ} (hm : makeDotPattern 200 200 15 9 (.int 1) = .ok m) (pts : List Pt)
    (h : getPointsDotPattern (thresholdOtsu false 512) m true 0.3 none = .ok pts) :
    getPointsDotPattern (thresholdOtsu false 512) (exposed 180.5 20 m) true 0.3 none = .ok pts :=
  C128_points false m 512 180.5 20 (by norm_num) 0.3 (drawn13_exposed hm) (by simp) pts h

example (B B' : Boundary) := C128_image B B' id coordRounding_id ⟨8, 9, fun i j => (10 * i + j : ℕ)⟩ (-1) 255 (by norm_num) (by norm_num) 4 3 [1, -7, 100]
example := C128_forward ⟨8, 9, fun i j => (10 * i + j : ℕ)⟩ (-1) 255 (by norm_num) (by norm_num) 4 3 [1, -7, 100]

end Discorpy
