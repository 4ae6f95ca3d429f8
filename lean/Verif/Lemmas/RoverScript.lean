import Verif.Model.RoverScript
import Verif.Spec.Rover
import Verif.Props.C91
import Verif.Lemmas.StackScript
import Verif.Lemmas.Loop
import Verif.Lemmas.Path
import Verif.Props.C24
import Verif.Spec.Script
import Mathlib.Data.List.GetD

/-! # Helper lemmas: correction without a calibration pattern -/

namespace Discorpy

open Spec

/-! ## The ruled sheet -/

theorem mem_rules {h : ℕ} {c : ℤ} : c ∈ rangeList 50 (h - 50) 40 ↔ IsRule h c := by
  unfold rangeList rangeLen IsRule
  rw [if_pos (by norm_num), List.mem_map]
  constructor
  · rintro ⟨k, hk, rfl⟩
    rw [List.mem_range] at hk
    exact ⟨⟨k, by ring⟩, by omega⟩
  · rintro ⟨⟨k, rfl⟩, hlt⟩
    exact ⟨k, by rw [List.mem_range]; omega, by ring⟩

/-- The value of the sheet in row `n`. -/
noncomputable def ruleRow (h : ℕ) (b n : ℤ) : ℝ :=
  open Classical in if ∃ c, IsRule h c ∧ c - b ≤ n ∧ n ≤ c + b then 1 else 0

theorem ruled_fold {h w : ℕ} {b : ℤ} (hb0 : 0 ≤ b) (hb : b ≤ 19) (l : List ℤ) (hl : ∀ c ∈ l, IsRule h c) (m : Mat ℝ) (hm : m.height = h ∧ m.width = w) :
    (l.foldl (fun m i => setBlock m (i - b) (i + b + 1) 0 w 1) m).height = h ∧ (l.foldl (fun m i => setBlock m (i - b) (i + b + 1) 0 w 1) m).width = w ∧
    ∀ i < h, ∀ j < w, (l.foldl (fun m i => setBlock m (i - b) (i + b + 1) 0 w 1) m).get i j =
      open Classical in if ∃ c ∈ l, c - b ≤ (i : ℤ) ∧ (i : ℤ) ≤ c + b then 1 else m.get i j := by
  induction l generalizing m with
  | nil => exact ⟨hm.1, hm.2, fun i _ j _ => by simp⟩
  | cons c l ih =>
    obtain ⟨i1, i2, i3⟩ := ih (fun c hc => hl c (by simp [hc])) (setBlock m (c - b) (c + b + 1) 0 w 1) hm
    refine ⟨i1, i2, fun i hi j hj => ?_⟩
    rw [List.foldl_cons, i3 i hi j hj]
    obtain ⟨⟨k, hk⟩, hlt⟩ := hl c (by simp)
    have key : (setBlock m (c - b) (c + b + 1) 0 w 1).get i j = open Classical in if c - b ≤ (i : ℤ) ∧ (i : ℤ) ≤ c + b then 1 else m.get i j := by
      have s1 : sliceBound h (c - b) = (c - b).toNat := by
        unfold sliceBound
        rw [if_neg (by omega)]
        omega
      have s2 : sliceBound h (c + b + 1) = (c + b + 1).toNat := by
        unfold sliceBound
        rw [if_neg (by omega)]
        omega
      have s3 : sliceBound w 0 = 0 := by simp [sliceBound]
      have s4 : sliceBound w w = w := by simp [sliceBound]
      unfold setBlock
      simp only [hm.1, hm.2, s1, s2, s3, s4]
      congr 1
      rw [eq_iff_iff]
      omega
    rw [key]
    by_cases h1 : ∃ c ∈ l, c - b ≤ (i : ℤ) ∧ (i : ℤ) ≤ c + b
    · rw [if_pos h1, if_pos]
      obtain ⟨c', h', h''⟩ := h1
      exact ⟨c', by simp [h'], h''⟩
    · rw [if_neg h1]
      by_cases h2 : c - b ≤ (i : ℤ) ∧ (i : ℤ) ≤ c + b
      · rw [if_pos h2, if_pos ⟨c, by simp, h2⟩]
      · rw [if_neg h2, if_neg]
        rintro ⟨c', h', h''⟩
        rcases List.mem_cons.1 h' with rfl | h'
        · exact h2 h''
        · exact h1 ⟨c', h', h''⟩

theorem ruledSheet_get {h w : ℕ} {b : ℤ} (hb0 : 0 ≤ b) (hb : b ≤ 19) :
    (ruledSheet h w b).height = h ∧ (ruledSheet h w b).width = w ∧ ∀ i < h, ∀ j < w, (ruledSheet h w b).get i j = ruleRow h b i := by
  obtain ⟨h1, h2, h3⟩ := ruled_fold (h := h) (w := w) hb0 hb (rangeList 50 (h - 50) 40) (fun c hc => mem_rules.1 hc) ⟨h, w, fun _ _ => 0⟩ ⟨rfl, rfl⟩
  refine ⟨h1, h2, fun i hi j hj => (h3 i hi j hj).trans ?_⟩
  unfold ruleRow
  by_cases hc : ∃ c, IsRule h c ∧ c - b ≤ (i : ℤ) ∧ (i : ℤ) ≤ c + b
  · rw [if_pos hc, if_pos]
    obtain ⟨c, h4, h5⟩ := hc
    exact ⟨c, mem_rules.2 h4, h5⟩
  · rw [if_neg hc, if_neg]
    rintro ⟨c, h4, h5⟩
    exact hc ⟨c, mem_rules.1 h4, h5⟩

/-- Rows outside the sheet are dark. -/
theorem ruleRow_outside {h : ℕ} {b n : ℤ} (hb : b ≤ 19) (hn : n ≤ 0 ∨ (h : ℤ) - 1 ≤ n) : ruleRow h b n = 0 := by
  unfold ruleRow
  rw [if_neg]
  rintro ⟨c, ⟨⟨k, rfl⟩, hlt⟩, h1, h2⟩
  omega

theorem padFrame_get {h w : ℕ} {b : ℤ} (hb0 : 0 ≤ b) (hb : b ≤ 19) (hh : 0 < h) (hw : 0 < w) (pad i j : ℕ) :
    (padFrame (ruledSheet h w b) pad).get i j = ruleRow h b ((i : ℤ) - pad) := by
  obtain ⟨h1, h2, h3⟩ := ruledSheet_get (h := h) (w := w) hb0 hb
  unfold padFrame
  simp only [h1, h2]
  rw [h3 _ (by omega) _ (by omega)]
  by_cases c1 : i < pad
  · rw [ruleRow_outside hb (.inl (by omega)), ruleRow_outside hb (.inl (by omega))]
  · by_cases c2 : i - pad ≤ h - 1
    · congr 1
      omega
    · rw [ruleRow_outside hb (.inr (by omega)), ruleRow_outside hb (.inr (by omega))]

/-- Linear interpolation between two rows. -/
theorem ruled_interp {h : ℕ} {b : ℤ} (hb0 : 0 ≤ b) (hb : b ≤ 19) (n : ℤ) {t : ℝ} (t0 : 0 ≤ t) (t1 : t < 1) :
    RuledBrightness h b ((n : ℝ) + t) ((1 - t) * ruleRow h b n + t * ruleRow h b (n + 1)) := by
  unfold ruleRow
  by_cases h1 : ∃ c, IsRule h c ∧ c - b ≤ n ∧ n ≤ c + b
  · obtain ⟨c, hc, a1, a2⟩ := h1
    rw [if_pos ⟨c, hc, a1, a2⟩]
    by_cases h2 : ∃ c, IsRule h c ∧ c - b ≤ n + 1 ∧ n + 1 ≤ c + b
    · obtain ⟨c', hc', b1, b2⟩ := h2
      rw [if_pos ⟨c', hc', b1, b2⟩]
      have e : c' = c := by
        obtain ⟨⟨k, rfl⟩, _⟩ := hc
        obtain ⟨⟨k', rfl⟩, _⟩ := hc'
        omega
      subst e
      refine .inl ⟨c', hc, ?_, by ring⟩
      have e1 : ((c' - b : ℤ) : ℝ) ≤ n := by exact_mod_cast a1
      have e2 : ((n + 1 : ℤ) : ℝ) ≤ ((c' + b : ℤ) : ℝ) := by exact_mod_cast b2
      push_cast at e1 e2
      rw [abs_le]
      constructor <;> linarith
    · rw [if_neg h2]
      have e : n = c + b := by
        by_contra hne
        exact h2 ⟨c, hc, by omega, by omega⟩
      have hb0' : (0 : ℝ) ≤ b := by exact_mod_cast hb0
      have e2 : |(n : ℝ) + t - c| = b + t := by
        rw [e]
        push_cast
        rw [show (c : ℝ) + b + t - c = b + t by ring, abs_of_nonneg (by linarith)]
      rcases t0.eq_or_lt with rfl | t0
      · refine .inl ⟨c, hc, by rw [e2]; simp, by ring⟩
      · exact .inr (.inl ⟨c, hc, by rw [e2]; linarith, by rw [e2]; linarith, by rw [e2]; ring⟩)
  · rw [if_neg h1]
    by_cases h2 : ∃ c, IsRule h c ∧ c - b ≤ n + 1 ∧ n + 1 ≤ c + b
    · obtain ⟨c, hc, b1, b2⟩ := h2
      rw [if_pos ⟨c, hc, b1, b2⟩]
      have e : n + 1 = c - b := by
        by_contra hne
        exact h1 ⟨c, hc, by omega, by omega⟩
      have hb0' : (0 : ℝ) ≤ b := by exact_mod_cast hb0
      have e' : (n : ℝ) = c - b - 1 := by
        have : ((n + 1 : ℤ) : ℝ) = ((c - b : ℤ) : ℝ) := by exact_mod_cast e
        push_cast at this
        linarith
      have e2 : |(n : ℝ) + t - c| = b + 1 - t := by
        rw [e', show (c : ℝ) - b - 1 + t - c = -(b + 1 - t) by ring, abs_neg, abs_of_nonneg (by linarith)]
      rcases t0.eq_or_lt with rfl | t0
      · refine .inr (.inr ⟨fun c' hc' => ?_, by ring⟩)
        have : ¬ (c' - b ≤ n ∧ n ≤ c' + b) := fun hh => h1 ⟨c', hc', hh⟩
        rw [add_zero]
        rcases le_or_gt n (c' - b - 1) with a | a
        · have a' : (n : ℝ) ≤ ((c' - b - 1 : ℤ) : ℝ) := by exact_mod_cast a
          push_cast at a'
          rw [abs_of_nonpos (by linarith)]
          linarith
        · have a' : ((c' + b + 1 : ℤ) : ℝ) ≤ n := by exact_mod_cast (by omega : c' + b + 1 ≤ n)
          push_cast at a'
          rw [abs_of_nonneg (by linarith)]
          linarith
      · exact .inr (.inl ⟨c, hc, by rw [e2]; linarith, by rw [e2]; linarith, by rw [e2]; ring⟩)
    · rw [if_neg h2]
      refine .inr (.inr ⟨fun c hc => ?_, by ring⟩)
      have n1 : ¬ (c - b ≤ n ∧ n ≤ c + b) := fun hh => h1 ⟨c, hc, hh⟩
      have n2 : ¬ (c - b ≤ n + 1 ∧ n + 1 ≤ c + b) := fun hh => h2 ⟨c, hc, hh⟩
      have hb0' : (0 : ℝ) ≤ b := by exact_mod_cast hb0
      rcases le_or_gt c n with a | a
      · have a' : ((c + b + 1 : ℤ) : ℝ) ≤ n := by exact_mod_cast (by omega : c + b + 1 ≤ n)
        push_cast at a'
        rw [abs_of_nonneg (by linarith)]
        linarith
      · have a' : ((n + 1 : ℤ) : ℝ) ≤ ((c - b - 1 : ℤ) : ℝ) := by exact_mod_cast (by omega : n + 1 ≤ c - b - 1)
        push_cast at a'
        rw [abs_of_nonpos (by linarith)]
        linarith

/-- The brightness of the padded sheet at a point of the frame. -/
theorem padFrame_bilinear {h w : ℕ} {b : ℤ} (hb0 : 0 ≤ b) (hb : b ≤ 19) (hh : 0 < h) (hw : 0 < w) (pad : ℕ) {y x : ℝ}
    (hf : Spec.InFrame (padFrame (ruledSheet h w b) pad) y x) : RuledBrightness h b (y - pad) (bilinear (padFrame (ruledSheet h w b) pad) y x) := by
  obtain ⟨w1, w2, w3, w4⟩ := floor_weights hf.1 hf.2.1
  have e : bilinear (padFrame (ruledSheet h w b) pad) y x =
      (1 - (y - ⌊y⌋₊)) * ruleRow h b ((⌊y⌋₊ : ℤ) - pad) + (y - ⌊y⌋₊) * ruleRow h b ((⌊y⌋₊ : ℤ) - pad + 1) := by
    rw [bilinear_split]
    simp only [padFrame_get hb0 hb hh hw]
    rcases w4 with ⟨_, a⟩ | ⟨a, _⟩
    · rw [a]
      push_cast
      rw [show (⌊y⌋₊ : ℤ) + 1 - pad = (⌊y⌋₊ : ℤ) - pad + 1 by ring]
      ring
    · rw [sub_eq_zero.2 a]
      ring
  rw [e]
  have := ruled_interp (h := h) hb0 hb ((⌊y⌋₊ : ℤ) - pad) w2 w3
  push_cast at this
  rwa [show (⌊y⌋₊ : ℝ) - pad + (y - ⌊y⌋₊) = y - pad by ring] at this

/-- Beyond the borders of the frame the sheet is as dark as at the borders. -/
theorem ruled_outside {h : ℕ} {b : ℤ} (hb : b ≤ 19) {y : ℝ} (hy : y ≤ 0 ∨ (h : ℝ) - 1 ≤ y) {v : ℝ} : RuledBrightness h b y v ↔ v = 0 := by
  have hb' : (b : ℝ) ≤ 19 := by exact_mod_cast hb
  have far : ∀ c, IsRule h c → (b : ℝ) + 1 ≤ |y - c| := by
    rintro c ⟨⟨k, hk⟩, hlt⟩
    have e1 : (50 : ℝ) ≤ c := by exact_mod_cast (by omega : (50 : ℤ) ≤ c)
    have e2 : (c : ℝ) + 51 ≤ h := by exact_mod_cast (by omega : c + 51 ≤ (h : ℤ))
    rcases hy with hy | hy
    · rw [abs_of_nonpos (by linarith)]
      linarith
    · rw [abs_of_nonneg (by linarith)]
      linarith
  constructor
  · rintro (⟨c, hc, h1, _⟩ | ⟨c, hc, _, h1, _⟩ | ⟨_, rfl⟩)
    · linarith [far c hc]
    · linarith [far c hc]
    · rfl
  · exact fun hv => .inr (.inr ⟨far, hv⟩)

/-- What the sheet shows after warping: without rounding, the brightness of the sheet in the row to which the model moves the pixel. -/
theorem warped_exact (B : Boundary) {h w : ℕ} {b : ℤ} (hb0 : 0 ≤ b) (hb : b ≤ 19) (pad : ℕ) (xc yc : ℝ) (f : List ℝ) {i j : ℕ} (hi : i < h) (hj : j < w) :
    RuledBrightness h b (radialMap ⟨yc, xc⟩ f ⟨i, j⟩).y
      ((warpedSheet (linearInterp B) id (padFrame (ruledSheet h w b) pad) pad h w xc yc f).get i j) := by
  obtain ⟨s1, s2, _⟩ := ruledSheet_get (h := h) (w := w) hb0 hb
  set P := padFrame (ruledSheet h w b) pad with hP
  have p1 : P.height = pad + h + pad := by rw [hP]; simp only [padFrame, s1]
  have p2 : P.width = pad + w + pad := by rw [hP]; simp only [padFrame, s2]
  set q := radialMap ⟨yc + pad, xc + pad⟩ f ⟨(pad + i : ℕ), (pad + j : ℕ)⟩ with hq
  have hqy : q.y = (radialMap ⟨yc, xc⟩ f ⟨i, j⟩).y + pad := by
    rw [hq]
    simp only [radialMap, ptDist]
    push_cast
    rw [show (pad : ℝ) + i - (yc + pad) = i - yc by ring, show (pad : ℝ) + j - (xc + pad) = j - xc by ring]
    ring
  have hc := inFrame_clip (m := P) (by omega) (by omega) q.y q.x
  have e : (warpedSheet (linearInterp B) id P pad h w xc yc f).get i j = bilinear P (clip q.y 0 ((P.height : ℝ) - 1)) (clip q.x 0 ((P.width : ℝ) - 1)) := by
    refine Eq.trans ?_ (linearInterp_eq B _ hc)
    simp only [warpedSheet, unwarpImageBackward, polySum_eq_radial]
    rfl
  rw [e]
  have hr := padFrame_bilinear hb0 hb (by omega) (by omega) pad hc
  have c1 : (P.height : ℝ) = pad + h + pad := by rw [p1]; push_cast; ring
  have hh1 : (1 : ℝ) ≤ h := by exact_mod_cast (by omega : 1 ≤ h)
  have hpad : (0 : ℝ) ≤ pad := Nat.cast_nonneg _
  rw [← hP] at hr
  by_cases d1 : q.y < 0
  · have e1 : clip q.y 0 ((P.height : ℝ) - 1) = 0 := by
      unfold clip
      rw [max_eq_right d1.le, min_eq_left (by rw [c1]; linarith)]
    rw [e1] at hr ⊢
    rw [(ruled_outside hb (.inl (by linarith))).1 hr]
    exact (ruled_outside hb (.inl (by linarith))).2 rfl
  · by_cases d2 : (P.height : ℝ) - 1 < q.y
    · have e1 : clip q.y 0 ((P.height : ℝ) - 1) = (P.height : ℝ) - 1 := by
        unfold clip
        rw [max_eq_left (by linarith), min_eq_right d2.le]
      rw [e1] at hr ⊢
      rw [(ruled_outside hb (.inr (by rw [c1]; linarith))).1 hr]
      exact (ruled_outside hb (.inr (by linarith))).2 rfl
    · have e1 : clip q.y 0 ((P.height : ℝ) - 1) = q.y := by
        unfold clip
        rw [max_eq_left (by linarith), min_eq_left (by linarith)]
      rw [e1] at hr ⊢
      rwa [show q.y - pad = (radialMap ⟨yc, xc⟩ f ⟨i, j⟩).y by rw [hqy]; ring] at hr

theorem padFrame_steps {h w : ℕ} {b : ℤ} (hb0 : 0 ≤ b) (hb : b ≤ 19) (hh : 0 < h) (hw : 0 < w) (pad : ℕ) :
    StepsAtMost 1 0 (padFrame (ruledSheet h w b) pad) := by
  have hv : ∀ n, ruleRow h b n = 0 ∨ ruleRow h b n = 1 := fun n => by
    unfold ruleRow
    split_ifs <;> simp
  constructor
  · intro i _ j _
    rw [padFrame_get hb0 hb hh hw, padFrame_get hb0 hb hh hw]
    rcases hv (((i + 1 : ℕ) : ℤ) - pad) with e | e <;> rcases hv ((i : ℤ) - pad) with e' | e' <;> rw [e, e'] <;> norm_num
  · intro i _ j _
    rw [padFrame_get hb0 hb hh hw, padFrame_get hb0 hb hh hw]
    simp

/-- The same with rounded coordinates. -/
theorem warped_rounded (B : Boundary) {rnd : ℝ → ℝ} (hr : CoordRounding rnd) {h w : ℕ} {b : ℤ} (hb0 : 0 ≤ b) (hb : b ≤ 19) (pad : ℕ) {δ : ℝ}
    (hδ : RoundsBy δ rnd (padFrame (ruledSheet h w b) pad)) (h1 : pad + h + pad ≤ 2 ^ 24) (w1 : pad + w + pad ≤ 2 ^ 24)
    (xc yc : ℝ) (f : List ℝ) {i j : ℕ} (hi : i < h) (hj : j < w) :
    ∃ v, RuledBrightness h b (radialMap ⟨yc, xc⟩ f ⟨i, j⟩).y v ∧
      |(warpedSheet (linearInterp B) rnd (padFrame (ruledSheet h w b) pad) pad h w xc yc f).get i j - v| ≤ δ := by
  obtain ⟨s1, s2, _⟩ := ruledSheet_get (h := h) (w := w) hb0 hb
  refine ⟨_, warped_exact B hb0 hb pad xc yc f hi hj, ?_⟩
  have := C91_rounding B hr (padFrame (ruledSheet h w b) pad) hδ 1 0 (by norm_num) le_rfl (padFrame_steps hb0 hb (by omega) (by omega) pad) (xc + pad) (yc + pad) f
    (by simp only [padFrame, s1]; exact h1) (by simp only [padFrame, s2]; exact w1) (pad + i) (pad + j)
    (by simp only [padFrame, s1]; omega) (by simp only [padFrame, s2]; omega)
  simpa [warpedSheet] using this

/-! ## Fitting the inverse -/

theorem inverseDeviation_shift (c : Pt) (f g : List ℝ) (p : Pt) :
    inverseDeviation ⟨0, 0⟩ f g ⟨p.y - c.y, p.x - c.x⟩ = inverseDeviation c f g p := by
  have e : ptDist ⟨p.y - c.y, p.x - c.x⟩ ⟨0, 0⟩ = ptDist p c := by simp [ptDist]
  simp only [inverseDeviation, e]

/-- The points relative to the centre. -/
def fromCentre (c : Pt) (pts : List Pt) : List Pt := pts.map fun p => ⟨p.y - c.y, p.x - c.x⟩

theorem ptDist_fromCentre (c p : Pt) : ptDist ⟨p.y - c.y, p.x - c.x⟩ ⟨0, 0⟩ = ptDist p c := by simp [ptDist]

theorem sum_fromCentre (c : Pt) (f g : List ℝ) (pts : List Pt) :
    ((fromCentre c pts).map (inverseDeviation ⟨0, 0⟩ f g)).sum = (pts.map (inverseDeviation c f g)).sum := by
  unfold fromCentre
  rw [List.map_map]
  congr 1
  apply List.map_congr_left
  intro p _
  exact inverseDeviation_shift c f g p

theorem transformCoef_fit {lstsq : LstsqFn} (hl : LstsqSpec lstsq) (c : Pt) (pts : List Pt) (f : List ℝ) (mapping : String) (hlen : f.length ≤ pts.length)
    (hne : ∃ p ∈ pts, radial f (ptDist p c) ≠ 0) :
    ∃ g, transformCoef lstsq f mapping (some (fromCentre c pts)) = .ok g ∧ IsInverseFit c pts f g := by
  obtain ⟨p, hp, h0⟩ := hne
  obtain ⟨g, e, h1, h2⟩ := C24_least_squares lstsq hl f mapping (fromCentre c pts) (by simpa [fromCentre] using hlen)
    ⟨_, List.mem_map.2 ⟨p, hp, rfl⟩, by rwa [ptDist_fromCentre]⟩
  refine ⟨g, e, h1, fun g' hg' => ?_⟩
  have := h2 g' (hg'.trans h1.symm)
  rwa [sum_fromCentre, sum_fromCentre] at this

theorem lstsqChecked_fit {lstsq : LstsqFn} (hl : LstsqSpec lstsq) (c : Pt) (pts : List Pt) (f : List ℝ) (hne : ∃ p ∈ pts, radial f (ptDist p c) ≠ 0) :
    ∃ g, lstsqChecked lstsq ((fromCentre c pts).filterMap (inverseRow f)) = .ok g ∧ IsInverseFit c pts f g := by
  obtain ⟨p, hp, h0⟩ := hne
  obtain ⟨g, e, h1, h2⟩ := lstsq_inverse_min hl f (fromCentre c pts) ⟨_, List.mem_map.2 ⟨p, hp, rfl⟩, by rwa [ptDist_fromCentre]⟩
  refine ⟨g, e, h1, fun g' hg' => ?_⟩
  have := h2 g' (hg'.trans h1.symm)
  rwa [sum_fromCentre, sum_fromCentre] at this

theorem linspace16_eq {n k : ℕ} (hn : n ≤ 32767) (hk : 1 < k) : linspace16 n k = (List.range k).map fun i => ((i * n / (k - 1) : ℕ) : ℤ) := by
  unfold linspace16
  apply List.map_congr_left
  intro i hi
  rw [List.mem_range] at hi
  have hk' : ((k : ℝ) - 1) = ((k - 1 : ℕ) : ℝ) := by rw [Nat.cast_sub (by omega)]; simp
  have e : truncInt ((i : ℝ) * n / ((k : ℝ) - 1)) = ((i * n / (k - 1) : ℕ) : ℤ) := by
    unfold truncInt
    rw [hk', if_pos (by positivity), ← Nat.cast_mul, Int.floor_eq_iff]
    constructor
    · exact_mod_cast Nat.cast_div_le
    · rw [div_lt_iff₀ (by exact_mod_cast (by omega : 0 < k - 1))]
      have := Nat.lt_div_mul_add (a := i * n) (b := k - 1) (by omega)
      have h2 : i * n < (i * n / (k - 1) + 1) * (k - 1) := by rw [add_mul, one_mul]; exact this
      exact_mod_cast h2
  rw [e]
  have hle : i * n / (k - 1) ≤ n := by
    calc i * n / (k - 1) ≤ ((k - 1) * n) / (k - 1) := Nat.div_le_div_right (Nat.mul_le_mul_right _ (by omega))
      _ = n := Nat.mul_div_cancel_left _ (by omega)
  unfold toInt16
  generalize i * n / (k - 1) = t at hle ⊢
  rw [Int.bmod_eq_of_le_mul_two] <;> omega

theorem scanRefPoints_eq {h w : ℕ} (hh : h ≤ 32767) (hw : w ≤ 32767) (xc yc : ℝ) :
    scanRefPoints h w xc yc = fromCentre ⟨yc, xc⟩ (spreadPoints h w) := by
  unfold scanRefPoints fromCentre spreadPoints
  rw [linspace16_eq hh (by norm_num), linspace16_eq hw (by norm_num), List.map_flatMap, List.flatMap_map]
  simp only [List.map_map, Function.comp_def, Int.cast_natCast, Nat.reduceSub]

theorem rangeList_fifty (a n : ℕ) : rangeList a (n - a) 50 = (List.range ((n - 2 * a + 49) / 50)).map fun k : ℕ => ((a + 50 * k : ℕ) : ℤ) := by
  unfold rangeList rangeLen
  rw [if_pos (by norm_num)]
  have e : (((n : ℤ) - a - a + 50 - 1) / 50).toNat = (n - 2 * a + 49) / 50 := by omega
  rw [e]
  apply List.map_congr_left
  intro k _
  push_cast
  ring

theorem fiftyPoints_eq (a h w : ℕ) (xc yc : ℝ) :
    ((rangeList a (h - a) 50).flatMap fun i : ℤ => (rangeList a (w - a) 50).map fun j : ℤ => (⟨(i : ℝ) - yc, (j : ℝ) - xc⟩ : Pt)) =
      fromCentre ⟨yc, xc⟩ (everyFifty a h w) := by
  unfold fromCentre everyFifty
  rw [rangeList_fifty, rangeList_fifty, List.map_flatMap, List.flatMap_map]
  simp [List.map_map, Function.comp_def]

/-! ## Scans -/

theorem fmtFixed2_near {w : ℕ} {x y : ℝ} (h : fmtFixed2 w x = fmtFixed2 w y) : |x - y| ≤ 1 / 100 := by
  have h : List.leftpad w ' ' (fmtBody x) = List.leftpad w ' ' (fmtBody y) := h
  have key : ∀ z, (List.leftpad w ' ' (fmtBody z)).filter (fun c => decide (c ≠ ' ')) = fmtBody z := by
    intro z
    rw [List.leftpad, List.filter_append]
    have h1 : (List.replicate (w - (fmtBody z).length) ' ').filter (fun c => decide (c ≠ ' ')) = [] := by
      rw [List.filter_eq_nil_iff]
      intro c hc
      simp [List.eq_of_mem_replicate hc]
    rw [h1, List.nil_append, List.filter_eq_self]
    intro c hc
    have : c ≠ ' ' := fun e => (fmtBody_free z).1 (e ▸ hc)
    simpa using this
  refine fmt52_near ?_
  show List.leftpad 5 ' ' (fmtBody x) = List.leftpad 5 ' ' (fmtBody y)
  rw [← key x, h, key y]

theorem scanFolder_ok {isdir : PyStr → Bool} (hfin : {s | isdir s = true}.Finite) (stem : PyStr) (ntime : ℕ) :
    ∃ folder, scanFolder isdir stem ntime = .ok folder ∧ IsNewFolder isdir stem ntime folder := by
  have hex : ∃ n, ntime ≤ n ∧ isdir (stem ++ "_ntime_".toList ++ Nat.toDigits 10 n) = false := by
    by_contra hcon
    push Not at hcon
    have hsub : Set.range (fun n : ℕ => stem ++ "_ntime_".toList ++ Nat.toDigits 10 (ntime + n)) ⊆ {q | isdir q = true} := by
      rintro q ⟨n, rfl⟩
      simpa using hcon (ntime + n) (by omega)
    refine Set.infinite_range_of_injective ?_ (hfin.subset hsub)
    intro a b hab
    have := toDigits_injective (List.append_cancel_left hab)
    omega
  have hspec := Nat.find_spec hex
  set n := Nat.find hex with hn
  have hmin : ∀ k, ntime ≤ k → k < n → isdir (stem ++ "_ntime_".toList ++ Nat.toDigits 10 k) = true := by
    intro k h1 h2
    have := Nat.find_min hex (hn ▸ h2)
    simpa [h1] using this
  refine ⟨_, ?_, n, hspec.1, rfl, hspec.2, hmin⟩
  unfold scanFolder
  have key : ∀ d m, ntime ≤ m → m + d = n → whileLoop (fun n : ℕ =>
      let folder := stem ++ "_ntime_".toList ++ Nat.toDigits 10 n
      if isdir folder then (.ok (.inl (n + 1)) : Except PyErr (ℕ ⊕ PyStr)) else .ok (.inr folder)) m =
        .ok (stem ++ "_ntime_".toList ++ Nat.toDigits 10 n) := by
    intro d
    induction d with
    | zero =>
      intro m _ hm
      have e : m = n := by omega
      rw [e, whileLoop_unfold]
      simp only [hspec.2, Bool.false_eq_true, if_false]
    | succ d ih =>
      intro m h1 hm
      rw [whileLoop_unfold]
      simp only [hmin m h1 (by omega), if_true]
      exact ih (m + 1) (by omega) (by omega)
  exact key (n - ntime) ntime le_rfl (by have := hspec.1; omega)

/-- The number of values of a scan. -/
noncomputable def scanLength (start stop step : ℝ) : ℕ := ⌈(stop + step - start) / step⌉.toNat

theorem scanLength_spec {start stop step : ℝ} (hs : 0 < step) : IsScanLength start stop step (scanLength start stop step) := by
  intro k
  unfold scanLength
  rw [Int.lt_toNat, Int.lt_ceil, lt_div_iff₀ hs]
  push_cast
  constructor <;> intro h <;> linarith

theorem scanValues_ok {start stop step : ℝ} (hs : step ≠ 0) :
    scanValues start stop step = .ok ((List.range (scanLength start stop step)).map fun k : ℕ => start + (k : ℝ) * step) := by
  unfold scanValues
  rw [if_neg hs]
  rfl

theorem timesPowers_tried {coef power : List ℝ} (hlen : power.length = coef.length) {idx : ℕ} (hidx : idx < coef.length) (d : ℝ) :
    ∃ f, timesPowers power (coef.set idx (coef[idx] + d)) = .ok f ∧ IsTried coef power idx d f := by
  unfold timesPowers
  rw [if_pos (by simpa using hlen)]
  refine ⟨_, rfl, by simp [hlen], fun i hi => ?_⟩
  have h1 : i < (List.zipWith (· * ·) power (coef.set idx (coef[idx] + d))).length := by simp [hlen, hi]
  rw [List.getD_eq_getElem _ _ h1, List.getElem_zipWith, List.getD_eq_getElem _ _ (by omega), List.getD_eq_getElem _ _ hi, List.getElem_set]
  by_cases e : idx = i
  · subst e
    simp
  · rw [if_neg e, if_neg (fun e' => e e'.symm), add_zero]

theorem timesPowers_same {coef power : List ℝ} (hlen : power.length = coef.length) :
    ∃ f, timesPowers power coef = .ok f ∧ IsTried coef power 0 0 f := by
  unfold timesPowers
  rw [if_pos hlen]
  refine ⟨_, rfl, by simp [hlen], fun i hi => ?_⟩
  have h1 : i < (List.zipWith (· * ·) power coef).length := by simp [hlen, hi]
  rw [List.getD_eq_getElem _ _ h1, List.getElem_zipWith, List.getD_eq_getElem _ _ (by omega), List.getD_eq_getElem _ _ hi]
  simp

theorem flatten_pairs {α β : Type} (a b : α → β) (l : List α) :
    (l.map fun n => [a n, b n]).flatten.length = 2 * l.length ∧
    ∀ k, (l.map fun n => [a n, b n]).flatten[2 * k]? = (l[k]?).map a ∧ (l.map fun n => [a n, b n]).flatten[2 * k + 1]? = (l[k]?).map b := by
  induction l with
  | nil => simp
  | cons x l ih =>
    refine ⟨by simp only [List.map_cons, List.flatten_cons, List.length_append, ih.1, List.length_cons]; simp; ring, fun k => ?_⟩
    cases k with
    | zero => simp
    | succ k =>
      have := ih.2 k
      simp only [List.map_cons, List.flatten_cons, List.cons_append, List.nil_append, Nat.mul_succ, List.getElem?_cons_succ]
      exact this

theorem flatten_nodup {β : Type} (a b : ℕ → β) (n : ℕ) (ha : ∀ i j, i < n → j < n → a i = a j → i = j) (hb : ∀ i j, i < n → j < n → b i = b j → i = j)
    (hab : ∀ i j, a i ≠ b j) : ((List.range n).map fun k => [a k, b k]).flatten.Nodup := by
  rw [List.nodup_flatten]
  constructor
  · intro l hl
    obtain ⟨k, _, rfl⟩ := List.mem_map.1 hl
    simp [hab]
  · rw [List.pairwise_map]
    have hp : List.Pairwise (fun i j => i < j ∧ j < n) (List.range n) := by
      rw [List.pairwise_iff_getElem]
      intro i j hi hj hij
      simp at hi hj ⊢
      omega
    refine hp.imp fun {i j} hij => ?_
    intro x hx hy
    simp only [List.mem_cons, List.not_mem_nil, or_false] at hx hy
    rcases hx with rfl | rfl <;> rcases hy with h | h
    · exact absurd (ha _ _ (by omega) (by omega) h) (by omega)
    · exact hab _ _ h
    · exact hab _ _ h.symm
    · exact absurd (hb _ _ (by omega) (by omega) h) (by omega)

/-- One turn of a scan. -/
theorem scanTurn_ok {lstsq : LstsqFn} (hl : LstsqSpec lstsq) (S : Sampler) (rnd : ℝ → ℝ) (mat0 matPad : Mat ℝ) (pad : ℕ) (xc yc xt yt : ℝ) (f : List ℝ)
    (folder name : PyStr) (hh : mat0.height ≤ 32767) (hw : mat0.width ≤ 32767) (hlen : f.length ≤ 2000)
    (hne : ∃ p ∈ spreadPoints mat0.height mat0.width, radial f (ptDist p ⟨yc, xc⟩) ≠ 0) :
    ∃ g, IsInverseFit ⟨yc, xc⟩ (spreadPoints mat0.height mat0.width) f g ∧
      scanTurn lstsq S rnd mat0 matPad pad xc yc xt yt f folder name true =
        .ok [(folder ++ "/forward/img_".toList ++ name ++ ".jpg".toList, overlay mat0 (warpedSheet S rnd matPad pad mat0.height mat0.width xt yt f)),
          (folder ++ "/backward/img_".toList ++ name ++ ".jpg".toList, unwarpImageBackward S rnd mat0 xt yt g)] := by
  obtain ⟨g, e, hg⟩ := transformCoef_fit hl ⟨yc, xc⟩ (spreadPoints mat0.height mat0.width) f "backward"
    (by unfold spreadPoints; simpa using hlen) hne
  refine ⟨g, hg, ?_⟩
  unfold scanTurn
  rw [scanRefPoints_eq hh hw]
  simp only [if_true, e, ok_bind]

theorem reads_unwarp {S : Sampler} {rnd : ℝ → ℝ} {m : Mat ℝ} (hh : 0 < m.height) (hw : 0 < m.width) (xc yc : ℝ) (f : List ℝ) :
    ReadsBackward S rnd m ⟨yc, xc⟩ f (unwarpImageBackward S rnd m xc yc f) := by
  refine ⟨rfl, rfl, fun i hi j hj => ?_⟩
  have c1 : (0 : ℝ) ≤ (m.height : ℝ) - 1 := by
    have : (1 : ℝ) ≤ m.height := by exact_mod_cast (by omega : 1 ≤ m.height)
    linarith
  have c2 : (0 : ℝ) ≤ (m.width : ℝ) - 1 := by
    have : (1 : ℝ) ≤ m.width := by exact_mod_cast (by omega : 1 ≤ m.width)
    linarith
  simp only [unwarpImageBackward, polySum_eq_radial, clip_eq_clampTo c1, clip_eq_clampTo c2]
  rfl

theorem scan_paths {folder a a' : PyStr} :
    (folder ++ "/forward/img_".toList ++ a ++ ".jpg".toList = folder ++ "/forward/img_".toList ++ a' ++ ".jpg".toList → a = a') ∧
    (folder ++ "/backward/img_".toList ++ a ++ ".jpg".toList = folder ++ "/backward/img_".toList ++ a' ++ ".jpg".toList → a = a') ∧
    folder ++ "/forward/img_".toList ++ a ++ ".jpg".toList ≠ folder ++ "/backward/img_".toList ++ a' ++ ".jpg".toList := by
  refine ⟨fun h => List.append_cancel_left (List.append_cancel_right h), fun h => List.append_cancel_left (List.append_cancel_right h), fun h => ?_⟩
  simp only [List.append_assoc] at h
  have h := List.append_cancel_left h
  have e1 : "/forward/img_".toList = '/' :: 'f' :: "orward/img_".toList := rfl
  have e2 : "/backward/img_".toList = '/' :: 'b' :: "ackward/img_".toList := rfl
  rw [e1, e2] at h
  simp at h

/-! ## Scaling -/

theorem mem_grayPixels {m : Mat ℝ} {v : ℝ} : v ∈ (Img.gray m).pixels ↔ ∃ i < m.height, ∃ j < m.width, m.get i j = v := by
  simp only [Img.pixels, List.mem_flatMap, List.mem_range, List.mem_map]

theorem scaleToMax_ok {m : Mat ℝ} {top : ℝ} (ht : IsTop m top) :
    scaleToMax m = if top = 0 then .error .nonFinite else .ok { m with get := fun i j => m.get i j / top } := by
  obtain ⟨⟨i, hi, j, hj, e⟩, hle⟩ := ht
  have hmem : top ∈ (Img.gray m).pixels := mem_grayPixels.2 ⟨i, hi, j, hj, e⟩
  obtain ⟨t, e1, h1, h2⟩ := npMax_ok (List.ne_nil_of_mem hmem)
  have e2 : t = top := by
    obtain ⟨i', hi', j', hj', e'⟩ := mem_grayPixels.1 h1
    exact le_antisymm (e' ▸ hle i' hi' j' hj') (h2 top hmem)
  unfold scaleToMax
  rw [e1, ok_bind, e2]

theorem scaleToMax_empty {m : Mat ℝ} (h : m.height = 0 ∨ m.width = 0) : scaleToMax m = .error .valueError := by
  have e : (Img.gray m).pixels = [] := by
    rw [List.eq_nil_iff_forall_not_mem]
    intro v hv
    obtain ⟨i, hi, j, hj, _⟩ := mem_grayPixels.1 hv
    omega
  unfold scaleToMax
  rw [e]
  rfl

theorem ruled_unique {h : ℕ} {b : ℤ} (hb : b ≤ 19) {y v v' : ℝ} (h1 : RuledBrightness h b y v) (h2 : RuledBrightness h b y v') : v = v' := by
  have hb' : (b : ℝ) ≤ 19 := by exact_mod_cast hb
  have same : ∀ {c c'}, IsRule h c → IsRule h c' → |y - c| < b + 1 → |y - c'| < b + 1 → c = c' := by
    rintro c c' ⟨⟨k, rfl⟩, _⟩ ⟨⟨k', rfl⟩, _⟩ a1 a2
    rw [abs_lt] at a1 a2
    have d1 : ((50 + 40 * (k : ℤ) : ℤ) : ℝ) < ((50 + 40 * (k' : ℤ) + 40 : ℤ) : ℝ) := by push_cast at *; linarith
    have d2 : ((50 + 40 * (k' : ℤ) : ℤ) : ℝ) < ((50 + 40 * (k : ℤ) + 40 : ℤ) : ℝ) := by push_cast at *; linarith
    have d1 : (50 + 40 * (k : ℤ)) < (50 + 40 * (k' : ℤ) + 40) := by exact_mod_cast d1
    have d2 : (50 + 40 * (k' : ℤ)) < (50 + 40 * (k : ℤ) + 40) := by exact_mod_cast d2
    omega
  rcases h1 with ⟨c, hc, a, rfl⟩ | ⟨c, hc, a, a', rfl⟩ | ⟨a, rfl⟩ <;> rcases h2 with ⟨d, hd, b1, rfl⟩ | ⟨d, hd, b1, b1', rfl⟩ | ⟨b1, rfl⟩
  · rfl
  · rw [same hc hd (by linarith) b1'] at a; linarith
  · linarith [b1 c hc]
  · rw [same hc hd a' (by linarith)] at a; linarith
  · rw [same hc hd a' b1']
  · linarith [b1 c hc]
  · linarith [a d hd]
  · linarith [a d hd]
  · rfl

end Discorpy
