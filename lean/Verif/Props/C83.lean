import Verif.Lemmas.Slopes
import Verif.Lemmas.InnerMask
import Verif.Props.C67

/-! # C83 — slopes of the grid of dots -/

namespace Discorpy

open Spec

/-- The angles of the search. -/
theorem slopeAngles_eq : slopeAngles = (List.range 61).map fun k : ℕ => (k : ℝ) - 30 := by
  unfold slopeAngles arange
  rw [show (((30 : ℝ) + 1 - -30) / 1) = ((61 : ℤ) : ℝ) by norm_num, Int.ceil_intCast]
  show (List.range 61).map _ = _
  apply List.map_congr_left
  intro k _
  ring

/-- **C83 (horizontal).** For a binary image, `calc_hor_slope` looks at the dots in the middle part of the image that do not
reach its border. Without such dots it raises `IndexError`. Otherwise the first guess is the tilt of 30 - k degrees whose
projection (at 60 + k degrees, k = 0…60) has the largest value, and the slope follows the rule `IsGridSlope` with a tolerance of
half the width of the part times tan(1°)/cos(tilt). -/
theorem C83_hor (pf : List ℝ → List ℝ → ℕ → List ℝ) (hpf : PolyfitSpec pf) (argsort : List ℝ → List ℕ) (has : ArgsortSpec argsort)
    (radon : Mat ℝ → List ℝ → Mat ℝ) (hr : ∀ img angles, 0 < (radon img angles).height ∧ (radon img angles).width = angles.length)
    (m : Mat ℝ) (hb : IsBinary m) (h0 : 0 < m.height) (h1 : 0 < m.width) (ratio : ℝ) :
    ∃ roi mask pts, IsMiddlePart m ratio roi ∧ IsInnerMask roi mask ∧ MiddlesOf mask pts ∧
      (pts = [] → calcHorSlope pf argsort radon m ratio = .error .indexError) ∧
      (pts ≠ [] → ∃ k s, IsSharpest (radon (realMat mask) ((List.range 61).map fun k : ℕ => 60 + (k : ℝ))) k ∧
        calcHorSlope pf argsort radon m ratio = .ok s ∧
        IsGridSlope horThrough IsLsqHorLine pts (Real.tan ((30 - k) * degree))
          (roi.width * Real.tan degree / (2 * Real.cos ((30 - k) * degree))) s) := by
  obtain ⟨roi, mask, e, hp, hm⟩ := innerMask_ok hb h0 h1 ratio
  obtain ⟨pts, hc, hmid⟩ := innerMask_centres hm
  have ha : (slopeAngles.map fun a => 90 + a) = (List.range 61).map fun k : ℕ => 60 + (k : ℝ) := by
    rw [slopeAngles_eq, List.map_map]
    apply List.map_congr_left
    intro k _
    simp only [Function.comp_apply]
    ring
  obtain ⟨k, a, hk, hka, hsh⟩ := sharpestAngle_ok (hr (realMat mask) ((List.range 61).map fun k : ℕ => 60 + (k : ℝ))).1
    (hr _ _).2 (by simp)
  have hav : a = 60 + k := by
    obtain ⟨h61, rfl⟩ := List.getElem?_eq_some_iff.1 hka
    simp
  have hred : calcHorSlope pf argsort radon m ratio = if pts = [] then .error .indexError
      else slopeOfDots pf argsort (pts.map fun c => ⟨-c.y, -c.x⟩) mask.width (-(a - 90)) := by
    unfold calcHorSlope
    rw [e, ok_bind]
    simp only [ha, hk, hc, ok_bind]
  refine ⟨roi, mask, pts, hp, hm, hmid, fun hnil => by rw [hred, if_pos hnil], fun hne => ?_⟩
  obtain ⟨s, hs, hg⟩ := slopeOfDots_ok hpf has (pts := pts.map fun c => (⟨-c.y, -c.x⟩ : Pt)) (by simpa using hne) mask.width (-(a - 90))
  refine ⟨k, s, hsh, by rw [hred, if_neg hne, hs], ?_⟩
  have hg' := gridSlope_neg hg
  have et : (-(a - 90)) * (Real.pi / 180) = (30 - k) * degree := by rw [hav, degree]; ring
  have etol : slopeTolerance mask.width (-(a - 90)) = roi.width * Real.tan degree / (2 * Real.cos ((30 - k) * degree)) := by
    unfold slopeTolerance
    rw [et, hm.2.1, show Real.pi / 180 = degree from rfl, show (0.5 : ℝ) = 1 / 2 by norm_num]
    rw [mul_comm 2, ← div_div]
    ring
  rw [et, etol] at hg'
  exact hg'

/-- **C83 (vertical).** The same for `calc_ver_slope`: without dots `ValueError`; the first guess is the tilt of k - 30 degrees
(k = 0…60) whose projection has the largest value; lines have the form x = s·y + b. The tolerance uses the width of the part,
not its height. -/
theorem C83_ver (pf : List ℝ → List ℝ → ℕ → List ℝ) (hpf : PolyfitSpec pf) (argsort : List ℝ → List ℕ) (has : ArgsortSpec argsort)
    (radon : Mat ℝ → List ℝ → Mat ℝ) (hr : ∀ img angles, 0 < (radon img angles).height ∧ (radon img angles).width = angles.length)
    (m : Mat ℝ) (hb : IsBinary m) (h0 : 0 < m.height) (h1 : 0 < m.width) (ratio : ℝ) :
    ∃ roi mask pts, IsMiddlePart m ratio roi ∧ IsInnerMask roi mask ∧ MiddlesOf mask pts ∧
      (pts = [] → calcVerSlope pf argsort radon m ratio = .error .valueError) ∧
      (pts ≠ [] → ∃ k s, IsSharpest (radon (realMat mask) ((List.range 61).map fun k : ℕ => (k : ℝ) - 30)) k ∧
        calcVerSlope pf argsort radon m ratio = .ok s ∧
        IsGridSlope verThrough IsLsqVerLine pts (Real.tan ((k - 30) * degree))
          (roi.width * Real.tan degree / (2 * Real.cos ((k - 30) * degree))) s) := by
  obtain ⟨roi, mask, e, hp, hm⟩ := innerMask_ok hb h0 h1 ratio
  obtain ⟨pts, hc, hmid⟩ := innerMask_centres hm
  obtain ⟨k, a, hk, hka, hsh⟩ := sharpestAngle_ok (hr (realMat mask) ((List.range 61).map fun k : ℕ => (k : ℝ) - 30)).1
    (hr _ _).2 (by simp)
  have hav : a = k - 30 := by
    obtain ⟨h61, rfl⟩ := List.getElem?_eq_some_iff.1 hka
    simp
  have hred : calcVerSlope pf argsort radon m ratio = if pts = [] then .error .valueError
      else slopeOfDots pf argsort (pts.map fun c => ⟨c.x, c.y⟩) mask.width a := by
    unfold calcVerSlope
    rw [e, ok_bind]
    simp only [slopeAngles_eq, hk, hc, ok_bind]
  refine ⟨roi, mask, pts, hp, hm, hmid, fun hnil => by rw [hred, if_pos hnil], fun hne => ?_⟩
  obtain ⟨s, hs, hg⟩ := slopeOfDots_ok hpf has (pts := pts.map fun c => (⟨c.x, c.y⟩ : Pt)) (by simpa using hne) mask.width a
  refine ⟨k, s, hsh, by rw [hred, if_neg hne, hs], ?_⟩
  have hg' := gridSlope_swap hg
  have et : a * (Real.pi / 180) = (k - 30) * degree := by rw [hav, degree]
  have etol : slopeTolerance mask.width a = roi.width * Real.tan degree / (2 * Real.cos ((k - 30) * degree)) := by
    unfold slopeTolerance
    rw [et, hm.2.1, show Real.pi / 180 = degree from rfl, show (0.5 : ℝ) = 1 / 2 by norm_num]
    rw [mul_comm 2, ← div_div]
    ring
  rw [et, etol] at hg'
  exact hg'

/-- Exactness of the rule: if the points form rows of slope `a` that are far apart compared to the tolerance, and every point has
a neighbour in its row that is close enough, the slope is `a`. -/
theorem gridSlope_exact {pts : List Pt} {t tol s a : ℝ} (h : IsGridSlope horThrough IsLsqHorLine pts t tol s)
    (hrow : HorRows pts a t (tol * √(t ^ 2 + 1))) : s = a := by
  obtain ⟨g, mid, _, hmem, _, h1, _⟩ := h
  have hs : 0 < √(t ^ 2 + 1) := Real.sqrt_pos.2 (by positivity)
  have hin : ∀ q, q ∈ closerThan pts (horThrough t mid) tol ↔ q ∈ pts ∧ |t * q.x - q.y + (mid.y - t * mid.x)| < tol * √(t ^ 2 + 1) := by
    intro q
    rw [← slopeDots_eq]
    unfold slopeDots slopeDist
    rw [List.mem_filter, decide_eq_true_iff, div_lt_iff₀ hs]
  obtain ⟨⟨q, hq, hqr, hqx, hqd⟩, hfar⟩ := hrow mid hmem
  have hm_in : mid ∈ closerThan pts (horThrough t mid) tol := by
    rw [hin]
    refine ⟨hmem, ?_⟩
    rw [show t * mid.x - mid.y + (mid.y - t * mid.x) = 0 by ring, abs_zero]
    exact lt_of_le_of_lt (by positivity) hqd
  have hq_in : q ∈ closerThan pts (horThrough t mid) tol := by
    rw [hin]
    refine ⟨hq, ?_⟩
    rw [show t * q.x - q.y + (mid.y - t * mid.x) = (t - a) * (q.x - mid.x) by linarith, abs_mul]
    exact hqd
  have hlen : 2 ≤ (closerThan pts (horThrough t mid) tol).length := by
    by_contra hlt
    push Not at hlt
    have hpos := List.length_pos_of_mem hm_in
    obtain ⟨c, hc⟩ := List.length_eq_one_iff.1 (by omega : (closerThan pts (horThrough t mid) tol).length = 1)
    rw [hc, List.mem_singleton] at hm_in hq_in
    rw [hm_in, hq_in] at hqx
    exact hqx rfl
  obtain ⟨b, hb⟩ := h1 hlen
  have hall : ∀ p ∈ closerThan pts (horThrough t mid) tol, onHorLine a (mid.y - a * mid.x) p := by
    intro p hp
    obtain ⟨hp, hd⟩ := (hin p).1 hp
    by_contra hne
    have hne' : p.y - a * p.x ≠ mid.y - a * mid.x := fun e => hne (by unfold onHorLine; linarith)
    have hf := hfar p hp hne'
    have e : (p.y - a * p.x) - (mid.y - a * mid.x) = (t - a) * (p.x - mid.x) - (t * p.x - p.y + (mid.y - t * mid.x)) := by ring
    have tri := abs_sub ((t - a) * (p.x - mid.x)) (t * p.x - p.y + (mid.y - t * mid.x))
    rw [← e, abs_mul] at tri
    linarith
  have hex := lsqHor_exact hb hall
  have e1 := hex mid hm_in
  have e2 := hex q hq_in
  unfold onHorLine at e1 e2
  have : (s - a) * (q.x - mid.x) = 0 := by linarith
  rcases mul_eq_zero.1 this with h | h
  · linarith
  · exact absurd (by linarith) hqx

theorem gridSlope_exact_ver {pts : List Pt} {t tol s a : ℝ} (h : IsGridSlope verThrough IsLsqVerLine pts t tol s)
    (hrow : VerRows pts a t (tol * √(t ^ 2 + 1))) : s = a := by
  have h' : IsGridSlope horThrough IsLsqHorLine (pts.map swapPt) t tol s := by
    refine gridSlope_map (thr := verThrough) (lsq := IsLsqVerLine) (φ := swapPt) (fun p => rfl) (fun p q => ?_) (fun t p q => Iff.rfl)
      (fun l s b hl => ⟨b, fun a' b' => ?_⟩) (fun l g hg => ?_) (by rw [List.map_map]; convert h; exact List.map_id _)
    · unfold ptDist swapPt
      congr 1
      ring
    · have := hl a' b'
      simp only [List.map_map, Function.comp_def] at this
      exact this
    · obtain ⟨h0, h1, h2⟩ := hg
      refine ⟨by simpa using h0, ?_, ?_⟩
      · rw [List.map_map, List.length_map] at h2; exact h2
      · rw [List.map_map, List.length_map] at h1; exact h1
  apply gridSlope_exact h'
  intro p hp
  obtain ⟨p, hpm, rfl⟩ := List.mem_map.1 hp
  obtain ⟨⟨q, hq, h1, h2, h3⟩, h4⟩ := hrow p hpm
  refine ⟨⟨swapPt q, List.mem_map.2 ⟨q, hq, rfl⟩, h1, h2, h3⟩, fun q hq => ?_⟩
  obtain ⟨q, hqm, rfl⟩ := List.mem_map.1 hq
  exact h4 q hqm

theorem tol_cos {θ w c : ℝ} (h : 0 < Real.cos θ) :
    w * c / (2 * Real.cos θ) * √(Real.tan θ ^ 2 + 1) = w * c / (2 * Real.cos θ ^ 2) := by
  have e : √(Real.tan θ ^ 2 + 1) = 1 / Real.cos θ := by
    rw [add_comm, ← Real.inv_sqrt_one_add_tan_sq h]
    simp
  rw [e]
  field_simp

theorem cos_tilt_pos {k : ℕ} (hk : k < 61) : 0 < Real.cos ((30 - k) * degree) := by
  have hk' : (k : ℝ) ≤ 60 := by exact_mod_cast (by omega : k ≤ 60)
  have hk0 : (0 : ℝ) ≤ k := by positivity
  have hpi := Real.pi_pos
  apply Real.cos_pos_of_mem_Ioo
  unfold degree
  constructor <;> nlinarith

/-- **C83 (exact slope, horizontal).** If the dots form rows of slope `a` (the intercepts y - a·x of different rows differ by at
least the tolerance plus the error of the first guess), and each dot has another dot in its row closer than the tolerance divided
by the error of the first guess, `calc_hor_slope` returns exactly `a`. -/
theorem C83_exact_hor (pf : List ℝ → List ℝ → ℕ → List ℝ) (hpf : PolyfitSpec pf) (argsort : List ℝ → List ℕ) (has : ArgsortSpec argsort)
    (radon : Mat ℝ → List ℝ → Mat ℝ) (hr : ∀ img angles, 0 < (radon img angles).height ∧ (radon img angles).width = angles.length)
    (m : Mat ℝ) (hb : IsBinary m) (h0 : 0 < m.height) (h1 : 0 < m.width) (ratio : ℝ) :
    ∃ roi mask pts, IsMiddlePart m ratio roi ∧ IsInnerMask roi mask ∧ MiddlesOf mask pts ∧
      (pts ≠ [] → ∃ k, IsSharpest (radon (realMat mask) ((List.range 61).map fun k : ℕ => 60 + (k : ℝ))) k ∧
        ∀ a, HorRows pts a (Real.tan ((30 - k) * degree)) (roi.width * Real.tan degree / (2 * Real.cos ((30 - k) * degree) ^ 2)) →
          calcHorSlope pf argsort radon m ratio = .ok a) := by
  obtain ⟨roi, mask, pts, hp, hm, hmid, _, h⟩ := C83_hor pf hpf argsort has radon hr m hb h0 h1 ratio
  refine ⟨roi, mask, pts, hp, hm, hmid, fun hne => ?_⟩
  obtain ⟨k, s, hk, hs, hg⟩ := h hne
  refine ⟨k, hk, fun a ha => ?_⟩
  have hk61 : k < 61 := by have := hk.1; rw [(hr _ _).2] at this; simpa using this
  rw [hs, gridSlope_exact hg (a := a) (by rw [tol_cos (cos_tilt_pos hk61)]; exact ha)]

/-- **C83 (exact slope, vertical).** -/
theorem C83_exact_ver (pf : List ℝ → List ℝ → ℕ → List ℝ) (hpf : PolyfitSpec pf) (argsort : List ℝ → List ℕ) (has : ArgsortSpec argsort)
    (radon : Mat ℝ → List ℝ → Mat ℝ) (hr : ∀ img angles, 0 < (radon img angles).height ∧ (radon img angles).width = angles.length)
    (m : Mat ℝ) (hb : IsBinary m) (h0 : 0 < m.height) (h1 : 0 < m.width) (ratio : ℝ) :
    ∃ roi mask pts, IsMiddlePart m ratio roi ∧ IsInnerMask roi mask ∧ MiddlesOf mask pts ∧
      (pts ≠ [] → ∃ k, IsSharpest (radon (realMat mask) ((List.range 61).map fun k : ℕ => (k : ℝ) - 30)) k ∧
        ∀ a, VerRows pts a (Real.tan ((k - 30) * degree)) (roi.width * Real.tan degree / (2 * Real.cos ((k - 30) * degree) ^ 2)) →
          calcVerSlope pf argsort radon m ratio = .ok a) := by
  obtain ⟨roi, mask, pts, hp, hm, hmid, _, h⟩ := C83_ver pf hpf argsort has radon hr m hb h0 h1 ratio
  refine ⟨roi, mask, pts, hp, hm, hmid, fun hne => ?_⟩
  obtain ⟨k, s, hk, hs, hg⟩ := h hne
  refine ⟨k, hk, fun a ha => ?_⟩
  have hk61 : k < 61 := by have := hk.1; rw [(hr _ _).2] at this; simpa using this
  have hcos : 0 < Real.cos (((k : ℝ) - 30) * degree) := by
    rw [← Real.cos_neg, show -(((k : ℝ) - 30) * degree) = (30 - k) * degree by ring]
    exact cos_tilt_pos hk61
  rw [hs, gridSlope_exact_ver hg (a := a) (by rw [tol_cos hcos]; exact ha)]

/-- An image without pixels raises `ValueError`. -/
theorem C83_empty (pf : List ℝ → List ℝ → ℕ → List ℝ) (argsort : List ℝ → List ℕ) (radon : Mat ℝ → List ℝ → Mat ℝ) (m : Mat ℝ)
    (h : m.height = 0 ∨ m.width = 0) (ratio : ℝ) :
    calcHorSlope pf argsort radon m ratio = .error .valueError ∧ calcVerSlope pf argsort radon m ratio = .error .valueError := by
  have e : innerMask m ratio = .error .valueError := by
    obtain ⟨a, b, hp, e1, e2, _⟩ := C37_roi m ratio
    unfold innerMask clearBorder
    rw [if_pos (by omega)]
    rfl
  constructor
  · unfold calcHorSlope
    rw [e]; rfl
  · unfold calcVerSlope
    rw [e]; rfl

/-- Non-vacuity: for two dots in one row and a Radon transform that is sharpest at 90 degrees the slope is zero. -/
example : calcHorSlope refPolyfit refArgsort (fun _ angles => ⟨1, angles.length, fun _ j => if j = 30 then 1 else 0⟩) twoInner 1 =
    .ok 0 := by
  obtain ⟨roi, mask, pts, hp, hm, hmid, h⟩ := C83_exact_hor refPolyfit refPolyfit_spec refArgsort refArgsort_spec
    (fun _ angles => ⟨1, angles.length, fun _ j => if j = 30 then 1 else 0⟩) (fun _ _ => ⟨by norm_num, rfl⟩) twoInner twoInner_binary
    (by norm_num [twoInner]) (by norm_num [twoInner]) 1
  have hmem : ∀ c, c ∈ pts ↔ c = ⟨1, 1⟩ ∨ c = ⟨1, 4⟩ := by
    intro c
    rw [middles_single (twoInner_apart hp hm) hmid]
    constructor
    · rintro ⟨p, hl, rfl⟩
      rcases (twoInner_lit hp hm p).1 hl with rfl | rfl
      · left; simp
      · right; simp
    · rintro (rfl | rfl)
      · exact ⟨(1, 1), (twoInner_lit hp hm _).2 (Or.inl rfl), by simp⟩
      · exact ⟨(1, 4), (twoInner_lit hp hm _).2 (Or.inr rfl), by simp⟩
  obtain ⟨k, ⟨hk1, i, hi, hk2⟩, hres⟩ := h (List.ne_nil_of_mem ((hmem ⟨1, 1⟩).2 (Or.inl rfl)))
  have hk : k = 30 := by
    by_contra hne
    have := hk2 0 30 (by norm_num) (by simp)
    simp [hne] at this
    linarith
  subst hk
  have htan : 0 < Real.tan degree := by
    apply Real.tan_pos_of_pos_of_lt_pi_div_two
    · unfold degree; positivity
    · unfold degree; linarith [Real.pi_pos]
  apply hres
  have hw : roi.width = 6 := (twoInner_roi hp).2.1
  intro p hpm
  refine ⟨?_, fun q hq hne => ?_⟩
  · rcases (hmem p).1 hpm with rfl | rfl
    · refine ⟨⟨1, 4⟩, (hmem _).2 (Or.inr rfl), by norm_num, by norm_num, ?_⟩
      rw [hw]
      simp
      positivity
    · refine ⟨⟨1, 1⟩, (hmem _).2 (Or.inl rfl), by norm_num, by norm_num, ?_⟩
      rw [hw]
      simp
      positivity
  · exfalso
    rcases (hmem p).1 hpm with rfl | rfl <;> rcases (hmem q).1 hq with rfl | rfl <;> exact hne (by norm_num)

/-- The hypotheses of the general theorems hold for the two dots and any angle at which the transform is sharpest. -/
example (c : ℕ) (ratio : ℝ) := C83_hor refPolyfit refPolyfit_spec refArgsort refArgsort_spec
  (fun _ angles => ⟨1, angles.length, fun _ j => if j = c then 1 else 0⟩) (fun _ _ => ⟨by norm_num, rfl⟩) twoInner twoInner_binary
  (by norm_num [twoInner]) (by norm_num [twoInner]) ratio
example (c : ℕ) (ratio : ℝ) := C83_ver refPolyfit refPolyfit_spec refArgsort refArgsort_spec
  (fun _ angles => ⟨1, angles.length, fun _ j => if j = c then 1 else 0⟩) (fun _ _ => ⟨by norm_num, rfl⟩) twoInner twoInner_binary
  (by norm_num [twoInner]) (by norm_num [twoInner]) ratio
example (c : ℕ) (ratio : ℝ) := C83_exact_ver refPolyfit refPolyfit_spec refArgsort refArgsort_spec
  (fun _ angles => ⟨1, angles.length, fun _ j => if j = c then 1 else 0⟩) (fun _ _ => ⟨by norm_num, rfl⟩) twoInner twoInner_binary
  (by norm_num [twoInner]) (by norm_num [twoInner]) ratio
example (radon : Mat ℝ → List ℝ → Mat ℝ) (ratio : ℝ) := C83_empty refPolyfit refArgsort radon ⟨3, 0, fun _ _ => 0⟩ (Or.inr rfl) ratio

end Discorpy
