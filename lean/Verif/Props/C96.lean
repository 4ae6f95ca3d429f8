import Verif.Lemmas.SymmetryUnits
import Verif.Props.C25
import Verif.Props.C72
import Verif.Props.C95

/-! # C96 — mirrored images and other units of length -/

namespace Discorpy

open Spec

/-! ## Images -/

theorem mirrorCoord_clip (b : Bool) {n : ℕ} (hn : 0 < n) (t : ℝ) : clip (mirrorCoord b n t) 0 ((n : ℝ) - 1) = mirrorCoord b n (clip t 0 ((n : ℝ) - 1)) := by
  have h1 : (1 : ℝ) ≤ n := by exact_mod_cast hn
  cases b
  · rfl
  · simp only [mirrorCoord, clip, if_true, max_def, min_def]
    split_ifs <;> linarith

theorem mirrorCoord_twice (b : Bool) (n : ℕ) (t : ℝ) : mirrorCoord b n (mirrorCoord b n t) = t := by
  cases b
  · rfl
  · simp [mirrorCoord]

/-- **C96 (image).** The corrected image of a mirrored image, with the mirrored centre, is the mirrored corrected image (without the rounding
of coordinates to single precision, which is not symmetric). -/
theorem C96_image (B B' : Boundary) (ud lr : Bool) (m m' : Mat ℝ) (h : IsMirrored ud lr m m') (xc yc : ℝ) (f : List ℝ) :
    IsMirrored ud lr (unwarpImageBackward (linearInterp B) id m xc yc f)
      (unwarpImageBackward (linearInterp B') id m' (mirrorCoord lr m.width xc) (mirrorCoord ud m.height yc) f) := by
  obtain ⟨h1, h2, h3⟩ := id h
  refine ⟨h1, h2, fun i hi j hj => ?_⟩
  replace hi : i < m.height := hi
  replace hj : j < m.width := hj
  have hp : 0 < m.height := by omega
  have wp : 0 < m.width := by omega
  simp only [unwarpImageBackward, h1, h2, id]
  rw [mirrorCoord_index hi, mirrorCoord_index hj]
  have diff : ∀ (b : Bool) (n : ℕ) (s t : ℝ), mirrorCoord b n s - mirrorCoord b n t = if b then -(s - t) else s - t := by
    intro b n s t
    cases b <;> simp [mirrorCoord]
  have sq : ∀ (b : Bool) (t : ℝ), (if b then -t else t) ^ 2 = t ^ 2 := by
    intro b t
    cases b <;> simp
  rw [diff, diff, sq, sq]
  set g := polySum f √(((j : ℝ) - xc) ^ 2 + ((i : ℝ) - yc) ^ 2)
  have move : ∀ (b : Bool) (n : ℕ) (c t : ℝ), mirrorCoord b n c + g * (if b then -t else t) = mirrorCoord b n (c + g * t) := by
    intro b n c t
    cases b <;> simp [mirrorCoord]
    ring
  have hf := inFrame_clip hp wp (yc + g * (i - yc)) (xc + g * (j - xc))
  rw [move, move, mirrorCoord_clip _ hp, mirrorCoord_clip _ wp, linearInterp_eq _ _ hf, linearInterp_eq _ _ (h.inFrame hf), bilinear_mirrored h hf]

/-! ## Lines of dots -/

theorem Spec.Units.sq_y (T : Units) : T.sy * T.sy = 1 := by rcases T.hy with h | h <;> rw [h] <;> norm_num
theorem Spec.Units.sq_x (T : Units) : T.sx * T.sx = 1 := by rcases T.hx with h | h <;> rw [h] <;> norm_num

theorem Spec.Units.ey (T : Units) : T.sy * T.unit ≠ 0 := by
  rcases T.hy with h | h <;> rw [h] <;> simp [T.pos.ne']

theorem Spec.Units.ex (T : Units) : T.sx * T.unit ≠ 0 := by
  rcases T.hx with h | h <;> rw [h] <;> simp [T.pos.ne']

theorem Spec.Units.radius (T : Units) (p : Pt) :
    √((T.pt p).x * (T.pt p).x + (T.pt p).y * (T.pt p).y) = T.unit * √(p.x * p.x + p.y * p.y) := by
  rw [show (T.pt p).x * (T.pt p).x + (T.pt p).y * (T.pt p).y = T.unit ^ 2 * (p.x * p.x + p.y * p.y) by
    simp only [Units.pt]
    linear_combination T.unit ^ 2 * p.x * p.x * T.sq_x + T.unit ^ 2 * p.y * p.y * T.sq_y]
  rw [Real.sqrt_mul (by positivity), Real.sqrt_sq T.pos.le]

theorem Spec.Units.dist (T : Units) (p c : Pt) : ptDist (T.pt p) (T.pt c) = T.unit * ptDist p c := by
  rw [← shift_radius, ← shift_radius]
  have := T.radius ⟨p.y - c.y, p.x - c.x⟩
  simp only [Units.pt, mul_sub] at this ⊢
  exact this

/-- **C96 (lines).** The corrections of lines of dots, radial with the converted model and perspective with the converted coefficients, do not
depend on the directions of the axes and the unit of length. -/
theorem C96_lines (T : Units) (lines : List (List Pt)) (c : Pt) (f : List ℝ) (c1 c2 c3 c4 c5 c6 c7 c8 : ℝ) :
    unwarpLineForward id (T.lines lines) (T.pt c).x (T.pt c).y (T.model f) = T.lines (unwarpLineForward id lines c.x c.y f) ∧
    ∀ out, correctPerspectiveLine lines [c1, c2, c3, c4, c5, c6, c7, c8] = .ok out →
      correctPerspectiveLine (T.lines lines) [c1, T.sx * T.sy * c2, T.sx * T.unit * c3, T.sx * T.sy * c4, c5, T.sy * T.unit * c6,
        T.sx * c7 / T.unit, T.sy * c8 / T.unit] = .ok (T.lines out) := by
  constructor
  · simp only [unwarpLineForward, Units.lines, List.map_map, Function.comp_def, id]
    refine List.map_congr_left fun l _ => List.map_congr_left fun p _ => ?_
    rw [polySum_eq_radial, polySum_eq_radial, shift_radius, shift_radius]
    have e := T.dist p c
    rw [show (⟨(T.pt c).y, (T.pt c).x⟩ : Pt) = T.pt c from rfl, e, radial_model]
    simp only [Units.pt]
    congr 1 <;> ring
  · intro out h
    have e : (T.lines lines).any List.isEmpty = lines.any List.isEmpty := by
      simp [Units.lines, List.any_map, Function.comp_def]
    simp only [correctPerspectiveLine] at h ⊢
    rw [e]
    split_ifs at h ⊢
    cases h
    congr 1
    simp only [Units.lines, List.map_map, Function.comp_def]
    refine List.map_congr_left fun l _ => List.map_congr_left fun p _ => ?_
    have hp := T.pos.ne'
    have d : T.sx * c7 / T.unit * (T.pt p).x + T.sy * c8 / T.unit * (T.pt p).y + 1 = c7 * p.x + c8 * p.y + 1 := by
      simp only [Units.pt]
      field_simp
      linear_combination p.x * c7 * T.sq_x + p.y * c8 * T.sq_y
    rw [d]
    simp only [Units.pt, mul_div_assoc']
    congr 2
    · linear_combination T.sy * T.unit * p.x * c4 * T.sq_x
    · linear_combination T.sx * T.unit * p.y * c2 * T.sq_y

/-! ## Fits -/

/-- The parabola of a horizontal line in the new coordinates. -/
noncomputable def horPara (T : Units) (q : Para) : Para := ⟨T.sy * q.a / T.unit, T.sx * T.sy * q.b, T.sy * T.unit * q.c⟩

/-- The parabola of a vertical line in the new coordinates. -/
noncomputable def verPara (T : Units) (q : Para) : Para := ⟨T.sx * q.a / T.unit, T.sx * T.sy * q.b, T.sx * T.unit * q.c⟩

theorem Para.ofList_ok {l : List ℝ} {q : Para} (h : Para.ofList l = .ok q) : l = [q.a, q.b, q.c] := by
  unfold Para.ofList at h
  split at h
  · cases h
    rfl
  · cases h

theorem scaled_para {σ τ s : ℝ} (hσ : τ = 1 ∨ τ = -1) (hs : s ≠ 0) (a b c : ℝ) :
    [σ * s * a / (τ * s) ^ 2, σ * s * b / (τ * s), σ * s * c] = [σ * a / s, τ * σ * b, σ * s * c] := by
  rcases hσ with rfl | rfl
  · simp only [List.cons.injEq, and_true]
    constructor <;> field_simp
  · simp only [List.cons.injEq, and_true]
    constructor <;> field_simp

theorem paraHor_units {pf : PolyfitFn} (hpf : PolyfitSpec pf) (T : Units) {c : Pt} {l : List Pt} (h3 : ThreeAlong Pt.x l) {q : Para}
    (h : paraHor pf c.x c.y l = .ok q) : paraHor pf (T.pt c).x (T.pt c).y (l.map T.pt) = .ok (horPara T q) := by
  obtain ⟨p0, m0, p1, m1, p2, m2, d1, d2, d3⟩ := h3
  unfold paraHor at h ⊢
  simp only [List.map_eq_nil_iff]
  rw [if_neg (List.ne_nil_of_mem m0)] at h ⊢
  have := fit_scale_para hpf (by simp) T.ex T.ey (Para.ofList_ok h) (List.mem_map.2 ⟨p0, m0, rfl⟩) (List.mem_map.2 ⟨p1, m1, rfl⟩) (List.mem_map.2 ⟨p2, m2, rfl⟩)
    (by simpa using d1) (by simpa using d2) (by simpa using d3)
  rw [scaled_para T.hx T.pos.ne'] at this
  have e1 : (l.map T.pt).map (fun p => p.x - (T.pt c).x) = (l.map fun p => p.x - c.x).map fun x => T.sx * T.unit * x := by
    simp [Function.comp_def, Units.pt, mul_sub]
  have e2 : (l.map T.pt).map (fun p => p.y - (T.pt c).y) = (l.map fun p => p.y - c.y).map fun x => T.sy * T.unit * x := by
    simp [Function.comp_def, Units.pt, mul_sub]
  rw [e1, e2, this]
  rfl

theorem paraVer_units {pf : PolyfitFn} (hpf : PolyfitSpec pf) (T : Units) {c : Pt} {l : List Pt} (h3 : ThreeAlong Pt.y l) {q : Para}
    (h : paraVer pf c.x c.y l = .ok q) : paraVer pf (T.pt c).x (T.pt c).y (l.map T.pt) = .ok (verPara T q) := by
  obtain ⟨p0, m0, p1, m1, p2, m2, d1, d2, d3⟩ := h3
  unfold paraVer at h ⊢
  simp only [List.map_eq_nil_iff]
  rw [if_neg (List.ne_nil_of_mem m0)] at h ⊢
  have := fit_scale_para hpf (by simp) T.ey T.ex (Para.ofList_ok h) (List.mem_map.2 ⟨p0, m0, rfl⟩) (List.mem_map.2 ⟨p1, m1, rfl⟩) (List.mem_map.2 ⟨p2, m2, rfl⟩)
    (by simpa using d1) (by simpa using d2) (by simpa using d3)
  rw [scaled_para T.hy T.pos.ne', mul_comm T.sy T.sx] at this
  have e1 : (l.map T.pt).map (fun p => p.x - (T.pt c).x) = (l.map fun p => p.x - c.x).map fun x => T.sx * T.unit * x := by
    simp [Function.comp_def, Units.pt, mul_sub]
  have e2 : (l.map T.pt).map (fun p => p.y - (T.pt c).y) = (l.map fun p => p.y - c.y).map fun x => T.sy * T.unit * x := by
    simp [Function.comp_def, Units.pt, mul_sub]
  rw [e1, e2, this]
  rfl

theorem shiftLine_units (T : Units) (c : Pt) (lines : List (List Pt)) :
    (T.lines lines).map (shiftLine (T.pt c).x (T.pt c).y) = T.lines (lines.map (shiftLine c.x c.y)) := by
  simp [Units.lines, shiftLine, Units.pt, Function.comp_def, mul_sub]

theorem mapM_units {f g : List Pt → Except PyErr Para} {φ : List Pt → List Pt} {ψ : Para → Para} {lines : List (List Pt)}
    (H : ∀ l ∈ lines, ∀ q, f l = .ok q → g (φ l) = .ok (ψ q)) {ch : List Para} (h : lines.mapM f = .ok ch) : (lines.map φ).mapM g = .ok (ch.map ψ) := by
  rw [mapM_ok_iff] at h ⊢
  induction h with
  | nil => exact .nil
  | cons ha _ ih =>
    exact .cons (H _ (List.mem_cons_self) _ ha) (ih fun l hl => H l (List.mem_cons_of_mem _ hl))

theorem paraFitHor_units {pf : PolyfitFn} (hpf : PolyfitSpec pf) (T : Units) {c : Pt} {lines : List (List Pt)} (h3 : ∀ l ∈ lines, ThreeAlong Pt.x l)
    {ch : List Para} {s : List (List Pt)} (h : paraFitHor pf lines c.x c.y = .ok (ch, s)) :
    paraFitHor pf (T.lines lines) (T.pt c).x (T.pt c).y = .ok (ch.map (horPara T), T.lines s) := by
  unfold paraFitHor at h ⊢
  rw [bind_ok_iff] at h
  obtain ⟨q, e, h⟩ := h
  cases h
  rw [shiftLine_units, show T.lines lines = lines.map fun l => l.map T.pt from rfl,
    mapM_units (φ := fun l => l.map T.pt) (g := paraHor pf (T.pt c).x (T.pt c).y) (ψ := horPara T) (fun l hl q hq => paraHor_units hpf T (h3 l hl) hq) e]
  rfl

theorem paraFitVer_units {pf : PolyfitFn} (hpf : PolyfitSpec pf) (T : Units) {c : Pt} {lines : List (List Pt)} (h3 : ∀ l ∈ lines, ThreeAlong Pt.y l)
    {cv : List Para} {s : List (List Pt)} (h : paraFitVer pf lines c.x c.y = .ok (cv, s)) :
    paraFitVer pf (T.lines lines) (T.pt c).x (T.pt c).y = .ok (cv.map (verPara T), T.lines s) := by
  unfold paraFitVer at h ⊢
  rw [bind_ok_iff] at h
  obtain ⟨q, e, h⟩ := h
  cases h
  rw [shiftLine_units, show T.lines lines = lines.map fun l => l.map T.pt from rfl,
    mapM_units (φ := fun l => l.map T.pt) (g := paraVer pf (T.pt c).x (T.pt c).y) (ψ := verPara T) (fun l hl q hq => paraVer_units hpf T (h3 l hl) hq) e]
  rfl

/-! ## Centre -/

theorem horPara_sign (T : Units) (q : Para) : npSign (horPara T q).a = T.sy * npSign q.a := by
  rw [horPara, ← npSign_scale T.hy (inv_pos.2 T.pos)]
  congr 1
  field_simp

theorem verPara_sign (T : Units) (q : Para) : npSign (verPara T q).a = T.sx * npSign q.a := by
  rw [verPara, ← npSign_scale T.hx (inv_pos.2 T.pos)]
  congr 1
  field_simp

theorem npGet_map {α β : Type} {l : List α} {i : ℕ} {a : α} (f : α → β) (h : npGet l i = .ok a) : npGet (l.map f) i = .ok (f a) := by
  rw [npGet_ok_iff] at h ⊢
  rw [List.getElem?_map, h]
  rfl

theorem findCodCoarse_units {pf : PolyfitFn} (hpf : PolyfitSpec pf) (T : Units) {hor ver : List (List Pt)} (hh : ∀ l ∈ hor, ThreeAlong Pt.x l)
    (hv : ∀ l ∈ ver, ThreeAlong Pt.y l) {c : Pt} (h : findCodCoarse pf hor ver = .ok c) : findCodCoarse pf (T.lines hor) (T.lines ver) = .ok (T.pt c) := by
  unfold findCodCoarse at h
  simp only [bind_ok_iff] at h
  obtain ⟨⟨ch, sh⟩, e1, ⟨cv, sv⟩, e2, ph, e3, pv, e4, h0, e5, h1, e6, v0, e7, v1, e8, y, e9, x, e10, h⟩ := h
  cases h
  have z : T.pt ⟨0, 0⟩ = ⟨0, 0⟩ := by simp [Units.pt]
  have a1 := paraFitHor_units hpf T (c := ⟨0, 0⟩) hh e1
  have a2 := paraFitVer_units hpf T (c := ⟨0, 0⟩) hv e2
  rw [z] at a1 a2
  unfold findCodCoarse
  rw [a1, ok_bind]
  simp only
  rw [a2, ok_bind]
  simp only
  simp only at e3 e4 e5 e6 e7 e8
  rw [signChange_scale T.hy (horPara_sign T), e3, ok_bind, signChange_scale T.hx (verPara_sign T), e4, ok_bind, npGet_map _ e5, ok_bind, npGet_map _ e6, ok_bind,
    npGet_map _ e7, ok_bind, npGet_map _ e8, ok_bind]
  have hd : (1 : ℝ) - (h0.b + h1.b) * 0.5 * ((v0.b + v1.b) * 0.5) ≠ 0 := by
    intro h
    rw [finDiv, if_pos h] at e9
    cases e9
  rw [finDiv_ok hd] at e9 e10
  cases e9
  cases e10
  have hd' : (1 : ℝ) - ((horPara T h0).b + (horPara T h1).b) * 0.5 * (((verPara T v0).b + (verPara T v1).b) * 0.5) = 1 - (h0.b + h1.b) * 0.5 * ((v0.b + v1.b) * 0.5) := by
    simp only [horPara, verPara]
    have s1 := T.sq_x
    have s2 := T.sq_y
    linear_combination (-(h0.b + h1.b) * 0.5 * ((v0.b + v1.b) * 0.5)) * (T.sy * T.sy * s1 + s2)
  rw [hd', finDiv_ok hd, ok_bind, finDiv_ok hd, ok_bind]
  simp only [Units.pt, mul_div_assoc', horPara, verPara]
  congr 3
  · linear_combination ((v0.c + v1.c) * 0.5 * ((h0.b + h1.b) * 0.5)) * T.sy * T.unit * T.sq_x
  · linear_combination ((h0.c + h1.c) * 0.5 * ((v0.b + v1.b) * 0.5)) * T.sx * T.unit * T.sq_y

/-- The inverse change of coordinates. -/
noncomputable def Spec.Units.back (T : Units) : Units := ⟨T.sy, T.sx, T.unit⁻¹, T.hy, T.hx, inv_pos.2 T.pos⟩

theorem Spec.Units.back_pt (T : Units) (p : Pt) : T.back.pt (T.pt p) = p := by
  have hp := T.pos.ne'
  ext
  · simp only [Units.back, Units.pt]
    field_simp
    linear_combination p.y * T.sq_y
  · simp only [Units.back, Units.pt]
    field_simp
    linear_combination p.x * T.sq_x

theorem Spec.Units.back_lines (T : Units) (l : List (List Pt)) : T.back.lines (T.lines l) = l := by
  simp [Units.lines, Function.comp_def, T.back_pt]

theorem threeAlong_x (T : Units) {l : List Pt} (h : ThreeAlong Pt.x l) : ThreeAlong Pt.x (l.map T.pt) := by
  obtain ⟨p0, m0, p1, m1, p2, m2, d1, d2, d3⟩ := h
  exact ⟨_, List.mem_map.2 ⟨p0, m0, rfl⟩, _, List.mem_map.2 ⟨p1, m1, rfl⟩, _, List.mem_map.2 ⟨p2, m2, rfl⟩,
    fun h => d1 (mul_left_cancel₀ T.ex h), fun h => d2 (mul_left_cancel₀ T.ex h), fun h => d3 (mul_left_cancel₀ T.ex h)⟩

theorem threeAlong_y (T : Units) {l : List Pt} (h : ThreeAlong Pt.y l) : ThreeAlong Pt.y (l.map T.pt) := by
  obtain ⟨p0, m0, p1, m1, p2, m2, d1, d2, d3⟩ := h
  exact ⟨_, List.mem_map.2 ⟨p0, m0, rfl⟩, _, List.mem_map.2 ⟨p1, m1, rfl⟩, _, List.mem_map.2 ⟨p2, m2, rfl⟩,
    fun h => d1 (mul_left_cancel₀ T.ey h), fun h => d2 (mul_left_cancel₀ T.ey h), fun h => d3 (mul_left_cancel₀ T.ey h)⟩

/-- **C96 (coarse centre).** The coarse centre does not depend on the directions of the axes and the unit of length. -/
theorem C96_coarse (pf : PolyfitFn) (hpf : PolyfitSpec pf) (T : Units) (hor ver : List (List Pt)) (hh : ∀ l ∈ hor, ThreeAlong Pt.x l)
    (hv : ∀ l ∈ ver, ThreeAlong Pt.y l) (c : Pt) :
    findCodCoarse pf hor ver = .ok c ↔ findCodCoarse pf (T.lines hor) (T.lines ver) = .ok (T.pt c) := by
  refine ⟨findCodCoarse_units hpf T hh hv, fun h => ?_⟩
  have := findCodCoarse_units hpf T.back (hor := T.lines hor) (ver := T.lines ver)
    (fun l hl => by obtain ⟨l', h', rfl⟩ := List.mem_map.1 hl; exact threeAlong_x T (hh l' h'))
    (fun l hl => by obtain ⟨l', h', rfl⟩ := List.mem_map.1 hl; exact threeAlong_y T (hv l' h')) h
  rwa [T.back_lines, T.back_lines, T.back_pt] at this

theorem baileyStep_units {pf : PolyfitFn} (hpf : PolyfitSpec pf) (T : Units) {hor ver : List (List Pt)} (hh : ∀ l ∈ hor, ThreeAlong Pt.x l)
    (hv : ∀ l ∈ ver, ThreeAlong Pt.y l) {c d : Pt} (h : baileyStep pf hor ver c = .ok d)
    (h2 : ∀ ch sh, paraFitHor pf hor c.x c.y = .ok (ch, sh) → ∃ q ∈ ch, ∃ q' ∈ ch, q.c ≠ q'.c)
    (v2 : ∀ cv sv, paraFitVer pf ver c.x c.y = .ok (cv, sv) → ∃ q ∈ cv, ∃ q' ∈ cv, q.c ≠ q'.c) :
    baileyStep pf (T.lines hor) (T.lines ver) (T.pt c) = .ok (T.pt d) := by
  unfold baileyStep at h
  rw [bind_ok_iff] at h
  obtain ⟨⟨ch, sh⟩, e1, h⟩ := h
  rw [bind_ok_iff] at h
  obtain ⟨⟨cv, sv⟩, e2, h⟩ := h
  simp only at h
  split_ifs at h with hc
  simp only [bind_ok_iff] at h
  obtain ⟨l1, e3, l2, e4, dx, e5, dy, e6, h⟩ := h
  cases h
  obtain ⟨q0, m0, q1, m1, d1⟩ := h2 _ _ e1
  obtain ⟨p0, n0, p1, n1, d2⟩ := v2 _ _ e2
  have a1 := paraFitHor_units hpf T hh e1
  have a2 := paraFitVer_units hpf T hv e2
  have lin : ∀ {l : List ℝ} {q : Lin}, Lin.ofList l = .ok q → l = [q.a, q.b] := by
    intro l q h
    unfold Lin.ofList at h
    split at h
    · cases h
      rfl
    · cases h
  have hp := T.pos.ne'
  have by' : T.sy / T.unit ≠ 0 := by rcases T.hy with h | h <;> rw [h] <;> simp [hp]
  have bx' : T.sx / T.unit ≠ 0 := by rcases T.hx with h | h <;> rw [h] <;> simp [hp]
  have f1 := fit_scale_line hpf (xs := ch.map Para.c) (ys := ch.map Para.a) (by simp) T.ey by' (lin e3) (List.mem_map.2 ⟨q0, m0, rfl⟩) (List.mem_map.2 ⟨q1, m1, rfl⟩) d1
  have f2 := fit_scale_line hpf (xs := cv.map Para.c) (ys := cv.map Para.a) (by simp) T.ex bx' (lin e4) (List.mem_map.2 ⟨p0, n0, rfl⟩) (List.mem_map.2 ⟨p1, n1, rfl⟩) d2
  have g1 : (ch.map (horPara T)).map Para.c = (ch.map Para.c).map fun x => T.sy * T.unit * x := by simp [horPara, Function.comp_def]
  have g2 : (ch.map (horPara T)).map Para.a = (ch.map Para.a).map fun x => T.sy / T.unit * x := by simp [horPara, Function.comp_def, div_mul_eq_mul_div]
  have g3 : (cv.map (verPara T)).map Para.c = (cv.map Para.c).map fun x => T.sx * T.unit * x := by simp [verPara, Function.comp_def]
  have g4 : (cv.map (verPara T)).map Para.a = (cv.map Para.a).map fun x => T.sx / T.unit * x := by simp [verPara, Function.comp_def, div_mul_eq_mul_div]
  have k1 : l1.a ≠ 0 := by
    intro h
    rw [finDiv, if_pos h] at e6
    cases e6
  have k2 : l2.a ≠ 0 := by
    intro h
    rw [finDiv, if_pos h] at e5
    cases e5
  rw [finDiv_ok k2] at e5
  rw [finDiv_ok k1] at e6
  cases e5
  cases e6
  unfold baileyStep
  rw [a1, ok_bind]
  simp only
  rw [a2, ok_bind]
  simp only [List.map_eq_nil_iff]
  rw [if_neg hc, g1, g2, g3, g4, f1, f2]
  simp only [Lin.ofList, ok_bind]
  rw [finDiv_ok (div_ne_zero (mul_ne_zero bx' k2) T.ex), ok_bind, finDiv_ok (div_ne_zero (mul_ne_zero by' k1) T.ey), ok_bind]
  simp only [Units.pt, mul_sub]
  congr 3
  · have := T.ey
    field_simp
  · have := T.ex
    field_simp

/-- **C96 (Bailey's centre).** The same for the method of Bailey, if about no centre all fitted lines of a direction have the same intercept. -/
theorem C96_bailey (pf : PolyfitFn) (hpf : PolyfitSpec pf) (T : Units) (hor ver : List (List Pt)) (hh : ∀ l ∈ hor, ThreeAlong Pt.x l)
    (hv : ∀ l ∈ ver, ThreeAlong Pt.y l)
    (h2 : ∀ (c : Pt) ch sh, paraFitHor pf hor c.x c.y = .ok (ch, sh) → ∃ q ∈ ch, ∃ q' ∈ ch, q.c ≠ q'.c)
    (v2 : ∀ (c : Pt) cv sv, paraFitVer pf ver c.x c.y = .ok (cv, sv) → ∃ q ∈ cv, ∃ q' ∈ cv, q.c ≠ q'.c) (iteration : ℕ) (c : Pt)
    (h : findCodBailey pf hor ver iteration = .ok c) : findCodBailey pf (T.lines hor) (T.lines ver) iteration = .ok (T.pt c) := by
  unfold findCodBailey at h
  simp only [bind_ok_iff] at h
  obtain ⟨c0, e0, c1, e1, h⟩ := h
  unfold findCodBailey
  rw [findCodCoarse_units hpf T hh hv e0, ok_bind, baileyStep_units hpf T hh hv e1 (h2 c0) (v2 c0), ok_bind]
  generalize List.range iteration = l at h
  clear e0 e1
  induction l generalizing c1 with
  | nil =>
    simp only [List.foldlM_nil] at h ⊢
    cases h
    rfl
  | cons a l ih =>
    simp only [List.foldlM_cons, bind_ok_iff] at h
    obtain ⟨c2, e2, h⟩ := h
    rw [List.foldlM_cons, baileyStep_units hpf T hh hv e2 (h2 c1) (v2 c1), ok_bind]
    exact ih _ h

/-! ## Models -/

theorem calcUndistorIntercept_units {pf : PolyfitFn} (hpf : PolyfitSpec pf) (T : Units) {minimize : (ℝ → ℝ) → ℝ → ℝ} {hor ver : List (List Pt)}
    (hh : ∀ l ∈ hor, ThreeAlong Pt.x l) (hv : ∀ l ∈ ver, ThreeAlong Pt.y l) {c : Pt} {optimizing : Bool} (hmin : optimizing = true → ExactMin minimize)
    {threshold : ℝ} {uh uv : List ℝ} {w : Bool} (h : calcUndistorIntercept pf minimize hor ver c.x c.y optimizing threshold = .ok (uh, uv, w)) :
    calcUndistorIntercept pf minimize (T.lines hor) (T.lines ver) (T.pt c).x (T.pt c).y optimizing threshold =
      .ok (uh.map fun u => T.sy * T.unit * u, uv.map fun u => T.sx * T.unit * u, w) := by
  unfold calcUndistorIntercept at h
  rw [bind_ok_iff] at h
  obtain ⟨⟨ch, sh⟩, e1, h⟩ := h
  simp only at h
  rw [bind_ok_iff] at h
  obtain ⟨⟨cv, sv⟩, e2, h⟩ := h
  simp only at h
  rw [bind_ok_iff] at h
  obtain ⟨w', ew, h⟩ := h
  simp only [bind_ok_iff] at h
  obtain ⟨uh', e3, uv', e4, h⟩ := h
  cases h
  have a1 := paraFitHor_units hpf T hh e1
  have a2 := paraFitVer_units hpf T hv e2
  unfold calcUndistorIntercept
  rw [a1, ok_bind]
  simp only
  rw [a2, ok_bind]
  simp only
  unfold checkMissingLines at ew ⊢
  rw [missingInDir_scale hpf T.hy T.pos (fun q => rfl), missingInDir_scale hpf T.hx T.pos (fun q => rfl), ew, ok_bind]
  have l1 : (T.lines hor).length = hor.length := by simp [Units.lines]
  have l2 : (T.lines ver).length = ver.length := by simp [Units.lines]
  have g1 : (ch.map (horPara T)).map Para.c = (ch.map Para.c).map fun x => T.sy * T.unit * x := by simp [horPara, Function.comp_def]
  have g2 : (cv.map (verPara T)).map Para.c = (cv.map Para.c).map fun x => T.sx * T.unit * x := by simp [verPara, Function.comp_def]
  rw [l1, l2, g1, g2, undistorted_scale T.hy T.pos hmin e3, ok_bind, undistorted_scale T.hx T.pos hmin e4, ok_bind]

theorem horPara_bent (T : Units) (q : Para) (p : Pt) :
    (horPara T q).a * (T.pt p).x * (T.pt p).x + (horPara T q).c = T.sy * T.unit * (q.a * p.x * p.x + q.c) := by
  have hp := T.pos.ne'
  simp only [horPara, Units.pt]
  field_simp
  linear_combination T.sy * q.a * p.x ^ 2 * T.sq_x

theorem verPara_bent (T : Units) (q : Para) (p : Pt) :
    (verPara T q).a * (T.pt p).y * (T.pt p).y + (verPara T q).c = T.sx * T.unit * (q.a * p.y * p.y + q.c) := by
  have hp := T.pos.ne'
  simp only [verPara, Units.pt]
  field_simp
  linear_combination T.sx * q.a * p.y ^ 2 * T.sq_y

theorem model_determined (T : Units) {k k' : List ℝ} (hl : k'.length = k.length) {P : ℝ → Prop} (hval : ∀ r, P r → radial k' (T.unit * r) = radial k r)
    (h : ∃ rs : List ℝ, rs.Nodup ∧ rs.length = k.length ∧ ∀ r ∈ rs, P r) : k' = T.model k := by
  obtain ⟨rs, a, b, c⟩ := h
  have hm : (T.model k).length = k.length := by simp [Units.model]
  refine radial_determined (rs := rs.map fun r => T.unit * r) (by rw [hl, hm]) (a.map fun x y hxy => mul_left_cancel₀ T.pos.ne' hxy) (by rw [List.length_map, b, hm]) fun r hr => ?_
  obtain ⟨r0, hr0, rfl⟩ := List.mem_map.1 hr
  rw [hval r0 (c r0 hr0), radial_model]

/-- **C96 (forward model).** In other units and with other directions of the axes the same forward model is found: it has the same values at
the distances of all dots that count and so, if there are as many different distances as coefficients, the converted coefficients. -/
theorem C96_forward (pf : PolyfitFn) (hpf : PolyfitSpec pf) (lstsq : LstsqFn) (hls : LstsqSpec lstsq) (T : Units) (minimize : (ℝ → ℝ) → ℝ → ℝ)
    (hor ver : List (List Pt)) (hh : ∀ l ∈ hor, ThreeAlong Pt.x l) (hv : ∀ l ∈ ver, ThreeAlong Pt.y l) (c : Pt) (numFact : ℤ) (optimizing : Bool)
    (hmin : optimizing = true → ExactMin minimize) (threshold : ℝ) (k : List ℝ) (w : Bool)
    (h : calcCoefForward pf lstsq minimize hor ver c.x c.y numFact optimizing threshold = .ok (k, w)) :
    ∃ k' uh uv, calcCoefForward pf lstsq minimize (T.lines hor) (T.lines ver) (T.pt c).x (T.pt c).y numFact optimizing threshold = .ok (k', w) ∧
      calcUndistorIntercept pf minimize hor ver c.x c.y optimizing threshold = .ok (uh, uv, w) ∧ k'.length = k.length ∧
      (∀ r, ForwardRadius uh hor c r ∨ ForwardRadius uv ver c r → radial k' (T.unit * r) = radial k r) ∧
      ((∃ rs : List ℝ, rs.Nodup ∧ rs.length = k.length ∧ ∀ r ∈ rs, ForwardRadius uh hor c r ∨ ForwardRadius uv ver c r) → k' = T.model k) := by
  unfold calcCoefForward at h
  simp only at h
  rw [bind_ok_iff] at h
  obtain ⟨⟨uh, uv, w'⟩, eu, h⟩ := h
  simp only at h
  rw [bind_ok_iff] at h
  obtain ⟨⟨ch, sh⟩, e1, h⟩ := h
  simp only at h
  rw [bind_ok_iff] at h
  obtain ⟨⟨cv, sv⟩, e2, h⟩ := h
  simp only [bind_ok_iff] at h
  obtain ⟨r1, e3, r2, e4, k0, e5, h⟩ := h
  cases h
  set n := numFactors numFact
  obtain ⟨l1, rfl⟩ := fit_lengths e1
  obtain ⟨l2, rfl⟩ := fit_lengths_ver e2
  obtain ⟨d1, R1, g1, d1'⟩ := forRows_forward (along' := Pt.x) (ψ := horPara T) (φ := T.pt) T.ey T.radius (horPara_bent T) e3
  obtain ⟨d2, R2, g2, d2'⟩ := forRows_forward (along' := Pt.y) (ψ := verPara T) (φ := T.pt) T.ex T.radius (verPara_bent T) e4
  set D1 := (samplesOf ch uh (hor.map (shiftLine c.x c.y)) (forwardData Pt.x)).flatten
  set D2 := (samplesOf cv uv (ver.map (shiftLine c.x c.y)) (forwardData Pt.y)).flatten
  rw [d1, d2, ← List.map_append] at e5
  have hne : D1 ++ D2 ≠ [] := by
    intro h0
    rw [h0] at e5
    simp [lstsqChecked] at e5
  obtain ⟨k1, k', f1, f2, f3, f4, hval⟩ := lsq_same_values hls hls n T.pos (List.Perm.refl (D1 ++ D2)) hne
  rw [e5] at f1
  cases f1
  have hval' : ∀ r, ForwardRadius uh hor c r ∨ ForwardRadius uv ver c r → radial k' (T.unit * r) = radial k r := by
    intro r hr
    rcases hr with hr | hr
    · obtain ⟨v, hm⟩ := forwardRadius_mem (along := Pt.x) l1 hr
      exact hval (r, v) (List.mem_append_left _ hm)
    · obtain ⟨v, hm⟩ := forwardRadius_mem (along := Pt.y) l2 hr
      exact hval (r, v) (List.mem_append_right _ hm)
  refine ⟨k', uh, uv, ?_, eu, by rw [f3, f4], hval', model_determined T (by rw [f3, f4]) hval'⟩
  have a1 := paraFitHor_units hpf T hh e1
  have a2 := paraFitVer_units hpf T hv e2
  unfold calcCoefForward
  simp only
  rw [calcUndistorIntercept_units hpf T hh hv hmin eu, ok_bind]
  simp only
  rw [a1, ok_bind]
  simp only
  rw [a2, ok_bind]
  simp only
  change (rowsOf (forwardRow n) Pt.x _ _ ((hor.map (shiftLine c.x c.y)).map fun l => l.map T.pt) >>= _) = _
  rw [g1, ok_bind]
  change (rowsOf (forwardRow n) Pt.y _ _ ((ver.map (shiftLine c.x c.y)).map fun l => l.map T.pt) >>= _) = _
  rw [g2, ok_bind, d1', d2', ← List.map_append, f2, ok_bind]

/-- **C96 (backward model).** The same for the backward model, at the undistorted radii of the dots. -/
theorem C96_backward (pf : PolyfitFn) (hpf : PolyfitSpec pf) (lstsq : LstsqFn) (hls : LstsqSpec lstsq) (T : Units) (minimize : (ℝ → ℝ) → ℝ → ℝ)
    (hor ver : List (List Pt)) (hh : ∀ l ∈ hor, ThreeAlong Pt.x l) (hv : ∀ l ∈ ver, ThreeAlong Pt.y l) (c : Pt) (numFact : ℤ) (optimizing : Bool)
    (hmin : optimizing = true → ExactMin minimize) (threshold : ℝ) (k : List ℝ) (w : Bool)
    (h : calcCoefBackward pf lstsq minimize hor ver c.x c.y numFact optimizing threshold = .ok (k, w)) :
    ∃ k' ch cv uh uv, calcCoefBackward pf lstsq minimize (T.lines hor) (T.lines ver) (T.pt c).x (T.pt c).y numFact optimizing threshold = .ok (k', w) ∧
      calcUndistorIntercept pf minimize hor ver c.x c.y optimizing threshold = .ok (uh, uv, w) ∧
      paraFitHor pf hor c.x c.y = .ok (ch, hor.map (shiftLine c.x c.y)) ∧ paraFitVer pf ver c.x c.y = .ok (cv, ver.map (shiftLine c.x c.y)) ∧
      k'.length = k.length ∧
      (∀ r, BackwardRadius Pt.x ch uh hor c r ∨ BackwardRadius Pt.y cv uv ver c r → radial k' (T.unit * r) = radial k r) ∧
      ((∃ rs : List ℝ, rs.Nodup ∧ rs.length = k.length ∧ ∀ r ∈ rs, BackwardRadius Pt.x ch uh hor c r ∨ BackwardRadius Pt.y cv uv ver c r) → k' = T.model k) := by
  unfold calcCoefBackward at h
  simp only at h
  rw [bind_ok_iff] at h
  obtain ⟨⟨uh, uv, w'⟩, eu, h⟩ := h
  simp only at h
  rw [bind_ok_iff] at h
  obtain ⟨⟨ch, sh⟩, e1, h⟩ := h
  simp only at h
  rw [bind_ok_iff] at h
  obtain ⟨⟨cv, sv⟩, e2, h⟩ := h
  simp only [bind_ok_iff] at h
  obtain ⟨r1, e3, r2, e4, k0, e5, h⟩ := h
  cases h
  set n := numFactors numFact
  obtain ⟨l1, rfl⟩ := fit_lengths e1
  obtain ⟨l2, rfl⟩ := fit_lengths_ver e2
  obtain ⟨d1, g1⟩ := forRows_backward (along' := Pt.x) (ψ := horPara T) (φ := T.pt) T.ey T.radius (horPara_bent T) e3
  obtain ⟨d2, g2⟩ := forRows_backward (along' := Pt.y) (ψ := verPara T) (φ := T.pt) T.ex T.radius (verPara_bent T) e4
  set D1 := samplesOf ch uh (hor.map (shiftLine c.x c.y)) (backwardData Pt.x)
  set D2 := samplesOf cv uv (ver.map (shiftLine c.x c.y)) (backwardData Pt.y)
  rw [d1, d2, ← List.map_append] at e5
  have hne : D1 ++ D2 ≠ [] := by
    intro h0
    rw [h0] at e5
    simp [lstsqChecked] at e5
  obtain ⟨k1, k', f1, f2, f3, f4, hval⟩ := lsq_same_values hls hls n T.pos (List.Perm.refl (D1 ++ D2)) hne
  rw [e5] at f1
  cases f1
  have hval' : ∀ r, BackwardRadius Pt.x ch uh hor c r ∨ BackwardRadius Pt.y cv uv ver c r → radial k' (T.unit * r) = radial k r := by
    intro r hr
    rcases hr with hr | hr
    · obtain ⟨v, hm⟩ := backwardRadius_mem (fun _ => rfl) hr
      exact hval (r, v) (List.mem_append_left _ hm)
    · obtain ⟨v, hm⟩ := backwardRadius_mem (fun _ => rfl) hr
      exact hval (r, v) (List.mem_append_right _ hm)
  refine ⟨k', ch, cv, uh, uv, ?_, eu, e1, e2, by rw [f3, f4], hval', model_determined T (by rw [f3, f4]) hval'⟩
  have a1 := paraFitHor_units hpf T hh e1
  have a2 := paraFitVer_units hpf T hv e2
  unfold calcCoefBackward
  simp only
  rw [calcUndistorIntercept_units hpf T hh hv hmin eu, ok_bind]
  simp only
  rw [a1, ok_bind]
  simp only
  rw [a2, ok_bind]
  simp only
  change (rowsOf (backwardRow n) Pt.x _ _ ((hor.map (shiftLine c.x c.y)).map fun l => l.map T.pt) >>= _) = _
  rw [g1, ok_bind]
  change (rowsOf (backwardRow n) Pt.y _ _ ((ver.map (shiftLine c.x c.y)).map fun l => l.map T.pt) >>= _) = _
  rw [g2, ok_bind, ← List.map_append, f2, ok_bind]

/-- **C96 (both models).** The same for the pair of models of `calc_coef_backward_from_forward`, if there are as many different distances as
coefficients. -/
theorem C96_backward_from_forward (pf : PolyfitFn) (hpf : PolyfitSpec pf) (lstsq : LstsqFn) (hls : LstsqSpec lstsq) (T : Units)
    (minimize : (ℝ → ℝ) → ℝ → ℝ) (hor ver : List (List Pt)) (hh : ∀ l ∈ hor, ThreeAlong Pt.x l) (hv : ∀ l ∈ ver, ThreeAlong Pt.y l) (c : Pt)
    (numFact : ℤ) (optimizing : Bool) (hmin : optimizing = true → ExactMin minimize) (threshold : ℝ) (ff bf : List ℝ) (w : Bool)
    (h : calcCoefBackwardFromForward pf lstsq minimize hor ver c.x c.y numFact optimizing threshold = .ok (ff, bf, w)) :
    ∃ uh uv, calcUndistorIntercept pf minimize hor ver c.x c.y optimizing threshold = .ok (uh, uv, w) ∧
      ((∃ rs : List ℝ, rs.Nodup ∧ rs.length = ff.length ∧ ∀ r ∈ rs, ForwardRadius uh hor c r ∨ ForwardRadius uv ver c r) →
        ∃ bf', calcCoefBackwardFromForward pf lstsq minimize (T.lines hor) (T.lines ver) (T.pt c).x (T.pt c).y numFact optimizing threshold =
            .ok (T.model ff, bf', w) ∧ bf'.length = bf.length ∧
          ∀ p, p ∈ hor.flatten ∨ p ∈ ver.flatten → radial ff (ptDist p c) ≠ 0 →
            radial bf' (T.unit * (radial ff (ptDist p c) * ptDist p c)) = radial bf (radial ff (ptDist p c) * ptDist p c)) := by
  unfold calcCoefBackwardFromForward at h
  rw [bind_ok_iff] at h
  obtain ⟨⟨f, w'⟩, ef, h⟩ := h
  simp only at h
  rw [bind_ok_iff] at h
  obtain ⟨⟨ch, sh⟩, e1, h⟩ := h
  simp only at h
  rw [bind_ok_iff] at h
  obtain ⟨⟨cv, sv⟩, e2, h⟩ := h
  simp only [bind_ok_iff] at h
  obtain ⟨b, e3, h⟩ := h
  cases h
  obtain ⟨f', uh, uv, ef', eu, hl, -, huniq⟩ := C96_forward pf hpf lstsq hls T minimize hor ver hh hv c numFact optimizing hmin threshold ff w ef
  refine ⟨uh, uv, eu, fun hrs => ?_⟩
  obtain rfl := huniq hrs
  obtain ⟨l1, rfl⟩ := fit_lengths e1
  obtain ⟨l2, rfl⟩ := fit_lengths_ver e2
  have a1 := paraFitHor_units hpf T hh e1
  have a2 := paraFitVer_units hpf T hv e2
  rw [inverseRow_data, inverseRow_data, ← List.map_append] at e3
  set g : Pt → ℝ × ℝ := fun p => (radial ff (ptDist p ⟨c.y, c.x⟩) * ptDist p ⟨c.y, c.x⟩, 1 / radial ff (ptDist p ⟨c.y, c.x⟩)) with hg
  set D1 := (hor.flatten.filter fun p => decide (radial ff (ptDist p ⟨c.y, c.x⟩) ≠ 0)).map g with hD1
  set D2 := (ver.flatten.filter fun p => decide (radial ff (ptDist p ⟨c.y, c.x⟩) ≠ 0)).map g with hD2
  have scaled : ∀ L : List (List Pt), (T.lines (L.map (shiftLine c.x c.y))).flatten.filterMap (inverseRow (T.model ff)) =
      ((L.flatten.filter fun p => decide (radial ff (ptDist p ⟨c.y, c.x⟩) ≠ 0)).map g).map fun d => (powers (T.unit * d.1) ff.length, d.2) := by
    intro L
    rw [← shiftLine_units, inverseRow_data, show (⟨(T.pt c).y, (T.pt c).x⟩ : Pt) = T.pt c from rfl, Units.lines, ← List.map_flatten, List.filter_map, List.map_map,
      List.map_map, List.map_map]
    have hlen : (T.model ff).length = ff.length := by simp [Units.model]
    simp only [Function.comp_def, T.dist, radial_model, hlen, hg]
    refine List.map_congr_left fun p _ => ?_
    rw [show (⟨c.y, c.x⟩ : Pt) = c from rfl, mul_left_comm]
  have hne : D1 ++ D2 ≠ [] := by
    intro h0
    rw [h0] at e3
    simp [lstsqChecked] at e3
  obtain ⟨k1, k', g1, g2, g3, g4, hval⟩ := lsq_same_values hls hls ff.length T.pos (List.Perm.refl (D1 ++ D2)) hne
  rw [e3] at g1
  cases g1
  refine ⟨k', ?_, by rw [g3, g4], fun p hp hz => ?_⟩
  · unfold calcCoefBackwardFromForward
    rw [ef', ok_bind]
    simp only
    rw [a1, ok_bind]
    simp only
    rw [a2, ok_bind]
    simp only
    rw [scaled, scaled, ← List.map_append, g2, ok_bind]
  · refine hval (g p) ?_
    rw [List.mem_append]
    exact hp.imp (fun hp => List.mem_map.2 ⟨p, List.mem_filter.2 ⟨hp, by simpa using hz⟩, rfl⟩)
      (fun hp => List.mem_map.2 ⟨p, List.mem_filter.2 ⟨hp, by simpa using hz⟩, rfl⟩)

/-! ## The origin -/

/-- Three dots of the parabola `y = a·x² + b·x + e`. -/
noncomputable def paraRow (a b e : ℝ) : List Pt := [0, 1, 2].map fun t : ℝ => ⟨a * t ^ 2 + b * t + e, t⟩

/-- Three dots of the column `x = e`. -/
noncomputable def straightCol (e : ℝ) : List Pt := [0, 1, 2].map fun t : ℝ => ⟨t, e⟩

theorem paraRow_three (a b e : ℝ) : ThreeAlong Pt.x (paraRow a b e) :=
  ⟨⟨a * 0 ^ 2 + b * 0 + e, 0⟩, by simp [paraRow], ⟨a * 1 ^ 2 + b * 1 + e, 1⟩, by simp [paraRow], ⟨a * 2 ^ 2 + b * 2 + e, 2⟩, by simp [paraRow],
    by norm_num, by norm_num, by norm_num⟩

theorem straightCol_three (e : ℝ) : ThreeAlong Pt.y (straightCol e) :=
  ⟨⟨0, e⟩, by simp [straightCol], ⟨1, e⟩, by simp [straightCol], ⟨2, e⟩, by simp [straightCol], by norm_num, by norm_num, by norm_num⟩

/-- The coarse centre of two dot rows, bent in opposite directions, and two straight columns; all dots moved to the right by `s`. -/
theorem coarse_shifted {pf : PolyfitFn} (hpf : PolyfitSpec pf) {a0 b0 e0 a1 b1 e1 u0 u1 : ℝ} (s : ℝ) :
    findCodCoarse pf ([paraRow a0 b0 e0, paraRow a1 b1 e1].map fun l => l.map fun p => ⟨p.y, p.x + s⟩)
        ([straightCol u0, straightCol u1].map fun l => l.map fun p => ⟨p.y, p.x + s⟩) =
      .ok ⟨((a0 * s ^ 2 - b0 * s + e0) + (a1 * s ^ 2 - b1 * s + e1)) / 2 + ((u0 + s) + (u1 + s)) / 2 * (((b0 - 2 * a0 * s) + (b1 - 2 * a1 * s)) / 2),
        ((u0 + s) + (u1 + s)) / 2⟩ := by
  have row : ∀ a b e : ℝ, paraHor pf 0 0 ((paraRow a b e).map fun p => ⟨p.y, p.x + s⟩) = .ok ⟨a, b - 2 * a * s, a * s ^ 2 - b * s + e⟩ := by
    intro a b e
    obtain ⟨q, eq, hq⟩ := paraHor_ok hpf (line := (paraRow a b e).map fun p => ⟨p.y, p.x + s⟩) (by simp [paraRow]) 0 0
    obtain ⟨r1, r2, r3⟩ := lsqPara_exact (a' := a) (b' := b - 2 * a * s) (c' := a * s ^ 2 - b * s + e) hq (by
      intro p hp
      simp only [paraRow, List.map_map, List.mem_map] at hp
      obtain ⟨t, _, rfl⟩ := hp
      simp only [Function.comp_apply]
      ring) (by
      obtain ⟨p0, m0, p1, m1, p2, m2, d1, d2, d3⟩ := paraRow_three a b e
      exact ⟨_, List.mem_map.2 ⟨p0, m0, rfl⟩, _, List.mem_map.2 ⟨p1, m1, rfl⟩, _, List.mem_map.2 ⟨p2, m2, rfl⟩, by simpa using d1, by simpa using d2, by simpa using d3⟩)
    rw [eq]
    congr 1
    cases q
    simp_all
  have col : ∀ e : ℝ, paraVer pf 0 0 ((straightCol e).map fun p => ⟨p.y, p.x + s⟩) = .ok ⟨0, 0, e + s⟩ := by
    intro e
    obtain ⟨q, eq, hq⟩ := paraVer_ok hpf (line := (straightCol e).map fun p => ⟨p.y, p.x + s⟩) (by simp [straightCol]) 0 0
    obtain ⟨r1, r2, r3⟩ := lsqPara_exact (a' := 0) (b' := 0) (c' := e + s) hq (by
      intro p hp
      simp only [straightCol, List.map_map, List.mem_map] at hp
      obtain ⟨t, _, rfl⟩ := hp
      simp only [Function.comp_apply]
      ring) (by
      obtain ⟨p0, m0, p1, m1, p2, m2, d1, d2, d3⟩ := straightCol_three e
      exact ⟨_, List.mem_map.2 ⟨p0, m0, rfl⟩, _, List.mem_map.2 ⟨p1, m1, rfl⟩, _, List.mem_map.2 ⟨p2, m2, rfl⟩, d1, d2, d3⟩)
    rw [eq]
    congr 1
    cases q
    simp_all
  have two : ∀ q0 q1 : Para, signChange [q0, q1] = .ok 1 := by
    intro q0 q1
    obtain ⟨k, e, hk, _⟩ := signChange_ok (coefs := [q0, q1]) (by simp)
    have : k = 0 := by
      simp at hk
      omega
    rw [e, this]
  unfold findCodCoarse paraFitHor paraFitVer
  simp only [List.map_cons, List.map_nil, List.mapM_cons, List.mapM_nil, row, col, ok_bind, pure_bind]
  simp only [two, ok_bind]
  simp only [npGet, List.getElem?_cons_zero, List.getElem?_cons_succ, ok_bind, Nat.sub_self]
  rw [finDiv_ok (by norm_num), ok_bind, finDiv_ok (by norm_num), ok_bind]
  congr 2 <;> ring

/-- **C96 (origin).** The coarse centre does depend on the origin: if all dots are moved to the right by 1, it does not just move to the right
by 1. The two fitted parabolas `y = x²` and `y = 10 - 3x²` and the columns `x = 0` and `x = 2` give the centre (y, x) = (5, 1); after the shift
it is (8, 2). -/
theorem C96_coarse_origin (pf : PolyfitFn) (hpf : PolyfitSpec pf) : ∃ hor ver : List (List Pt), (∀ l ∈ hor, ThreeAlong Pt.x l) ∧ (∀ l ∈ ver, ThreeAlong Pt.y l) ∧
    findCodCoarse pf hor ver = .ok ⟨5, 1⟩ ∧
    findCodCoarse pf (hor.map fun l => l.map fun p => ⟨p.y, p.x + 1⟩) (ver.map fun l => l.map fun p => ⟨p.y, p.x + 1⟩) = .ok ⟨8, 2⟩ := by
  refine ⟨[paraRow 1 0 0, paraRow (-3) 0 10], [straightCol 0, straightCol 2], ?_, ?_, ?_, ?_⟩
  · simp [paraRow_three]
  · simp [straightCol_three]
  · have := coarse_shifted hpf (a0 := 1) (b0 := 0) (e0 := 0) (a1 := -3) (b1 := 0) (e1 := 10) (u0 := 0) (u1 := 2) 0
    simp only [add_zero] at this
    convert this using 3
    · simp
    · simp
    · norm_num
    · norm_num
  · have := coarse_shifted hpf (a0 := 1) (b0 := 0) (e0 := 0) (a1 := -3) (b1 := 0) (e1 := 10) (u0 := 0) (u1 := 2) 1
    rw [this]
    norm_num

/-! ## Non-vacuity -/

theorem bentRow_three (k u : ℝ) : ThreeAlong Pt.x (bentRow k u) :=
  ⟨⟨3 + u * (1 + k * (-1) ^ 2), 5 + -1⟩, by simp [bentRow], ⟨3 + u * (1 + k * 0 ^ 2), 5 + 0⟩, by simp [bentRow],
    ⟨3 + u * (1 + k * 1 ^ 2), 5 + 1⟩, by simp [bentRow], by norm_num, by norm_num, by norm_num⟩

theorem bentCol_three (k u : ℝ) : ThreeAlong Pt.y (bentCol k u) :=
  ⟨⟨3 + -1, 5 + u * (1 + k * (-1) ^ 2)⟩, by simp [bentCol], ⟨3 + 0, 5 + u * (1 + k * 0 ^ 2)⟩, by simp [bentCol],
    ⟨3 + 1, 5 + u * (1 + k * 1 ^ 2)⟩, by simp [bentCol], by norm_num, by norm_num, by norm_num⟩

/-- An image and the same image turned by 180 degrees. -/
example : IsMirrored true true (⟨2, 3, fun i j => (10 * i + j : ℕ)⟩ : Mat ℝ) ⟨2, 3, fun i j => (10 * (1 - i) + (2 - j) : ℕ)⟩ := by
  refine ⟨rfl, rfl, fun i hi j hj => ?_⟩
  simp only [mirrorIndex, if_true] at hi hj ⊢
  have h1 : 1 - (2 - 1 - i) = i := by omega
  have h2 : 2 - (3 - 1 - j) = j := by omega
  rw [h1, h2]

/-- A pixel is half a micrometre, say, and the vertical axis points upwards. -/
noncomputable def halfUp : Units := ⟨-1, 1, 0.5, Or.inr rfl, Or.inl rfl, by norm_num⟩

/-- The centre (3, 5) of the bent lines of C72 becomes (-1.5, 2.5). -/
example : findCodBailey refPolyfit (halfUp.lines ([-1, 2].map (bentRow 1))) (halfUp.lines ([-1, 1].map (bentCol 1))) 2 = .ok ⟨-1.5, 2.5⟩ := by
  have hb := bent_example 1 1 [-1, 2] [-1, 1]
  have sc : ∀ (d e u v : ℝ), signChange (([u, v] : List ℝ).map (bentPara 1 d e)) = .ok 1 := by
    intro d e u v
    unfold signChange npArgmax
    simp [npDiff, List.findIdx_cons]
  have ho : findCodCoarse refPolyfit ([-1, 2].map (bentRow 1)) ([-1, 1].map (bentCol 1)) = .ok ⟨-9, 5⟩ := by
    unfold findCodCoarse
    rw [bent_fitHor refPolyfit_spec hb.hor, bent_fitVer refPolyfit_spec hb.ver]
    simp only [ok_bind, sc]
    simp only [List.map_cons, List.map_nil, npGet, List.getElem?_cons_zero, List.getElem?_cons_succ, Nat.sub_self, ok_bind]
    norm_num [bentPara, finDiv]
  have h := C72_pincushion _ refPolyfit_spec _ 1 1 _ _ _ _ hb ⟨-1, by simp, 2, by simp, by norm_num⟩
    ⟨-1, by simp, 1, by simp, by norm_num⟩ one_pos one_pos _ ho 2
  have := C96_bailey refPolyfit refPolyfit_spec halfUp _ _ (by simp [bentRow_three]) (by simp [bentCol_three]) (fun c ch sh e => by
      rw [bent_fitHor refPolyfit_spec hb.hor] at e
      cases e
      refine ⟨_, List.mem_map.2 ⟨-1, by simp, rfl⟩, _, List.mem_map.2 ⟨2, by simp, rfl⟩, fun h => ?_⟩
      simp only [bentPara] at h
      nlinarith [sq_nonneg (c.x - 5)]) (fun c ch sh e => by
      rw [bent_fitVer refPolyfit_spec hb.ver] at e
      cases e
      refine ⟨_, List.mem_map.2 ⟨-1, by simp, rfl⟩, _, List.mem_map.2 ⟨1, by simp, rfl⟩, fun h => ?_⟩
      simp only [bentPara] at h
      nlinarith [sq_nonneg (c.y - 3)]) 2 ⟨3, 5⟩ h
  rw [this]
  norm_num [Units.pt, halfUp]

/-- Four barrel-shaped lines in each direction around (3, 5): the forward model with three coefficients found in other units has the
coefficients `[k₀, 2k₁, 4k₂]`. -/
example : ∃ k, calcCoefForward refPolyfit refLstsq refMinimize ([-3, -1, 1, 3].map (bentRow 0.5)) ([-3, -1, 1, 3].map (bentCol 0.5)) 5 3 3 true 0.3 =
      .ok (k, false) ∧ k.length = 3 ∧
    calcCoefForward refPolyfit refLstsq refMinimize (halfUp.lines ([-3, -1, 1, 3].map (bentRow 0.5))) (halfUp.lines ([-3, -1, 1, 3].map (bentCol 0.5)))
        (halfUp.pt ⟨3, 5⟩).x (halfUp.pt ⟨3, 5⟩).y 3 true 0.3 = .ok (halfUp.model k, false) := by
  have hb := bent_example 0.5 0.5 [-3, -1, 1, 3] [-3, -1, 1, 3]
  obtain ⟨k, e, hk, _⟩ := C80_ideal_forward refPolyfit refPolyfit_spec refLstsq refLstsq_spec refMinimize ⟨3, 5⟩ 0.5 0.5
    [-3, -1, 1, 3] [-3, -1, 1, 3] _ _ hb (-3) 2 (-3) 2 arith4 arith4 (by norm_num) (by norm_num) (by simp) (by simp)
    (fun _ _ p _ => by positivity) (fun _ _ p _ => by positivity) 3 (by norm_num) true (fun _ => refMinimize_exact) 0.3 (by norm_num)
  have hk3 : k.length = 3 := by omega
  obtain ⟨k', uh, uv, e', eu, _, _, hu⟩ := C96_forward refPolyfit refPolyfit_spec refLstsq refLstsq_spec halfUp refMinimize
    _ _ (by simp [bentRow_three]) (by simp [bentCol_three]) ⟨3, 5⟩ _ _ (fun _ => refMinimize_exact) _ _ _ e
  have eu' := bent_intercepts refPolyfit_spec refMinimize hb arith4 arith4 (by norm_num) (by norm_num) (by simp) (by simp) true (fun _ => refMinimize_exact)
      (show (0 : ℝ) ≤ 0.3 by norm_num)
  rw [eu'] at eu
  simp only [Except.ok.injEq, Prod.mk.injEq] at eu
  obtain ⟨rfl, rfl, _⟩ := eu
  have hkk : k' = halfUp.model k := by
    refine hu ⟨[1, 3, √3.25], ?_, by simp [hk3], ?_⟩
    · have h1 : √(3.25 : ℝ) ^ 2 = 3.25 := Real.sq_sqrt (by norm_num)
      simp only [List.nodup_cons, List.mem_cons, List.not_mem_nil, or_false, not_or, not_false_eq_true, List.nodup_nil, and_true]
      refine ⟨⟨by norm_num, fun h => ?_⟩, fun h => ?_⟩
      · rw [← h] at h1; norm_num at h1
      · rw [← h] at h1; norm_num at h1
    · intro r hr
      simp only [List.mem_cons, List.not_mem_nil, or_false] at hr
      left
      rcases hr with rfl | rfl | rfl
      · exact ⟨2, 1, bentRow 0.5 1, rfl, rfl, by norm_num, ⟨3 + 1 * (1 + 0.5 * 0 ^ 2), 5 + 0⟩, by simp [bentRow], by norm_num [ptDist]⟩
      · refine ⟨3, 3, bentRow 0.5 3, rfl, rfl, by norm_num, ⟨3 + 3 * (1 + 0.5 * 0 ^ 2), 5 + 0⟩, by simp [bentRow], ?_⟩
        rw [ptDist, show ((5 : ℝ) + 0 - 5) ^ 2 + (3 + 3 * (1 + 0.5 * 0 ^ 2) - 3) ^ 2 = 3 ^ 2 by norm_num, Real.sqrt_sq (by norm_num)]
      · exact ⟨2, 1, bentRow 0.5 1, rfl, rfl, by norm_num, ⟨3 + 1 * (1 + 0.5 * 1 ^ 2), 5 + 1⟩, by simp [bentRow], by norm_num [ptDist]⟩
  rw [hkk] at e'
  exact ⟨k, e, hk3, e'⟩

/-- An image and the same image turned by 180 degrees are unwarped alike. -/
example (B B' : Boundary) (xc yc : ℝ) := C96_image B B' true true ⟨2, 3, fun i j => (10 * i + j : ℕ)⟩ ⟨2, 3, fun i j => (10 * (1 - i) + (2 - j) : ℕ)⟩ (by
  refine ⟨rfl, rfl, fun i hi j hj => ?_⟩
  simp only [mirrorIndex, if_true] at hi hj ⊢
  have h1 : 1 - (2 - 1 - i) = i := by omega
  have h2 : 2 - (3 - 1 - j) = j := by omega
  rw [h1, h2]) xc yc [1, 1 / 10]
example := C96_coarse refPolyfit refPolyfit_spec halfUp ([-1, 2].map (bentRow 1)) ([-1, 1].map (bentCol 1))
  (by
    intro l hl
    obtain ⟨u, _, h⟩ := List.mem_map.1 hl
    rw [← h]
    exact (List.forall₂_cons.1 (bent_example 1 1 [u] []).hor).1.three)
  (by
    intro l hl
    obtain ⟨u, _, h⟩ := List.mem_map.1 hl
    rw [← h]
    exact (List.forall₂_cons.1 (bent_example 1 1 [] [u]).ver).1.three)
example := C96_coarse_origin refPolyfit refPolyfit_spec

theorem gridHor_three : ∀ l ∈ gridHor, ThreeAlong Pt.x l := by
  intro l hl
  simp only [gridHor, List.mem_cons, List.not_mem_nil, or_false] at hl
  rcases hl with rfl | rfl | rfl | rfl
  exacts [⟨⟨0, 0⟩, by simp, ⟨0, 1⟩, by simp, ⟨0, 2⟩, by simp, by norm_num⟩, ⟨⟨1, 0⟩, by simp, ⟨1, 1⟩, by simp, ⟨1, 2⟩, by simp, by norm_num⟩,
    ⟨⟨2, 0⟩, by simp, ⟨2, 1⟩, by simp, ⟨2, 2⟩, by simp, by norm_num⟩, ⟨⟨3, 0⟩, by simp, ⟨3, 1⟩, by simp, ⟨3, 2⟩, by simp, by norm_num⟩]

theorem gridVer_three : ∀ l ∈ gridVer, ThreeAlong Pt.y l := by
  intro l hl
  simp only [gridVer, List.mem_cons, List.not_mem_nil, or_false] at hl
  rcases hl with rfl | rfl | rfl | rfl
  exacts [⟨⟨0, 0⟩, by simp, ⟨1, 0⟩, by simp, ⟨2, 0⟩, by simp, by norm_num⟩, ⟨⟨0, 1⟩, by simp, ⟨1, 1⟩, by simp, ⟨2, 1⟩, by simp, by norm_num⟩,
    ⟨⟨0, 2⟩, by simp, ⟨1, 2⟩, by simp, ⟨2, 2⟩, by simp, by norm_num⟩, ⟨⟨0, 3⟩, by simp, ⟨1, 3⟩, by simp, ⟨2, 3⟩, by simp, by norm_num⟩]

/-- The models of the grid of C22 in other units. -/
example : ∃ f g g', calcCoefBackwardFromForward refPolyfit refLstsq refMinimize gridHor gridVer 1.5 1.4 3 true 0.3 = .ok (f, g, false) ∧
    calcCoefBackwardFromForward refPolyfit refLstsq refMinimize (halfUp.lines gridHor) (halfUp.lines gridVer) (halfUp.pt ⟨1.4, 1.5⟩).x (halfUp.pt ⟨1.4, 1.5⟩).y 3 true 0.3 =
      .ok (halfUp.model f, g', false) ∧
    radial g' (halfUp.unit * ptDist ⟨0, 0⟩ ⟨1.4, 1.5⟩) = radial g (ptDist ⟨0, 0⟩ ⟨1.4, 1.5⟩) := by
  obtain ⟨f, g, e, h1, hr⟩ := grid_models
  obtain ⟨uh, uv, eu, h⟩ := C96_backward_from_forward refPolyfit refPolyfit_spec refLstsq refLstsq_spec halfUp refMinimize gridHor gridVer gridHor_three gridVer_three
    ⟨1.4, 1.5⟩ 3 true (fun _ => refMinimize_exact) 0.3 f g false e
  obtain ⟨g', e', _, hg⟩ := h (hr _ _ _ eu)
  have h0 := h1 ⟨0, 0⟩ (by simp [gridHor])
  have := hg ⟨0, 0⟩ (.inl (by simp [gridHor])) (by rw [h0]; exact one_ne_zero)
  rw [h0, one_mul] at this
  exact ⟨f, g, g', e, e', this⟩

/-- The backward model of the barrel-shaped lines in other units. -/
example : ∃ k k' : List ℝ, calcCoefBackward refPolyfit refLstsq refMinimize ([-3, -1, 1, 3].map (bentRow 0.5)) ([-3, -1, 1, 3].map (bentCol 0.5)) 5 3 3 true 0.3 =
      .ok (k, false) ∧
    calcCoefBackward refPolyfit refLstsq refMinimize (halfUp.lines ([-3, -1, 1, 3].map (bentRow 0.5))) (halfUp.lines ([-3, -1, 1, 3].map (bentCol 0.5)))
      (halfUp.pt ⟨3, 5⟩).x (halfUp.pt ⟨3, 5⟩).y 3 true 0.3 = .ok (k', false) ∧ k'.length = k.length := by
  obtain ⟨k, e, _⟩ := C80_ideal_backward refPolyfit refPolyfit_spec refLstsq refLstsq_spec refMinimize ⟨3, 5⟩ 0.5 0.5
    [-3, -1, 1, 3] [-3, -1, 1, 3] _ _ (bent_example _ _ _ _) (-3) 2 (-3) 2 arith4 arith4 (by norm_num) (by norm_num) (by simp) (by simp)
    (by norm_num) (by norm_num) (fun l _ p _ => by positivity) (fun l _ p _ => by positivity) 3 (by norm_num) true (fun _ => refMinimize_exact) 0.3 (by norm_num)
  obtain ⟨k', _, _, _, _, e', _, _, _, hl, _⟩ := C96_backward refPolyfit refPolyfit_spec refLstsq refLstsq_spec halfUp refMinimize _ _ (by simp [bentRow_three])
    (by simp [bentCol_three]) ⟨3, 5⟩ 3 true (fun _ => refMinimize_exact) 0.3 k false e
  exact ⟨k, k', e, e', hl⟩

end Discorpy
