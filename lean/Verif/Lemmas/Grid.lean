import Verif.Lemmas.Except
import Verif.Lemmas.Lines
import Verif.Model.Perspective

/-! # Helper lemmas: crossing points and grids -/

namespace Discorpy

open Spec

/-- Crossing point of `y = h.a x + h.b` and `x = v.a y + v.b`. -/
noncomputable def crossPt (h v : Lin) : Pt :=
  let y := (h.a * v.b + h.b) / (1 - h.a * v.a)
  ⟨y, v.a * y + v.b⟩

theorem crossPoint_eq {h v : Lin} (hp : h.a * v.a ≠ 1) : crossPoint h v = .ok (crossPt h v) := by
  unfold crossPoint
  rw [finDiv_ok (sub_ne_zero.2 (Ne.symm hp))]
  rfl

theorem crossPoint_parallel {h v : Lin} (hp : h.a * v.a = 1) : crossPoint h v = .error .nonFinite := by
  unfold crossPoint
  rw [finDiv, if_pos (by rw [hp]; ring)]
  rfl

theorem crossPt_on {h v : Lin} (hp : h.a * v.a ≠ 1) :
    onHorLine h.a h.b (crossPt h v) ∧ onVerLine v.a v.b (crossPt h v) := by
  refine ⟨?_, rfl⟩
  unfold onHorLine crossPt
  have : 1 - h.a * v.a ≠ 0 := sub_ne_zero.2 (Ne.symm hp)
  simp only
  field_simp
  ring

theorem cross_unique {a b a' b' : ℝ} (hp : a * a' ≠ 1) {p q : Pt} (h1 : onHorLine a b p) (h2 : onVerLine a' b' p)
    (h3 : onHorLine a b q) (h4 : onVerLine a' b' q) : p = q := by
  unfold onHorLine onVerLine at *
  have hy : p.y = q.y := by
    have : (1 - a * a') * (p.y - q.y) = 0 := by rw [h2] at h1; rw [h4] at h3; linear_combination h1 - h3
    rcases mul_eq_zero.1 this with h | h
    · exact absurd (by linarith) hp
    · linarith
  have hx : p.x = q.x := by rw [h2, h4, hy]
  rcases p with ⟨py, px⟩
  rcases q with ⟨qy, qx⟩
  exact (Pt.mk.injEq _ _ _ _).mpr ⟨hy, hx⟩

theorem gridPoints_eq {ch cv : List Lin} (hp : ∀ h ∈ ch, ∀ v ∈ cv, h.a * v.a ≠ 1) :
    gridPoints ch cv = .ok (ch.map fun h => cv.map fun v => crossPt h v, cv.map fun v => ch.map fun h => crossPt h v) := by
  unfold gridPoints
  rw [mapM_eq_map (g := fun h => cv.map fun v => crossPt h v)]
  · rw [ok_bind, mapM_eq_map (g := fun v => ch.map fun h => crossPt h v)]
    · rfl
    · intro v hv
      exact mapM_eq_map fun h hh => crossPoint_eq (hp h hh v hv)
  · intro h hh
    exact mapM_eq_map fun v hv => crossPoint_eq (hp h hh v hv)

theorem PolyfitSpec.linHor {pf : PolyfitFn} (hpf : PolyfitSpec pf) {line : List Pt} (hne : line ≠ []) :
    ∃ q, linHor pf 0 0 line = .ok q ∧ IsLsqHorLine line q.a q.b := by
  obtain ⟨a, b, e, h⟩ := hpf.lsqHor line hne 0 0
  refine ⟨⟨a, b⟩, ?_, by simpa using h⟩
  rw [Discorpy.linHor, if_neg hne, e]
  rfl

theorem PolyfitSpec.linVer {pf : PolyfitFn} (hpf : PolyfitSpec pf) {line : List Pt} (hne : line ≠ []) :
    ∃ q, linVer pf 0 0 line = .ok q ∧ IsLsqVerLine line q.a q.b := by
  obtain ⟨a, b, e, h⟩ := hpf.lsqVer line hne 0 0
  refine ⟨⟨a, b⟩, ?_, by simpa using h⟩
  rw [Discorpy.linVer, if_neg hne, e]
  rfl

theorem generateLinearCoef_ok {pf : PolyfitFn} (hpf : PolyfitSpec pf) {hor ver : List (List Pt)}
    (hh : ∀ l ∈ hor, l ≠ []) (hv : ∀ l ∈ ver, l ≠ []) :
    ∃ ch cv, generateLinearCoef pf hor ver 0 0 = .ok (ch, cv) ∧
      List.Forall₂ (fun l q => IsLsqHorLine l q.a q.b) hor ch ∧ List.Forall₂ (fun l q => IsLsqVerLine l q.a q.b) ver cv := by
  obtain ⟨ch, hch⟩ := exists_mapM_ok (f := linHor pf 0 0) (l := hor) fun l hl => ⟨_, (hpf.linHor (hh l hl)).choose_spec.1⟩
  obtain ⟨cv, hcv⟩ := exists_mapM_ok (f := linVer pf 0 0) (l := ver) fun l hl => ⟨_, (hpf.linVer (hv l hl)).choose_spec.1⟩
  refine ⟨ch, cv, ?_, ?_, ?_⟩
  · unfold generateLinearCoef
    rw [hch, ok_bind, hcv, ok_bind]
  · have := mapM_ok_iff.1 hch
    rw [List.forall₂_iff_zip] at this ⊢
    refine ⟨this.1, fun {l q} hm => ?_⟩
    obtain ⟨q', e, h⟩ := hpf.linHor (hh l (List.of_mem_zip hm).1)
    have := (this.2 hm).symm.trans e
    cases this
    exact h
  · have := mapM_ok_iff.1 hcv
    rw [List.forall₂_iff_zip] at this ⊢
    refine ⟨this.1, fun {l q} hm => ?_⟩
    obtain ⟨q', e, h⟩ := hpf.linVer (hv l (List.of_mem_zip hm).1)
    have := (this.2 hm).symm.trans e
    cases this
    exact h

theorem npDiff_length (l : List ℝ) : (npDiff l).length = l.length - 1 := by
  simp [npDiff]

theorem npSlice_length {α : Type} (l : List α) (a b : ℕ) : (npSlice l a b).length = min b l.length - a := by
  simp [npSlice]

theorem lineDist_ok (scale : ScaleOpt) {l : List ℝ} (h : 2 ≤ l.length) : ∃ d, lineDist scale l = .ok d := by
  have hne : (npDiff l).map (fun t => |t|) ≠ [] := by
    intro h0
    have := congrArg List.length h0
    rw [List.length_map, npDiff_length, List.length_nil] at this
    omega
  unfold lineDist
  cases scale with
  | max =>
    simp only [npMax]
    obtain ⟨m, hm⟩ := Option.ne_none_iff_exists'.1 (mt List.max?_eq_none_iff.1 hne)
    rw [hm]; exact ⟨_, rfl⟩
  | min =>
    simp only [npMin]
    obtain ⟨m, hm⟩ := Option.ne_none_iff_exists'.1 (mt List.min?_eq_none_iff.1 hne)
    rw [hm]; exact ⟨_, rfl⟩
  | median =>
    simp only [npMedian, if_neg hne]
    split <;> exact ⟨_, rfl⟩
  | mean => simp only [npMean, if_neg hne]; exact ⟨_, rfl⟩
  | float s => simp only [npMean, if_neg hne]; exact ⟨_, rfl⟩

theorem interceptsPers_eq {inter : List ℝ} {pos : ℕ} {d : ℝ} (h : pos < inter.length) :
    interceptsPers inter pos d = .ok ((List.range inter.length).map fun i : ℕ => ((i : ℝ) - (pos : ℝ)) * d + inter[pos]) := by
  unfold interceptsPers
  apply mapM_eq_map
  intro i _
  rw [npGet_of_lt h]
  rfl

/-- The intercepts are two arithmetic progressions, with equal steps if asked. -/
theorem calcUndistorInterceptPers_ok {pf : PolyfitFn} (hpf : PolyfitSpec pf) (minimize : (ℝ → ℝ) → ℝ → ℝ)
    {hor ver : List (List Pt)} (hh : ∀ l ∈ hor, l ≠ []) (hv : ∀ l ∈ ver, l ≠ []) (h2 : 2 ≤ hor.length)
    (v2 : 2 ≤ ver.length) (equalDist : Bool) (scale : ScaleOpt) (optimizing : Bool) :
    ∃ ah dh av dv : ℝ, calcUndistorInterceptPers pf minimize hor ver equalDist scale optimizing =
      .ok ((List.range hor.length).map fun i : ℕ => ah + (i : ℝ) * dh, (List.range ver.length).map fun i : ℕ => av + (i : ℝ) * dv) ∧
      (equalDist = true → dh = dv) := by
  obtain ⟨ch, cv, e, f1, f2⟩ := generateLinearCoef_ok hpf hh hv
  have l1 : (ch.map Lin.b).length = hor.length := by rw [List.length_map, f1.length_eq]
  have l2 : (cv.map Lin.b).length = ver.length := by rw [List.length_map, f2.length_eq]
  unfold calcUndistorInterceptPers
  rw [e]
  simp only [ok_bind, window]
  generalize hu : (Min.min (Max.max (((hor.length / 2 : ℕ) : ℤ) - 1) 1) (Max.max (((ver.length / 2 : ℕ) : ℤ) - 1) 1)) = u
  have hu1 : 1 ≤ u := by omega
  obtain ⟨d1, e1⟩ := lineDist_ok scale (l := npSlice (ch.map Lin.b) (max 0 (((hor.length / 2 : ℕ) : ℤ) - u)).toNat
    (min (hor.length : ℤ) (((hor.length / 2 : ℕ) : ℤ) + u + 1)).toNat) (by rw [npSlice_length, l1]; omega)
  obtain ⟨d2, e2⟩ := lineDist_ok scale (l := npSlice (cv.map Lin.b) (max 0 (((ver.length / 2 : ℕ) : ℤ) - u)).toNat
    (min (ver.length : ℤ) (((ver.length / 2 : ℕ) : ℤ) + u + 1)).toNat) (by rw [npSlice_length, l2]; omega)
  rw [e1, e2]
  simp only [ok_bind]
  have p1 : hor.length / 2 < (ch.map Lin.b).length := by omega
  have p2 : ver.length / 2 < (cv.map Lin.b).length := by omega
  obtain ⟨d1', e1'⟩ : ∃ d, optDistPers minimize optimizing d1 (hor.length / 2) (ch.map Lin.b) = .ok d := by
    unfold optDistPers
    split
    · unfold optimizeInterceptPers; rw [npGet_of_lt p1]; exact ⟨_, rfl⟩
    · exact ⟨_, rfl⟩
  obtain ⟨d2', e2'⟩ : ∃ d, optDistPers minimize optimizing d2 (ver.length / 2) (cv.map Lin.b) = .ok d := by
    unfold optDistPers
    split
    · unfold optimizeInterceptPers; rw [npGet_of_lt p2]; exact ⟨_, rfl⟩
    · exact ⟨_, rfl⟩
  rw [e1', e2']
  simp only [ok_bind]
  rw [interceptsPers_eq p1, interceptsPers_eq p2]
  generalize hc : combineDist scale equalDist d1' d2' = cd
  obtain ⟨x1, x2⟩ := cd
  refine ⟨(ch.map Lin.b)[hor.length / 2] - (hor.length / 2 : ℕ) * x1, x1, (cv.map Lin.b)[ver.length / 2] - (ver.length / 2 : ℕ) * x2, x2, ?_, ?_⟩
  · simp only [ok_bind, l1, l2]
    congr 2
    · apply List.map_congr_left; intro i _; ring
    · apply List.map_congr_left; intro i _; ring
  · intro he
    rw [he] at hc
    unfold combineDist at hc
    simp at hc
    rw [← hc.1, ← hc.2]

end Discorpy
