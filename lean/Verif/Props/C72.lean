import Verif.Lemmas.Ideal

/-! # C72: Bailey's centre of distortion -/

namespace Discorpy

open Spec

/-- **C72** On a pattern bent in proportion to the distance from `c`, `find_cod_bailey` returns exactly `c`, for every
number of iterations, whenever the coarse estimate it starts from is finite and not at one of the degenerate positions
`1 + k·d² = 0` (which exist for barrel distortion only). -/
theorem C72_exact (pf : PolyfitFn) (hpf : PolyfitSpec pf) (c : Pt) (kh kv : ℝ) (us vs : List ℝ) (hor ver : List (List Pt))
    (h : IsBentPattern c kh kv us vs hor ver) (hu : TwoValues us) (hv : TwoValues vs) (hkh : kh ≠ 0) (hkv : kv ≠ 0)
    (o : Pt) (ho : findCodCoarse pf hor ver = .ok o) (hx : 1 + kh * (o.x - c.x) ^ 2 ≠ 0)
    (hy : 1 + kv * (o.y - c.y) ^ 2 ≠ 0) (iteration : ℕ) :
    findCodBailey pf hor ver iteration = .ok c := by
  unfold findCodBailey
  rw [ho]
  simp only [ok_bind]
  rw [bailey_exact hpf h hu hv hkh hkv hx hy]
  simp only [ok_bind]
  have hc : baileyStep pf hor ver c = .ok c := bailey_exact hpf h hu hv hkh hkv (by simp) (by simp)
  generalize List.range iteration = l
  induction l with
  | nil => rfl
  | cons a l ih => rw [List.foldlM_cons, hc]; exact ih

/-- **C72** (pincushion): with positive factors the only condition is a finite coarse estimate. -/
theorem C72_pincushion (pf : PolyfitFn) (hpf : PolyfitSpec pf) (c : Pt) (kh kv : ℝ) (us vs : List ℝ)
    (hor ver : List (List Pt)) (h : IsBentPattern c kh kv us vs hor ver) (hu : TwoValues us) (hv : TwoValues vs)
    (hkh : 0 < kh) (hkv : 0 < kv) (o : Pt) (ho : findCodCoarse pf hor ver = .ok o) (iteration : ℕ) :
    findCodBailey pf hor ver iteration = .ok c :=
  C72_exact pf hpf c kh kv us vs hor ver h hu hv hkh.ne' hkv.ne' o ho (by positivity) (by positivity) iteration

/-- The coarse estimate of straight lines parallel to the axes: half way between the first two lines. -/
theorem coarse_straight {pf : PolyfitFn} (hpf : PolyfitSpec pf) {c : Pt} {us vs : List ℝ} {hor ver : List (List Pt)}
    (h : IsBentPattern c 0 0 us vs hor ver) (hu : 2 ≤ us.length) (hv : 2 ≤ vs.length) :
    ∃ o, findCodCoarse pf hor ver = .ok o := by
  have key : ∀ (l : List ℝ) (d e : ℝ), 2 ≤ l.length → ∃ k, signChange (l.map (bentPara 0 d e)) = .ok (k + 1) ∧ k + 1 < l.length := by
    intro l d e hl
    unfold signChange
    obtain ⟨k, e1, hk, _⟩ := npArgmax_ok (l := (npDiff ((l.map (bentPara 0 d e)).map fun q => npSign q.a)).map fun t => |t|)
      (by simpa using npDiff_ne_nil (l := (l.map (bentPara 0 d e)).map fun q => npSign q.a) (by simpa using hl))
    refine ⟨k, by rw [e1]; rfl, ?_⟩
    simp [npDiff] at hk
    omega
  unfold findCodCoarse
  rw [bent_fitHor hpf h.hor, bent_fitVer hpf h.ver]
  obtain ⟨k, e1, hk⟩ := key us (0 - c.x) (c.y - 0) hu
  obtain ⟨m, e2, hm⟩ := key vs (0 - c.y) (c.x - 0) hv
  simp only [ok_bind, e1, e2, Nat.add_sub_cancel]
  rw [npGet_of_lt (by simp; omega), npGet_of_lt (by simpa using hk), npGet_of_lt (by simp; omega), npGet_of_lt (by simpa using hm)]
  simp only [ok_bind, List.getElem_map, bentPara]
  rw [finDiv_ok (by norm_num), finDiv_ok (by norm_num)]
  exact ⟨_, rfl⟩

/-- **C72** (violation): on straight lines — a perfect, undistorted pattern — the approach divides by zero: no centre is
returned. -/
theorem C72_straight (pf : PolyfitFn) (hpf : PolyfitSpec pf) (c : Pt) (us vs : List ℝ) (hor ver : List (List Pt))
    (h : IsBentPattern c 0 0 us vs hor ver) (hu : TwoValues us) (hv : TwoValues vs) (iteration : ℕ) :
    findCodBailey pf hor ver iteration = .error .nonFinite := by
  have len : ∀ l : List ℝ, TwoValues l → 2 ≤ l.length := by
    rintro l ⟨u, hu, v, hv, huv⟩
    match l with
    | [] => simp at hu
    | [a] => simp at hu hv; exact absurd (hu.trans hv.symm) huv
    | _ :: _ :: _ => simp
  obtain ⟨o, ho⟩ := coarse_straight hpf h (len us hu) (len vs hv)
  unfold findCodBailey
  rw [ho]
  simp only [ok_bind]
  unfold baileyStep
  rw [bent_fitHor hpf h.hor, bent_fitVer hpf h.ver]
  simp only [ok_bind]
  rw [if_neg (by simp [twoValues_ne_nil hu, twoValues_ne_nil hv]), bent_line hpf hu _ (by simp), bent_line hpf hv _ (by simp)]
  simp only [ok_bind, zero_div, finDiv, if_true]
  rfl

/-- **C72** (too few lines): fewer than two lines in a direction raise `ValueError`, for every number of iterations. -/
theorem C72_few (pf : PolyfitFn) (hpf : PolyfitSpec pf) (hor ver : List (List Pt)) (hh : ∀ l ∈ hor, l ≠ [])
    (hv : ∀ l ∈ ver, l ≠ []) (hf : hor.length < 2 ∨ (2 ≤ hor.length ∧ ver.length < 2)) (iteration : ℕ) :
    findCodCoarse pf hor ver = .error .valueError ∧ findCodBailey pf hor ver iteration = .error .valueError := by
  have key : findCodCoarse pf hor ver = .error .valueError := by
    obtain ⟨ch, eh⟩ := exists_mapM_ok (f := paraHor pf 0 0) (l := hor) fun l hl => (paraHor_ok hpf (hh l hl) 0 0).imp fun _ => And.left
    obtain ⟨cv, ev⟩ := exists_mapM_ok (f := paraVer pf 0 0) (l := ver) fun l hl => (paraVer_ok hpf (hv l hl) 0 0).imp fun _ => And.left
    have lh := (mapM_ok_iff.1 eh).length_eq
    have lv := (mapM_ok_iff.1 ev).length_eq
    have bad : ∀ l : List Para, l.length < 2 → signChange l = .error .valueError := by
      intro l hl
      have : (npDiff (l.map fun q => npSign q.a)).map (fun t => |t|) = [] := by
        rw [← List.length_eq_zero_iff]; simp [npDiff]; omega
      unfold signChange npArgmax
      rw [if_pos this]
      rfl
    unfold findCodCoarse paraFitHor paraFitVer
    rw [eh, ev]
    simp only [ok_bind]
    rcases hf with hf | ⟨h2, hf⟩
    · rw [bad ch (by omega)]; rfl
    · have hne : (npDiff (ch.map fun q => npSign q.a)).map (fun t => |t|) ≠ [] := by
        simpa using npDiff_ne_nil (l := ch.map fun q => npSign q.a) (by simp; omega)
      obtain ⟨k, e1, _⟩ := npArgmax_ok hne
      have : signChange ch = .ok (k + 1) := by unfold signChange; rw [e1]; rfl
      rw [this, bad cv (by omega)]
      rfl
  exact ⟨key, by unfold findCodBailey; rw [key]; rfl⟩

example := C72_few refPolyfit refPolyfit_spec [[⟨0, 0⟩, ⟨0, 1⟩]] [[⟨0, 0⟩, ⟨1, 0⟩]] (by simp) (by simp) (.inl (by simp)) 2

/-- The dots of an example line. -/
noncomputable def bentRow (k u : ℝ) : List Pt := [-1, 0, 1].map fun t : ℝ => ⟨3 + u * (1 + k * t ^ 2), 5 + t⟩

/-- The dots of an example column. -/
noncomputable def bentCol (k u : ℝ) : List Pt := [-1, 0, 1].map fun t : ℝ => ⟨3 + t, 5 + u * (1 + k * t ^ 2)⟩

theorem bent_example (kh kv : ℝ) (us vs : List ℝ) :
    IsBentPattern ⟨3, 5⟩ kh kv us vs (us.map (bentRow kh)) (vs.map (bentCol kv)) := by
  constructor
  · rw [List.forall₂_map_right_iff, List.forall₂_same]
    intro u _
    constructor
    · simp [bentRow]
    · exact ⟨⟨3 + u * (1 + kh * (-1) ^ 2), 5 + -1⟩, by simp [bentRow], ⟨3 + u * (1 + kh * 0 ^ 2), 5 + 0⟩, by simp [bentRow],
        ⟨3 + u * (1 + kh * 1 ^ 2), 5 + 1⟩, by simp [bentRow], by norm_num, by norm_num, by norm_num⟩
  · rw [List.forall₂_map_right_iff, List.forall₂_same]
    intro u _
    constructor
    · simp [bentCol]
    · exact ⟨⟨3 + -1, 5 + u * (1 + kv * (-1) ^ 2)⟩, by simp [bentCol], ⟨3 + 0, 5 + u * (1 + kv * 0 ^ 2)⟩, by simp [bentCol],
        ⟨3 + 1, 5 + u * (1 + kv * 1 ^ 2)⟩, by simp [bentCol], by norm_num, by norm_num, by norm_num⟩

/-- Non-vacuity: the coarse estimate is finite for the lines at -1, 2 (rows) and -1, 1 (columns), bent by 1: it is
`⟨-9, 5⟩`; the approach moves it to the centre `⟨3, 5⟩`. -/
example : ∃ o, findCodCoarse refPolyfit ([-1, 2].map (bentRow 1)) ([-1, 1].map (bentCol 1)) = .ok o ∧ o ≠ ⟨3, 5⟩ ∧
    findCodBailey refPolyfit ([-1, 2].map (bentRow 1)) ([-1, 1].map (bentCol 1)) 2 = .ok ⟨3, 5⟩ := by
  have hb := bent_example 1 1 [-1, 2] [-1, 1]
  have sc : ∀ (d e u v : ℝ), signChange (([u, v] : List ℝ).map (bentPara 1 d e)) = .ok 1 := by
    intro d e u v
    unfold signChange npArgmax
    simp [npDiff, List.findIdx_cons]
  have ho : findCodCoarse refPolyfit ([-1, 2].map (bentRow 1)) ([-1, 1].map (bentCol 1)) = .ok ⟨-9, 5⟩ := by
    unfold findCodCoarse
    rw [bent_fitHor refPolyfit_spec hb.hor, bent_fitVer refPolyfit_spec hb.ver]
    simp only [ok_bind, sc]
    simp only [List.map_cons, List.map_nil, npGet, List.getElem?_cons_zero, List.getElem?_cons_succ, Nat.sub_self, ok_bind]
    norm_num [bentPara, finDiv]
  refine ⟨_, ho, by norm_num, ?_⟩
  exact C72_pincushion _ refPolyfit_spec _ 1 1 _ _ _ _ hb ⟨-1, by simp, 2, by simp, by norm_num⟩
    ⟨-1, by simp, 1, by simp, by norm_num⟩ one_pos one_pos _ ho 2

/-- Non-vacuity of the straight case. -/
example : findCodBailey refPolyfit ([-1, 2].map (bentRow 0)) ([-1, 1].map (bentCol 0)) 2 = .error .nonFinite :=
  C72_straight _ refPolyfit_spec _ _ _ _ _ (bent_example 0 0 [-1, 2] [-1, 1]) ⟨-1, by simp, 2, by simp, by norm_num⟩
    ⟨-1, by simp, 1, by simp, by norm_num⟩ 2

end Discorpy
