import Verif.Lemmas.Grid
import Verif.Spec.Grid

/-! # C19, C20: regenerated grids and undistorted perspective grids -/

namespace Discorpy

open Spec

theorem isGridPair_map (ch cv : List Lin) (f : Lin → Lin → Pt) :
    IsGridPair ch.length cv.length (ch.map fun h => cv.map fun v => f h v) (cv.map fun v => ch.map fun h => f h v) where
  nrows := by simp
  ncols := by simp
  rowLen := by simp
  colLen := by simp
  transpose := by
    intro i j
    unfold entry
    simp only [List.getElem?_map]
    cases h1 : ch[i]? <;> cases h2 : cv[j]? <;> simp [h1, h2]

/-- **C19** (`is_coef=True`). If no horizontal line is parallel to a vertical one, the result is a grid and its transpose,
and point `(i, j)` is the only common point of line `i` and line `j`. -/
theorem C19_grid_coef (ch cv : List Lin) (hp : ∀ h ∈ ch, ∀ v ∈ cv, h.a * v.a ≠ 1) :
    ∃ rows cols, regenerateGridLinearCoef ch cv = .ok (rows, cols) ∧ IsGridPair ch.length cv.length rows cols ∧
      ∀ (i j : ℕ) (h v : Lin), ch[i]? = some h → cv[j]? = some v →
        ∃ p, entry rows i j = some p ∧ onHorLine h.a h.b p ∧ onVerLine v.a v.b p ∧
          ∀ q, onHorLine h.a h.b q → onVerLine v.a v.b q → q = p := by
  refine ⟨_, _, gridPoints_eq hp, isGridPair_map ch cv crossPt, ?_⟩
  intro i j h v hi hj
  have hne := hp h (List.mem_of_getElem? hi) v (List.mem_of_getElem? hj)
  refine ⟨crossPt h v, by simp [entry, hi, hj], (crossPt_on hne).1, (crossPt_on hne).2, fun q h1 h2 => ?_⟩
  exact cross_unique hne h1 h2 (crossPt_on hne).1 (crossPt_on hne).2

example := C19_grid_coef [⟨0.1, 0⟩, ⟨0.1, 5⟩] [⟨-0.1, 0⟩, ⟨-0.2, 7⟩] (by simp; norm_num)

/-- **C19** (dots). With non-empty lines of dots, the same for least-squares lines of the dots. -/
theorem C19_grid_dots (pf : PolyfitFn) (hpf : PolyfitSpec pf) (hor ver : List (List Pt)) (hh : ∀ l ∈ hor, l ≠ [])
    (hv : ∀ l ∈ ver, l ≠ []) :
    ∃ ch cv : List Lin, List.Forall₂ (fun l q => IsLsqHorLine l q.a q.b) hor ch ∧
      List.Forall₂ (fun l q => IsLsqVerLine l q.a q.b) ver cv ∧
      regenerateGridLinear pf hor ver = regenerateGridLinearCoef ch cv := by
  obtain ⟨ch, cv, e, h1, h2⟩ := generateLinearCoef_ok hpf hh hv
  refine ⟨ch, cv, h1, h2, ?_⟩
  unfold regenerateGridLinear
  rw [e]
  rfl

example := C19_grid_dots refPolyfit refPolyfit_spec [[⟨0, 0⟩, ⟨1, 10⟩], [⟨10, -1⟩, ⟨12, 9⟩]] [[⟨0, 0⟩, ⟨10, -1⟩]] (by simp) (by simp)

/-- **C19** (parallel lines): a horizontal line parallel to a vertical one has no crossing point and the division is by
zero. -/
theorem C19_parallel (h v : Lin) (hp : h.a * v.a = 1) : regenerateGridLinearCoef [h] [v] = .error .nonFinite := by
  unfold regenerateGridLinearCoef gridPoints
  simp [crossPoint_parallel hp]

example := C19_parallel ⟨2, 1⟩ ⟨1 / 2, 5⟩ (by norm_num)

/-- Non-vacuity: two sloped lines of each direction. -/
example : ∀ h ∈ [(⟨0.1, 0⟩ : Lin), ⟨0.1, 5⟩], ∀ v ∈ [(⟨-0.1, 0⟩ : Lin), ⟨-0.2, 7⟩], h.a * v.a ≠ 1 := by
  simp
  norm_num

/-- **C20.** With at least two lines of each direction, none empty, and whatever the optimiser returns, the undistorted
lines exist and form a rectangular lattice: steps `w` (down) and `u` (right) are constant and perpendicular, and of equal
length with `equal_dist=True`. -/
theorem C20_lattice (pf : PolyfitFn) (hpf : PolyfitSpec pf) (minimize : (ℝ → ℝ) → ℝ → ℝ) (hor ver : List (List Pt))
    (hh : ∀ l ∈ hor, l ≠ []) (hv : ∀ l ∈ ver, l ≠ []) (h2 : 2 ≤ hor.length) (v2 : 2 ≤ ver.length) (equalDist : Bool)
    (scale : ScaleOpt) (optimizing : Bool) :
    ∃ rows cols o w u, generateUndistortedPerspectiveLines pf minimize hor ver equalDist scale optimizing = .ok (rows, cols) ∧
      IsGridPair hor.length ver.length rows cols ∧ IsLattice rows o w u ∧
      w.x * u.x + w.y * u.y = 0 ∧
      (equalDist = true → ptDist w ⟨0, 0⟩ = ptDist u ⟨0, 0⟩) := by
  obtain ⟨ch, cv, e, f1, f2⟩ := generateLinearCoef_ok hpf hh hv
  have n1 : ch ≠ [] := by rintro rfl; have := f1.length_eq; simp at this; rw [this] at h2; simp at h2
  have n2 : cv ≠ [] := by rintro rfl; have := f2.length_eq; simp at this; rw [this] at v2; simp at v2
  obtain ⟨a0, ea⟩ : ∃ a0, commonSlope pf ch cv = .ok a0 := by
    unfold commonSlope
    rw [if_neg (by simp [n1, n2])]
    obtain ⟨x, y, e1⟩ := length_two (hpf.length (ch.map Lin.b) (ch.map Lin.a) 1 (by simp) (by simpa using n1))
    obtain ⟨x', y', e2⟩ := length_two (hpf.length (cv.map Lin.b) (cv.map fun q => -q.a) 1 (by simp) (by simpa using n2))
    rw [e1, e2]
    simp only [Lin.ofList, ok_bind]
    split <;> exact ⟨_, rfl⟩
  obtain ⟨ah, dh, av, dv, ei, he⟩ := calcUndistorInterceptPers_ok hpf minimize hh hv h2 v2 equalDist scale optimizing
  have hpos : 0 < 1 + a0 ^ 2 := by positivity
  have hp : ∀ h ∈ (List.map (fun b => (⟨a0, b⟩ : Lin)) ((List.range hor.length).map fun i : ℕ => ah + (i : ℝ) * dh)),
      ∀ v ∈ (List.map (fun b => (⟨-a0, b⟩ : Lin)) ((List.range ver.length).map fun i : ℕ => av + (i : ℝ) * dv)), h.a * v.a ≠ 1 := by
    intro h hm v hm'
    simp only [List.mem_map] at hm hm'
    obtain ⟨_, _, rfl⟩ := hm
    obtain ⟨_, _, rfl⟩ := hm'
    intro h'
    nlinarith
  have key : generateUndistortedPerspectiveLines pf minimize hor ver equalDist scale optimizing =
      gridPoints (((List.range hor.length).map fun i : ℕ => ah + (i : ℝ) * dh).map fun b => ⟨a0, b⟩)
        (((List.range ver.length).map fun i : ℕ => av + (i : ℝ) * dv).map fun b => ⟨-a0, b⟩) := by
    unfold generateUndistortedPerspectiveLines
    rw [e, ok_bind]
    simp only [ea, ei, ok_bind]
  rw [key, gridPoints_eq hp]
  refine ⟨_, _, ⟨(a0 * av + ah) / (1 + a0 ^ 2), (av - a0 * ah) / (1 + a0 ^ 2)⟩,
    ⟨dh / (1 + a0 ^ 2), -a0 * dh / (1 + a0 ^ 2)⟩, ⟨a0 * dv / (1 + a0 ^ 2), dv / (1 + a0 ^ 2)⟩, rfl, ?_, ?_, ?_, ?_⟩
  · have := isGridPair_map (List.map (fun b => (⟨a0, b⟩ : Lin)) ((List.range hor.length).map fun i : ℕ => ah + (i : ℝ) * dh))
      (List.map (fun b => (⟨-a0, b⟩ : Lin)) ((List.range ver.length).map fun i : ℕ => av + (i : ℝ) * dv)) crossPt
    simpa using this
  · intro i j p hij
    unfold entry at hij
    simp only [List.getElem?_map, Option.bind_eq_bind, Option.bind_eq_some_iff, Option.map_eq_some_iff] at hij
    obtain ⟨r, ⟨h, ⟨b, ⟨i', hi', rfl⟩, rfl⟩, rfl⟩, hr⟩ := hij
    simp only [List.getElem?_map, Option.map_eq_some_iff] at hr
    obtain ⟨v, ⟨b', ⟨j', hj', rfl⟩, rfl⟩, rfl⟩ := hr
    have ei' := List.getElem?_eq_some_iff.1 hi'
    have ej' := List.getElem?_eq_some_iff.1 hj'
    obtain ⟨_, ei'⟩ := ei'
    obtain ⟨_, ej'⟩ := ej'
    simp at ei' ej'
    subst ei' ej'
    unfold crossPt
    simp only
    rw [show 1 - a0 * -a0 = 1 + a0 ^ 2 by ring]
    congr 1
    · field_simp; ring
    · field_simp; ring
  · simp only; field_simp; ring
  · intro hq
    have hd := he hq
    unfold ptDist
    congr 1
    simp only [hd]
    field_simp
    ring

/-- Non-vacuity: two tilted lines of two dots per direction. -/
example : ∃ rows cols, generateUndistortedPerspectiveLines refPolyfit (fun _ d => d)
    [[⟨0, 0⟩, ⟨1, 10⟩], [⟨10, -1⟩, ⟨12, 9⟩]] [[⟨0, 0⟩, ⟨10, -1⟩], [⟨1, 10⟩, ⟨12, 9⟩]] true .mean true = .ok (rows, cols) := by
  obtain ⟨rows, cols, _, _, _, h, _⟩ := C20_lattice refPolyfit refPolyfit_spec (fun _ d => d)
    [[⟨0, 0⟩, ⟨1, 10⟩], [⟨10, -1⟩, ⟨12, 9⟩]] [[⟨0, 0⟩, ⟨10, -1⟩], [⟨1, 10⟩, ⟨12, 9⟩]] (by simp) (by simp) (by simp) (by simp)
    true .mean true
  exact ⟨rows, cols, h⟩

end Discorpy
