import Verif.Lemmas.Centre

/-! # C26: the fine search for the centre is bounded and optimal on its grid -/

namespace Discorpy

open Spec

theorem mem_coarse {d s : ℝ} : s ∈ arange (-d) (d + 2) 2 ↔ s ∈ coarseShifts d := by
  rw [mem_arange (by norm_num)]
  unfold coarseShifts
  simp only [Set.mem_setOf_eq, mul_comm]

theorem mem_fine {s : ℝ} : s ∈ arange (-2) (2 + 0.5) 0.5 ↔ s ∈ fineShifts := by
  rw [mem_arange (by norm_num)]
  unfold fineShifts
  simp only [Set.mem_setOf_eq]
  constructor
  · rintro ⟨k, rfl, h⟩
    refine ⟨k, by ring, ?_⟩
    have : (k : ℝ) < 9 := by linarith
    have : k < 9 := by exact_mod_cast this
    have : (k : ℝ) ≤ 8 := by exact_mod_cast Nat.lt_succ_iff.1 this
    linarith
  · rintro ⟨k, rfl, h⟩
    exact ⟨k, by ring, by linarith⟩

/-- **C26.** With at least two lines per direction and a positive point distance the search succeeds. It first takes the
best of the centres on a grid of step 2, then the best of those on a grid of step 0.5 around it; `best` refers to the
metric of the lines near the current centre. Each coordinate moves by less than `point_dist + 4`. -/
theorem C26_fine (pf : PolyfitFn) (hpf : PolyfitSpec pf) (minimize : (ℝ → ℝ) → ℝ → ℝ) (hor ver : List (List Pt))
    (hh : 2 ≤ hor.length) (hv : 2 ≤ ver.length) (hhl : ∀ l ∈ hor, l ≠ []) (hvl : ∀ l ∈ ver, l ≠ [])
    (xc yc d : ℝ) (hd : 0 < d) :
    ∃ c, findCodFine pf minimize hor ver xc yc d = .ok c ∧ |c.x - xc| < d + 4 ∧ |c.y - yc| < d + 4 ∧
      ∃ c1 H V H' V',
        IsCentralWindow pf Pt.x Pt.y ⟨yc, xc⟩ hor H ∧ IsCentralWindow pf Pt.y Pt.x ⟨yc, xc⟩ ver V ∧
        IsBestShift (coarseShifts d) (centreMetric pf minimize H V) ⟨yc, xc⟩ c1 ∧
        IsCentralWindow pf Pt.x Pt.y c1 hor H' ∧ IsCentralWindow pf Pt.y Pt.x c1 ver V' ∧
        IsBestShift fineShifts (centreMetric pf minimize H' V') c1 c := by
  have hS0 : arange (-d) (d + 2) 2 ≠ [] := List.ne_nil_of_mem (mem_coarse.2 ⟨0, rfl, by norm_num; linarith⟩ : _ ∈ _)
  have hS1 : arange (-2) (2 + 0.5) 0.5 ≠ [] := List.ne_nil_of_mem (mem_fine.2 ⟨0, rfl, by norm_num⟩ : _ ∈ _)
  obtain ⟨sx, sy, e0, hx0, hy0, H, V, wH, wV, b0⟩ := calcMetric_ok hpf minimize hh hv hhl hvl ⟨yc, xc⟩ hS0
  obtain ⟨tx, ty, e1, hx1, hy1, H', V', wH', wV', b1⟩ :=
    calcMetric_ok hpf minimize hh hv hhl hvl ⟨yc + sy, xc + sx⟩ hS1
  have hb : ∀ {s}, s ∈ coarseShifts d → -d ≤ s ∧ s < d + 2 := by
    rintro s ⟨k, rfl, h⟩
    exact ⟨by have : (0 : ℝ) ≤ k := k.cast_nonneg
              linarith, h⟩
  have hf : ∀ {s}, s ∈ fineShifts → -2 ≤ s ∧ s ≤ 2 := by
    rintro s ⟨k, rfl, h⟩
    exact ⟨by have : (0 : ℝ) ≤ k := k.cast_nonneg
              linarith, h⟩
  simp only at e0 e1
  refine ⟨⟨yc + sy + ty, xc + sx + tx⟩, ?_, ?_, ?_, ⟨yc + sy, xc + sx⟩, H, V, H', V', wH, wV,
    ⟨⟨sx, mem_coarse.1 hx0, sy, mem_coarse.1 hy0, rfl⟩, fun tx htx ty hty => b0 tx (mem_coarse.2 htx) ty (mem_coarse.2 hty)⟩,
    wH', wV',
    ⟨⟨tx, mem_fine.1 hx1, ty, mem_fine.1 hy1, rfl⟩, fun ux hux uy huy => b1 ux (mem_fine.2 hux) uy (mem_fine.2 huy)⟩⟩
  · unfold findCodFine
    simp only
    rw [e0, ok_bind]
    simp only
    rw [e1, ok_bind]
  · have h1 := hb (mem_coarse.1 hx0)
    have h2 := hf (mem_fine.1 hx1)
    rw [abs_lt]; constructor <;> simp only <;> linarith
  · have h1 := hb (mem_coarse.1 hy0)
    have h2 := hf (mem_fine.1 hy1)
    rw [abs_lt]; constructor <;> simp only <;> linarith

/-- **C26** (too few lines): without any line in one direction the search raises `ValueError`; with a single line in one
direction it raises `TypeError`, because no line is left for the metric. -/
theorem C26_errors (pf : PolyfitFn) (hpf : PolyfitSpec pf) (minimize : (ℝ → ℝ) → ℝ → ℝ) (hor ver : List (List Pt))
    (hhl : ∀ l ∈ hor, l ≠ []) (hvl : ∀ l ∈ ver, l ≠ []) (xc yc d : ℝ) (hd : 0 < d) :
    (hor = [] ∨ ver = [] → findCodFine pf minimize hor ver xc yc d = .error .valueError) ∧
    (hor ≠ [] → ver ≠ [] → hor.length = 1 ∨ ver.length = 1 →
      findCodFine pf minimize hor ver xc yc d = .error .typeError) := by
  obtain ⟨g, e, hg⟩ := paraFitHor_map hpf hhl ⟨yc, xc⟩
  obtain ⟨g', e', hg'⟩ := paraFitVer_map hpf hvl ⟨yc, xc⟩
  simp only at e e'
  constructor
  · intro h
    unfold findCodFine calcMetric
    dsimp only
    rw [e, ok_bind]
    simp only
    rw [e', ok_bind]
    simp only
    by_cases hh : hor = []
    · subst hh; simp [npArgmin]
    · obtain ⟨k, ek, _⟩ := argmin_fit hh hg
      rw [ek, ok_bind]
      have : ver = [] := h.resolve_left hh
      subst this
      simp [npArgmin]
  · intro hh hv h
    obtain ⟨ph, eh, hph, _⟩ := argmin_fit hh hg
    obtain ⟨pv, ev, hpv, _⟩ := argmin_fit hv hg'
    have hu : min 5 (min (((hor.length / 2 : ℕ) : ℤ) - 1) (((ver.length / 2 : ℕ) : ℤ) - 1)) = -1 := by
      have := List.length_pos_iff.2 hh
      have := List.length_pos_iff.2 hv
      omega
    have hw : ∀ (p n : ℕ) (L : List (List Pt)), npSlice L (window p n (-1)).1 (window p n (-1)).2 = [] := by
      intro p n L
      unfold npSlice window
      rw [List.drop_eq_nil_iff, List.length_take]
      simp only [sub_neg_eq_add]
      omega
    obtain ⟨n, hn⟩ : ∃ n, (arange (-d) (d + 2) 2).length = n + 1 := by
      have : -d ∈ arange (-d) (d + 2) 2 := mem_coarse.2 ⟨0, by simp, by linarith⟩
      exact ⟨_, (Nat.succ_pred_eq_of_pos (List.length_pos_of_mem this)).symm⟩
    have hme : ∀ x y, metricEntry pf minimize [] [] x y = .error .typeError := by
      intro x y
      simp [metricEntry, paraFitHor, paraFitVer, calcError, interceptOf, pure, Except.pure]
    unfold findCodFine calcMetric
    dsimp only
    rw [e, ok_bind]
    simp only
    rw [e', ok_bind]
    simp only
    rw [eh, ok_bind, ev, ok_bind]
    simp only [List.length_map]
    rw [hu]
    simp only [hw]
    rw [hn, List.range_succ_eq_map, List.mapM_cons, List.mapM_cons, npGet_of_lt (by rw [hn]; omega), ok_bind, ok_bind, hme]
    rfl

example := C26_errors refPolyfit refPolyfit_spec refMinimize [[⟨0, 0⟩, ⟨0, 10⟩]] [[⟨0, 0⟩, ⟨10, 0⟩], [⟨0, 10⟩, ⟨10, 10⟩]] (by simp) (by simp) 5 5 10 (by norm_num)

/-- Non-vacuity: two straight lines per direction around `(5, 5)`. -/
example : ∃ c, findCodFine refPolyfit refMinimize [[⟨0, 0⟩, ⟨0, 10⟩], [⟨10, 0⟩, ⟨10, 10⟩]]
    [[⟨0, 0⟩, ⟨10, 0⟩], [⟨0, 10⟩, ⟨10, 10⟩]] 5 5 10 = .ok c ∧ |c.x - 5| < 14 := by
  obtain ⟨c, h, hx, _⟩ := C26_fine refPolyfit refPolyfit_spec refMinimize [[⟨0, 0⟩, ⟨0, 10⟩], [⟨10, 0⟩, ⟨10, 10⟩]]
    [[⟨0, 0⟩, ⟨10, 0⟩], [⟨0, 10⟩, ⟨10, 10⟩]] (by simp) (by simp) (by simp) (by simp) 5 5 10 (by norm_num)
  exact ⟨c, h, by linarith⟩

end Discorpy
