import Verif.Lemmas.ModelDifference
import Verif.Props.C80

/-! # C92 — how far the estimated model can be from the right one -/

namespace Discorpy

open Spec

theorem forwardDeviation_between (along : Pt → ℝ) (c : Pt) (k k' : List ℝ) (s : ℝ) (h : k'.length = k.length) (q : Para) (u : ℝ) (p : Pt) :
    forwardDeviation along c (between s k k') q u p = forwardDeviation along c k q u p +
      s * (if u = 0 then 0 else 2 * (radial k (ptDist p c) - u / bent q (along p - along c)) * (radial k' (ptDist p c) - radial k (ptDist p c))) +
      s ^ 2 * forwardDifference c k k' u p := by
  unfold forwardDeviation forwardDifference
  split_ifs
  · ring
  · rw [radial_between h]
    ring

theorem backwardDeviation_between (along : Pt → ℝ) (c : Pt) (k k' : List ℝ) (s : ℝ) (h : k'.length = k.length) (q : Para) (u : ℝ) (p : Pt) :
    backwardDeviation along c (between s k k') q u p = backwardDeviation along c k q u p +
      s * (2 * (radial k (ptDist p c / (bent q (along p - along c) / u)) - bent q (along p - along c) / u) *
        (radial k' (ptDist p c / (bent q (along p - along c) / u)) - radial k (ptDist p c / (bent q (along p - along c) / u)))) +
      s ^ 2 * backwardDifference along c k k' q u p := by
  unfold backwardDeviation backwardDifference
  simp only
  rw [radial_between h]
  ring

/-- **C92 (forward).** In the setting of C80 the sum of squared deviations of any other model with as many coefficients is that of the
returned model plus the sum of the squared differences of the two models at the dots. -/
theorem C92_forward (pf : PolyfitFn) (hpf : PolyfitSpec pf) (lstsq : LstsqFn) (hls : LstsqSpec lstsq)
    (minimize : (ℝ → ℝ) → ℝ → ℝ) (hor ver : List (List Pt))
    (hh : ∀ l ∈ hor, l ≠ []) (hv : ∀ l ∈ ver, l ≠ []) (h4 : 4 ≤ hor.length) (v4 : 4 ≤ ver.length) (xc yc : ℝ)
    (numFact : ℤ) (hn : numFact ≤ 32767) (optimizing : Bool) (threshold : ℝ) :
    ∃ ch cv : List Para, List.Forall₂ (fun l q => IsLsqPara Pt.x Pt.y xc yc l q.a q.b q.c) hor ch ∧
      List.Forall₂ (fun l q => IsLsqPara Pt.y Pt.x yc xc l q.a q.b q.c) ver cv ∧
      (StrictlyMonotone (ch.map Para.c) → StrictlyMonotone (cv.map Para.c) →
        ∃ uh uv warned, IsEquidistantFit (ch.map Para.c) uh ∧ IsEquidistantFit (cv.map Para.c) uv ∧
          calcUndistorIntercept pf minimize hor ver xc yc optimizing threshold = .ok (uh, uv, warned) ∧
          (ForDots ch uh hor (fun q u p => u ≠ 0 → bent q (p.x - xc) ≠ 0) →
           ForDots cv uv ver (fun q u p => u ≠ 0 → bent q (p.y - yc) ≠ 0) →
           (∃ u ∈ uh, u ≠ 0) →
           ∃ k, calcCoefForward pf lstsq minimize hor ver xc yc numFact optimizing threshold = .ok (k, warned) ∧
             (k.length : ℤ) = max numFact 1 ∧
             ∀ k' : List ℝ, k'.length = k.length →
               sumDots ch uh hor (forwardDeviation Pt.x ⟨yc, xc⟩ k') + sumDots cv uv ver (forwardDeviation Pt.y ⟨yc, xc⟩ k') =
                 sumDots ch uh hor (forwardDeviation Pt.x ⟨yc, xc⟩ k) + sumDots cv uv ver (forwardDeviation Pt.y ⟨yc, xc⟩ k) +
                 (sumDots ch uh hor (fun _ => forwardDifference ⟨yc, xc⟩ k k') + sumDots cv uv ver (fun _ => forwardDifference ⟨yc, xc⟩ k k')))) := by
  obtain ⟨ch, cv, f1, f2, H⟩ := C80_forward pf hpf lstsq hls minimize hor ver hh hv h4 v4 xc yc numFact hn optimizing threshold
  refine ⟨ch, cv, f1, f2, fun m1 m2 => ?_⟩
  obtain ⟨uh, uv, w, g1, g2, eu, H⟩ := H m1 m2
  refine ⟨uh, uv, w, g1, g2, eu, fun d1 d2 hu => ?_⟩
  obtain ⟨k, e, hk, hmin⟩ := H d1 d2 hu
  exact ⟨k, e, hk, lsq_triangle (D1 := fun k k' _ u p => forwardDifference ⟨yc, xc⟩ k k' u p) (D2 := fun k k' _ u p => forwardDifference ⟨yc, xc⟩ k k' u p)
    (fun k k' s h q u p => forwardDeviation_between _ _ k k' s h q u p) (fun k k' s h q u p => forwardDeviation_between _ _ k k' s h q u p) hmin⟩

/-- **C92 (backward).** The same for the backward model. -/
theorem C92_backward (pf : PolyfitFn) (hpf : PolyfitSpec pf) (lstsq : LstsqFn) (hls : LstsqSpec lstsq)
    (minimize : (ℝ → ℝ) → ℝ → ℝ) (hor ver : List (List Pt))
    (hh : ∀ l ∈ hor, l ≠ []) (hv : ∀ l ∈ ver, l ≠ []) (h4 : 4 ≤ hor.length) (v4 : 4 ≤ ver.length) (xc yc : ℝ)
    (numFact : ℤ) (hn : numFact ≤ 32767) (optimizing : Bool) (threshold : ℝ) :
    ∃ ch cv : List Para, List.Forall₂ (fun l q => IsLsqPara Pt.x Pt.y xc yc l q.a q.b q.c) hor ch ∧
      List.Forall₂ (fun l q => IsLsqPara Pt.y Pt.x yc xc l q.a q.b q.c) ver cv ∧
      (StrictlyMonotone (ch.map Para.c) → StrictlyMonotone (cv.map Para.c) →
        ∃ uh uv warned, IsEquidistantFit (ch.map Para.c) uh ∧ IsEquidistantFit (cv.map Para.c) uv ∧
          calcUndistorIntercept pf minimize hor ver xc yc optimizing threshold = .ok (uh, uv, warned) ∧
          (ForDots ch uh hor (fun q u p => u ≠ 0 ∧ bent q (p.x - xc) ≠ 0) →
           ForDots cv uv ver (fun q u p => u ≠ 0 ∧ bent q (p.y - yc) ≠ 0) →
           ∃ k, calcCoefBackward pf lstsq minimize hor ver xc yc numFact optimizing threshold = .ok (k, warned) ∧
             (k.length : ℤ) = max numFact 1 ∧
             ∀ k' : List ℝ, k'.length = k.length →
               sumDots ch uh hor (backwardDeviation Pt.x ⟨yc, xc⟩ k') + sumDots cv uv ver (backwardDeviation Pt.y ⟨yc, xc⟩ k') =
                 sumDots ch uh hor (backwardDeviation Pt.x ⟨yc, xc⟩ k) + sumDots cv uv ver (backwardDeviation Pt.y ⟨yc, xc⟩ k) +
                 (sumDots ch uh hor (backwardDifference Pt.x ⟨yc, xc⟩ k k') + sumDots cv uv ver (backwardDifference Pt.y ⟨yc, xc⟩ k k')))) := by
  obtain ⟨ch, cv, f1, f2, H⟩ := C80_backward pf hpf lstsq hls minimize hor ver hh hv h4 v4 xc yc numFact hn optimizing threshold
  refine ⟨ch, cv, f1, f2, fun m1 m2 => ?_⟩
  obtain ⟨uh, uv, w, g1, g2, eu, H⟩ := H m1 m2
  refine ⟨uh, uv, w, g1, g2, eu, fun d1 d2 => ?_⟩
  obtain ⟨k, e, hk, hmin⟩ := H d1 d2
  exact ⟨k, e, hk, lsq_triangle (D1 := fun k k' => backwardDifference Pt.x ⟨yc, xc⟩ k k') (D2 := fun k k' => backwardDifference Pt.y ⟨yc, xc⟩ k k')
    (fun k k' s h q u p => backwardDeviation_between _ _ k k' s h q u p) (fun k k' s h q u p => backwardDeviation_between _ _ k k' s h q u p) hmin⟩

theorem sumDots_nonneg {paras : List Para} {us : List ℝ} {lines : List (List Pt)} {e : Para → ℝ → Pt → ℝ} (h : ∀ q u p, 0 ≤ e q u p) :
    0 ≤ sumDots paras us lines e := by
  apply List.sum_nonneg
  intro x hx
  obtain ⟨z, _, rfl⟩ := List.mem_map.1 hx
  apply List.sum_nonneg
  intro y hy
  obtain ⟨p, _, rfl⟩ := List.mem_map.1 hy
  exact h _ _ _

/-- A bound for each dot bounds the sum. -/
theorem sumDots_le {paras : List Para} {us : List ℝ} {lines : List (List Pt)} {e : Para → ℝ → Pt → ℝ} {b : ℝ} (hb : 0 ≤ b)
    (h : ForDots paras us lines fun q u p => e q u p ≤ b) : sumDots paras us lines e ≤ lines.flatten.length * b := by
  unfold sumDots
  have h' : ∀ z ∈ List.zip (List.zip paras us) lines, ∀ p ∈ z.2, e z.1.1 z.1.2 p ≤ b := by
    intro z hz p hp
    obtain ⟨i, hi, rfl⟩ := List.getElem_of_mem hz
    simp only [List.length_zip] at hi
    simp only [List.getElem_zip] at hp ⊢
    exact h i _ _ _ (List.getElem?_eq_getElem (by omega)) (List.getElem?_eq_getElem (by omega)) (List.getElem?_eq_getElem (by omega)) p hp
  clear h
  generalize List.zip paras us = A at h'
  induction lines generalizing A with
  | nil => simp
  | cons l lines ih =>
    rcases A with _ | ⟨a, A⟩
    · simp only [List.zip_nil_left, List.map_nil, List.sum_nil]
      positivity
    · simp only [List.zip_cons_cons, List.map_cons, List.sum_cons, List.flatten_cons, List.length_append] at h' ⊢
      have h1 := ih A fun z hz => h' z (List.mem_cons_of_mem _ hz)
      have h2 : (l.map fun p => e a.1 a.2 p).sum ≤ l.length * b := by
        have := List.sum_le_card_nsmul (l.map fun p => e a.1 a.2 p) b (by
          intro x hx
          obtain ⟨p, hp, rfl⟩ := List.mem_map.1 hx
          exact h' (a, l) List.mem_cons_self p hp)
        rwa [List.length_map, nsmul_eq_mul] at this
      push_cast
      linarith

/-- **C92 (error).** If some model with as many coefficients sends the fitted curve of each line, at each dot, to the undistorted line up
to a relative error `ε`, then the root mean square (over all dots) of the difference between the returned forward model and that model
is at most `ε`. -/
theorem C92_error (pf : PolyfitFn) (hpf : PolyfitSpec pf) (lstsq : LstsqFn) (hls : LstsqSpec lstsq)
    (minimize : (ℝ → ℝ) → ℝ → ℝ) (hor ver : List (List Pt))
    (hh : ∀ l ∈ hor, l ≠ []) (hv : ∀ l ∈ ver, l ≠ []) (h4 : 4 ≤ hor.length) (v4 : 4 ≤ ver.length) (xc yc : ℝ)
    (numFact : ℤ) (hn : numFact ≤ 32767) (optimizing : Bool) (threshold : ℝ) :
    ∃ ch cv : List Para, List.Forall₂ (fun l q => IsLsqPara Pt.x Pt.y xc yc l q.a q.b q.c) hor ch ∧
      List.Forall₂ (fun l q => IsLsqPara Pt.y Pt.x yc xc l q.a q.b q.c) ver cv ∧
      (StrictlyMonotone (ch.map Para.c) → StrictlyMonotone (cv.map Para.c) →
        ∃ uh uv warned, IsEquidistantFit (ch.map Para.c) uh ∧ IsEquidistantFit (cv.map Para.c) uv ∧
          calcUndistorIntercept pf minimize hor ver xc yc optimizing threshold = .ok (uh, uv, warned) ∧
          (ForDots ch uh hor (fun q u p => u ≠ 0 → bent q (p.x - xc) ≠ 0) →
           ForDots cv uv ver (fun q u p => u ≠ 0 → bent q (p.y - yc) ≠ 0) →
           (∃ u ∈ uh, u ≠ 0) →
           ∃ k, calcCoefForward pf lstsq minimize hor ver xc yc numFact optimizing threshold = .ok (k, warned) ∧
             (k.length : ℤ) = max numFact 1 ∧
             ∀ (k' : List ℝ) (ε : ℝ), k'.length = k.length → 0 ≤ ε →
               ForDots ch uh hor (fun q u p => |radial k' (ptDist p ⟨yc, xc⟩) * bent q (p.x - xc) - u| ≤ ε * |bent q (p.x - xc)|) →
               ForDots cv uv ver (fun q u p => |radial k' (ptDist p ⟨yc, xc⟩) * bent q (p.y - yc) - u| ≤ ε * |bent q (p.y - yc)|) →
               sumDots ch uh hor (fun _ => forwardDifference ⟨yc, xc⟩ k k') + sumDots cv uv ver (fun _ => forwardDifference ⟨yc, xc⟩ k k') ≤
                 ((hor.flatten.length + ver.flatten.length : ℕ) : ℝ) * ε ^ 2)) := by
  obtain ⟨ch, cv, f1, f2, H⟩ := C92_forward pf hpf lstsq hls minimize hor ver hh hv h4 v4 xc yc numFact hn optimizing threshold
  refine ⟨ch, cv, f1, f2, fun m1 m2 => ?_⟩
  obtain ⟨uh, uv, w, g1, g2, eu, H⟩ := H m1 m2
  refine ⟨uh, uv, w, g1, g2, eu, fun d1 d2 hu => ?_⟩
  obtain ⟨k, e, hk, ht⟩ := H d1 d2 hu
  refine ⟨k, e, hk, fun k' ε hl hε e1 e2 => ?_⟩
  have key : ∀ a b u : ℝ, b ≠ 0 → |a * b - u| ≤ ε * |b| → (a - u / b) ^ 2 ≤ ε ^ 2 := by
    intro a b u hb h
    have : a * b - u = (a - u / b) * b := by field_simp
    rw [this, abs_mul] at h
    have h' := le_of_mul_le_mul_right h (abs_pos.2 hb)
    rw [← sq_abs]
    exact pow_le_pow_left₀ (abs_nonneg _) h' 2
  have s1 := sumDots_le (e := forwardDeviation Pt.x ⟨yc, xc⟩ k') (sq_nonneg ε) fun i q u l a1 a2 a3 p hp => by
    show forwardDeviation _ _ _ _ _ _ ≤ _
    unfold forwardDeviation
    split_ifs with h0
    · positivity
    · exact key _ _ _ (d1 i q u l a1 a2 a3 p hp h0) (e1 i q u l a1 a2 a3 p hp)
  have s2 := sumDots_le (e := forwardDeviation Pt.y ⟨yc, xc⟩ k') (sq_nonneg ε) fun i q u l a1 a2 a3 p hp => by
    show forwardDeviation _ _ _ _ _ _ ≤ _
    unfold forwardDeviation
    split_ifs with h0
    · positivity
    · exact key _ _ _ (d2 i q u l a1 a2 a3 p hp h0) (e2 i q u l a1 a2 a3 p hp)
  have n1 := sumDots_nonneg (paras := ch) (us := uh) (lines := hor) (e := forwardDeviation Pt.x ⟨yc, xc⟩ k) fun q u p => by
    unfold forwardDeviation
    split_ifs <;> positivity
  have n2 := sumDots_nonneg (paras := cv) (us := uv) (lines := ver) (e := forwardDeviation Pt.y ⟨yc, xc⟩ k) fun q u p => by
    unfold forwardDeviation
    split_ifs <;> positivity
  have := ht k' hl
  push_cast
  linarith

/-- `n` different radii determine a model of `n` coefficients. -/
theorem radial_unique {v w : List ℝ} (hl : w.length = v.length) (rs : List ℝ) (hrs : rs.Nodup) (hn : rs.length = v.length)
    (h : ∀ r ∈ rs, radial v r = radial w r) : v = w := by
  have hz := Matrix.eq_zero_of_forall_index_sum_mul_pow_eq_zero (R := ℝ) (n := v.length)
    (f := fun j => rs[j]) (v := fun i => v[i] - w[i])
    (by
      intro a b hab
      exact Fin.ext ((List.Nodup.getElem_inj_iff hrs).1 hab))
    (by
      intro j
      have := h rs[j] (List.getElem_mem _)
      unfold radial at this
      simp only [sub_mul, Finset.sum_sub_distrib]
      rw [this, sub_eq_zero]
      exact (Fin.sum_congr' (fun i : Fin w.length => w[i] * rs[j] ^ (i : ℕ)) hl.symm).symm)
  refine List.ext_getElem hl.symm fun i hi _ => ?_
  have := congrFun hz ⟨i, hi⟩
  simp only [Pi.zero_apply, Fin.getElem_fin] at this
  linarith

theorem sumDots_zero {paras : List Para} {us : List ℝ} {lines : List (List Pt)} {e : Para → ℝ → Pt → ℝ} (h : ∀ q u p, 0 ≤ e q u p)
    (h0 : sumDots paras us lines e ≤ 0) : ForDots paras us lines fun q u p => e q u p = 0 := by
  intro i q u l a1 a2 a3 p hp
  have hz : ((q, u), l) ∈ List.zip (List.zip paras us) lines := by
    rw [List.mem_iff_getElem?]
    exact ⟨i, by rw [List.getElem?_zip_eq_some, List.getElem?_zip_eq_some]; exact ⟨⟨a1, a2⟩, a3⟩⟩
  have hnn : ∀ x ∈ (List.zip (List.zip paras us) lines).map fun z => (z.2.map fun p => e z.1.1 z.1.2 p).sum, 0 ≤ x := by
    intro x hx
    obtain ⟨z, _, rfl⟩ := List.mem_map.1 hx
    apply List.sum_nonneg
    intro y hy
    obtain ⟨p, _, rfl⟩ := List.mem_map.1 hy
    exact h _ _ _
  have h1 := List.single_le_sum hnn _ (List.mem_map.2 ⟨_, hz, rfl⟩)
  have h2 : e q u p ≤ (l.map fun p => e q u p).sum := List.single_le_sum (by
    intro y hy
    obtain ⟨p, _, rfl⟩ := List.mem_map.1 hy
    exact h _ _ _) _ (List.mem_map.2 ⟨p, hp, rfl⟩)
  unfold sumDots at h0
  exact le_antisymm (by linarith) (h _ _ _)

/-- **C92 (solver).** The returned forward coefficients do not depend on the routine that solves the least-squares system if the dots
off the lines through the centre have as many different radii as there are coefficients. -/
theorem C92_solver (pf : PolyfitFn) (hpf : PolyfitSpec pf) (lstsq lstsq' : LstsqFn) (hls : LstsqSpec lstsq) (hls' : LstsqSpec lstsq')
    (minimize : (ℝ → ℝ) → ℝ → ℝ) (hor ver : List (List Pt))
    (hh : ∀ l ∈ hor, l ≠ []) (hv : ∀ l ∈ ver, l ≠ []) (h4 : 4 ≤ hor.length) (v4 : 4 ≤ ver.length) (xc yc : ℝ)
    (numFact : ℤ) (hn : numFact ≤ 32767) (optimizing : Bool) (threshold : ℝ) :
    ∃ ch cv : List Para, List.Forall₂ (fun l q => IsLsqPara Pt.x Pt.y xc yc l q.a q.b q.c) hor ch ∧
      List.Forall₂ (fun l q => IsLsqPara Pt.y Pt.x yc xc l q.a q.b q.c) ver cv ∧
      (StrictlyMonotone (ch.map Para.c) → StrictlyMonotone (cv.map Para.c) →
        ∃ uh uv warned, IsEquidistantFit (ch.map Para.c) uh ∧ IsEquidistantFit (cv.map Para.c) uv ∧
          calcUndistorIntercept pf minimize hor ver xc yc optimizing threshold = .ok (uh, uv, warned) ∧
          (ForDots ch uh hor (fun q u p => u ≠ 0 → bent q (p.x - xc) ≠ 0) →
           ForDots cv uv ver (fun q u p => u ≠ 0 → bent q (p.y - yc) ≠ 0) →
           (∃ rs : List ℝ, rs.Nodup ∧ (rs.length : ℤ) = max numFact 1 ∧ ∀ r ∈ rs,
             ∃ (i : ℕ) (u : ℝ) (line : List Pt) (p : Pt), uh[i]? = some u ∧ u ≠ 0 ∧ hor[i]? = some line ∧ p ∈ line ∧ r = ptDist p ⟨yc, xc⟩) →
           calcCoefForward pf lstsq minimize hor ver xc yc numFact optimizing threshold =
             calcCoefForward pf lstsq' minimize hor ver xc yc numFact optimizing threshold)) := by
  obtain ⟨ch, cv, f1, f2, H⟩ := coefForward_min pf hpf minimize hor ver hh hv h4 v4 xc yc numFact hn optimizing threshold
  refine ⟨ch, cv, f1, f2, fun m1 m2 => ?_⟩
  obtain ⟨uh, uv, w, g1, g2, eu, H⟩ := H m1 m2
  refine ⟨uh, uv, w, g1, g2, eu, fun d1 d2 ⟨rs, r1, r2, r3⟩ => ?_⟩
  have hu : ∃ u ∈ uh, u ≠ 0 := by
    obtain ⟨r, hr⟩ := List.exists_mem_of_length_pos (l := rs) (by omega)
    obtain ⟨i, u, _, _, e, h0, _⟩ := r3 r hr
    exact ⟨u, List.mem_of_getElem? e, h0⟩
  obtain ⟨k, e, hk, hmin⟩ := H d1 d2 hu lstsq hls
  obtain ⟨k2, e2, hk2, hmin2⟩ := H d1 d2 hu lstsq' hls'
  have hl : k2.length = k.length := by omega
  have ht := lsq_triangle (D1 := fun k k' _ u p => forwardDifference ⟨yc, xc⟩ k k' u p) (D2 := fun k k' _ u p => forwardDifference ⟨yc, xc⟩ k k' u p)
    (fun k k' s h q u p => forwardDeviation_between _ _ k k' s h q u p) (fun k k' s h q u p => forwardDeviation_between _ _ k k' s h q u p) hmin k2 hl
  have hm := hmin2 k hl.symm
  have hnn : ∀ (q : Para) u p, 0 ≤ forwardDifference ⟨yc, xc⟩ k k2 u p := fun q u p => by
    unfold forwardDifference
    split_ifs <;> positivity
  have n2 := sumDots_nonneg (paras := cv) (us := uv) (lines := ver) hnn
  have hz := sumDots_zero (paras := ch) (us := uh) (lines := hor) hnn (by linarith)
  have : k = k2 := radial_unique hl rs r1 (by omega) fun r hr => by
    obtain ⟨i, u, l, p, a1, h0, a2, hp, rfl⟩ := r3 r hr
    obtain ⟨hi, _⟩ := List.getElem?_eq_some_iff.1 a2
    have := hz i _ u l (List.getElem?_eq_getElem (by rw [← f1.length_eq]; exact hi)) a1 a2 p hp
    simp only [forwardDifference, if_neg h0] at this
    exact sub_eq_zero.1 (pow_eq_zero_iff (two_ne_zero) |>.1 this)
  rw [e, e2, this]

theorem arith4 : IsArith [-3, -1, 1, 3] (-3) 2 := by
  intro i x h
  obtain ⟨hi, rfl⟩ := List.getElem?_eq_some_iff.1 h
  have hi' : i < 4 := hi
  interval_cases i <;> norm_num

theorem bentRow_bounds {u : ℝ} {p : Pt} (hp : p ∈ bentRow 0.5 u) : (p.x - 5) ^ 2 ≤ 1 := by
  simp only [bentRow, List.map_cons, List.map_nil, List.mem_cons, List.not_mem_nil, or_false] at hp
  rcases hp with rfl | rfl | rfl <;> norm_num

theorem bentCol_bounds {u : ℝ} {p : Pt} (hp : p ∈ bentCol 0.5 u) : (p.y - 3) ^ 2 ≤ 1 := by
  simp only [bentCol, List.map_cons, List.map_nil, List.mem_cons, List.not_mem_nil, or_false] at hp
  rcases hp with rfl | rfl | rfl <;> norm_num

theorem bent_error {u t : ℝ} (ht : t ^ 2 ≤ 1) : |radial [1, 0, 0] 0 * bent (bentPara 0.5 0 0 u) t - u| ≤ 1 / 3 * |bent (bentPara 0.5 0 0 u) t| := by
  have h1 : radial [1, 0, 0] (0 : ℝ) = 1 := by simp [radial, Fin.sum_univ_succ]
  rw [bent_bentPara, h1, show 1 * (u * (1 + 0.5 * t ^ 2)) - u = u * (0.5 * t ^ 2) by ring, abs_mul u, abs_mul u,
    abs_of_nonneg (by positivity : (0 : ℝ) ≤ 0.5 * t ^ 2), abs_of_nonneg (by positivity : (0 : ℝ) ≤ 1 + 0.5 * t ^ 2)]
  nlinarith [abs_nonneg u, mul_nonneg (abs_nonneg u) (sub_nonneg.2 ht)]

/-- Four barrel-shaped lines in each direction around (3, 5), which the model `[1, 0, 0]` (no distortion) describes up to a third: the
sum of the squared differences between the returned model and 1 over the 24 dots is at most `24 / 9` … -/
example : ∃ k, calcCoefForward refPolyfit refLstsq refMinimize ([-3, -1, 1, 3].map (bentRow 0.5)) ([-3, -1, 1, 3].map (bentCol 0.5)) 5 3 3 true 0.3 =
      .ok (k, false) ∧
    sumDots ([-3, -1, 1, 3].map (bentPara 0.5 0 0)) [-3, -1, 1, 3] ([-3, -1, 1, 3].map (bentRow 0.5)) (fun _ => forwardDifference ⟨3, 5⟩ k [1, 0, 0]) +
      sumDots ([-3, -1, 1, 3].map (bentPara 0.5 0 0)) [-3, -1, 1, 3] ([-3, -1, 1, 3].map (bentCol 0.5)) (fun _ => forwardDifference ⟨3, 5⟩ k [1, 0, 0]) ≤
      24 / 9 := by
  have hb := bent_example 0.5 0.5 [-3, -1, 1, 3] [-3, -1, 1, 3]
  obtain ⟨ch, cv, f1, f2, H⟩ := C92_error refPolyfit refPolyfit_spec refLstsq refLstsq_spec refMinimize
    (([-3, -1, 1, 3] : List ℝ).map (bentRow 0.5)) (([-3, -1, 1, 3] : List ℝ).map (bentCol 0.5)) (by simp [bentRow]) (by simp [bentCol]) (by simp) (by simp) 5 3 3 (by norm_num) true 0.3
  obtain rfl := forall₂_bent hb.hor f1
  obtain rfl := forall₂_bent hb.ver f2
  rw [bentPara_map_c] at H
  obtain ⟨uh, uv, w, _, _, eu, H⟩ := H (arith_strict arith4 (by norm_num)) (arith_strict arith4 (by norm_num))
  rw [show calcUndistorIntercept refPolyfit refMinimize ([-3, -1, 1, 3].map (bentRow 0.5)) ([-3, -1, 1, 3].map (bentCol 0.5)) 5 3 true 0.3 = _ from
    bent_intercepts refPolyfit_spec refMinimize hb arith4 arith4 (by norm_num) (by norm_num) (by simp) (by simp) true (fun _ => refMinimize_exact)
      (by norm_num)] at eu
  simp only [Except.ok.injEq, Prod.mk.injEq] at eu
  obtain ⟨rfl, rfl, rfl⟩ := eu
  have hc : ∀ k : List ℝ, ∀ r : ℝ, k = [1, 0, 0] → radial k r = radial k 0 := by
    rintro k r rfl
    simp [radial, Fin.sum_univ_succ]
  have dots : ∀ (f : ℝ → List Pt) (i : ℕ) (q : Para) (u : ℝ) (l : List Pt), (([-3, -1, 1, 3] : List ℝ).map (bentPara 0.5 0 0))[i]? = some q →
      ([-3, -1, 1, 3] : List ℝ)[i]? = some u → (([-3, -1, 1, 3] : List ℝ).map f)[i]? = some l → q = bentPara 0.5 0 0 u ∧ l = f u := by
    intro f i q u l a1 a2 a3
    rw [List.getElem?_map, a2] at a1 a3
    exact ⟨(Option.some.inj a1).symm, (Option.some.inj a3).symm⟩
  obtain ⟨k, e, hk, hk'⟩ := H
    (fun i q u l a1 a2 a3 p hp hu => by
      obtain ⟨rfl, rfl⟩ := dots _ i q u l a1 a2 a3
      rw [bent_bentPara]
      exact mul_ne_zero hu (by positivity))
    (fun i q u l a1 a2 a3 p hp hu => by
      obtain ⟨rfl, rfl⟩ := dots _ i q u l a1 a2 a3
      rw [bent_bentPara]
      exact mul_ne_zero hu (by positivity)) ⟨-3, by simp, by norm_num⟩
  refine ⟨k, e, ?_⟩
  have := hk' [1, 0, 0] (1 / 3) (by simp; omega) (by norm_num)
    (fun i q u l a1 a2 a3 p hp => by
      obtain ⟨rfl, rfl⟩ := dots _ i q u l a1 a2 a3
      rw [hc _ _ rfl]
      exact bent_error (bentRow_bounds hp))
    (fun i q u l a1 a2 a3 p hp => by
      obtain ⟨rfl, rfl⟩ := dots _ i q u l a1 a2 a3
      rw [hc _ _ rfl]
      exact bent_error (bentCol_bounds hp))
  refine this.trans (le_of_eq ?_)
  norm_num [bentRow, bentCol]

/-- … and any routine that solves the least-squares systems gives the same three coefficients. -/
example (lstsq : LstsqFn) (hls : LstsqSpec lstsq) :
    calcCoefForward refPolyfit refLstsq refMinimize ([-3, -1, 1, 3].map (bentRow 0.5)) ([-3, -1, 1, 3].map (bentCol 0.5)) 5 3 3 true 0.3 =
      calcCoefForward refPolyfit lstsq refMinimize ([-3, -1, 1, 3].map (bentRow 0.5)) ([-3, -1, 1, 3].map (bentCol 0.5)) 5 3 3 true 0.3 := by
  have hb := bent_example 0.5 0.5 [-3, -1, 1, 3] [-3, -1, 1, 3]
  obtain ⟨ch, cv, f1, f2, H⟩ := C92_solver refPolyfit refPolyfit_spec refLstsq lstsq refLstsq_spec hls refMinimize
    (([-3, -1, 1, 3] : List ℝ).map (bentRow 0.5)) (([-3, -1, 1, 3] : List ℝ).map (bentCol 0.5)) (by simp [bentRow]) (by simp [bentCol]) (by simp) (by simp) 5 3 3 (by norm_num) true 0.3
  obtain rfl := forall₂_bent hb.hor f1
  obtain rfl := forall₂_bent hb.ver f2
  rw [bentPara_map_c] at H
  obtain ⟨uh, uv, w, _, _, eu, H⟩ := H (arith_strict arith4 (by norm_num)) (arith_strict arith4 (by norm_num))
  rw [show calcUndistorIntercept refPolyfit refMinimize ([-3, -1, 1, 3].map (bentRow 0.5)) ([-3, -1, 1, 3].map (bentCol 0.5)) 5 3 true 0.3 = _ from
    bent_intercepts refPolyfit_spec refMinimize hb arith4 arith4 (by norm_num) (by norm_num) (by simp) (by simp) true (fun _ => refMinimize_exact)
      (by norm_num)] at eu
  simp only [Except.ok.injEq, Prod.mk.injEq] at eu
  obtain ⟨rfl, rfl, rfl⟩ := eu
  have dots : ∀ (f : ℝ → List Pt) (i : ℕ) (q : Para) (u : ℝ) (l : List Pt), (([-3, -1, 1, 3] : List ℝ).map (bentPara 0.5 0 0))[i]? = some q →
      ([-3, -1, 1, 3] : List ℝ)[i]? = some u → (([-3, -1, 1, 3] : List ℝ).map f)[i]? = some l → q = bentPara 0.5 0 0 u ∧ l = f u := by
    intro f i q u l a1 a2 a3
    rw [List.getElem?_map, a2] at a1 a3
    exact ⟨(Option.some.inj a1).symm, (Option.some.inj a3).symm⟩
  refine H
    (fun i q u l a1 a2 a3 p hp hu => by
      obtain ⟨rfl, rfl⟩ := dots _ i q u l a1 a2 a3
      rw [bent_bentPara]
      exact mul_ne_zero hu (by positivity))
    (fun i q u l a1 a2 a3 p hp hu => by
      obtain ⟨rfl, rfl⟩ := dots _ i q u l a1 a2 a3
      rw [bent_bentPara]
      exact mul_ne_zero hu (by positivity)) ⟨[1, 3, √3.25], ?_, by norm_num, ?_⟩
  · have h1 : (1 : ℝ) < √3.25 := by
      rw [Real.lt_sqrt (by norm_num)]
      norm_num
    have h2 : √3.25 < (3 : ℝ) := by
      rw [Real.sqrt_lt' (by norm_num)]
      norm_num
    simp only [List.nodup_cons, List.mem_cons, List.not_mem_nil, or_false, not_or, not_false_eq_true, List.nodup_nil, and_true]
    exact ⟨⟨by norm_num, h1.ne⟩, h2.ne'⟩
  · intro r hr
    simp only [List.mem_cons, List.not_mem_nil, or_false] at hr
    rcases hr with rfl | rfl | rfl
    · refine ⟨2, 1, _, ⟨3 + 1, 5⟩, rfl, by norm_num, rfl, by simp [bentRow], ?_⟩
      simp [ptDist]
    · refine ⟨3, 3, _, ⟨3 + 3, 5⟩, rfl, by norm_num, rfl, by simp [bentRow], ?_⟩
      simp [ptDist]
    · refine ⟨2, 1, _, ⟨3 + 1.5, 6⟩, rfl, by norm_num, rfl, by norm_num [bentRow], ?_⟩
      unfold ptDist
      norm_num

example (xc yc : ℝ) := C92_forward refPolyfit refPolyfit_spec refLstsq refLstsq_spec refMinimize ([-3, -1, 1, 3].map (bentRow 0.5)) ([-3, -1, 1, 3].map (bentCol 0.5))
  (by simp [bentRow]) (by simp [bentCol]) (by simp) (by simp) xc yc 5 (by norm_num) true 0.3
example (xc yc : ℝ) := C92_backward refPolyfit refPolyfit_spec refLstsq refLstsq_spec refMinimize ([-3, -1, 1, 3].map (bentRow 0.5)) ([-3, -1, 1, 3].map (bentCol 0.5))
  (by simp [bentRow]) (by simp [bentCol]) (by simp) (by simp) xc yc 5 (by norm_num) true 0.3

end Discorpy
