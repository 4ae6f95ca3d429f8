import Verif.Lemmas.LeastSquares
import Verif.Props.C22
import Verif.Lemmas.Ideal
import Verif.Props.C72

/-! # C80: the coefficients of the radial model are least-squares fits to the bent lines -/

namespace Discorpy

open Spec

/-- The samples of one dot, forward. -/
noncomputable def forwardSample (along : Pt → ℝ) (c : Pt) (q : Para) (u : ℝ) (p : Pt) : List (ℝ × ℝ) :=
  if u = 0 then [] else [(ptDist p c, u / bent q (along p - along c))]

/-- The sample of one dot, backward. -/
noncomputable def backwardSample (along : Pt → ℝ) (c : Pt) (q : Para) (u : ℝ) (p : Pt) : ℝ × ℝ :=
  (ptDist p c / (bent q (along p - along c) / u), bent q (along p - along c) / u)

theorem forwardRow_eq (n : ℕ) (q : Para) (u : ℝ) (along : Pt → ℝ) (xc yc : ℝ)
    (ha : ∀ p : Pt, along ⟨p.y - yc, p.x - xc⟩ = along p - along ⟨yc, xc⟩) (p : Pt)
    (h : u ≠ 0 → bent q (along p - along ⟨yc, xc⟩) ≠ 0) :
    forwardRow n q u (along ⟨p.y - yc, p.x - xc⟩) ⟨p.y - yc, p.x - xc⟩ =
      .ok ((forwardSample along ⟨yc, xc⟩ q u p).map fun d => (powers d.1 n, d.2)) := by
  unfold forwardRow forwardSample
  by_cases hu : u = 0
  · simp [hu]
  · have hb := h hu
    unfold bent at hb
    simp only [ne_eq, hu, not_false_eq_true, if_true, if_false, ha, shift_radius]
    rw [show q.a * (along p - along ⟨yc, xc⟩) * (along p - along ⟨yc, xc⟩) + q.c =
      q.a * (along p - along ⟨yc, xc⟩) ^ 2 + q.c by ring, finDiv_ok hb, ok_bind, if_pos (div_ne_zero hu hb)]
    rfl

theorem backwardRow_eq (n : ℕ) (q : Para) (u : ℝ) (along : Pt → ℝ) (xc yc : ℝ)
    (ha : ∀ p : Pt, along ⟨p.y - yc, p.x - xc⟩ = along p - along ⟨yc, xc⟩) (p : Pt)
    (h : u ≠ 0) (hb : bent q (along p - along ⟨yc, xc⟩) ≠ 0) :
    backwardRow n q u (along ⟨p.y - yc, p.x - xc⟩) ⟨p.y - yc, p.x - xc⟩ =
      .ok (powers (backwardSample along ⟨yc, xc⟩ q u p).1 n, (backwardSample along ⟨yc, xc⟩ q u p).2) := by
  unfold backwardRow backwardSample
  simp only [ha, shift_radius]
  rw [show q.a * (along p - along ⟨yc, xc⟩) * (along p - along ⟨yc, xc⟩) + q.c = bent q (along p - along ⟨yc, xc⟩) by
    unfold bent; ring, finDiv_ok h, ok_bind]
  split_ifs with hn
  · interval_cases n <;> simp [powers]
  · rw [finDiv_ok (div_ne_zero hb h), ok_bind]

theorem alongX (xc yc : ℝ) (p : Pt) : Pt.x ⟨p.y - yc, p.x - xc⟩ = p.x - Pt.x ⟨yc, xc⟩ := rfl

theorem alongY (xc yc : ℝ) (p : Pt) : Pt.y ⟨p.y - yc, p.x - xc⟩ = p.y - Pt.y ⟨yc, xc⟩ := rfl

/-- The samples of all dots. -/
def samplesOf {α : Type} (paras : List Para) (us : List ℝ) (lines : List (List Pt)) (s : Para → ℝ → Pt → α) : List α :=
  ((List.zip (List.zip paras us) lines).map fun z => z.2.map fun p => s z.1.1 z.1.2 p).flatten

theorem samplesOf_sum {α : Type} (paras : List Para) (us : List ℝ) (lines : List (List Pt)) (s : Para → ℝ → Pt → α) (e : α → ℝ) :
    ((samplesOf paras us lines s).map e).sum = sumDots paras us lines fun q u p => e (s q u p) := by
  unfold samplesOf sumDots
  rw [sum_flatten_map, List.map_map]
  simp only [Function.comp_def, List.map_map]

theorem samplesOf_map {α β : Type} (paras : List Para) (us : List ℝ) (lines : List (List Pt)) (s : Para → ℝ → Pt → α) (e : α → β) :
    (samplesOf paras us lines s).map e = samplesOf paras us lines fun q u p => e (s q u p) := by
  unfold samplesOf
  rw [List.map_flatten, List.map_map]
  simp only [Function.comp_def, List.map_map]

theorem mem_samplesOf {α : Type} {paras : List Para} {us : List ℝ} {lines : List (List Pt)} {s : Para → ℝ → Pt → α} {i : ℕ}
    {q : Para} {u : ℝ} {line : List Pt} {p : Pt} (h1 : paras[i]? = some q) (h2 : us[i]? = some u) (h3 : lines[i]? = some line)
    (hp : p ∈ line) : s q u p ∈ samplesOf paras us lines s :=
  List.mem_flatten.2 ⟨_, List.mem_map.2 ⟨((q, u), line), zip3_mem.2 ⟨i, h1, h2, h3⟩, rfl⟩, List.mem_map.2 ⟨p, hp, rfl⟩⟩

theorem forwardDeviation_eq (along : Pt → ℝ) (c : Pt) (k : List ℝ) (q : Para) (u : ℝ) (p : Pt) :
    ((forwardSample along c q u p).map fun d => (radial k d.1 - d.2) ^ 2).sum = forwardDeviation along c k q u p := by
  unfold forwardSample forwardDeviation
  split_ifs <;> simp

/-- The intercepts of C22 and the fits used in the same call. -/
theorem intercepts_ok {pf : PolyfitFn} (hpf : PolyfitSpec pf) (minimize : (ℝ → ℝ) → ℝ → ℝ) {hor ver : List (List Pt)}
    (hh : ∀ l ∈ hor, l ≠ []) (hv : ∀ l ∈ ver, l ≠ []) (h4 : 4 ≤ hor.length) (v4 : 4 ≤ ver.length) (xc yc : ℝ)
    (optimizing : Bool) (threshold : ℝ) :
    ∃ ch cv : List Para, paraFitHor pf hor xc yc = .ok (ch, hor.map (shiftLine xc yc)) ∧
      paraFitVer pf ver xc yc = .ok (cv, ver.map (shiftLine xc yc)) ∧
      List.Forall₂ (fun l q => IsLsqPara Pt.x Pt.y xc yc l q.a q.b q.c) hor ch ∧
      List.Forall₂ (fun l q => IsLsqPara Pt.y Pt.x yc xc l q.a q.b q.c) ver cv ∧
      (StrictlyMonotone (ch.map Para.c) → StrictlyMonotone (cv.map Para.c) →
        ∃ uh uv warned, calcUndistorIntercept pf minimize hor ver xc yc optimizing threshold = .ok (uh, uv, warned) ∧
          IsEquidistantFit (ch.map Para.c) uh ∧ IsEquidistantFit (cv.map Para.c) uv) := by
  obtain ⟨ch, e1, f1⟩ := paraFitHor_ok hpf hh xc yc
  obtain ⟨cv, e2, f2⟩ := paraFitVer_ok hpf hv xc yc
  have l1 := f1.length_eq
  have l2 := f2.length_eq
  refine ⟨ch, cv, e1, e2, f1, f2, fun m1 m2 => ?_⟩
  obtain ⟨w1, ew1⟩ := missingInDir_ok hpf (coefs := ch) (by omega) threshold
  obtain ⟨w2, ew2⟩ := missingInDir_ok hpf (coefs := cv) (by omega) threshold
  obtain ⟨uh, eh, g1, k1⟩ := undistorted_fit minimize m1
    (numUse := min 3 (min ((hor.length / 2 : ℕ) - 1) ((ver.length / 2 : ℕ) - 1))) (by omega) (by simp; omega) optimizing
  obtain ⟨uv, ev, g2, k2⟩ := undistorted_fit minimize m2
    (numUse := min 3 (min ((hor.length / 2 : ℕ) - 1) ((ver.length / 2 : ℕ) - 1))) (by omega) (by simp; omega) optimizing
  refine ⟨uh, uv, w1 || w2, ?_, g1, g2⟩
  unfold calcUndistorIntercept checkMissingLines
  rw [e1, ok_bind]
  simp only
  rw [e2, ok_bind]
  simp only [ew1, ew2, ok_bind, eh, ev]

/-- The fitted parabolas and the intercepts do not depend on the routine for the linear system. -/
theorem coefForward_min (pf : PolyfitFn) (hpf : PolyfitSpec pf)
    (minimize : (ℝ → ℝ) → ℝ → ℝ) (hor ver : List (List Pt))
    (hh : ∀ l ∈ hor, l ≠ []) (hv : ∀ l ∈ ver, l ≠ []) (h4 : 4 ≤ hor.length) (v4 : 4 ≤ ver.length) (xc yc : ℝ)
    (numFact : ℤ) (hn : numFact ≤ 32767) (optimizing : Bool) (threshold : ℝ) :
    ∃ ch cv : List Para, List.Forall₂ (fun l q => IsLsqPara Pt.x Pt.y xc yc l q.a q.b q.c) hor ch ∧
      List.Forall₂ (fun l q => IsLsqPara Pt.y Pt.x yc xc l q.a q.b q.c) ver cv ∧
      (StrictlyMonotone (ch.map Para.c) → StrictlyMonotone (cv.map Para.c) →
        ∃ uh uv warned, IsEquidistantFit (ch.map Para.c) uh ∧ IsEquidistantFit (cv.map Para.c) uv ∧
          calcUndistorIntercept pf minimize hor ver xc yc optimizing threshold = .ok (uh, uv, warned) ∧
          (ForDots ch uh hor (fun q u p => u ≠ 0 → bent q (p.x - xc) ≠ 0) →
           ForDots cv uv ver (fun q u p => u ≠ 0 → bent q (p.y - yc) ≠ 0) →
           (∃ u ∈ uh, u ≠ 0) →
           ∀ lstsq : LstsqFn, LstsqSpec lstsq → ∃ k, calcCoefForward pf lstsq minimize hor ver xc yc numFact optimizing threshold = .ok (k, warned) ∧
             (k.length : ℤ) = max numFact 1 ∧
             ∀ k' : List ℝ, k'.length = k.length →
               sumDots ch uh hor (forwardDeviation Pt.x ⟨yc, xc⟩ k) + sumDots cv uv ver (forwardDeviation Pt.y ⟨yc, xc⟩ k) ≤
               sumDots ch uh hor (forwardDeviation Pt.x ⟨yc, xc⟩ k') + sumDots cv uv ver (forwardDeviation Pt.y ⟨yc, xc⟩ k'))) := by
  obtain ⟨ch, cv, e1, e2, f1, f2, H⟩ := intercepts_ok hpf minimize hh hv h4 v4 xc yc optimizing threshold
  refine ⟨ch, cv, f1, f2, fun m1 m2 => ?_⟩
  obtain ⟨uh, uv, w, eu, g1, g2⟩ := H m1 m2
  refine ⟨uh, uv, w, g1, g2, eu, fun d1 d2 hu lstsq hls => ?_⟩
  set n := numFactors numFact with hnn
  have r1 := rowsOf_eq (row := forwardRow n) (along := Pt.x) (coefs := ch) (uc := uh) (lines := hor) (xc := xc) (yc := yc)
    (g := fun q u p => (forwardSample Pt.x ⟨yc, xc⟩ q u p).map fun d => (powers d.1 n, d.2))
    (fun i q u line a b c p hp => forwardRow_eq n q u Pt.x xc yc (alongX xc yc) p (d1 i q u line a b c p hp))
  have r2 := rowsOf_eq (row := forwardRow n) (along := Pt.y) (coefs := cv) (uc := uv) (lines := ver) (xc := xc) (yc := yc)
    (g := fun q u p => (forwardSample Pt.y ⟨yc, xc⟩ q u p).map fun d => (powers d.1 n, d.2))
    (fun i q u line a b c p hp => forwardRow_eq n q u Pt.y xc yc (alongY xc yc) p (d2 i q u line a b c p hp))
  set S1 := samplesOf ch uh hor (forwardSample Pt.x ⟨yc, xc⟩) with hS1
  set S2 := samplesOf cv uv ver (forwardSample Pt.y ⟨yc, xc⟩) with hS2
  have hne : S1.flatten ++ S2.flatten ≠ [] := by
    obtain ⟨u, hu, hu0⟩ := hu
    obtain ⟨i, hi, rfl⟩ := List.getElem_of_mem hu
    have hl : ch.length = uh.length := by have := g1.1; simpa using this.symm
    have l1 := f1.length_eq
    have hih : i < hor.length := by omega
    obtain ⟨p, hp⟩ := List.exists_mem_of_ne_nil _ (hh _ (List.getElem_mem hih))
    have hm : forwardSample Pt.x ⟨yc, xc⟩ ch[i] uh[i] p ∈ S1 := mem_samplesOf (s := forwardSample Pt.x ⟨yc, xc⟩)
      (List.getElem?_eq_getElem (by omega)) (List.getElem?_eq_getElem hi) (List.getElem?_eq_getElem hih) hp
    apply List.ne_nil_of_mem (a := (ptDist p ⟨yc, xc⟩, uh[i] / bent ch[i] (p.x - xc)))
    refine List.mem_append_left _ (List.mem_flatten.2 ⟨_, hm, ?_⟩)
    unfold forwardSample
    rw [if_neg hu0]
    exact List.mem_singleton.2 rfl
  obtain ⟨k, ek, hk, hmin⟩ := lstsq_powers_min hls n hne
  have hrows : (S1.flatten ++ S2.flatten).map (fun d => (powers d.1 n, d.2)) =
      ((List.zip (List.zip ch uh) hor).map fun z => z.2.map fun p =>
        (forwardSample Pt.x ⟨yc, xc⟩ z.1.1 z.1.2 p).map fun d => (powers d.1 n, d.2)).flatten.flatten ++
      ((List.zip (List.zip cv uv) ver).map fun z => z.2.map fun p =>
        (forwardSample Pt.y ⟨yc, xc⟩ z.1.1 z.1.2 p).map fun d => (powers d.1 n, d.2)).flatten.flatten := by
    rw [List.map_append, List.map_flatten, List.map_flatten, hS1, hS2, samplesOf_map, samplesOf_map]
    rfl
  have hsum : ∀ k : List ℝ, ((S1.flatten ++ S2.flatten).map fun d => (radial k d.1 - d.2) ^ 2).sum =
      sumDots ch uh hor (forwardDeviation Pt.x ⟨yc, xc⟩ k) + sumDots cv uv ver (forwardDeviation Pt.y ⟨yc, xc⟩ k) := by
    intro k
    rw [sum_append_map, sum_flatten_map, sum_flatten_map, hS1, hS2, samplesOf_sum, samplesOf_sum]
    simp only [forwardDeviation_eq]
  refine ⟨k, ?_, by rw [hk, hnn, numFactors_eq hn]; omega, fun k' hk' => ?_⟩
  · unfold calcCoefForward
    rw [eu, ok_bind]
    simp only
    rw [e1, ok_bind]
    simp only
    rw [e2, ok_bind]
    simp only
    rw [← hnn, r1, ok_bind, r2, ok_bind, ← hrows, ek]
    rfl
  · rw [← hsum, ← hsum]
    exact hmin k' (hk'.trans hk)

/-- **C80 (forward).** For at least four non-empty lines per direction with strictly monotone fitted intercepts: with the
least-squares parabolas `ch`, `cv` of the lines and the equally spaced intercepts `uh`, `uv` of C22, the coefficients
minimise the sum over all dots of the squared deviation between the polynomial of the dot's radius and the ratio
"undistorted / bent ordinate", over all polynomials with as many coefficients (`max num_fact 1`). The call succeeds unless a
bent ordinate is zero or all lines pass through the centre. -/
theorem C80_forward (pf : PolyfitFn) (hpf : PolyfitSpec pf) (lstsq : LstsqFn) (hls : LstsqSpec lstsq)
    (minimize : (ℝ → ℝ) → ℝ → ℝ) (hor ver : List (List Pt))
    (hh : ∀ l ∈ hor, l ≠ []) (hv : ∀ l ∈ ver, l ≠ []) (h4 : 4 ≤ hor.length) (v4 : 4 ≤ ver.length) (xc yc : ℝ)
    (numFact : ℤ) (hn : numFact ≤ 32767) (optimizing : Bool) (threshold : ℝ) :
    ∃ ch cv : List Para, List.Forall₂ (fun l q => IsLsqPara Pt.x Pt.y xc yc l q.a q.b q.c) hor ch ∧
      List.Forall₂ (fun l q => IsLsqPara Pt.y Pt.x yc xc l q.a q.b q.c) ver cv ∧
      (StrictlyMonotone (ch.map Para.c) → StrictlyMonotone (cv.map Para.c) →
        ∃ uh uv warned, IsEquidistantFit (ch.map Para.c) uh ∧ IsEquidistantFit (cv.map Para.c) uv ∧
          calcUndistorIntercept pf minimize hor ver xc yc optimizing threshold = .ok (uh, uv, warned) ∧
          (ForDots ch uh hor (fun q u p => u ≠ 0 → bent q (p.x - xc) ≠ 0) →
           ForDots cv uv ver (fun q u p => u ≠ 0 → bent q (p.y - yc) ≠ 0) →
           (∃ u ∈ uh, u ≠ 0) →
           ∃ k, calcCoefForward pf lstsq minimize hor ver xc yc numFact optimizing threshold = .ok (k, warned) ∧
             (k.length : ℤ) = max numFact 1 ∧
             ∀ k' : List ℝ, k'.length = k.length →
               sumDots ch uh hor (forwardDeviation Pt.x ⟨yc, xc⟩ k) + sumDots cv uv ver (forwardDeviation Pt.y ⟨yc, xc⟩ k) ≤
               sumDots ch uh hor (forwardDeviation Pt.x ⟨yc, xc⟩ k') + sumDots cv uv ver (forwardDeviation Pt.y ⟨yc, xc⟩ k'))) := by
  obtain ⟨ch, cv, f1, f2, H⟩ := coefForward_min pf hpf minimize hor ver hh hv h4 v4 xc yc numFact hn optimizing threshold
  refine ⟨ch, cv, f1, f2, fun m1 m2 => ?_⟩
  obtain ⟨uh, uv, w, g1, g2, eu, H⟩ := H m1 m2
  exact ⟨uh, uv, w, g1, g2, eu, fun d1 d2 hu => H d1 d2 hu lstsq hls⟩

/-- **C80 (backward).** The same for the backward model: the polynomial of the undistorted radius against the ratio
"bent ordinate / undistorted". No line may pass through the centre. -/
theorem C80_backward (pf : PolyfitFn) (hpf : PolyfitSpec pf) (lstsq : LstsqFn) (hls : LstsqSpec lstsq)
    (minimize : (ℝ → ℝ) → ℝ → ℝ) (hor ver : List (List Pt))
    (hh : ∀ l ∈ hor, l ≠ []) (hv : ∀ l ∈ ver, l ≠ []) (h4 : 4 ≤ hor.length) (v4 : 4 ≤ ver.length) (xc yc : ℝ)
    (numFact : ℤ) (hn : numFact ≤ 32767) (optimizing : Bool) (threshold : ℝ) :
    ∃ ch cv : List Para, List.Forall₂ (fun l q => IsLsqPara Pt.x Pt.y xc yc l q.a q.b q.c) hor ch ∧
      List.Forall₂ (fun l q => IsLsqPara Pt.y Pt.x yc xc l q.a q.b q.c) ver cv ∧
      (StrictlyMonotone (ch.map Para.c) → StrictlyMonotone (cv.map Para.c) →
        ∃ uh uv warned, IsEquidistantFit (ch.map Para.c) uh ∧ IsEquidistantFit (cv.map Para.c) uv ∧
          calcUndistorIntercept pf minimize hor ver xc yc optimizing threshold = .ok (uh, uv, warned) ∧
          (ForDots ch uh hor (fun q u p => u ≠ 0 ∧ bent q (p.x - xc) ≠ 0) →
           ForDots cv uv ver (fun q u p => u ≠ 0 ∧ bent q (p.y - yc) ≠ 0) →
           ∃ k, calcCoefBackward pf lstsq minimize hor ver xc yc numFact optimizing threshold = .ok (k, warned) ∧
             (k.length : ℤ) = max numFact 1 ∧
             ∀ k' : List ℝ, k'.length = k.length →
               sumDots ch uh hor (backwardDeviation Pt.x ⟨yc, xc⟩ k) + sumDots cv uv ver (backwardDeviation Pt.y ⟨yc, xc⟩ k) ≤
               sumDots ch uh hor (backwardDeviation Pt.x ⟨yc, xc⟩ k') + sumDots cv uv ver (backwardDeviation Pt.y ⟨yc, xc⟩ k'))) := by
  obtain ⟨ch, cv, e1, e2, f1, f2, H⟩ := intercepts_ok hpf minimize hh hv h4 v4 xc yc optimizing threshold
  refine ⟨ch, cv, f1, f2, fun m1 m2 => ?_⟩
  obtain ⟨uh, uv, w, eu, g1, g2⟩ := H m1 m2
  refine ⟨uh, uv, w, g1, g2, eu, fun d1 d2 => ?_⟩
  set n := numFactors numFact with hnn
  have r1 := rowsOf_eq (row := backwardRow n) (along := Pt.x) (coefs := ch) (uc := uh) (lines := hor) (xc := xc) (yc := yc)
    (g := fun q u p => (powers (backwardSample Pt.x ⟨yc, xc⟩ q u p).1 n, (backwardSample Pt.x ⟨yc, xc⟩ q u p).2))
    (fun i q u line a b c p hp => backwardRow_eq n q u Pt.x xc yc (alongX xc yc) p (d1 i q u line a b c p hp).1
      (d1 i q u line a b c p hp).2)
  have r2 := rowsOf_eq (row := backwardRow n) (along := Pt.y) (coefs := cv) (uc := uv) (lines := ver) (xc := xc) (yc := yc)
    (g := fun q u p => (powers (backwardSample Pt.y ⟨yc, xc⟩ q u p).1 n, (backwardSample Pt.y ⟨yc, xc⟩ q u p).2))
    (fun i q u line a b c p hp => backwardRow_eq n q u Pt.y xc yc (alongY xc yc) p (d2 i q u line a b c p hp).1
      (d2 i q u line a b c p hp).2)
  set S1 := samplesOf ch uh hor (backwardSample Pt.x ⟨yc, xc⟩) with hS1
  set S2 := samplesOf cv uv ver (backwardSample Pt.y ⟨yc, xc⟩) with hS2
  have hne : S1 ++ S2 ≠ [] := by
    have hl : ch.length = uh.length := by have := g1.1; simpa using this.symm
    have l1 := f1.length_eq
    obtain ⟨p, hp⟩ := List.exists_mem_of_ne_nil _ (hh _ (List.getElem_mem (by omega : 0 < hor.length)))
    exact List.ne_nil_of_mem (List.mem_append_left _ (mem_samplesOf (s := backwardSample Pt.x ⟨yc, xc⟩)
      (List.getElem?_eq_getElem (by omega : 0 < ch.length)) (List.getElem?_eq_getElem (by omega : 0 < uh.length))
      (List.getElem?_eq_getElem (by omega)) hp))
  obtain ⟨k, ek, hk, hmin⟩ := lstsq_powers_min hls n hne
  have hrows : (S1 ++ S2).map (fun d => (powers d.1 n, d.2)) =
      ((List.zip (List.zip ch uh) hor).map fun z => z.2.map fun p =>
        (powers (backwardSample Pt.x ⟨yc, xc⟩ z.1.1 z.1.2 p).1 n, (backwardSample Pt.x ⟨yc, xc⟩ z.1.1 z.1.2 p).2)).flatten ++
      ((List.zip (List.zip cv uv) ver).map fun z => z.2.map fun p =>
        (powers (backwardSample Pt.y ⟨yc, xc⟩ z.1.1 z.1.2 p).1 n, (backwardSample Pt.y ⟨yc, xc⟩ z.1.1 z.1.2 p).2)).flatten := by
    rw [List.map_append, hS1, hS2, samplesOf_map, samplesOf_map]
    rfl
  have hsum : ∀ k : List ℝ, ((S1 ++ S2).map fun d => (radial k d.1 - d.2) ^ 2).sum =
      sumDots ch uh hor (backwardDeviation Pt.x ⟨yc, xc⟩ k) + sumDots cv uv ver (backwardDeviation Pt.y ⟨yc, xc⟩ k) := by
    intro k
    rw [sum_append_map, hS1, hS2, samplesOf_sum, samplesOf_sum]
    rfl
  refine ⟨k, ?_, by rw [hk, hnn, numFactors_eq hn]; omega, fun k' hk' => ?_⟩
  · unfold calcCoefBackward
    rw [eu, ok_bind]
    simp only
    rw [e1, ok_bind]
    simp only
    rw [e2, ok_bind]
    simp only
    rw [← hnn, r1, ok_bind, r2, ok_bind, ← hrows, ek]
    rfl
  · rw [← hsum, ← hsum]
    exact hmin k' (hk'.trans hk)

/-- **C80 (backward from forward).** `calc_coef_backward_from_forward` returns the coefficients `f` of
`calc_coef_forward` (and its warning) together with as many coefficients `g` which minimise the sum over all dots with
`f(r) ≠ 0` of `(g(f(r)·r) - 1/f(r))²`. -/
theorem C80_backward_from_forward (pf : PolyfitFn) (hpf : PolyfitSpec pf) (lstsq : LstsqFn) (hls : LstsqSpec lstsq)
    (minimize : (ℝ → ℝ) → ℝ → ℝ) (hor ver : List (List Pt)) (hh : ∀ l ∈ hor, l ≠ []) (hv : ∀ l ∈ ver, l ≠ []) (xc yc : ℝ)
    (numFact : ℤ) (optimizing : Bool) (threshold : ℝ) :
    (∀ e, calcCoefForward pf lstsq minimize hor ver xc yc numFact optimizing threshold = .error e →
      calcCoefBackwardFromForward pf lstsq minimize hor ver xc yc numFact optimizing threshold = .error e) ∧
    (∀ f w, calcCoefForward pf lstsq minimize hor ver xc yc numFact optimizing threshold = .ok (f, w) →
      (∃ p ∈ hor.flatten ++ ver.flatten, radial f (ptDist p ⟨yc, xc⟩) ≠ 0) →
      ∃ g, calcCoefBackwardFromForward pf lstsq minimize hor ver xc yc numFact optimizing threshold = .ok (f, g, w) ∧
        g.length = f.length ∧ ∀ g' : List ℝ, g'.length = g.length →
          ((hor.flatten ++ ver.flatten).map (inverseDeviation ⟨yc, xc⟩ f g)).sum ≤
            ((hor.flatten ++ ver.flatten).map (inverseDeviation ⟨yc, xc⟩ f g')).sum) := by
  constructor
  · intro e he
    unfold calcCoefBackwardFromForward
    rw [he]
    rfl
  · rintro f w ef ⟨p0, hp0, h0⟩
    obtain ⟨ch, e1, -⟩ := paraFitHor_ok hpf hh xc yc
    obtain ⟨cv, e2, -⟩ := paraFitVer_ok hpf hv xc yc
    set pts := hor.flatten ++ ver.flatten with hpts
    have hsh : (hor.map (shiftLine xc yc)).flatten ++ (ver.map (shiftLine xc yc)).flatten = shiftLine xc yc pts := by
      simp only [hpts, shiftLine, List.map_append, List.map_flatten]
      rfl
    have hd : ∀ p : Pt, ptDist ⟨p.y - yc, p.x - xc⟩ ⟨0, 0⟩ = ptDist p ⟨yc, xc⟩ := by
      intro p; simp [ptDist]
    obtain ⟨g, eg, hg, hm⟩ := lstsq_inverse_min hls f (shiftLine xc yc pts)
      ⟨_, List.mem_map.2 ⟨p0, hp0, rfl⟩, by rw [hd]; exact h0⟩
    have hs : ∀ g : List ℝ, ((shiftLine xc yc pts).map (inverseDeviation ⟨0, 0⟩ f g)).sum =
        (pts.map (inverseDeviation ⟨yc, xc⟩ f g)).sum := by
      intro g
      rw [shiftLine, List.map_map]
      congr 1
      apply List.map_congr_left
      intro p _
      simp only [Function.comp_apply, inverseDeviation, hd]
    refine ⟨g, ?_, hg, fun g' hg' => ?_⟩
    · unfold calcCoefBackwardFromForward
      rw [ef, ok_bind]
      simp only
      rw [e1, ok_bind]
      simp only
      rw [e2, ok_bind]
      simp only
      rw [← List.filterMap_append, hsh, eg, ok_bind]
    · have := hm g' hg'
      rwa [hs, hs] at this

/-- The intercepts of an ideal bent pattern with equally spaced lines, about its centre. -/
theorem bent_intercepts {pf : PolyfitFn} (hpf : PolyfitSpec pf) (minimize : (ℝ → ℝ) → ℝ → ℝ) {c : Pt} {kh kv : ℝ}
    {us vs : List ℝ} {hor ver : List (List Pt)} (h : IsBentPattern c kh kv us vs hor ver) {u0 du v0 dv : ℝ}
    (au : IsArith us u0 du) (av : IsArith vs v0 dv) (hdu : du ≠ 0) (hdv : dv ≠ 0) (h4 : 4 ≤ us.length) (v4 : 4 ≤ vs.length)
    (optimizing : Bool) (hmin : optimizing = true → ExactMin minimize) {threshold : ℝ} (ht : 0 ≤ threshold) :
    calcUndistorIntercept pf minimize hor ver c.x c.y optimizing threshold = .ok (us, vs, false) := by
  have l1 := h.hor.length_eq
  have l2 := h.ver.length_eq
  have ec : ∀ (k : ℝ) (l : List ℝ), (l.map (bentPara k 0 0)).map Para.c = l := by
    intro k l
    rw [List.map_map]
    conv_rhs => rw [← List.map_id l]
    apply List.map_congr_left
    intro u _
    simp [bentPara]
  unfold calcUndistorIntercept checkMissingLines
  rw [bent_fitHor hpf h.hor, bent_fitVer hpf h.ver]
  simp only [sub_self, ok_bind]
  rw [missingInDir_arith hpf (by simp; omega) (by rw [ec]; exact au) hdu ht,
    missingInDir_arith hpf (by simp; omega) (by rw [ec]; exact av) hdv ht]
  simp only [ok_bind, ec]
  rw [undistorted_exact minimize au hdu (by omega) (by omega) optimizing hmin,
    undistorted_exact minimize av hdv (by omega) (by omega) optimizing hmin]
  rfl

theorem forall₂_bent {along across : Pt → ℝ} {c : Pt} {k : ℝ} {us : List ℝ} {lines : List (List Pt)} {paras : List Para}
    (h : List.Forall₂ (IsBentLine along across c k) us lines)
    (hp : List.Forall₂ (fun l q => IsLsqPara along across (along c) (across c) l q.a q.b q.c) lines paras) :
    paras = us.map (bentPara k 0 0) := by
  induction h generalizing paras with
  | nil => cases hp; rfl
  | cons h _ ih =>
    cases hp with
    | cons h1 h2 =>
      rw [List.map_cons, ih h2]
      have := h.fit h1
      rw [sub_self, sub_self] at this
      rw [← this]

theorem bentPara_map_c (k : ℝ) (l : List ℝ) : (l.map (bentPara k 0 0)).map Para.c = l := by
  rw [List.map_map]
  conv_rhs => rw [← List.map_id l]
  apply List.map_congr_left
  intro u _
  simp [bentPara]

theorem bent_bentPara (k u t : ℝ) : bent (bentPara k 0 0 u) t = u * (1 + k * t ^ 2) := by
  simp only [bent, bentPara]; ring

theorem sumDots_bent (k : ℝ) (us : List ℝ) (lines : List (List Pt)) (e : Para → ℝ → Pt → ℝ) :
    sumDots (us.map (bentPara k 0 0)) us lines e =
      ((List.zip us lines).map fun z => (z.2.map fun p => e (bentPara k 0 0 z.1) z.1 p).sum).sum := by
  unfold sumDots
  congr 1
  induction us generalizing lines with
  | nil => rfl
  | cons u us ih =>
    cases lines with
    | nil => rfl
    | cons l lines =>
      simp only [List.map_cons, List.zip_cons_cons]
      rw [ih]

/-- `Σ e u p` over the dots `p` of the lines at the distances `us`. -/
noncomputable def bentSum (us : List ℝ) (lines : List (List Pt)) (e : ℝ → Pt → ℝ) : ℝ :=
  ((List.zip us lines).map fun z => (z.2.map fun p => e z.1 p).sum).sum

/-- **C80 (ideal patterns, forward).** For lines bent in proportion to their distance from the centre (`across = u·(1 + k·t²)`)
and equally spaced, about the true centre: the forward coefficients minimise the sum over all dots, except those of a line
through the centre, of `(P(r) - 1/(1 + k·t²))²`; no warning is issued. -/
theorem C80_ideal_forward (pf : PolyfitFn) (hpf : PolyfitSpec pf) (lstsq : LstsqFn) (hls : LstsqSpec lstsq)
    (minimize : (ℝ → ℝ) → ℝ → ℝ) (c : Pt) (kh kv : ℝ) (us vs : List ℝ) (hor ver : List (List Pt))
    (h : IsBentPattern c kh kv us vs hor ver) (u0 du v0 dv : ℝ) (au : IsArith us u0 du) (av : IsArith vs v0 dv)
    (hdu : du ≠ 0) (hdv : dv ≠ 0) (h4 : 4 ≤ us.length) (v4 : 4 ≤ vs.length)
    (hbh : ∀ line ∈ hor, ∀ p ∈ line, 1 + kh * (p.x - c.x) ^ 2 ≠ 0) (hbv : ∀ line ∈ ver, ∀ p ∈ line, 1 + kv * (p.y - c.y) ^ 2 ≠ 0)
    (numFact : ℤ) (hn : numFact ≤ 32767) (optimizing : Bool) (hmin : optimizing = true → ExactMin minimize) (threshold : ℝ)
    (ht : 0 ≤ threshold) :
    ∃ k, calcCoefForward pf lstsq minimize hor ver c.x c.y numFact optimizing threshold = .ok (k, false) ∧
      (k.length : ℤ) = max numFact 1 ∧
      let E := fun k : List ℝ =>
        bentSum us hor (fun u p => if u = 0 then 0 else (radial k (ptDist p c) - 1 / (1 + kh * (p.x - c.x) ^ 2)) ^ 2) +
        bentSum vs ver (fun u p => if u = 0 then 0 else (radial k (ptDist p c) - 1 / (1 + kv * (p.y - c.y) ^ 2)) ^ 2)
      ∀ k' : List ℝ, k'.length = k.length → E k ≤ E k' := by
  have l1 := h.hor.length_eq
  have l2 := h.ver.length_eq
  have hnh : ∀ l ∈ hor, l ≠ [] := by
    intro l hl
    obtain ⟨i, hi, rfl⟩ := List.getElem_of_mem hl
    exact ((List.forall₂_iff_get.1 h.hor).2 i (by omega) hi).ne_nil
  have hnv : ∀ l ∈ ver, l ≠ [] := by
    intro l hl
    obtain ⟨i, hi, rfl⟩ := List.getElem_of_mem hl
    exact ((List.forall₂_iff_get.1 h.ver).2 i (by omega) hi).ne_nil
  obtain ⟨ch, cv, f1, f2, H⟩ := C80_forward pf hpf lstsq hls minimize hor ver hnh hnv (by omega) (by omega) c.x c.y numFact hn
    optimizing threshold
  obtain rfl := forall₂_bent h.hor f1
  obtain rfl := forall₂_bent h.ver f2
  rw [bentPara_map_c, bentPara_map_c] at H
  obtain ⟨uh, uv, w, _, _, eu, H⟩ := H (arith_strict au hdu) (arith_strict av hdv)
  rw [bent_intercepts hpf minimize h au av hdu hdv h4 v4 optimizing hmin ht] at eu
  simp only [Except.ok.injEq, Prod.mk.injEq] at eu
  obtain ⟨rfl, rfl, rfl⟩ := eu
  have hne : ∃ u ∈ us, u ≠ 0 := by
    by_contra hcon
    push Not at hcon
    have a0 := au 0 us[0] (List.getElem?_eq_getElem (by omega))
    have a1 := au 1 us[1] (List.getElem?_eq_getElem (by omega))
    rw [hcon _ (List.getElem_mem _)] at a0 a1
    apply hdu
    push_cast at a0 a1
    linarith
  obtain ⟨k, e, hk, hm⟩ := H
    (fun i q u line hq hu hl p hp hu0 => by
      rw [List.getElem?_map, hu] at hq
      obtain rfl := Option.some.inj hq
      rw [bent_bentPara]
      exact mul_ne_zero hu0 (hbh line (List.mem_of_getElem? hl) p hp))
    (fun i q u line hq hu hl p hp hu0 => by
      rw [List.getElem?_map, hu] at hq
      obtain rfl := Option.some.inj hq
      rw [bent_bentPara]
      exact mul_ne_zero hu0 (hbv line (List.mem_of_getElem? hl) p hp)) hne
  have key : ∀ (along : Pt → ℝ) (kk : ℝ) (l : List ℝ) (lines : List (List Pt)) (k : List ℝ),
      sumDots (l.map (bentPara kk 0 0)) l lines (forwardDeviation along c k) = bentSum l lines (fun u p =>
        if u = 0 then 0 else (radial k (ptDist p c) - 1 / (1 + kk * (along p - along c) ^ 2)) ^ 2) := by
    intro along kk l lines k
    rw [sumDots_bent]
    unfold bentSum
    congr 2
    funext z
    congr 2
    funext p
    unfold forwardDeviation
    rw [bent_bentPara]
    split_ifs with hu
    · simp only [hu, if_true]
    · simp only [hu, if_false]
      rw [← div_div, div_self hu]
  refine ⟨k, e, hk, ?_⟩
  simp only
  intro k' hk'
  have := hm k' hk'
  rw [key, key, key, key] at this
  exact this

/-- **C80 (ideal patterns, backward).** Likewise `(P(r/(1 + k·t²)) - (1 + k·t²))²` when no line passes through the centre. -/
theorem C80_ideal_backward (pf : PolyfitFn) (hpf : PolyfitSpec pf) (lstsq : LstsqFn) (hls : LstsqSpec lstsq)
    (minimize : (ℝ → ℝ) → ℝ → ℝ) (c : Pt) (kh kv : ℝ) (us vs : List ℝ) (hor ver : List (List Pt))
    (h : IsBentPattern c kh kv us vs hor ver) (u0 du v0 dv : ℝ) (au : IsArith us u0 du) (av : IsArith vs v0 dv)
    (hdu : du ≠ 0) (hdv : dv ≠ 0) (h4 : 4 ≤ us.length) (v4 : 4 ≤ vs.length) (hu0 : 0 ∉ us) (hv0 : 0 ∉ vs)
    (hbh : ∀ line ∈ hor, ∀ p ∈ line, 1 + kh * (p.x - c.x) ^ 2 ≠ 0) (hbv : ∀ line ∈ ver, ∀ p ∈ line, 1 + kv * (p.y - c.y) ^ 2 ≠ 0)
    (numFact : ℤ) (hn : numFact ≤ 32767) (optimizing : Bool) (hmin : optimizing = true → ExactMin minimize) (threshold : ℝ)
    (ht : 0 ≤ threshold) :
    ∃ k, calcCoefBackward pf lstsq minimize hor ver c.x c.y numFact optimizing threshold = .ok (k, false) ∧
      (k.length : ℤ) = max numFact 1 ∧
      let E := fun k : List ℝ =>
        bentSum us hor (fun _ p => (radial k (ptDist p c / (1 + kh * (p.x - c.x) ^ 2)) - (1 + kh * (p.x - c.x) ^ 2)) ^ 2) +
        bentSum vs ver (fun _ p => (radial k (ptDist p c / (1 + kv * (p.y - c.y) ^ 2)) - (1 + kv * (p.y - c.y) ^ 2)) ^ 2)
      ∀ k' : List ℝ, k'.length = k.length → E k ≤ E k' := by
  have l1 := h.hor.length_eq
  have l2 := h.ver.length_eq
  have hnh : ∀ l ∈ hor, l ≠ [] := by
    intro l hl
    obtain ⟨i, hi, rfl⟩ := List.getElem_of_mem hl
    exact ((List.forall₂_iff_get.1 h.hor).2 i (by omega) hi).ne_nil
  have hnv : ∀ l ∈ ver, l ≠ [] := by
    intro l hl
    obtain ⟨i, hi, rfl⟩ := List.getElem_of_mem hl
    exact ((List.forall₂_iff_get.1 h.ver).2 i (by omega) hi).ne_nil
  obtain ⟨ch, cv, f1, f2, H⟩ := C80_backward pf hpf lstsq hls minimize hor ver hnh hnv (by omega) (by omega) c.x c.y numFact hn
    optimizing threshold
  obtain rfl := forall₂_bent h.hor f1
  obtain rfl := forall₂_bent h.ver f2
  rw [bentPara_map_c, bentPara_map_c] at H
  obtain ⟨uh, uv, w, _, _, eu, H⟩ := H (arith_strict au hdu) (arith_strict av hdv)
  rw [bent_intercepts hpf minimize h au av hdu hdv h4 v4 optimizing hmin ht] at eu
  simp only [Except.ok.injEq, Prod.mk.injEq] at eu
  obtain ⟨rfl, rfl, rfl⟩ := eu
  obtain ⟨k, e, hk, hm⟩ := H
    (fun i q u line hq hu hl p hp => by
      rw [List.getElem?_map, hu] at hq
      obtain rfl := Option.some.inj hq
      have hu' : u ≠ 0 := fun h0 => hu0 (h0 ▸ List.mem_of_getElem? hu)
      rw [bent_bentPara]
      exact ⟨hu', mul_ne_zero hu' (hbh line (List.mem_of_getElem? hl) p hp)⟩)
    (fun i q u line hq hu hl p hp => by
      rw [List.getElem?_map, hu] at hq
      obtain rfl := Option.some.inj hq
      have hu' : u ≠ 0 := fun h0 => hv0 (h0 ▸ List.mem_of_getElem? hu)
      rw [bent_bentPara]
      exact ⟨hu', mul_ne_zero hu' (hbv line (List.mem_of_getElem? hl) p hp)⟩)
  have key : ∀ (along : Pt → ℝ) (kk : ℝ) (l : List ℝ) (lines : List (List Pt)) (k : List ℝ), 0 ∉ l →
      sumDots (l.map (bentPara kk 0 0)) l lines (backwardDeviation along c k) = bentSum l lines (fun _ p =>
        (radial k (ptDist p c / (1 + kk * (along p - along c) ^ 2)) - (1 + kk * (along p - along c) ^ 2)) ^ 2) := by
    intro along kk l lines k hl
    rw [sumDots_bent]
    unfold bentSum
    congr 1
    apply List.map_congr_left
    intro z hz
    congr 2
    funext p
    have hz0 : z.1 ≠ 0 := fun h0 => hl (h0 ▸ (List.of_mem_zip hz).1)
    unfold backwardDeviation
    simp only
    rw [bent_bentPara, mul_div_cancel_left₀ _ hz0]
  refine ⟨k, e, hk, ?_⟩
  simp only
  intro k' hk'
  have := hm k' hk'
  rw [key _ _ _ _ _ hu0, key _ _ _ _ _ hv0, key _ _ _ _ _ hu0, key _ _ _ _ _ hv0] at this
  exact this

/-- **C80 (exact models).** When the error can be made 0 by some polynomial, it is 0 for a minimiser, and then every dot
satisfies its equation. -/
theorem C80_exact (us : List ℝ) (lines : List (List Pt)) (e : ℝ → Pt → ℝ) (h0 : ∀ u p, 0 ≤ e u p) (h : bentSum us lines e ≤ 0)
    (i : ℕ) (u : ℝ) (line : List Pt) (hu : us[i]? = some u) (hl : lines[i]? = some line) (p : Pt) (hp : p ∈ line) : e u p = 0 := by
  have hnn : ∀ x ∈ (List.zip us lines).map fun z => (z.2.map fun p => e z.1 p).sum, 0 ≤ x := by
    intro x hx
    obtain ⟨z, _, rfl⟩ := List.mem_map.1 hx
    apply List.sum_nonneg
    intro y hy
    obtain ⟨p, _, rfl⟩ := List.mem_map.1 hy
    exact h0 _ _
  have hz : (u, line) ∈ List.zip us lines := by
    rw [List.mem_iff_getElem?]
    exact ⟨i, by rw [List.getElem?_zip_eq_some]; exact ⟨hu, hl⟩⟩
  have h1 := List.single_le_sum hnn _ (List.mem_map.2 ⟨_, hz, rfl⟩)
  have h2 : e u p ≤ (line.map fun p => e u p).sum := List.single_le_sum (by
    intro y hy
    obtain ⟨p, _, rfl⟩ := List.mem_map.1 hy
    exact h0 _ _) _ (List.mem_map.2 ⟨p, hp, rfl⟩)
  unfold bentSum at h
  exact le_antisymm (by linarith) (h0 _ _)

/-- Non-vacuity: four barrel-shaped lines in each direction around (3, 5) give
forward and backward models with three coefficients. -/
example : ∃ k, calcCoefForward refPolyfit refLstsq refMinimize ([-3, -1, 1, 3].map (bentRow 0.5)) ([-3, -1, 1, 3].map (bentCol 0.5))
    5 3 3 true 0.3 = .ok (k, false) ∧ k.length = 3 := by
  have ha : IsArith [-3, -1, 1, 3] (-3) 2 := by
    intro i x h
    obtain ⟨hi, rfl⟩ := List.getElem?_eq_some_iff.1 h
    have hi' : i < 4 := hi
    interval_cases i <;> norm_num
  obtain ⟨k, e, hk, _⟩ := C80_ideal_forward refPolyfit refPolyfit_spec refLstsq refLstsq_spec refMinimize ⟨3, 5⟩ 0.5 0.5
    [-3, -1, 1, 3] [-3, -1, 1, 3] _ _ (bent_example _ _ _ _) (-3) 2 (-3) 2 ha ha (by norm_num) (by norm_num) (by simp) (by simp)
    (fun _ _ p _ => by positivity) (fun _ _ p _ => by positivity) 3 (by norm_num) true (fun _ => refMinimize_exact) 0.3 (by norm_num)
  exact ⟨k, e, by omega⟩

example : ∃ k, calcCoefBackward refPolyfit refLstsq refMinimize ([-3, -1, 1, 3].map (bentRow 0.5)) ([-3, -1, 1, 3].map (bentCol 0.5))
    5 3 3 true 0.3 = .ok (k, false) ∧ k.length = 3 := by
  have ha : IsArith [-3, -1, 1, 3] (-3) 2 := by
    intro i x h
    obtain ⟨hi, rfl⟩ := List.getElem?_eq_some_iff.1 h
    have hi' : i < 4 := hi
    interval_cases i <;> norm_num
  obtain ⟨k, e, hk, _⟩ := C80_ideal_backward refPolyfit refPolyfit_spec refLstsq refLstsq_spec refMinimize ⟨3, 5⟩ 0.5 0.5
    [-3, -1, 1, 3] [-3, -1, 1, 3] _ _ (bent_example _ _ _ _) (-3) 2 (-3) 2 ha ha (by norm_num) (by norm_num) (by simp) (by simp)
    (by norm_num) (by norm_num)
    (fun _ _ p _ => by positivity) (fun _ _ p _ => by positivity) 3 (by norm_num) true (fun _ => refMinimize_exact) 0.3 (by norm_num)
  exact ⟨k, e, by omega⟩

example (xc yc : ℝ) := C80_forward refPolyfit refPolyfit_spec refLstsq refLstsq_spec refMinimize ([-3, -1, 1, 3].map (bentRow 0.5)) ([-3, -1, 1, 3].map (bentCol 0.5))
  (by simp [bentRow]) (by simp [bentCol]) (by simp) (by simp) xc yc 5 (by norm_num) true 0.3
example (xc yc : ℝ) := C80_backward refPolyfit refPolyfit_spec refLstsq refLstsq_spec refMinimize ([-3, -1, 1, 3].map (bentRow 0.5)) ([-3, -1, 1, 3].map (bentCol 0.5))
  (by simp [bentRow]) (by simp [bentCol]) (by simp) (by simp) xc yc 5 (by norm_num) true 0.3
example (xc yc : ℝ) := C80_backward_from_forward refPolyfit refPolyfit_spec refLstsq refLstsq_spec refMinimize ([-3, -1, 1, 3].map (bentRow 0.5))
  ([-3, -1, 1, 3].map (bentCol 0.5)) (by simp [bentRow]) (by simp [bentCol]) xc yc 5 true 0.3
/-- An error that vanishes on the line `x = 2`. -/
example := C80_exact [1] [[⟨0, 2⟩, ⟨1, 2⟩]] (fun _ p => (p.x - 2) ^ 2) (fun _ _ => sq_nonneg _) (by norm_num [bentSum]) 0 1
  [⟨0, 2⟩, ⟨1, 2⟩] rfl rfl ⟨1, 2⟩ (by simp)

end Discorpy
