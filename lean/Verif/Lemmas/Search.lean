import Verif.Model.Prep
import Verif.Lemmas.Loop
import Verif.Lemmas.Fit
import Verif.Lemmas.Num
import Mathlib.LinearAlgebra.Lagrange

/-! # Helper lemmas: the sideways search -/

namespace Discorpy

/-- The search window of a state. -/
def InWindow (along : Pt → ℝ) (overlap : ℝ) (s : SearchState) (p : Pt) : Prop :=
  (s.rNext + overlap ≥ along p ∧ along p > s.rCurr - overlap) ∨
    (s.lNext - overlap ≤ along p ∧ along p < s.lCurr + overlap)

/-- The point is within the residual of the curve fitted to `cur`. -/
def NearFit (pf : PolyfitFn) (along across : Pt → ℝ) (cur : List Pt) (residual : ℝ) (order : ℕ) (p : Pt) : Prop :=
  |across p - polyval (pf (cur.map along) (cur.map across) order) (along p)| ≤ residual

open Classical in
/-- The points a turn of the loop adds. -/
noncomputable def nearOf (pf : PolyfitFn) (along across : Pt → ℝ) (points : List Pt) (overlap residual : ℝ)
    (order : ℕ) (s : SearchState) : List Pt :=
  (points.filter fun p => decide (InWindow along overlap s p)).filter fun p =>
    decide (NearFit pf along across s.selected residual order p)

/-- The state after a turn that added points. -/
noncomputable def nextState (D : ℝ) (s : SearchState) (near : List Pt) : SearchState :=
  { rCurr := s.rNext, rNext := s.rNext + D, lCurr := s.lNext, lNext := s.lNext - D
    selected := uniqueRows (s.selected ++ near) }

section
variable {pf : PolyfitFn} {along across : Pt → ℝ} {points : List Pt} {D overlap residual : ℝ} {order : ℕ}

theorem mem_nearOf {s : SearchState} {p : Pt} : p ∈ nearOf pf along across points overlap residual order s ↔
    p ∈ points ∧ InWindow along overlap s p ∧ NearFit pf along across s.selected residual order p := by
  simp only [nearOf, List.mem_filter, decide_eq_true_eq, and_assoc]

theorem searchStep_eq (s : SearchState) (hs : s.selected ≠ []) :
    searchStep pf along across points D overlap residual order s =
      if nearOf pf along across points overlap residual order s = [] then .ok (.inr s.selected)
      else .ok (.inl (nextState D s (nearOf pf along across points overlap residual order s))) := by
  classical
  unfold searchStep
  simp only
  have e : (points.filter fun p => decide ((s.rNext + overlap ≥ along p ∧ along p > s.rCurr - overlap) ∨
      (s.lNext - overlap ≤ along p ∧ along p < s.lCurr + overlap))) =
      points.filter fun p => decide (InWindow along overlap s p) := by
    apply List.filter_congr
    intro p _
    rw [decide_eq_decide]
    rfl
  by_cases hc : (points.filter fun p => decide (InWindow along overlap s p)).length > 0
  · rw [e, if_pos hc]
    unfold nearbyPoints
    rw [if_neg hs]
    simp only [ok_bind]
    have e2 : ((points.filter fun p => decide (InWindow along overlap s p)).filter fun p =>
      decide (|across p - polyval (pf (s.selected.map along) (s.selected.map across) order) (along p)| ≤ residual)) =
      nearOf pf along across points overlap residual order s := by
      apply List.filter_congr
      intro p _
      rw [decide_eq_decide]
      rfl
    rw [e2]
    by_cases hn : nearOf pf along across points overlap residual order s = []
    · rw [if_pos hn, if_neg (by rw [hn]; simp)]
    · rw [if_neg hn, if_pos (List.length_pos_iff.2 hn)]
      rfl
  · rw [e, if_neg hc, if_pos]
    rw [gt_iff_lt, List.length_pos_iff, not_not] at hc
    unfold nearOf
    rw [hc]; rfl

theorem mem_uniqueRows {l : List Pt} {p : Pt} : p ∈ uniqueRows l ↔ p ∈ l := by
  classical
  unfold uniqueRows
  rw [(List.mergeSort_perm _ _).mem_iff, List.mem_dedup]

theorem uniqueRows_nodup (l : List Pt) : (uniqueRows l).Nodup := by
  classical
  unfold uniqueRows
  rw [(List.mergeSort_perm _ _).nodup_iff]
  exact List.nodup_dedup l

theorem lexLe_trans {p q r : Pt} (h : lexLe p q) (h' : lexLe q r) : lexLe p r := by
  unfold lexLe at *
  rcases h with h | ⟨h1, h2⟩ <;> rcases h' with h' | ⟨h3, h4⟩
  · left; linarith
  · left; linarith
  · left; linarith
  · right; exact ⟨by linarith, by linarith⟩

theorem lexLe_total (p q : Pt) : lexLe p q ∨ lexLe q p := by
  unfold lexLe
  rcases lt_trichotomy p.y q.y with h | h | h
  · exact Or.inl (Or.inl h)
  · rcases le_total p.x q.x with h' | h'
    · exact Or.inl (Or.inr ⟨h, h'⟩)
    · exact Or.inr (Or.inr ⟨h.symm, h'⟩)
  · exact Or.inr (Or.inl h)

theorem uniqueRows_sorted (l : List Pt) : (uniqueRows l).Pairwise lexLe := by
  classical
  unfold uniqueRows
  have h := List.pairwise_mergeSort (le := fun p q => decide (lexLe p q))
    (fun a b c h1 h2 => by
      rw [decide_eq_true_eq] at *
      exact lexLe_trans h1 h2)
    (fun a b => by
      rw [Bool.or_eq_true, decide_eq_true_eq, decide_eq_true_eq]
      exact lexLe_total a b) l.dedup
  exact h.imp fun h => by rwa [decide_eq_true_eq] at h

theorem nextState_selected_ne {s : SearchState} {near : List Pt} (h : near ≠ []) : (nextState D s near).selected ≠ [] := by
  obtain ⟨p, hp⟩ := List.exists_mem_of_ne_nil _ h
  exact List.ne_nil_of_mem (a := p) (mem_uniqueRows.2 (List.mem_append_right _ hp))

/-- With a non-positive distance the window is empty. -/
theorem not_inWindow {s : SearchState} {c : ℝ} (hc0 : 0 ≤ c) (hD : D ≤ 0)
    (hr : s.rNext = s.rCurr + D) (hl : s.lNext = s.lCurr - D) (p : Pt) : ¬ InWindow along (D * c) s p := by
  have : D * c ≤ 0 := mul_nonpos_of_nonpos_of_nonneg hD hc0
  rintro (⟨h1, h2⟩ | ⟨h1, h2⟩) <;> linarith

theorem exists_bound (along : Pt → ℝ) (points : List Pt) : ∃ M : ℝ, ∀ p ∈ points, |along p| ≤ M := by
  induction points with
  | nil => exact ⟨0, fun p hp => by cases hp⟩
  | cons q ps ih =>
    obtain ⟨M, hM⟩ := ih
    refine ⟨max M |along q|, fun p hp => ?_⟩
    rcases List.mem_cons.1 hp with rfl | h
    · exact le_max_right _ _
    · exact (hM p h).trans (le_max_left _ _)

/-- The loop ends, from every state with consistent windows and a non-empty selection. -/
theorem search_terminates {c : ℝ} (hc0 : 0 ≤ c) (s : SearchState) (hs : s.selected ≠ [])
    (hr : s.rNext = s.rCurr + D) (hl : s.lNext = s.lCurr - D) :
    ∃ n sel, runFuel (searchStep pf along across points D (D * c) residual order) n s = some (.ok sel) := by
  obtain ⟨M, hM⟩ := exists_bound along points
  have key := exists_runFuel (step := searchStep pf along across points D (D * c) residual order)
    (fun s => s.selected ≠ [] ∧ s.rNext = s.rCurr + D ∧ s.lNext = s.lCurr - D)
    (fun s => ⌈(M + D * c - s.rCurr) / D⌉₊ + ⌈(M + D * c + s.lCurr) / D⌉₊)
    (by
      rintro s s' ⟨h1, h2, h3⟩ hst
      rw [searchStep_eq s h1] at hst
      split at hst
      · cases hst
      · rename_i hn
        injection hst with hst
        injection hst with hst
        subst hst
        refine ⟨⟨nextState_selected_ne hn, rfl, rfl⟩, ?_⟩
        obtain ⟨p, hp⟩ := List.exists_mem_of_ne_nil _ hn
        obtain ⟨hp1, hp2, _⟩ := mem_nearOf.1 hp
        rcases le_or_gt D 0 with hD | hD
        · exact absurd hp2 (not_inWindow hc0 hD h2 h3 p)
        · have e1 : (M + D * c - (s.rNext)) / D = (M + D * c - s.rCurr) / D - 1 := by
            rw [h2]; field_simp; ring
          have e2 : (M + D * c + (s.lNext)) / D = (M + D * c + s.lCurr) / D - 1 := by
            rw [h3]; field_simp; ring
          simp only [nextState]
          rw [e1, e2, Nat.ceil_sub_one, Nat.ceil_sub_one]
          have hb := abs_le.1 (hM p hp1)
          have : 0 < ⌈(M + D * c - s.rCurr) / D⌉₊ ∨ 0 < ⌈(M + D * c + s.lCurr) / D⌉₊ := by
            rcases hp2 with ⟨_, h⟩ | ⟨_, h⟩
            · left; rw [Nat.ceil_pos]; exact div_pos (by linarith) hD
            · right; rw [Nat.ceil_pos]; exact div_pos (by linarith) hD
          omega)
    s ⟨hs, hr, hl⟩
  obtain ⟨n, r, h⟩ := key
  refine ⟨n, ?_⟩
  have : ∀ (n : ℕ) (s : SearchState) r, s.selected ≠ [] →
      runFuel (searchStep pf along across points D (D * c) residual order) n s = some r → ∃ sel, r = .ok sel := by
    intro n
    induction n with
    | zero => intro s r _ h; cases h
    | succ n ih =>
      intro s r hs h
      rw [runFuel, searchStep_eq s hs] at h
      by_cases hn : nearOf pf along across points (D * c) residual order s = []
      · rw [if_pos hn] at h
        exact ⟨_, (Option.some_inj.1 h).symm⟩
      · rw [if_neg hn] at h
        exact ih _ _ (nextState_selected_ne hn) h
  obtain ⟨sel, rfl⟩ := this n s r hs h
  exact ⟨sel, h⟩

end

/-! ## Uniqueness of the fit -/

open Polynomial in
/-- The polynomial of a coefficient list (highest power first). -/
noncomputable def listPoly (p : List ℝ) : ℝ[X] := p.foldl (fun acc c => acc * X + C c) 0

open Polynomial in
theorem listPoly_append (p : List ℝ) (c : ℝ) : listPoly (p ++ [c]) = listPoly p * X + C c := by
  simp [listPoly, List.foldl_append]

open Polynomial in
theorem eval_listPoly (p : List ℝ) (x : ℝ) : (listPoly p).eval x = polyval p x := by
  induction p using List.reverseRecOn with
  | nil => simp [listPoly, polyval]
  | append_singleton p c ih =>
    rw [listPoly_append, eval_add, eval_mul, eval_X, eval_C, ih]
    simp [polyval, List.foldl_append]

open Polynomial in
theorem degree_listPoly_lt' (p : List ℝ) : (listPoly p).degree < (p.length : WithBot ℕ) := by
  induction p using List.reverseRecOn with
  | nil => simp [listPoly]
  | append_singleton p c ih =>
    rw [listPoly_append]
    refine lt_of_le_of_lt (degree_add_le _ _) (max_lt ?_ ?_)
    · rw [degree_mul, degree_X, List.length_append, List.length_singleton]
      rcases eq_or_ne (listPoly p) 0 with h | h
      · rw [h, degree_zero, WithBot.bot_add]
        exact WithBot.bot_lt_coe _
      · rw [degree_eq_natDegree h] at ih ⊢
        have : (listPoly p).natDegree < p.length := by exact_mod_cast ih
        have h2 : (listPoly p).natDegree + 1 < p.length + 1 := by omega
        exact_mod_cast h2
    · refine lt_of_le_of_lt degree_C_le ?_
      have : 0 < (p ++ [c]).length := by simp
      exact_mod_cast this

/-- Two polynomials with `n` coefficients that agree at `n` places are the same function. -/
theorem polyval_unique {p q : List ℝ} {n : ℕ} (hp : p.length = n) (hq : q.length = n) (ts : Finset ℝ) (hts : n ≤ ts.card)
    (h : ∀ t ∈ ts, polyval p t = polyval q t) (x : ℝ) : polyval p x = polyval q x := by
  have := Polynomial.eq_of_degrees_lt_of_eval_finset_eq (f := listPoly p) (g := listPoly q) ts
    (lt_of_lt_of_le (degree_listPoly_lt' p) (by rw [hp]; exact_mod_cast hts))
    (lt_of_lt_of_le (degree_listPoly_lt' q) (by rw [hq]; exact_mod_cast hts))
    (fun t ht => by rw [eval_listPoly, eval_listPoly]; exact h t ht)
  rw [← eval_listPoly, ← eval_listPoly, this]

/-- The fit of points on a polynomial curve with enough different abscissae is this curve. -/
theorem fit_curve {pf : PolyfitFn} (hpf : PolyfitSpec pf) {along across : Pt → ℝ} {cur : List Pt} {f : List ℝ} {order : ℕ}
    (hf : f.length = order + 1) (hon : ∀ p ∈ cur, across p = polyval f (along p)) (ts : Finset ℝ) (hts : order + 1 ≤ ts.card)
    (hcur : ∀ t ∈ ts, ∃ p ∈ cur, along p = t) (x : ℝ) :
    polyval (pf (cur.map along) (cur.map across) order) x = polyval f x := by
  have hne : cur ≠ [] := by
    obtain ⟨t, ht⟩ := Finset.card_pos.1 (by omega : 0 < ts.card)
    obtain ⟨p, hp, _⟩ := hcur t ht
    exact List.ne_nil_of_mem hp
  have hl : (cur.map along).length = (cur.map across).length := by simp
  have hne' : cur.map along ≠ [] := by simpa using hne
  have hz : (cur.map along).zip (cur.map across) = cur.map fun p => (along p, across p) := by rw [List.zip_map']
  refine polyval_unique (hpf.length _ _ _ hl hne') hf ts hts (fun t ht => ?_) x
  obtain ⟨p, hp, rfl⟩ := hcur t ht
  have := hpf.exact hl hne' hf (by
    rw [hz]
    intro r hr
    obtain ⟨p, hp, rfl⟩ := List.mem_map.1 hr
    exact (hon p hp).symm) (along p, across p) (by rw [hz]; exact List.mem_map.2 ⟨p, hp, rfl⟩)
  simp only at this
  rw [this, hon p hp]

end Discorpy
