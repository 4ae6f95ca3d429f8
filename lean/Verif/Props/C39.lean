import Verif.Lemmas.Search
import Verif.Lemmas.Array

/-! # C39, C65: the sideways search along a curve

`along` and `across` are the two coordinates: `x` and `y` for `_get_nearby_hor_points_iter`, `y` and `x` for
`_get_nearby_ver_points_iter`. -/

namespace Discorpy

/-- Invariant part of the search: windows, selection, origin of the added points. -/
structure SearchInv (pf : PolyfitFn) (along across : Pt → ℝ) (initial points : List Pt) (left right D residual : ℝ)
    (order : ℕ) (n : ℕ) (s : SearchState) : Prop where
  rCurr : s.rCurr = right + n * D
  rNext : s.rNext = right + (n + 1) * D
  lCurr : s.lCurr = left - n * D
  lNext : s.lNext = left - (n + 1) * D
  ne : s.selected ≠ []
  keep : ∀ p ∈ initial, p ∈ s.selected
  origin : ∀ p ∈ s.selected, p ∈ initial ∨ p ∈ points ∧ ∃ cur : List Pt, cur ≠ [] ∧ (∀ q ∈ initial, q ∈ cur) ∧
    (∀ q ∈ cur, q ∈ s.selected) ∧
    |across p - polyval (pf (cur.map along) (cur.map across) order) (along p)| ≤ residual
  shape : s.selected = initial ∨ s.selected.Nodup ∧ s.selected.Pairwise lexLe

theorem SearchInv.start (pf : PolyfitFn) (along across : Pt → ℝ) {initial : List Pt} (points : List Pt)
    (left right D residual : ℝ) (order : ℕ) (h : initial ≠ []) :
    SearchInv pf along across initial points left right D residual order 0 ⟨right, right + D, left, left - D, initial⟩ :=
  ⟨by simp, by simp, by simp, by simp, h, fun _ h => h, fun _ h => Or.inl h, Or.inl rfl⟩

theorem SearchInv.next {pf : PolyfitFn} {along across : Pt → ℝ} {initial points : List Pt}
    {left right D overlap residual : ℝ} {order n : ℕ} {s : SearchState}
    (h : SearchInv pf along across initial points left right D residual order n s)
    (hn : nearOf pf along across points overlap residual order s ≠ []) :
    SearchInv pf along across initial points left right D residual order (n + 1)
      (nextState D s (nearOf pf along across points overlap residual order s)) := by
  have hsub : ∀ p ∈ s.selected, p ∈ (nextState D s (nearOf pf along across points overlap residual order s)).selected :=
    fun p hp => mem_uniqueRows.2 (List.mem_append_left _ hp)
  refine ⟨?_, ?_, ?_, ?_, nextState_selected_ne hn, fun p hp => hsub p (h.keep p hp), ?_, Or.inr ⟨uniqueRows_nodup _, uniqueRows_sorted _⟩⟩
  · simp only [nextState]; rw [h.rNext]; push_cast; ring
  · simp only [nextState]; rw [h.rNext]; push_cast; ring
  · simp only [nextState]; rw [h.lNext]; push_cast; ring
  · simp only [nextState]; rw [h.lNext]; push_cast; ring
  · intro p hp
    rcases List.mem_append.1 (mem_uniqueRows.1 hp) with hp | hp
    · rcases h.origin p hp with h' | ⟨h1, cur, h2, h3, h4, h5⟩
      · exact Or.inl h'
      · exact Or.inr ⟨h1, cur, h2, h3, fun q hq => hsub q (h4 q hq), h5⟩
    · obtain ⟨h1, _, h3⟩ := mem_nearOf.1 hp
      exact Or.inr ⟨h1, s.selected, h.ne, h.keep, hsub, h3⟩

/-- **C39.** For every search distance, overlap ratio, residual and fit, and every non-empty start, the search ends with a
list that contains all initial points; every other point of it is an input point and was within the residual of the curve
fitted to an earlier selection. Once a point was added, the list is sorted and has no duplicates. It ended because no input
point in the next pair of windows was within the residual of the curve fitted to the final selection. -/
theorem C39_search (pf : PolyfitFn) (along across : Pt → ℝ) (initial points : List Pt) (hne : initial ≠ [])
    (left right D residual overlapRatio : ℝ) (order : ℕ) :
    ∃ sel, nearbyIter pf along across initial points left right D residual overlapRatio order = .ok sel ∧
      (∀ p ∈ initial, p ∈ sel) ∧
      (∀ p ∈ sel, p ∈ initial ∨ p ∈ points ∧ ∃ cur : List Pt, cur ≠ [] ∧ (∀ q ∈ initial, q ∈ cur) ∧ (∀ q ∈ cur, q ∈ sel) ∧
        |across p - polyval (pf (cur.map along) (cur.map across) order) (along p)| ≤ residual) ∧
      (sel = initial ∨ sel.Nodup ∧ sel.Pairwise fun p q => p.y < q.y ∨ p.y = q.y ∧ p.x ≤ q.x) ∧
      ∃ n : ℕ, ∀ p ∈ points, ∀ o, o = D * max 0 (min overlapRatio 1) →
        (right + n * D - o < along p ∧ along p ≤ right + (n + 1) * D + o) ∨
        (left - (n + 1) * D - o ≤ along p ∧ along p < left - n * D + o) →
        residual < |across p - polyval (pf (sel.map along) (sel.map across) order) (along p)| := by
  have hc0 : 0 ≤ clip overlapRatio 0 1 := clip_ge (by norm_num)
  have hclip : max 0 (min overlapRatio 1) = clip overlapRatio 0 1 := by
    rw [clip, max_min_distrib_left, max_comm, max_eq_right (by norm_num : (0 : ℝ) ≤ 1)]
  obtain ⟨m, sel, hrun⟩ := search_terminates (pf := pf) (along := along) (across := across) (points := points)
    (residual := residual) (order := order) hc0 ⟨right, right + D, left, left - D, initial⟩ hne rfl rfl
  have hok := whileLoop_eq hrun
  refine ⟨sel, hok, ?_⟩
  refine whileLoop_inv (fun s => ∃ n, SearchInv pf along across initial points left right D residual order n s)
    (fun sel => (∀ p ∈ initial, p ∈ sel) ∧
      (∀ p ∈ sel, p ∈ initial ∨ p ∈ points ∧ ∃ cur : List Pt, cur ≠ [] ∧ (∀ q ∈ initial, q ∈ cur) ∧ (∀ q ∈ cur, q ∈ sel) ∧
        |across p - polyval (pf (cur.map along) (cur.map across) order) (along p)| ≤ residual) ∧
      (sel = initial ∨ sel.Nodup ∧ sel.Pairwise fun p q => p.y < q.y ∨ p.y = q.y ∧ p.x ≤ q.x) ∧
      ∃ n : ℕ, ∀ p ∈ points, ∀ o, o = D * max 0 (min overlapRatio 1) →
        (right + n * D - o < along p ∧ along p ≤ right + (n + 1) * D + o) ∨
        (left - (n + 1) * D - o ≤ along p ∧ along p < left - n * D + o) →
        residual < |across p - polyval (pf (sel.map along) (sel.map across) order) (along p)|) ?_ ?_
    ⟨0, SearchInv.start pf along across points left right D residual order hne⟩ hok
  · rintro s s' ⟨n, h⟩ hst
    rw [searchStep_eq s h.ne] at hst
    split at hst
    · cases hst
    · rename_i hn
      injection hst with hst
      injection hst with hst
      subst hst
      exact ⟨n + 1, h.next hn⟩
  · rintro s b ⟨n, h⟩ hst
    rw [searchStep_eq s h.ne] at hst
    split at hst
    · rename_i hn
      injection hst with hst
      injection hst with hst
      subst hst
      refine ⟨h.keep, h.origin, h.shape, n, fun p hp o ho hw => ?_⟩
      by_contra hcon
      have : p ∈ nearOf pf along across points (D * clip overlapRatio 0 1) residual order s := by
        rw [mem_nearOf]
        refine ⟨hp, ?_, not_lt.1 hcon⟩
        rw [ho, hclip] at hw
        unfold InWindow
        rw [h.rCurr, h.rNext, h.lCurr, h.lNext]
        rcases hw with ⟨a, b⟩ | ⟨a, b⟩
        · exact Or.inl ⟨b, a⟩
        · exact Or.inr ⟨a, b⟩
      rw [hn] at this
      cases this
    · cases hst

/-- **C39** (zero or negative distance): nothing is searched. -/
theorem C39_nonpositive (pf : PolyfitFn) (along across : Pt → ℝ) (initial points : List Pt)
    (left right D residual overlapRatio : ℝ) (order : ℕ) (hD : D ≤ 0) :
    nearbyIter pf along across initial points left right D residual overlapRatio order = .ok initial := by
  classical
  have hc0 : 0 ≤ clip overlapRatio 0 1 := clip_ge (by norm_num)
  unfold nearbyIter
  simp only
  rw [whileLoop_unfold]
  have : searchStep pf along across points D (D * clip overlapRatio 0 1) residual order
      ⟨right, right + D, left, left - D, initial⟩ = .ok (.inr initial) := by
    unfold searchStep
    simp only
    rw [if_neg]
    rw [gt_iff_lt, List.length_pos_iff, not_not, List.filter_eq_nil_iff]
    intro p _
    rw [decide_eq_true_eq]
    exact not_inWindow (s := ⟨right, right + D, left, left - D, initial⟩) hc0 hD rfl rfl p
  rw [this]

example := C39_nonpositive refPolyfit Pt.x Pt.y [⟨0, 0⟩, ⟨0, 1⟩] [⟨0, 0⟩, ⟨0, 1⟩, ⟨0, 2⟩] 0 1 (-1) 0.5 0.5 1 (by norm_num)

/-- **C39** (empty start): without initial points the search returns at once, or `polyfit` rejects the empty data with
`TypeError`; it never runs on. -/
theorem C39_empty (pf : PolyfitFn) (along across : Pt → ℝ) (points : List Pt)
    (left right D residual overlapRatio : ℝ) (order : ℕ) :
    nearbyIter pf along across [] points left right D residual overlapRatio order = .ok [] ∨
    nearbyIter pf along across [] points left right D residual overlapRatio order = .error .typeError := by
  unfold nearbyIter
  simp only
  rw [whileLoop_unfold]
  unfold searchStep nearbyPoints
  simp only
  split_ifs
  · right; rfl
  · left; rfl

/-- **C65.** Recovery of a curve. The points are on a polynomial curve of the fitted order or farther from it than the
residual; the start consists of points of the curve with more different abscissae than the order and includes all of them
between `left` and `right`; going outwards, neighbouring points of the curve are at most the search distance apart. Then the
search returns exactly the points of the curve. -/
theorem C65_curve (pf : PolyfitFn) (hpf : PolyfitSpec pf) (along across : Pt → ℝ) (initial points : List Pt)
    (left right D residual overlapRatio : ℝ) (order : ℕ) (hD : 0 < D) (hres : 0 ≤ residual)
    (f : List ℝ) (hf : f.length = order + 1)
    (hsep : ∀ p ∈ points, across p = polyval f (along p) ∨ residual < |across p - polyval f (along p)|)
    (hinit : ∀ p ∈ initial, p ∈ points ∧ across p = polyval f (along p))
    (hinner : ∀ p ∈ points, across p = polyval f (along p) → left ≤ along p → along p ≤ right → p ∈ initial)
    (ts : Finset ℝ) (hts : order + 1 ≤ ts.card) (hdist : ∀ t ∈ ts, ∃ p ∈ initial, along p = t) 
    (hright : ∀ p ∈ points, across p = polyval f (along p) → right + D < along p → ∃ q ∈ points, across q = polyval f (along q) ∧ right < along q ∧ along q < along p ∧ along p - along q ≤ D)
    (hleft : ∀ p ∈ points, across p = polyval f (along p) → along p + D < left → ∃ q ∈ points, across q = polyval f (along q) ∧ along q < left ∧ along p < along q ∧ along q - along p ≤ D) :
    ∃ sel, nearbyIter pf along across initial points left right D residual overlapRatio order = .ok sel ∧
      ∀ p, p ∈ sel ↔ p ∈ points ∧ across p = polyval f (along p) := by
  have hc0 : 0 ≤ clip overlapRatio 0 1 := clip_ge (by norm_num)
  have ho : 0 ≤ D * clip overlapRatio 0 1 := mul_nonneg hD.le hc0
  have hne : initial ≠ [] := by
    obtain ⟨t, ht⟩ := Finset.card_pos.1 (by omega : 0 < ts.card)
    obtain ⟨p, hp, _⟩ := hdist t ht
    exact List.ne_nil_of_mem hp
  obtain ⟨m, sel, hrun⟩ := search_terminates (pf := pf) (along := along) (across := across) (points := points)
    (residual := residual) (order := order) hc0 ⟨right, right + D, left, left - D, initial⟩ hne rfl rfl
  have hok := whileLoop_eq hrun
  refine ⟨sel, hok, ?_⟩
  -- near the fit means on the curve
  have hnear : ∀ s : SearchState, (∀ p ∈ initial, p ∈ s.selected) → (∀ p ∈ s.selected, across p = polyval f (along p)) →
      ∀ p ∈ points, (NearFit pf along across s.selected residual order p ↔ across p = polyval f (along p)) := by
    intro s h1 h2 p hp
    unfold NearFit
    rw [fit_curve hpf hf h2 ts hts (fun t ht => by
      obtain ⟨q, hq, e⟩ := hdist t ht
      exact ⟨q, h1 q hq, e⟩)]
    constructor
    · intro h
      exact (hsep p hp).resolve_right (not_lt.2 h)
    · intro h
      rw [h, sub_self, abs_zero]; exact hres
  -- a point of the curve to the right of a position implies one within the distance
  have hgapR : ∀ u, right ≤ u → (∃ p ∈ points, across p = polyval f (along p) ∧ u < along p) →
      ∃ p ∈ points, across p = polyval f (along p) ∧ u < along p ∧ along p ≤ u + D := by
    rintro u hu ⟨p, hp, hpc, hpu⟩
    classical
    have hfin : ((points.filter fun p => decide (across p = polyval f (along p) ∧ u < along p)).map along) ≠ [] := by
      rw [Ne, List.map_eq_nil_iff]
      exact List.ne_nil_of_mem (a := p) (by rw [List.mem_filter, decide_eq_true_eq]; exact ⟨hp, hpc, hpu⟩)
    obtain ⟨v, hv, hmin⟩ := exists_min_mem hfin
    obtain ⟨q, hq, rfl⟩ := List.mem_map.1 hv
    rw [List.mem_filter, decide_eq_true_eq] at hq
    refine ⟨q, hq.1, hq.2.1, hq.2.2, ?_⟩
    by_contra hcon
    obtain ⟨q', h1, h2, h3, h4, h5⟩ := hright q hq.1 hq.2.1 (by linarith)
    have := hmin (along q') (List.mem_map.2 ⟨q', by rw [List.mem_filter, decide_eq_true_eq]; exact ⟨h1, h2, by linarith⟩, rfl⟩)
    linarith
  have hgapL : ∀ u, u ≤ left → (∃ p ∈ points, across p = polyval f (along p) ∧ along p < u) →
      ∃ p ∈ points, across p = polyval f (along p) ∧ along p < u ∧ u - D ≤ along p := by
    rintro u hu ⟨p, hp, hpc, hpu⟩
    classical
    have hfin : ((points.filter fun p => decide (across p = polyval f (along p) ∧ along p < u)).map along) ≠ [] := by
      rw [Ne, List.map_eq_nil_iff]
      exact List.ne_nil_of_mem (a := p) (by rw [List.mem_filter, decide_eq_true_eq]; exact ⟨hp, hpc, hpu⟩)
    obtain ⟨v, hv, hmax⟩ := exists_max_mem hfin
    obtain ⟨q, hq, rfl⟩ := List.mem_map.1 hv
    rw [List.mem_filter, decide_eq_true_eq] at hq
    refine ⟨q, hq.1, hq.2.1, hq.2.2, ?_⟩
    by_contra hcon
    obtain ⟨q', h1, h2, h3, h4, h5⟩ := hleft q hq.1 hq.2.1 (by linarith)
    have := hmax (along q') (List.mem_map.2 ⟨q', by rw [List.mem_filter, decide_eq_true_eq]; exact ⟨h1, h2, by linarith⟩, rfl⟩)
    linarith
  refine whileLoop_inv (fun s => ∃ n, SearchInv pf along across initial points left right D residual order n s ∧
      (∀ p ∈ s.selected, p ∈ points ∧ across p = polyval f (along p)) ∧
      ∀ p ∈ points, across p = polyval f (along p) → left - n * D ≤ along p → along p ≤ right + n * D → p ∈ s.selected)
    (fun sel => ∀ p, p ∈ sel ↔ p ∈ points ∧ across p = polyval f (along p)) ?_ ?_
    ⟨0, SearchInv.start pf along across points left right D residual order hne, hinit, by simpa using hinner⟩ hok
  · rintro s s' ⟨n, h, h1, h2⟩ hst
    rw [searchStep_eq s h.ne] at hst
    split at hst
    · cases hst
    · rename_i hn
      injection hst with hst
      injection hst with hst
      subst hst
      refine ⟨n + 1, h.next hn, fun p hp => ?_, fun p hp hpc hl hr => ?_⟩
      · rcases List.mem_append.1 (mem_uniqueRows.1 hp) with hp | hp
        · exact h1 p hp
        · obtain ⟨a, _, c⟩ := mem_nearOf.1 hp
          exact ⟨a, (hnear s h.keep (fun q hq => (h1 q hq).2) p a).1 c⟩
      · push_cast at hl hr
        refine mem_uniqueRows.2 (List.mem_append.2 ?_)
        by_cases hin : left - n * D ≤ along p ∧ along p ≤ right + n * D
        · exact Or.inl (h2 p hp hpc hin.1 hin.2)
        · right
          rw [mem_nearOf]
          refine ⟨hp, ?_, (hnear s h.keep (fun q hq => (h1 q hq).2) p hp).2 hpc⟩
          unfold InWindow
          rw [h.rCurr, h.rNext, h.lCurr, h.lNext]
          rw [not_and_or, not_le, not_le] at hin
          rcases hin with hin | hin
          · right; exact ⟨by linarith, by linarith⟩
          · left; exact ⟨by linarith, by linarith⟩
  · rintro s b ⟨n, h, h1, h2⟩ hst
    rw [searchStep_eq s h.ne] at hst
    split at hst
    · rename_i hn
      injection hst with hst
      injection hst with hst
      subst hst
      have hno : ∀ p ∈ points, across p = polyval f (along p) →
          ¬ InWindow along (D * clip overlapRatio 0 1) s p := by
        intro p hp hpc hw
        have : p ∈ nearOf pf along across points (D * clip overlapRatio 0 1) residual order s :=
          mem_nearOf.2 ⟨hp, hw, (hnear s h.keep (fun q hq => (h1 q hq).2) p hp).2 hpc⟩
        rw [hn] at this
        cases this
      have hnD : 0 ≤ (n : ℝ) * D := mul_nonneg (Nat.cast_nonneg n) hD.le
      refine fun p => ⟨h1 p, fun ⟨hp, hpc⟩ => h2 p hp hpc ?_ ?_⟩
      · by_contra hcon
        obtain ⟨q, hq, hqc, a, b⟩ := hgapL (left - n * D) (by linarith) ⟨p, hp, hpc, not_le.1 hcon⟩
        refine hno q hq hqc (Or.inr ?_)
        rw [h.lCurr, h.lNext]
        exact ⟨by linarith, by linarith⟩
      · by_contra hcon
        obtain ⟨q, hq, hqc, a, b⟩ := hgapR (right + n * D) (by linarith) ⟨p, hp, hpc, not_le.1 hcon⟩
        refine hno q hq hqc (Or.inl ?_)
        rw [h.rCurr, h.rNext]
        exact ⟨by linarith, by linarith⟩
    · cases hst

/-- Non-vacuity of `C65_curve`: the dots `(0, k)`, `k = 0 … 4`, of the line `y = 0` and a foreign dot; the search from the dots
0 and 1 with distance 1 finds the others. -/
example : ∃ sel, nearbyIter refPolyfit Pt.x Pt.y [⟨0, 0⟩, ⟨0, 1⟩]
    [⟨0, 0⟩, ⟨0, 1⟩, ⟨0, 2⟩, ⟨0, 3⟩, ⟨0, 4⟩, ⟨5, 2⟩] 0 1 1 0.5 0.5 1 = .ok sel ∧
    (⟨0, 4⟩ : Pt) ∈ sel ∧ (⟨5, 2⟩ : Pt) ∉ sel := by
  have hpv : ∀ t, polyval [0, 0] t = 0 := fun t => by simp [polyval]
  obtain ⟨sel, h, hm⟩ := C65_curve refPolyfit refPolyfit_spec Pt.x Pt.y [⟨0, 0⟩, ⟨0, 1⟩]
    [⟨0, 0⟩, ⟨0, 1⟩, ⟨0, 2⟩, ⟨0, 3⟩, ⟨0, 4⟩, ⟨5, 2⟩] 0 1 1 0.5 0.5 1 (by norm_num) (by norm_num) [0, 0] rfl
    (by intro p hp; simp only [List.mem_cons, List.not_mem_nil, or_false] at hp
        rcases hp with rfl | rfl | rfl | rfl | rfl | rfl <;> simp [hpv] <;> norm_num)
    (by intro p hp; simp only [List.mem_cons, List.not_mem_nil, or_false] at hp
        rcases hp with rfl | rfl <;> simp [hpv])
    (by intro p hp; simp only [List.mem_cons, List.not_mem_nil, or_false] at hp
        rcases hp with rfl | rfl | rfl | rfl | rfl | rfl <;> simp [hpv])
    {0, 1} (by simp)
    (by intro t ht; simp at ht; rcases ht with rfl | rfl <;> simp)
    (by intro p hp; simp only [List.mem_cons, List.not_mem_nil, or_false] at hp
        rcases hp with rfl | rfl | rfl | rfl | rfl | rfl <;> simp [hpv] <;> norm_num)
    (by intro p hp; simp only [List.mem_cons, List.not_mem_nil, or_false] at hp
        rcases hp with rfl | rfl | rfl | rfl | rfl | rfl <;> simp [hpv] <;> norm_num)
  refine ⟨sel, h, (hm _).2 ⟨by simp, by simp [hpv]⟩, fun h' => ?_⟩
  have := ((hm _).1 h').2
  simp [hpv] at this

end Discorpy
