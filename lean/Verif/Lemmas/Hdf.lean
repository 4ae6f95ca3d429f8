import Verif.Spec.Hdf
import Verif.Lemmas.Except
import Verif.Lemmas.Pattern

/-! # Lemmas about HDF files -/

namespace Discorpy

open Spec

theorem splitOn_append_cons' (a b : PyStr) (c : Char) (h : c ∉ a) : (a ++ c :: b).splitOn c = a :: b.splitOn c := by
  rw [List.splitOn_append_cons_self_of_not_mem h]

theorem splitOn_joinKey {cs : List PyStr} (h0 : cs ≠ []) (h : ∀ c ∈ cs, '/' ∉ c) : (joinKey cs).splitOn '/' = cs := by
  induction cs with
  | nil => exact absurd rfl h0
  | cons c r ih =>
    cases r with
    | nil =>
      simp only [joinKey, List.intercalate_singleton]
      exact List.splitOn_eq_singleton (h c (by simp))
    | cons d r =>
      have h1 : joinKey (c :: d :: r) = c ++ '/' :: joinKey (d :: r) := by simp [joinKey, List.intercalate_cons_cons]
      rw [h1, splitOn_append_cons' _ _ _ (h c (by simp)), ih (by simp) fun x hx => h x (List.mem_cons_of_mem _ hx)]

theorem joinKey_cons {cs : List PyStr} (h : cs ≠ []) (n : PyStr) : joinKey (n :: cs) = n ++ '/' :: joinKey cs := by
  cases cs with
  | nil => exact absurd rfl h
  | cons d r => simp [joinKey, List.intercalate_cons_cons]

theorem joinKey_append {cs : List PyStr} (h : cs ≠ []) (n : PyStr) : joinKey (cs ++ [n]) = joinKey cs ++ '/' :: n := by
  induction cs with
  | nil => exact absurd rfl h
  | cons d r ih =>
    by_cases hr : r = []
    · subst hr; simp [joinKey, List.intercalate_cons_cons]
    · rw [List.cons_append, joinKey_cons (by simp), ih hr, joinKey_cons hr]; simp

theorem filter_good {cs : List PyStr} (h : ∀ c ∈ cs, GoodName c) : cs.filter (fun c => c ≠ [] ∧ c ≠ ['.']) = cs := by
  rw [List.filter_eq_self]
  intro c hc
  have := h c hc
  simp only [ne_eq, decide_eq_true_eq]
  exact ⟨this.1, this.2.1⟩

theorem keyComps_join {cs : List PyStr} (h : ∀ c ∈ cs, GoodName c) : keyComps (joinKey cs) = cs := by
  by_cases h0 : cs = []
  · subst h0; decide
  · unfold keyComps
    rw [splitOn_joinKey h0 fun c hc => (h c hc).2.2, filter_good h]

theorem keyComps_slash_join {cs : List PyStr} (h : ∀ c ∈ cs, GoodName c) : keyComps ('/' :: joinKey cs) = cs := by
  by_cases h0 : cs = []
  · subst h0; decide
  · unfold keyComps
    have h1 := splitOn_append_cons' [] (joinKey cs) '/' (by simp)
    rw [List.nil_append] at h1
    rw [h1, splitOn_joinKey h0 fun c hc => (h c hc).2.2, List.filter_cons, if_neg (by simp), filter_good h]

theorem keyComps_keyTo {key : PyStr} {cs : List PyStr} (h : ∀ c ∈ cs, GoodName c) (hk : KeyTo key cs) : keyComps key = cs := by
  rcases hk with rfl | rfl
  · exact keyComps_join h
  · exact keyComps_slash_join h

theorem lookup_iff_mem {ch : List (PyStr × H5)} (h : (ch.map Prod.fst).Nodup) (n : PyStr) (c : H5) : ch.lookup n = some c ↔ (n, c) ∈ ch := by
  induction ch with
  | nil => simp
  | cons p r ih =>
    obtain ⟨m, d⟩ := p
    rw [List.map_cons, List.nodup_cons] at h
    rw [List.lookup_cons]
    by_cases hm : n = m
    · subst hm
      simp only [beq_self_eq_true, Option.some.injEq, List.mem_cons, Prod.mk.injEq, true_and]
      constructor
      · rintro rfl; exact .inl rfl
      · rintro (rfl | h2)
        · rfl
        · exact absurd (List.mem_map.2 ⟨_, h2, rfl⟩) h.1
    · have : (n == m) = false := by simpa using hm
      simp only [this, List.mem_cons, Prod.mk.injEq, hm, false_and, false_or]
      exact ih h.2

theorem wellFormed_child {ch : List (PyStr × H5)} (h : WellFormedH5 (.group ch)) {n : PyStr} {c : H5} (hc : (n, c) ∈ ch) : WellFormedH5 c :=
  fun cs ch' hn => h (n :: cs) ch' (.child hc hn)

theorem h5Find_iff {t : H5} (h : WellFormedH5 t) (cs : List PyStr) (x : H5) : h5Find t cs = some x ↔ NodeAt t cs x ∧ H5Object x := by
  induction cs generalizing t with
  | nil =>
    constructor
    · intro hx
      cases t <;> simp only [h5Find, Option.some.injEq, reduceCtorEq] at hx
      · subst hx; exact ⟨.here _, trivial⟩
      · subst hx; exact ⟨.here _, trivial⟩
    · rintro ⟨h1, h2⟩
      cases h1
      cases x
      · rfl
      · rfl
      · exact h2.elim
  | cons n r ih =>
    cases t with
    | dangling =>
      simp only [h5Find, reduceCtorEq, false_iff, not_and]
      intro h1; cases h1
    | dataset a d =>
      simp only [h5Find, reduceCtorEq, false_iff, not_and]
      intro h1; cases h1
    | group ch =>
      have hnd := (h [] ch (.here _)).1
      have hl := lookup_iff_mem hnd n
      rw [h5Find]
      constructor
      · intro hx
        cases hc : ch.lookup n with
        | none => rw [hc] at hx; exact absurd hx (by simp)
        | some c =>
          rw [hc] at hx
          have hm := (hl c).1 hc
          obtain ⟨h1, h2⟩ := (ih (wellFormed_child h hm)).1 hx
          exact ⟨.child hm h1, h2⟩
      · rintro ⟨h1, h2⟩
        cases h1 with
        | child hm h3 =>
          rw [(hl _).2 hm]
          exact (ih (wellFormed_child h hm)).2 ⟨h3, h2⟩

theorem nodeAt_goodNames {t : H5} (h : WellFormedH5 t) {cs : List PyStr} {x : H5} (hn : NodeAt t cs x) : ∀ c ∈ cs, GoodName c := by
  induction hn with
  | here => simp
  | @child ch n c t r hm _ ih =>
    intro d hd
    rcases List.mem_cons.1 hd with rfl | hd
    · exact (h [] ch (.here _)).2 _ hm
    · exact ih (wellFormed_child h hm) d hd

theorem nodeAt_append {t : H5} {cs : List PyStr} {ch : List (PyStr × H5)} (h : NodeAt t cs (.group ch)) {n : PyStr} {c : H5} (hm : (n, c) ∈ ch) :
    NodeAt t (cs ++ [n]) c := by
  generalize hg : H5.group ch = g at h
  induction h with
  | here => subst hg; exact .child hm (.here _)
  | child h1 _ ih => exact .child h1 (ih hg)

theorem nodeAt_unique {t : H5} (h : WellFormedH5 t) {cs : List PyStr} {x y : H5} (hx : NodeAt t cs x) (hy : NodeAt t cs y) : x = y := by
  induction hx with
  | here => cases hy; rfl
  | @child ch n c t r hm _ ih =>
    cases hy with
    | child hm' h' =>
      have hnd := (h [] ch (.here _)).1
      have h1 := (lookup_iff_mem hnd n _).2 hm
      rw [(lookup_iff_mem hnd n _).2 hm', Option.some.injEq] at h1
      subst h1
      exact ih (wellFormed_child h hm) h'

theorem nodeAt_dropLast {t : H5} {cs : List PyStr} {x : H5} (h : NodeAt t cs x) (h0 : cs ≠ []) :
    ∃ ch, NodeAt t cs.dropLast (.group ch) ∧ (cs.getLast h0, x) ∈ ch := by
  induction h with
  | here => exact absurd rfl h0
  | @child ch n c t r hm hr ih =>
    by_cases hr0 : r = []
    · subst hr0
      cases hr
      exact ⟨ch, .here _, hm⟩
    · obtain ⟨ch', h1, h2⟩ := ih hr0
      refine ⟨ch', ?_, ?_⟩
      · rw [List.dropLast_cons_of_ne_nil hr0]; exact .child hm h1
      · rw [List.getLast_cons hr0]; exact h2

theorem h5Get_iff {f : H5File} (h : WellFormedH5 (.group f)) {key : PyStr} {cs : List PyStr} (hg : ∀ c ∈ cs, GoodName c) (hk : KeyTo key cs)
    (x : H5) : h5Get f key = some x ↔ NodeAt (.group f) cs x ∧ H5Object x := by
  rw [h5Get, keyComps_keyTo hg hk]
  exact h5Find_iff h cs x

mutual
theorem mem_h5VisitNode (path : List PyStr) (t : H5) (q : List PyStr × H5) :
    q ∈ h5VisitNode path t ↔ ∃ cs, q.1 = path ++ cs ∧ NodeAt t cs q.2 ∧ H5Object q.2 := by
  match t with
  | .dataset a d =>
    rw [h5VisitNode, List.mem_singleton]
    constructor
    · rintro rfl; exact ⟨[], by simp, .here _, trivial⟩
    · rintro ⟨cs, h1, h2, -⟩
      obtain ⟨q1, q2⟩ := q
      simp only at h1 h2
      cases h2
      rw [h1, List.append_nil]
  | .dangling =>
    rw [h5VisitNode]
    simp only [List.not_mem_nil, false_iff, not_exists, not_and]
    intro cs _ h2 h3
    obtain ⟨q1, q2⟩ := q
    simp only at h2 h3
    cases h2
    exact h3
  | .group ch =>
    rw [h5VisitNode, List.mem_cons, mem_h5VisitMembers path ch q]
    constructor
    · rintro (rfl | ⟨n, c, cs, hm, h1, h2, h3⟩)
      · exact ⟨[], by simp, .here _, trivial⟩
      · exact ⟨n :: cs, h1, .child hm h2, h3⟩
    · rintro ⟨cs, h1, h2, h3⟩
      obtain ⟨q1, q2⟩ := q
      simp only at h1 h2 h3
      cases h2 with
      | here => left; rw [h1, List.append_nil]
      | child hm h4 => right; exact ⟨_, _, _, hm, h1, h4, h3⟩
theorem mem_h5VisitMembers (path : List PyStr) (ch : List (PyStr × H5)) (q : List PyStr × H5) :
    q ∈ h5VisitMembers path ch ↔ ∃ n c cs, (n, c) ∈ ch ∧ q.1 = path ++ n :: cs ∧ NodeAt c cs q.2 ∧ H5Object q.2 := by
  match ch with
  | [] => simp [h5VisitMembers]
  | (m, d) :: r =>
    rw [h5VisitMembers, List.mem_append, mem_h5VisitNode (path ++ [m]) d q, mem_h5VisitMembers path r q]
    constructor
    · rintro (⟨cs, h1, h2, h3⟩ | ⟨n, c, cs, hm, h1, h2, h3⟩)
      · exact ⟨m, d, cs, by simp, by rw [h1]; simp, h2, h3⟩
      · exact ⟨n, c, cs, List.mem_cons_of_mem _ hm, h1, h2, h3⟩
    · rintro ⟨n, c, cs, hm, h1, h2, h3⟩
      rcases List.mem_cons.1 hm with he | hm
      · cases he
        left; exact ⟨cs, by rw [h1]; simp, h2, h3⟩
      · right; exact ⟨n, c, cs, hm, h1, h2, h3⟩
end

theorem mem_h5Visit {f : H5File} (key : PyStr) :
    key ∈ h5Visit f ↔ ∃ cs x, cs ≠ [] ∧ key = joinKey cs ∧ NodeAt (.group f) cs x ∧ H5Object x := by
  unfold h5Visit
  rw [List.mem_map]
  constructor
  · rintro ⟨q, hq, rfl⟩
    obtain ⟨n, c, cs, hm, h1, h2, h3⟩ := (mem_h5VisitMembers [] f q).1 hq
    rw [h1]
    exact ⟨n :: cs, q.2, by simp, rfl, .child hm h2, h3⟩
  · rintro ⟨cs, x, h0, rfl, h1, h2⟩
    refine ⟨(cs, x), (mem_h5VisitMembers [] f _).2 ?_, rfl⟩
    cases h1 with
    | here => exact absurd rfl h0
    | child hm h3 => exact ⟨_, _, _, hm, rfl, h3, h2⟩

theorem strIn_iff (p s : PyStr) : strIn p s = true ↔ p <:+: s := by
  unfold strIn
  rw [List.any_eq_true]
  constructor
  · rintro ⟨x, hx, hp⟩
    rw [List.mem_tails] at hx
    rw [List.isPrefixOf_iff_prefix] at hp
    exact hp.isInfix.trans hx.isInfix
  · rintro ⟨a, b, rfl⟩
    exact ⟨p ++ b, by rw [List.mem_tails]; exact ⟨a, by simp⟩, by rw [List.isPrefixOf_iff_prefix]; exact ⟨b, rfl⟩⟩

theorem clampAxis_eq (axis : ℤ) : (max 0 (min axis 2)).toNat = clampAxis axis := by
  unfold clampAxis
  split_ifs <;> omega

theorem clampAxis_cases (axis : ℤ) : clampAxis axis = 0 ∨ clampAxis axis = 1 ∨ clampAxis axis = 2 := by
  unfold clampAxis
  split_ifs <;> simp

theorem h5IntIndex_means {n k : ℕ} {i : ℤ} (h : IndexMeans n i k) : h5IntIndex n i = .ok k := by
  obtain ⟨h1, rfl | rfl⟩ := h
  · unfold h5IntIndex
    rw [if_pos ⟨by omega, by omega⟩]
    simp
  · unfold h5IntIndex
    rw [if_neg (by omega), if_pos (by omega)]
    congr 1
    omega

theorem pairwise_rangeList (start stop : ℤ) {step : ℤ} (hs : 0 < step) : (rangeList start stop step).Pairwise (· < ·) := by
  unfold rangeList
  rw [List.pairwise_map]
  refine List.pairwise_lt_range.imp fun {a b} h => ?_
  have : (a : ℤ) < b := by exact_mod_cast h
  nlinarith

theorem rangeList_eq_of {start stop step : ℤ} (hs : 0 < step) {ks : List ℕ} (h1 : ks.Pairwise (· < ·))
    (h2 : ∀ x : ℤ, x ∈ ks.map Int.ofNat ↔ start ≤ x ∧ x < stop ∧ step ∣ x - start) : rangeList start stop step = ks.map Int.ofNat := by
  refine (pairwise_rangeList start stop hs).eq_of_mem_iff ?_ fun x => ?_
  · rw [List.pairwise_map]
    exact h1.imp fun h => by simpa using h
  · rw [h2, mem_rangeList hs]
    constructor
    · rintro ⟨k, h3, rfl⟩
      exact ⟨by nlinarith [Int.natCast_nonneg k], h3, ⟨k, by ring⟩⟩
    · rintro ⟨h3, h4, ⟨c, hc⟩⟩
      have hc0 : 0 ≤ c := by
        by_contra hneg
        push Not at hneg
        nlinarith
      refine ⟨c.toNat, ?_, ?_⟩ <;> rw [Int.toNat_of_nonneg hc0] <;> nlinarith

theorem hdfIndexList_means {l : List ℤ} {ks : List ℕ} (h : IndicesMean l ks) : hdfIndexList l = .ok (ks.map Int.ofNat) := by
  unfold IndicesMean at h
  unfold hdfIndexList
  split at h
  · simp only [pyRange]
    rw [if_neg one_ne_zero, rangeList_eq_of one_pos h.1 fun x => by rw [h.2]; simp]
  · simp only [pyRange]
    rw [if_neg h.1.ne', rangeList_eq_of h.1 h.2.1 h.2.2]
  · rename_i h3 h4
    rw [← h]
    split
    · exact absurd rfl (h4 _ _ _)
    · exact absurd rfl (h3 _ _)
    · rfl

end Discorpy
