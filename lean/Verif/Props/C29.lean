import Verif.Lemmas.Grouping

/-! # C29, C30, C31, C64: grouping dots into lines -/

namespace Discorpy

open Spec

/-- **C29.** Whatever the (unstable) sort does with ties: the dots of all returned lines are a sub-multiset of the input
dots; each line has at least two dots, goes from left to right, and each dot is on a line with the dot before it.
Termination is part of the model: `groupLoop` is accepted because every turn removes a dot. -/
theorem C29_lines (argsort : List ℝ → List ℕ) (hs : ArgsortSpec argsort) (dots : List Pt)
    (slope dist ratio miss acc : ℝ) (lines : List (List Pt))
    (h : groupDotsHor argsort dots slope dist ratio miss acc = .ok lines) :
    lines.flatten.Subperm dots ∧
    ∀ l ∈ lines, 2 ≤ l.length ∧ l.Pairwise (fun p q => p.x ≤ q.x) ∧ l.IsChain (OnLine slope dist ratio miss) := by
  classical
  obtain ⟨_, _, n, _, rfl⟩ := groupDotsHor_ok h
  have hsub := groupLoop_subperm (checkDotOnLine slope dist ratio miss) (fancyIndex dots (argsort (dots.map Pt.x)))
  have hl := groupLoop_lines (checkDotOnLine slope dist ratio miss) (fancyIndex dots (argsort (dots.map Pt.x)))
  constructor
  · refine ((sortLines_perm _ _).flatten.subperm).trans ?_
    refine (List.Sublist.flatten List.filter_sublist).subperm.trans ?_
    exact hsub.trans (hs.fancy_perm dots Pt.x).subperm
  · intro l hl'
    have hm := List.mem_of_mem_filter ((sortLines_perm _ _).mem_iff.1 hl')
    obtain ⟨h1, h2, h3⟩ := hl l hm
    refine ⟨h2, (hs.fancy_sorted dots Pt.x).sublist h1, ?_⟩
    exact h3.imp fun p q hpq => (checkDotOnLine_iff _ _ _ _ _ _).1 hpq

/-- **C29** (outcome): the only failure is `ValueError`, exactly when no two of the dots are on a line (in particular for
fewer than two dots). -/
theorem C29_outcome (argsort : List ℝ → List ℕ) (hs : ArgsortSpec argsort) (dots : List Pt)
    (slope dist ratio miss acc : ℝ) :
    (groupDotsHor argsort dots slope dist ratio miss acc = .error .valueError ↔
      dots.Pairwise fun p q => ¬ OnLine slope dist ratio miss p q) ∧
    (groupDotsHor argsort dots slope dist ratio miss acc = .error .valueError ∨
      ∃ lines, groupDotsHor argsort dots slope dist ratio miss acc = .ok lines) := by
  have hnil : allLines argsort dots slope dist ratio miss = [] ↔ dots.Pairwise fun p q => ¬ OnLine slope dist ratio miss p q := by
    unfold allLines
    rw [groupLoop_nil_iff]
    have e : (fun p q => checkDotOnLine slope dist ratio miss p q = false) = fun p q => ¬ OnLine slope dist ratio miss p q := by
      funext p q
      rw [← checkDotOnLine_iff]
      simp
    rw [e]
    exact (hs.fancy_perm dots Pt.x).pairwise_iff fun {_ _} h h' => h (onLine_symm h')
  by_cases hG : allLines argsort dots slope dist ratio miss = []
  · have := (groupDotsHor_eq (acc := acc)).1 hG
    exact ⟨⟨fun _ => hnil.1 hG, fun _ => this⟩, Or.inl this⟩
  · obtain ⟨n, _, e⟩ := (groupDotsHor_eq (acc := acc)).2 (allLines_ne_dots hG) hG
    refine ⟨⟨fun h => ?_, fun h => absurd (hnil.2 h) hG⟩, Or.inr ⟨_, e⟩⟩
    rw [e] at h
    cases h

/-- **C29** (array argument): an image stands for its dot centroids, a two-column array for its rows. -/
theorem C29_array (centroids : Mat ℝ → List Pt) (m : Mat ℝ) :
    (2 < m.width → centroids m ≠ [] → dotsOfArray centroids m = .ok (centroids m)) ∧
    (2 < m.width → centroids m = [] → dotsOfArray centroids m = .error .indexError) ∧
    (m.width = 2 → 0 < m.height → ∃ dots, dotsOfArray centroids m = .ok dots ∧ dots.length = m.height ∧
      ∀ (i : ℕ) (p : Pt), dots[i]? = some p → p = ⟨m.get i 0, m.get i 1⟩) ∧
    (m.width ≤ 2 → m.height = 0 → dotsOfArray centroids m = .error .valueError) := by
  unfold dotsOfArray
  refine ⟨fun h h' => by rw [if_pos h, if_neg h'], fun h h' => by rw [if_pos h, if_pos h'], fun h h' => ?_, fun h h' => ?_⟩
  · rw [if_neg (by omega), if_neg (by omega), if_pos h]
    refine ⟨_, rfl, by simp, fun i p hp => ?_⟩
    rw [List.getElem?_map, Option.map_eq_some_iff] at hp
    obtain ⟨k, hk, rfl⟩ := hp
    rw [List.getElem?_range (by
      by_contra hn
      rw [List.getElem?_eq_none (by simpa using hn)] at hk
      cases hk), Option.some_inj] at hk
    rw [hk]
  · rw [if_neg (by omega), if_pos h']

/-- **C30.** The returned lines are those lines found with `accepted_ratio = 0` that have more than
`accepted_ratio · longest` dots, ordered by mean `y`. -/
theorem C30_accepted (argsort : List ℝ → List ℕ) (dots : List Pt) (slope dist ratio miss acc : ℝ)
    (lines : List (List Pt)) (h : groupDotsHor argsort dots slope dist ratio miss acc = .ok lines) :
    ∃ found longest, groupDotsHor argsort dots slope dist ratio miss 0 = .ok found ∧ IsLongest found longest ∧
      (open Classical in lines.Perm (found.filter fun l => decide (acc * longest < l.length))) ∧
      lines.Pairwise fun a b => meanY a ≤ meanY b := by
  classical
  obtain ⟨hne, hG, n, hn, rfl⟩ := groupDotsHor_ok h
  obtain ⟨n', hn', e⟩ := (groupDotsHor_eq (acc := 0)).2 hne hG
  have hall : (allLines argsort dots slope dist ratio miss).filter (fun l => decide ((0 : ℝ) * n' < l.length)) =
      allLines argsort dots slope dist ratio miss := by
    rw [List.filter_eq_self]
    intro l hl
    have := (groupLoop_lines _ _ l hl).2.1
    have : (0 : ℝ) < l.length := by exact_mod_cast (by omega : 0 < l.length)
    simpa using this
  rw [hall] at e
  have hp := sortLines_perm Pt.y (allLines argsort dots slope dist ratio miss)
  refine ⟨_, n, e, ⟨?_, fun l hl => hn.2 l (hp.mem_iff.1 hl)⟩, ?_, sortLines_sorted _ _⟩
  · obtain ⟨l, hl, hl'⟩ := hn.1
    exact ⟨l, hp.mem_iff.2 hl, hl'⟩
  · exact (sortLines_perm _ _).trans (hp.symm.filter _)

/-- **C30** (documented contract violated): `accepted_ratio ≥ 1` returns no line at all, and a line with exactly
`accepted_ratio · longest` dots is dropped although the documentation says "equal to or larger". -/
theorem C30_ratio_one (argsort : List ℝ → List ℕ) (dots : List Pt) (slope dist ratio miss acc : ℝ)
    (lines : List (List Pt)) (h : groupDotsHor argsort dots slope dist ratio miss acc = .ok lines) :
    (1 ≤ acc → lines = []) ∧
    ∀ found longest, groupDotsHor argsort dots slope dist ratio miss 0 = .ok found → IsLongest found longest →
      ∀ l ∈ lines, (l.length : ℝ) ≠ acc * longest := by
  classical
  obtain ⟨found, longest, hf, hl, hp, _⟩ := C30_accepted argsort dots slope dist ratio miss acc lines h
  have key : ∀ l ∈ lines, acc * longest < l.length ∧ l ∈ found := by
    intro l hm
    have := hp.mem_iff.1 hm
    rw [List.mem_filter] at this
    exact ⟨by simpa using this.2, this.1⟩
  constructor
  · intro hacc
    rw [List.eq_nil_iff_forall_not_mem]
    intro l hm
    obtain ⟨h1, h2⟩ := key l hm
    have h3 : (l.length : ℝ) ≤ longest := by exact_mod_cast hl.2 l h2
    have h4 : (0 : ℝ) ≤ longest := Nat.cast_nonneg _
    nlinarith
  · intro found' longest' hf' hl' l hm he
    rw [hf] at hf'
    cases hf'
    have : longest = longest' := by
      obtain ⟨⟨a, ha, rfl⟩, h1⟩ := hl
      obtain ⟨⟨b, hb, rfl⟩, h2⟩ := hl'
      exact le_antisymm (h2 a ha) (h1 b hb)
    subst this
    have := (key l hm).1
    rw [he] at this
    exact lt_irrefl _ this

theorem meanOf_flip (l : List Pt) : meanOf Pt.x (l.map flipPt) = meanOf Pt.y l := by
  simp [meanOf, flipPt, List.map_map, Function.comp_def]

/-- **C31.** Vertical grouping is horizontal grouping of the swapped dots, swapped back. -/
theorem C31_vertical (argsort : List ℝ → List ℕ) (dots : List Pt) (slope dist ratio miss acc : ℝ) :
    groupDotsVer argsort dots slope dist ratio miss acc =
      (groupDotsHor argsort (dots.map swapPt) slope dist ratio miss acc).map swapLines := by
  classical
  have hf : flipPt = swapPt := rfl
  have hlen : ∀ L : List (List Pt), lineLengths (L.map fun l => l.map swapPt) = lineLengths L := by
    intro L; simp [lineLengths, List.map_map, Function.comp_def]
  have hmerge : ∀ L : List (List Pt), sortLines Pt.x (L.map fun l => l.map swapPt) =
      (sortLines Pt.y L).map fun l => l.map swapPt := by
    intro L
    unfold sortLines
    rw [List.map_mergeSort]
    intro a _ b _
    rw [← hf, meanOf_flip, meanOf_flip]
  unfold groupDotsVer groupDotsHor
  by_cases h : dots = []
  · subst h; simp [Except.map]
  · rw [if_neg h, if_neg (by simpa using h), hf]
    simp only [hlen]
    cases hm : npMax (lineLengths (groupLoop (checkDotOnLine slope dist ratio miss)
      (fancyIndex (dots.map swapPt) (argsort ((dots.map swapPt).map Pt.x))))) with
    | error e => simp [Except.map]
    | ok n =>
      simp only [ok_bind, Except.map, swapLines]
      rw [← hmerge]
      congr 2
      rw [List.filter_map]
      congr 1
      simp [Function.comp_def]

/-- **C64.** If dots can be labelled by rows such that a dot is never on a line with dots of other rows up to the next dot of its row, dots
next to each other in a row always are, and no two dots of a row have the same `x`, then the returned lines are whole rows sorted by `x`,
no row twice, and every row of at least two dots that is long enough is returned. -/
theorem C64_rows {ι : Type} [DecidableEq ι] (argsort : List ℝ → List ℕ) (hs : ArgsortSpec argsort) (dots : List Pt)
    (slope dist ratio miss acc : ℝ) (row : Pt → ι)
    (hsep : ∀ p ∈ dots, ∀ q ∈ dots, p.x ≤ q.x → OnLine slope dist ratio miss p q →
      row p = row q ∨ ∃ r ∈ dots, row r = row p ∧ p.x < r.x ∧ r.x < q.x)
    (hnext : ∀ p ∈ dots, ∀ q ∈ dots, row p = row q → p.x < q.x →
      (∀ r ∈ dots, row r = row p → ¬ (p.x < r.x ∧ r.x < q.x)) → OnLine slope dist ratio miss p q)
    (hx : dots.Pairwise fun p q => row p = row q → p.x ≠ q.x)
    (htwo : ∃ r, 2 ≤ (dots.filter fun p => decide (row p = r)).length) :
    ∃ lines longest, groupDotsHor argsort dots slope dist ratio miss acc = .ok lines ∧
      (∀ r, (dots.filter fun p => decide (row p = r)).length ≤ longest) ∧
      (∃ r, (dots.filter fun p => decide (row p = r)).length = longest) ∧
      (∀ l ∈ lines, ∃ r, l.Perm (dots.filter fun p => decide (row p = r)) ∧ l.Pairwise (fun p q => p.x < q.x)) ∧
      (∀ r, 2 ≤ (dots.filter fun p => decide (row p = r)).length →
        acc * longest < (dots.filter fun p => decide (row p = r)).length →
        ∃ l ∈ lines, l.Perm (dots.filter fun p => decide (row p = r))) ∧
      lines.Pairwise (fun a b => ∀ p ∈ a, ∀ q ∈ b, row p ≠ row q) ∧
      lines.Pairwise fun a b => meanY a ≤ meanY b := by
  classical
  obtain ⟨left, hleft⟩ : ∃ left, left = fancyIndex dots (argsort (dots.map Pt.x)) := ⟨_, rfl⟩
  have hperm : left.Perm dots := by rw [hleft]; exact hs.fancy_perm dots Pt.x
  have hsorted : left.Pairwise (fun p q => p.x ≤ q.x) := by rw [hleft]; exact hs.fancy_sorted dots Pt.x
  have hxl : left.Pairwise fun p q => row p = row q → p.x ≠ q.x :=
    (hperm.pairwise_iff fun {a b} h h' => (h h'.symm).symm).2 hx
  have hstrict : ∀ r, (left.filter fun p => decide (row p = r)).Pairwise fun p q => p.x < q.x := by
    intro r
    have h1 := (hsorted.and hxl).filter (fun p => decide (row p = r))
    refine h1.imp_of_mem ?_
    intro p q hp hq hpq
    rw [List.mem_filter, decide_eq_true_eq] at hp hq
    exact lt_of_le_of_ne hpq.1 (hpq.2 (hp.2.trans hq.2.symm))
  have hchain : ∀ r, List.IsChain (fun p q => checkDotOnLine slope dist ratio miss p q = true)
      (left.filter fun p => decide (row p = r)) := by
    intro r
    apply isChain_of_gaps (hstrict r)
    intro p hp q hq hlt hno
    rw [List.mem_filter, decide_eq_true_eq] at hp hq
    rw [checkDotOnLine_iff]
    refine hnext p (hperm.mem_iff.1 hp.1) q (hperm.mem_iff.1 hq.1) (hp.2.trans hq.2.symm) hlt ?_
    intro t ht htr
    exact hno t (List.mem_filter.2 ⟨hperm.mem_iff.2 ht, by simpa using htr.trans hp.2⟩)
  obtain ⟨rows, g1, g2, g3⟩ := groupLoop_rows (checkDotOnLine slope dist ratio miss) row left hsorted
    (fun p hp q hq hpq h => (hsep p (hperm.mem_iff.1 hp) q (hperm.mem_iff.1 hq) hpq ((checkDotOnLine_iff _ _ _ _ _ _).1 h)).imp_right
      fun ⟨r, hr, h'⟩ => ⟨r, hperm.mem_iff.2 hr, h'⟩) hchain
  have hrowperm : ∀ r, (left.filter fun p => decide (row p = r)).Perm (dots.filter fun p => decide (row p = r)) :=
    fun r => hperm.filter _
  have hall : allLines argsort dots slope dist ratio miss = rows.map fun r => left.filter fun p => decide (row p = r) := by
    unfold allLines; rw [← hleft, g2]
  obtain ⟨r0, hr0⟩ := htwo
  have hr0' : r0 ∈ rows := (g3 r0).2 (by rw [(hrowperm r0).length_eq]; exact hr0)
  have hG : allLines argsort dots slope dist ratio miss ≠ [] := by
    rw [hall]
    intro h
    rw [List.map_eq_nil_iff] at h
    rw [h] at hr0'
    cases hr0'
  obtain ⟨n, hn, e⟩ := (groupDotsHor_eq (acc := acc)).2 (allLines_ne_dots hG) hG
  refine ⟨_, n, e, ?_, ?_, ?_, ?_, ?_, sortLines_sorted _ _⟩
  · intro r
    by_cases h : 2 ≤ (dots.filter fun p => decide (row p = r)).length
    · have : r ∈ rows := (g3 r).2 (by rw [(hrowperm r).length_eq]; exact h)
      have := hn.2 (left.filter fun p => decide (row p = r)) (by rw [hall]; exact List.mem_map.2 ⟨r, this, rfl⟩)
      rwa [(hrowperm r).length_eq] at this
    · have := hn.2 (left.filter fun p => decide (row p = r0)) (by rw [hall]; exact List.mem_map.2 ⟨r0, hr0', rfl⟩)
      rw [(hrowperm r0).length_eq] at this
      omega
  · obtain ⟨l, hl, hl'⟩ := hn.1
    rw [hall] at hl
    obtain ⟨r, _, rfl⟩ := List.mem_map.1 hl
    exact ⟨r, by rw [← hl', (hrowperm r).length_eq]⟩
  · intro l hl
    have hm := List.mem_of_mem_filter ((sortLines_perm _ _).mem_iff.1 hl)
    rw [hall] at hm
    obtain ⟨r, _, rfl⟩ := List.mem_map.1 hm
    exact ⟨r, hrowperm r, hstrict r⟩
  · intro r h2 hacc
    have hr : r ∈ rows := (g3 r).2 (by rw [(hrowperm r).length_eq]; exact h2)
    refine ⟨left.filter fun p => decide (row p = r), (sortLines_perm _ _).mem_iff.2 (List.mem_filter.2 ⟨?_, ?_⟩), hrowperm r⟩
    · rw [hall]; exact List.mem_map.2 ⟨r, hr, rfl⟩
    · rw [(hrowperm r).length_eq]; simpa using hacc
  · refine ((sortLines_perm _ _).pairwise_iff ?_).2 ?_
    · intro a b h p hp q hq h'
      exact h q hq p hp h'.symm
    · apply List.Pairwise.filter
      rw [hall, List.pairwise_map]
      refine g1.imp ?_
      intro r r' hne p hp q hq h
      rw [List.mem_filter, decide_eq_true_eq] at hp hq
      exact hne (hp.2.symm.trans (h.trans hq.2))

/-- Two rows: three dots at height 0, two at height 10. -/
def twoRows : List Pt := [⟨0, 20⟩, ⟨10, 0⟩, ⟨0, 0⟩, ⟨10, 10⟩, ⟨0, 10⟩]

/-- Non-vacuity of C64, C29, C30: both rows are found (ratio 0.3 of distance 10, up to six missing dots). -/
example : ∃ lines, groupDotsHor refArgsort twoRows 0 10 0.3 6 0.65 = .ok lines ∧
    ∃ l ∈ lines, l.Perm [⟨10, 0⟩, ⟨10, 10⟩] := by
  classical
  have hon : ∀ p q : Pt, OnLine 0 10 0.3 6 p q ↔ |q.x - p.x| < 60 ∧ |q.y - p.y| < 3 := by
    intro p q
    unfold OnLine
    norm_num [abs_neg]
    intro _
    rw [abs_sub_comm]
  have hmem : ∀ p ∈ twoRows, (p.y = 0 ∨ p.y = 10) ∧ 0 ≤ p.x ∧ p.x ≤ 20 := by
    intro p hp
    simp only [twoRows, List.mem_cons, List.not_mem_nil, or_false] at hp
    rcases hp with rfl | rfl | rfl | rfl | rfl <;> norm_num
  have f0 : twoRows.filter (fun p => decide (p.y = (0 : ℝ))) = [⟨0, 20⟩, ⟨0, 0⟩, ⟨0, 10⟩] := by
    norm_num [twoRows, List.filter]
  have f1 : twoRows.filter (fun p => decide (p.y = (10 : ℝ))) = [⟨10, 0⟩, ⟨10, 10⟩] := by
    norm_num [twoRows, List.filter]
  obtain ⟨lines, longest, h, _, ⟨r, hr⟩, _, hall, _⟩ := C64_rows refArgsort refArgsort_spec twoRows 0 10 0.3 6 0.65 Pt.y
    (by
      intro p hp q hq _ h
      left
      rw [hon] at h
      obtain ⟨hp1, _⟩ := hmem p hp
      obtain ⟨hq1, _⟩ := hmem q hq
      rcases hp1 with e | e <;> rcases hq1 with e' | e' <;> simp only [e, e'] at h ⊢ <;> norm_num at h)
    (by
      intro p hp q hq e _ _
      rw [hon]
      obtain ⟨_, h1, h2⟩ := hmem p hp
      obtain ⟨_, h3, h4⟩ := hmem q hq
      rw [e]
      refine ⟨?_, by norm_num⟩
      rw [abs_lt]; constructor <;> linarith)
    (by norm_num [twoRows])
    ⟨10, by rw [f1]; simp⟩
  refine ⟨lines, h, ?_⟩
  have hl : longest ≤ 3 := by
    rw [← hr]
    by_cases h0 : r = 0
    · subst h0; rw [f0]; simp
    · by_cases h1 : r = 10
      · subst h1; rw [f1]; simp
      · have : twoRows.filter (fun p => decide (p.y = r)) = [] := by
          rw [List.filter_eq_nil_iff]
          intro p hp
          rcases (hmem p hp).1 with e | e <;> simp [e, Ne.symm h0, Ne.symm h1]
        rw [this]; simp
  have hl' : (longest : ℝ) ≤ 3 := by exact_mod_cast hl
  have := hall 10 (by rw [f1]; simp) (by rw [f1]; simp; linarith)
  rwa [f1] at this

/-- Non-vacuity of `C29_outcome`, `C29_lines`, `C30_accepted` and `C30_ratio_one`: the same dots. -/
example : ∃ lines, groupDotsHor refArgsort twoRows 0 10 0.3 6 0.65 = .ok lines ∧ lines.flatten.Subperm twoRows ∧
    lines.Pairwise (fun a b => meanY a ≤ meanY b) ∧ (1 ≤ (0.65 : ℝ) → lines = []) := by
  have ho := C29_outcome refArgsort refArgsort_spec twoRows 0 10 0.3 6 0.65
  obtain ⟨lines, h⟩ := ho.2.resolve_left fun h => by
    have h2 := ho.1.1 h
    simp only [twoRows, List.pairwise_cons] at h2
    refine h2.1 ⟨0, 0⟩ (by simp) ?_
    unfold OnLine
    norm_num
  obtain ⟨_, _, _, _, _, hp⟩ := C30_accepted refArgsort _ _ _ _ _ _ _ h
  exact ⟨lines, h, (C29_lines refArgsort refArgsort_spec _ _ _ _ _ _ _ h).1, hp, (C30_ratio_one refArgsort _ _ _ _ _ _ _ h).1⟩

end Discorpy
