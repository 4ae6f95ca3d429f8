import Verif.Lemmas.Array
import Verif.Lemmas.Sort
import Verif.Lemmas.Fit
import Verif.Model.Prep
import Verif.Spec.Grouping

/-! # Helper lemmas: grouping dots into lines -/

namespace Discorpy

open Spec

/-- Structural form of the inner loop: the dots taken and the dots left. -/
def scan (check : Pt → Pt → Bool) : Pt → List Pt → List Pt × List Pt
  | _, [] => ([], [])
  | d, e :: tl =>
    if check d e then (e :: (scan check e tl).1, (scan check e tl).2)
    else ((scan check d tl).1, e :: (scan check d tl).2)

theorem foldl_scan (check : Pt → Pt → Bool) (left : List Pt) : ∀ (tl : List Pt) (k : ℕ) (st : LineScan), left.drop k = tl →
    ∃ (last : Pt) (P : List ℕ), (List.range' k tl.length).foldl (scanStep check left) st =
        ⟨last, st.selected ++ (scan check st.dot1 tl).1, st.posGet ++ P⟩ ∧ (∀ p ∈ P, k ≤ p) ∧
      fancyIndex left ((List.range' k tl.length).filter fun pos => !P.contains pos) = (scan check st.dot1 tl).2 := by
  intro tl
  induction tl with
  | nil =>
    intro k st _
    exact ⟨st.dot1, [], by simp [scan], by simp, by simp [fancyIndex, scan]⟩
  | cons e tl ih =>
    intro k st h
    have hk : left[k]? = some e := by
      have := congrArg (fun l => l[0]?) h
      simpa [List.getElem?_drop] using this
    have hd : left.drop (k + 1) = tl := by
      have := congrArg List.tail h
      simpa using this
    rw [List.length_cons, List.range'_succ, List.foldl_cons]
    have hstep : scanStep check left st k =
        if check st.dot1 e then ⟨e, st.selected ++ [e], st.posGet ++ [k]⟩ else st := by
      unfold scanStep
      rw [hk]
    rw [hstep]
    by_cases hc : check st.dot1 e = true
    · rw [if_pos hc]
      obtain ⟨last, P, h1, h2, h3⟩ := ih (k + 1) ⟨e, st.selected ++ [e], st.posGet ++ [k]⟩ hd
      refine ⟨last, k :: P, ?_, ?_, ?_⟩
      · rw [h1]
        simp [scan, hc]
      · intro p hp
        rcases List.mem_cons.1 hp with rfl | hp
        · exact le_rfl
        · have := h2 p hp; omega
      · rw [List.filter_cons, if_neg (by simp)]
        have e1 : ((List.range' (k + 1) tl.length).filter fun pos => !(k :: P).contains pos) =
            (List.range' (k + 1) tl.length).filter fun pos => !P.contains pos := by
          apply List.filter_congr
          intro x hx
          rw [List.mem_range'_1] at hx
          have : x ≠ k := by omega
          simp [this]
        rw [e1, h3]
        simp [scan, hc]
    · rw [if_neg hc]
      obtain ⟨last, P, h1, h2, h3⟩ := ih (k + 1) st hd
      refine ⟨last, P, ?_, ?_, ?_⟩
      · rw [h1]
        simp [scan, hc]
      · intro p hp
        have := h2 p hp; omega
      · have hkP : k ∉ P := fun hm => by have := h2 k hm; omega
        rw [List.filter_cons, if_pos (by simpa using hkP)]
        unfold fancyIndex at h3 ⊢
        rw [List.filterMap_cons, hk, h3]
        simp [scan, hc]

theorem scanLine_selected (check : Pt → Pt → Bool) (d : Pt) (tl : List Pt) :
    (scanLine check d (d :: tl)).selected = d :: (scan check d tl).1 ∧
    dotsLeft (d :: tl) (scanLine check d (d :: tl)).posGet = (scan check d tl).2 := by
  obtain ⟨last, P, h1, h2, h3⟩ := foldl_scan check (d :: tl) tl 1 ⟨d, [d], [0]⟩ (by simp)
  unfold scanLine
  simp only [List.length_cons, Nat.add_sub_cancel]
  rw [h1]
  refine ⟨by simp, ?_⟩
  unfold dotsLeft
  rw [List.length_cons, List.range_eq_range', List.range'_succ, List.filter_cons, if_neg (by simp)]
  rw [← h3]
  congr 1
  apply List.filter_congr
  intro x hx
  rw [List.mem_range'_1] at hx
  have : x ≠ 0 := by omega
  simp [this]

theorem groupLoop_nil (check : Pt → Pt → Bool) : groupLoop check [] = [] := by rw [groupLoop]

theorem groupLoop_single (check : Pt → Pt → Bool) (d : Pt) : groupLoop check [d] = [] := by rw [groupLoop]

theorem groupLoop_cons (check : Pt → Pt → Bool) (d : Pt) (tl : List Pt) :
    groupLoop check (d :: tl) =
      if (scan check d tl).1 ≠ [] then (d :: (scan check d tl).1) :: groupLoop check (scan check d tl).2
      else groupLoop check (scan check d tl).2 := by
  cases tl with
  | nil => simp [groupLoop_single, groupLoop_nil, scan]
  | cons d' rest =>
    rw [groupLoop]
    rw [(scanLine_selected check d (d' :: rest)).1, (scanLine_selected check d (d' :: rest)).2]
    by_cases h : (scan check d (d' :: rest)).1 = []
    · simp [h]
    · rw [if_pos h, if_pos (by
        have := List.length_pos_iff.2 h
        simp only [List.length_cons]; omega)]

theorem scan_perm (check : Pt → Pt → Bool) (d : Pt) (tl : List Pt) :
    ((scan check d tl).1 ++ (scan check d tl).2).Perm tl := by
  induction tl generalizing d with
  | nil => simp [scan]
  | cons e tl ih =>
    by_cases h : check d e = true
    · simp only [scan, h, if_true, List.cons_append]
      exact (ih e).cons e
    · simp only [scan, h, Bool.false_eq_true, if_false]
      exact List.perm_middle.trans ((ih d).cons e)

theorem scan_sublist (check : Pt → Pt → Bool) (d : Pt) (tl : List Pt) :
    (scan check d tl).1.Sublist tl ∧ (scan check d tl).2.Sublist tl := by
  induction tl generalizing d with
  | nil => simp [scan]
  | cons e tl ih =>
    by_cases h : check d e = true
    · simp only [scan, h, if_true]
      exact ⟨(ih e).1.cons_cons e, (ih e).2.cons e⟩
    · simp only [scan, h, Bool.false_eq_true, if_false]
      exact ⟨(ih d).1.cons e, (ih d).2.cons_cons e⟩

theorem scan_chain (check : Pt → Pt → Bool) (d : Pt) (tl : List Pt) :
    List.IsChain (fun p q => check p q = true) (d :: (scan check d tl).1) := by
  induction tl generalizing d with
  | nil => simp [scan]
  | cons e tl ih =>
    by_cases h : check d e = true
    · simp only [scan, h, if_true]
      exact List.IsChain.cons_cons h (ih e)
    · simp only [scan, h, Bool.false_eq_true, if_false]
      exact ih d

theorem scan_right_length (check : Pt → Pt → Bool) (d : Pt) (tl : List Pt) : (scan check d tl).2.length ≤ tl.length :=
  (scan_sublist check d tl).2.length_le

/-- Induction over the outer loop. -/
theorem groupLoop_induct (check : Pt → Pt → Bool) {P : List Pt → List (List Pt) → Prop} (h0 : P [] [])
    (h1 : ∀ d tl, P (scan check d tl).2 (groupLoop check (scan check d tl).2) → (scan check d tl).1 ≠ [] →
      P (d :: tl) ((d :: (scan check d tl).1) :: groupLoop check (scan check d tl).2))
    (h2 : ∀ d tl, P (scan check d tl).2 (groupLoop check (scan check d tl).2) → (scan check d tl).1 = [] →
      P (d :: tl) (groupLoop check (scan check d tl).2)) : ∀ left, P left (groupLoop check left) := by
  intro left
  induction hn : left.length using Nat.strong_induction_on generalizing left with
  | _ n ih =>
    cases left with
    | nil => rw [groupLoop_nil]; exact h0
    | cons d tl =>
      have hlt : (scan check d tl).2.length < n := by
        have := scan_right_length check d tl
        simp at hn; omega
      have := ih _ hlt _ rfl
      rw [groupLoop_cons]
      by_cases h : (scan check d tl).1 = []
      · rw [if_neg (by simpa using h)]; exact h2 d tl this h
      · rw [if_pos h]; exact h1 d tl this h

theorem groupLoop_subperm (check : Pt → Pt → Bool) : ∀ left, (groupLoop check left).flatten.Subperm left := by
  apply groupLoop_induct check (P := fun left lines => lines.flatten.Subperm left)
  · simp
  · intro d tl ih _
    rw [List.flatten_cons, List.cons_append]
    refine (List.subperm_cons d).2 ?_
    have h1 : ((scan check d tl).1 ++ (groupLoop check (scan check d tl).2).flatten).Subperm
        ((scan check d tl).1 ++ (scan check d tl).2) := (List.subperm_append_left _).2 ih
    exact h1.trans (scan_perm check d tl).subperm
  · intro d tl ih _
    exact ih.trans (((scan_sublist check d tl).2.cons d).subperm)

theorem groupLoop_lines (check : Pt → Pt → Bool) : ∀ left, ∀ l ∈ groupLoop check left,
    l.Sublist left ∧ 2 ≤ l.length ∧ List.IsChain (fun p q => check p q = true) l := by
  apply groupLoop_induct check (P := fun left lines => ∀ l ∈ lines,
    l.Sublist left ∧ 2 ≤ l.length ∧ List.IsChain (fun p q => check p q = true) l)
  · simp
  · intro d tl ih hne l hl
    rcases List.mem_cons.1 hl with rfl | hl
    · refine ⟨(scan_sublist check d tl).1.cons_cons d, ?_, scan_chain check d tl⟩
      have := List.length_pos_iff.2 hne
      simp only [List.length_cons]; omega
    · obtain ⟨a, b, c⟩ := ih l hl
      exact ⟨a.trans ((scan_sublist check d tl).2.cons d), b, c⟩
  · intro d tl ih _ l hl
    obtain ⟨a, b, c⟩ := ih l hl
    exact ⟨a.trans ((scan_sublist check d tl).2.cons d), b, c⟩

theorem scan_nil_iff (check : Pt → Pt → Bool) (d : Pt) (tl : List Pt) :
    (scan check d tl).1 = [] ↔ ∀ e ∈ tl, check d e = false := by
  induction tl with
  | nil => simp [scan]
  | cons e tl ih =>
    by_cases h : check d e = true
    · simp [scan, h]
    · have h' : check d e = false := by simpa using h
      simp [scan, h', ih]

theorem scan_right_of_nil (check : Pt → Pt → Bool) (d : Pt) (tl : List Pt) (h : ∀ e ∈ tl, check d e = false) :
    (scan check d tl).2 = tl := by
  induction tl with
  | nil => simp [scan]
  | cons e tl ih =>
    have h' : check d e = false := h e (by simp)
    simp [scan, h', ih fun e he => h e (by simp [he])]

theorem groupLoop_nil_iff (check : Pt → Pt → Bool) :
    ∀ left, groupLoop check left = [] ↔ left.Pairwise fun p q => check p q = false := by
  apply groupLoop_induct check (P := fun left lines => lines = [] ↔ left.Pairwise fun p q => check p q = false)
  · simp
  · intro d tl _ hne
    have : ¬ ∀ e ∈ tl, check d e = false := fun h => hne ((scan_nil_iff check d tl).2 h)
    simp only [List.cons_ne_nil, List.pairwise_cons, false_iff, not_and]
    intro h; exact absurd h this
  · intro d tl ih hnil
    have h := (scan_nil_iff check d tl).1 hnil
    rw [scan_right_of_nil check d tl h] at ih ⊢
    rw [ih, List.pairwise_cons]
    exact ⟨fun h' => ⟨h, h'⟩, fun h' => h'.2⟩

theorem checkDotOnLine_iff (slope dist ratio miss : ℝ) (p q : Pt) :
    checkDotOnLine slope dist ratio miss p q = true ↔ OnLine slope dist ratio miss p q := by
  unfold checkDotOnLine OnLine
  simp only [decide_eq_true_eq]
  rw [abs_lt]
  have e1 : slope * q.x - q.y + (p.y - slope * p.x) = slope * (q.x - p.x) - (q.y - p.y) := by ring
  have e2 : slope * slope + 1 = 1 + slope ^ 2 := by ring
  rw [e1, e2]
  constructor
  · rintro ⟨⟨h1, h2⟩, h3⟩; exact ⟨⟨by linarith, by linarith⟩, h3⟩
  · rintro ⟨⟨h1, h2⟩, h3⟩; exact ⟨⟨by linarith, by linarith⟩, h3⟩

theorem onLine_symm {slope dist ratio miss : ℝ} {p q : Pt} (h : OnLine slope dist ratio miss p q) :
    OnLine slope dist ratio miss q p := by
  unfold OnLine at *
  rw [abs_sub_comm p.x q.x]
  refine ⟨h.1, ?_⟩
  have : slope * (p.x - q.x) - (p.y - q.y) = -(slope * (q.x - p.x) - (q.y - p.y)) := by ring
  rw [this, abs_neg]
  exact h.2

/-- The grouped lines before the selection by length. -/
noncomputable def allLines (argsort : List ℝ → List ℕ) (dots : List Pt) (slope dist ratio miss : ℝ) : List (List Pt) :=
  groupLoop (checkDotOnLine slope dist ratio miss) (fancyIndex dots (argsort (dots.map Pt.x)))

theorem accept_iff {n : ℕ} (hn : 0 < n) (a L : ℝ) : ((n : ℤ) > truncInt (a * L)) ↔ a * L < n := by
  unfold truncInt
  split
  · rename_i h
    rw [gt_iff_lt, Int.floor_lt, Int.cast_natCast]
  · rename_i h
    push Not at h
    have h1 : ⌈a * L⌉ ≤ 0 := by rw [Int.ceil_le]; simpa using h.le
    have h2 : (0 : ℝ) < n := by exact_mod_cast hn
    constructor
    · intro _; linarith
    · intro _; omega

theorem npMax_lengths {lines : List (List Pt)} (h : lines ≠ []) :
    ∃ n : ℕ, npMax (lineLengths lines) = .ok (n : ℝ) ∧ IsLongest lines n := by
  obtain ⟨m, e, hm, hle⟩ := npMax_ok (l := lineLengths lines) (by simpa [lineLengths] using h)
  obtain ⟨l, hl, rfl⟩ := List.mem_map.1 hm
  refine ⟨l.length, e, ⟨l, hl, rfl⟩, fun l' hl' => ?_⟩
  have := hle (l'.length : ℝ) (List.mem_map.2 ⟨l', hl', rfl⟩)
  exact_mod_cast this

theorem npMax_nil : npMax (lineLengths []) = .error .valueError := by simp [npMax, lineLengths]

theorem sortLines_perm (coord : Pt → ℝ) (lines : List (List Pt)) : (sortLines coord lines).Perm lines :=
  List.mergeSort_perm _ _

theorem sortLines_sorted (coord : Pt → ℝ) (lines : List (List Pt)) :
    (sortLines coord lines).Pairwise fun a b => meanOf coord a ≤ meanOf coord b := by
  classical
  have := List.pairwise_mergeSort (le := fun a b : List Pt => decide (meanOf coord a ≤ meanOf coord b))
    (by intro a b c; simp only [decide_eq_true_eq]; exact le_trans)
    (by intro a b; simp only [Bool.or_eq_true, decide_eq_true_eq]; exact le_total _ _) lines
  refine List.Pairwise.imp ?_ this
  intro a b h
  simpa using h

/-- The lines kept by the length test. -/
theorem filter_accept {lines : List (List Pt)} (h2 : ∀ l ∈ lines, 2 ≤ l.length) (a : ℝ) (n : ℕ) :
    lines.filter (fun l => decide ((l.length : ℤ) > truncInt (a * n))) =
      open Classical in lines.filter (fun l => decide (a * n < l.length)) := by
  classical
  apply List.filter_congr
  intro l hl
  have := h2 l hl
  rw [decide_eq_decide]
  exact accept_iff (by omega) a n

theorem groupDotsHor_eq {argsort : List ℝ → List ℕ} {dots : List Pt} {slope dist ratio miss acc : ℝ} :
    (allLines argsort dots slope dist ratio miss = [] →
      groupDotsHor argsort dots slope dist ratio miss acc = .error .valueError) ∧
    (dots ≠ [] → allLines argsort dots slope dist ratio miss ≠ [] →
      ∃ n, IsLongest (allLines argsort dots slope dist ratio miss) n ∧
        groupDotsHor argsort dots slope dist ratio miss acc = .ok (sortLines Pt.y
          (open Classical in (allLines argsort dots slope dist ratio miss).filter fun l => decide (acc * n < l.length)))) := by
  constructor
  · intro h
    unfold groupDotsHor
    split
    · rfl
    · have h' : groupLoop (checkDotOnLine slope dist ratio miss) (fancyIndex dots (argsort (List.map Pt.x dots))) = [] := h
      simp only [h', npMax_nil, error_bind]
  · intro hne h
    obtain ⟨n, e, hn⟩ := npMax_lengths h
    refine ⟨n, hn, ?_⟩
    unfold groupDotsHor
    rw [if_neg hne]
    unfold allLines at e hn ⊢
    simp only [e, ok_bind]
    rw [filter_accept (fun l hl => (groupLoop_lines _ _ l hl).2.1)]

theorem allLines_ne_dots {argsort : List ℝ → List ℕ} {dots : List Pt} {slope dist ratio miss : ℝ}
    (h : allLines argsort dots slope dist ratio miss ≠ []) : dots ≠ [] := by
  rintro rfl
  apply h
  unfold allLines
  have : fancyIndex ([] : List Pt) (argsort (List.map Pt.x [])) = [] := by
    unfold fancyIndex
    rw [List.filterMap_eq_nil_iff]
    simp
  rw [this, groupLoop_nil]

/-- A successful call. -/
theorem groupDotsHor_ok {argsort : List ℝ → List ℕ} {dots : List Pt} {slope dist ratio miss acc : ℝ} {lines : List (List Pt)}
    (h : groupDotsHor argsort dots slope dist ratio miss acc = .ok lines) :
    dots ≠ [] ∧ allLines argsort dots slope dist ratio miss ≠ [] ∧
      ∃ n, IsLongest (allLines argsort dots slope dist ratio miss) n ∧
        lines = sortLines Pt.y
          (open Classical in (allLines argsort dots slope dist ratio miss).filter fun l => decide (acc * n < l.length)) := by
  have hG : allLines argsort dots slope dist ratio miss ≠ [] := by
    intro h'
    rw [groupDotsHor_eq.1 h'] at h
    cases h
  have hne := allLines_ne_dots hG
  obtain ⟨n, hn, e⟩ := (groupDotsHor_eq (acc := acc)).2 hne hG
  rw [e] at h
  exact ⟨hne, hG, n, hn, (Except.ok.inj h).symm⟩

/-! ## Rows with a label -/

/-- A dot that passes the test with an earlier one of another row comes after a later dot of the earlier one's row. -/
def KeepsRow {ι : Type} (check : Pt → Pt → Bool) (row : Pt → ι) (l : List Pt) : Prop :=
  ∀ p ∈ l, ∀ q ∈ l, p.x ≤ q.x → check p q = true → row p = row q ∨ ∃ r ∈ l, row r = row p ∧ p.x < r.x ∧ r.x < q.x

theorem scan_rows {ι : Type} [DecidableEq ι] (check : Pt → Pt → Bool) (row : Pt → ι) (d : Pt) (tl : List Pt)
    (hs : (d :: tl).Pairwise fun p q => p.x ≤ q.x)
    (ha : ∀ p ∈ d :: tl, row p = row d → ∀ q ∈ tl, p.x ≤ q.x → check p q = true →
      row q = row d ∨ ∃ r ∈ tl, row r = row d ∧ p.x < r.x ∧ r.x < q.x)
    (hb : List.IsChain (fun p q => check p q = true) (d :: tl.filter fun p => decide (row p = row d))) :
    (scan check d tl).1 = tl.filter (fun p => decide (row p = row d)) ∧
    (scan check d tl).2 = tl.filter (fun p => decide (row p ≠ row d)) := by
  induction tl generalizing d with
  | nil => simp [scan]
  | cons e tl ih =>
    rw [List.pairwise_cons] at hs
    obtain ⟨hs1, hs2⟩ := hs
    have hse := (List.pairwise_cons.1 hs2).1
    by_cases hr : row e = row d
    · rw [List.filter_cons, if_pos (by simpa using hr)] at hb
      have hc : check d e = true := (List.isChain_cons_cons.1 hb).1
      have hb' := (List.isChain_cons_cons.1 hb).2
      obtain ⟨h1, h2⟩ := ih e hs2 (fun p hp hpr q hq hpq hch => by
          rw [hr] at hpr ⊢
          rcases ha p (List.mem_cons_of_mem _ hp) hpr q (List.mem_cons_of_mem _ hq) hpq hch with h | ⟨r, hm, h1, h2, h3⟩
          · exact .inl h
          · rcases List.mem_cons.1 hm with rfl | hm
            · rcases List.mem_cons.1 hp with rfl | hp
              · exact absurd h2 (lt_irrefl _)
              · exact absurd h2 (not_lt.2 (hse p hp))
            · exact .inr ⟨r, hm, h1, h2, h3⟩) (by rw [hr]; exact hb')
      simp only [scan, hc, if_true, h1, h2, hr]
      simp [hr]
    · rw [List.filter_cons, if_neg (by simpa using hr)] at hb
      have hc : check d e ≠ true := fun h => by
        rcases ha d (by simp) rfl e (by simp) (hs1 e (by simp)) h with h | ⟨r, hm, h1, h2, h3⟩
        · exact hr h
        · rcases List.mem_cons.1 hm with rfl | hm
          · exact hr h1
          · exact absurd h3 (not_lt.2 (hse r hm))
      obtain ⟨h1, h2⟩ := ih d (List.pairwise_cons.2 ⟨fun q hq => hs1 q (List.mem_cons_of_mem _ hq), (List.pairwise_cons.1 hs2).2⟩)
        (fun p hp hpr q hq hpq hch => by
          rcases ha p (by
            rcases List.mem_cons.1 hp with rfl | hp
            · simp
            · simp [hp]) hpr q (List.mem_cons_of_mem _ hq) hpq hch with h | ⟨r, hm, h1, h2, h3⟩
          · exact .inl h
          · rcases List.mem_cons.1 hm with rfl | hm
            · exact absurd h1 hr
            · exact .inr ⟨r, hm, h1, h2, h3⟩) hb
      simp only [scan, hc, Bool.false_eq_true, if_false, h1, h2]
      simp [hr]

theorem groupLoop_rows {ι : Type} [DecidableEq ι] (check : Pt → Pt → Bool) (row : Pt → ι) : ∀ left : List Pt,
    left.Pairwise (fun p q => p.x ≤ q.x) → KeepsRow check row left →
    (∀ r, List.IsChain (fun p q => check p q = true) (left.filter fun p => decide (row p = r))) →
    ∃ rows : List ι, rows.Nodup ∧ groupLoop check left = rows.map (fun r => left.filter fun p => decide (row p = r)) ∧
      ∀ r, r ∈ rows ↔ 2 ≤ (left.filter fun p => decide (row p = r)).length := by
  intro left
  induction hn : left.length using Nat.strong_induction_on generalizing left with
  | _ n ih =>
    intro hs ha hb
    cases left with
    | nil => exact ⟨[], by simp, by simp [groupLoop_nil], by simp⟩
    | cons d tl =>
      have hd : (d :: tl).filter (fun p => decide (row p = row d)) = d :: tl.filter (fun p => decide (row p = row d)) := by simp
      obtain ⟨h1, h2⟩ := scan_rows check row d tl hs (fun p hp hpr q hq hpq hch => by
          rcases ha p hp q (List.mem_cons_of_mem _ hq) hpq hch with h | ⟨r, hm, h1, h2, h3⟩
          · exact .inl (h.symm.trans hpr)
          · rcases List.mem_cons.1 hm with rfl | hm
            · rcases List.mem_cons.1 hp with rfl | hp
              · exact absurd h2 (lt_irrefl _)
              · exact absurd h2 (not_lt.2 ((List.pairwise_cons.1 hs).1 p hp))
            · exact .inr ⟨r, hm, h1.trans hpr, h2, h3⟩) (by have := hb (row d); rwa [hd] at this)
      have hrest : ∀ r, r ≠ row d → (tl.filter (fun p => decide (row p ≠ row d))).filter (fun p => decide (row p = r)) =
          (d :: tl).filter fun p => decide (row p = r) := by
        intro r hr
        rw [List.filter_filter, List.filter_cons, if_neg (by simpa using fun h : row d = r => hr h.symm)]
        apply List.filter_congr
        intro x _
        by_cases hx : row x = r
        · simp [hx, hr]
        · simp [hx]
      have hrest' : (tl.filter (fun p => decide (row p ≠ row d))).filter (fun p => decide (row p = row d)) = [] := by
        rw [List.filter_filter, List.filter_eq_nil_iff]
        simp
      obtain ⟨rows, g1, g2, g3⟩ := ih (tl.filter (fun p => decide (row p ≠ row d))).length (by
          have := List.length_filter_le (fun p => decide (row p ≠ row d)) tl
          simp only [List.length_cons] at hn; omega) _ rfl
        ((List.pairwise_cons.1 hs).2.filter _)
        (fun p hp q hq hpq hch => by
          rcases ha p (List.mem_cons_of_mem _ (List.mem_of_mem_filter hp)) q
            (List.mem_cons_of_mem _ (List.mem_of_mem_filter hq)) hpq hch with h | ⟨r, hm, k1, k2, k3⟩
          · exact .inl h
          · have hpd : row p ≠ row d := by simpa using (List.mem_filter.1 hp).2
            refine .inr ⟨r, List.mem_filter.2 ⟨?_, by simpa [k1] using hpd⟩, k1, k2, k3⟩
            rcases List.mem_cons.1 hm with rfl | hm
            · exact absurd k1.symm hpd
            · exact hm)
        (by
          intro r
          by_cases hr : r = row d
          · subst hr; rw [hrest']; simp
          · rw [hrest r hr]; exact hb r)
      have hnot : row d ∉ rows := by
        rw [g3, hrest']; simp
      have hmap : rows.map (fun r => (tl.filter (fun p => decide (row p ≠ row d))).filter fun p => decide (row p = r)) =
          rows.map (fun r => (d :: tl).filter fun p => decide (row p = r)) := by
        apply List.map_congr_left
        intro r hr
        exact hrest r (fun h => hnot (h ▸ hr))
      rw [groupLoop_cons, h1, h2, g2, hmap]
      by_cases hs : tl.filter (fun p => decide (row p = row d)) = []
      · refine ⟨rows, g1, by rw [if_neg (by simpa using hs)], fun r => ?_⟩
        by_cases hr : r = row d
        · subst hr; rw [hd, hs]; simp [hnot]
        · rw [g3, hrest r hr]
      · refine ⟨row d :: rows, List.nodup_cons.2 ⟨hnot, g1⟩, by rw [if_pos hs, List.map_cons, hd], fun r => ?_⟩
        by_cases hr : r = row d
        · subst hr
          rw [hd]
          have := List.length_pos_iff.2 hs
          simp only [List.mem_cons, true_or, List.length_cons, true_iff]; omega
        · rw [List.mem_cons, g3, hrest r hr]
          simp [hr]

/-- In a strictly sorted list neighbouring elements have nothing between them. -/
theorem isChain_of_gaps {R : Pt → Pt → Prop} : ∀ {l : List Pt}, l.Pairwise (fun p q => p.x < q.x) →
    (∀ p ∈ l, ∀ q ∈ l, p.x < q.x → (∀ r ∈ l, ¬ (p.x < r.x ∧ r.x < q.x)) → R p q) → l.IsChain R := by
  intro l
  induction l with
  | nil => simp
  | cons a l ih =>
    intro hs h
    cases l with
    | nil => simp
    | cons b l =>
      rw [List.pairwise_cons] at hs
      have hs2 := List.pairwise_cons.1 hs.2
      refine List.IsChain.cons_cons ?_ (ih hs.2 ?_)
      · refine h a (by simp) b (by simp) (hs.1 b (by simp)) ?_
        intro r hr ⟨h1, h2⟩
        rcases List.mem_cons.1 hr with rfl | hr
        · exact lt_irrefl _ h1
        · rcases List.mem_cons.1 hr with rfl | hr
          · exact lt_irrefl _ h2
          · exact lt_asymm h2 (hs2.1 r hr)
      · intro p hp q hq hlt hno
        refine h p (List.mem_cons_of_mem _ hp) q (List.mem_cons_of_mem _ hq) hlt ?_
        intro r hr hr2
        rcases List.mem_cons.1 hr with rfl | hr
        · exact lt_asymm hr2.1 (hs.1 p hp)
        · exact hno r hr hr2

end Discorpy
