import Verif.Lemmas.HdfCreate
import Mathlib.Data.Char
import Mathlib.Data.List.Lex

/-! # Order of the members of an HDF file -/

namespace Discorpy
open Spec

theorem sorted_group_iff {ch : List (PyStr × H5)} :
    SortedH5 (.group ch) ↔ (ch.map Prod.fst).Pairwise (· < ·) ∧ ∀ p ∈ ch, SortedH5 p.2 := by
  constructor
  · intro h
    exact ⟨h [] ch (.here _), fun p hp cs ch' hn => h (p.1 :: cs) ch' (.child hp hn)⟩
  · rintro ⟨h1, h2⟩ cs ch' hn
    cases hn with
    | here => exact h1
    | child hm hn => exact h2 _ hm _ _ hn

theorem sorted_dataset {d : H5} (h : IsDataset d) : SortedH5 d := by
  intro cs ch hn
  obtain ⟨_, h2⟩ := nodeAt_dataset h hn
  rw [← h2] at h
  exact absurd h (by simp [IsDataset])

theorem append_lt (path : List PyStr) {n m : PyStr} (h : n < m) (a b : List PyStr) : path ++ n :: a < path ++ m :: b :=
  List.append_left_lt (List.cons_lt_cons_iff.2 (.inl h))

mutual
theorem h5VisitNode_sorted (path : List PyStr) (t : H5) (h : SortedH5 t) : (h5VisitNode path t).Pairwise fun p q => p.1 < q.1 := by
  match t with
  | .dataset a d => rw [h5VisitNode]; simp
  | .dangling => rw [h5VisitNode]; simp
  | .group ch =>
    rw [h5VisitNode, List.pairwise_cons]
    refine ⟨fun q hq => ?_, h5VisitMembers_sorted path ch h⟩
    obtain ⟨n, c, cs, -, e, -⟩ := (mem_h5VisitMembers path ch q).1 hq
    rw [e]
    have : path ++ [] < path ++ n :: cs := List.append_left_lt (List.nil_lt_cons _ _)
    simpa using this
theorem h5VisitMembers_sorted (path : List PyStr) (ch : List (PyStr × H5)) (h : SortedH5 (.group ch)) :
    (h5VisitMembers path ch).Pairwise fun p q => p.1 < q.1 := by
  match ch with
  | [] => rw [h5VisitMembers]; simp
  | (n, c) :: r =>
    obtain ⟨h1, h2⟩ := sorted_group_iff.1 h
    rw [List.map_cons, List.pairwise_cons] at h1
    rw [h5VisitMembers, List.pairwise_append]
    refine ⟨h5VisitNode_sorted (path ++ [n]) c (h2 (n, c) (by simp)), h5VisitMembers_sorted path r ?_, ?_⟩
    · exact sorted_group_iff.2 ⟨h1.2, fun p hp => h2 p (by simp [hp])⟩
    · intro p hp q hq
      obtain ⟨cs, e1, -⟩ := (mem_h5VisitNode (path ++ [n]) c p).1 hp
      obtain ⟨m, d, ds, hm, e2, -⟩ := (mem_h5VisitMembers path r q).1 hq
      rw [e1, e2, List.append_assoc]
      exact append_lt path (h1.1 m (List.mem_map.2 ⟨_, hm, rfl⟩)) _ _
end

theorem sorted_h5AddMember {m : PyStr × H5} {ch : List (PyStr × H5)} (h : (ch.map Prod.fst).Pairwise (· < ·)) (hm : ch.lookup m.1 = none) :
    ((h5AddMember m ch).map Prod.fst).Pairwise (· < ·) := by
  unfold h5AddMember
  induction ch with
  | nil => simp
  | cons a ch ih =>
    rw [List.map_cons, List.pairwise_cons] at h
    rw [List.lookup_cons] at hm
    have hne : m.1 ≠ a.1 := by
      intro he; rw [he] at hm; simp at hm
    have hm' : ch.lookup m.1 = none := by
      split at hm
      · cases hm
      · exact hm
    rw [List.orderedInsert]
    split
    · rename_i hle
      have hlt : m.1 < a.1 := (lt_or_gt_of_ne hne).resolve_right hle
      rw [List.map_cons, List.pairwise_cons, List.map_cons, List.pairwise_cons]
      refine ⟨fun x hx => ?_, h⟩
      rcases List.mem_cons.1 hx with rfl | hx
      · exact hlt
      · exact hlt.trans (h.1 x hx)
    · rename_i hle
      have hlt : a.1 < m.1 := Classical.not_not.1 hle
      rw [List.map_cons, List.pairwise_cons]
      refine ⟨fun x hx => ?_, ih h.2 hm'⟩
      obtain ⟨p, hp, rfl⟩ := List.mem_map.1 hx
      rcases (List.mem_orderedInsert _).1 hp with rfl | hp
      · exact hlt
      · exact h.1 _ (List.mem_map.2 ⟨p, hp, rfl⟩)

/-- Creating something keeps the order of the names. -/
theorem h5Create_sorted (new : H5) (hnew : SortedH5 new) : ∀ (cs : List PyStr) (f f' : H5File), h5Create new cs f = .ok f' →
    SortedH5 (.group f) → SortedH5 (.group f') := by
  intro cs
  induction cs with
  | nil => intro f f' h; simp [h5Create] at h
  | cons n r ih =>
    intro f f' h hs
    obtain ⟨h1, h2⟩ := sorted_group_iff.1 hs
    cases r with
    | nil =>
      rw [h5Create] at h
      cases hl : f.lookup n with
      | some y => rw [hl] at h; simp at h
      | none =>
        rw [hl] at h
        simp only [Except.ok.injEq] at h
        subst h
        refine sorted_group_iff.2 ⟨sorted_h5AddMember h1 hl, fun p hp => ?_⟩
        rcases mem_h5AddMember.1 hp with rfl | hp
        · exact hnew
        · exact h2 p hp
    | cons m r =>
      cases hl : f.lookup n with
      | none =>
        rw [h5Create_cons_none hl] at h
        obtain ⟨sub, e1, e2⟩ := bind_ok_iff.1 h
        cases e2
        refine sorted_group_iff.2 ⟨sorted_h5AddMember h1 hl, fun p hp => ?_⟩
        rcases mem_h5AddMember.1 hp with rfl | hp
        · exact ih [] sub e1 (sorted_group_iff.2 (by simp))
        · exact h2 p hp
      | some y =>
        cases y with
        | dataset a t => rw [h5Create, hl] at h; simp at h
        | dangling => rw [h5Create, hl] at h; simp at h
        | group sub =>
          rw [h5Create_cons_group hl] at h
          obtain ⟨sub', e1, e2⟩ := bind_ok_iff.1 h
          cases e2
          have hm := lookup_mem hl
          refine sorted_group_iff.2 ⟨by rw [replaceMember_names]; exact h1, fun p hp => ?_⟩
          unfold replaceMember at hp
          obtain ⟨q, hq, rfl⟩ := List.mem_map.1 hp
          split
          · exact ih sub sub' e1 (h2 _ hm)
          · exact h2 q hq

theorem hdfAddItems_sorted (keyPath : PyStr) : ∀ (items : List (PyStr × H5)) (f : H5File), (∀ p ∈ items, SortedH5 p.2) → SortedH5 (.group f) →
    SortedH5 (.group (hdfAddItems keyPath f items).1) := by
  intro items
  induction items with
  | nil => intro f _ h; exact h
  | cons a items ih =>
    intro f hi h
    obtain ⟨key, d⟩ := a
    rw [hdfAddItems]
    split
    · exact h
    · split
      · exact h
      · rename_i f' hf
        exact ih f' (fun p hp => hi p (by simp [hp])) (h5Create_sorted d (hi (key, d) (by simp)) _ _ _ hf h)

/-- The value found first in a sorted list is the one with the smallest path. -/
theorem findSome_first {α β : Type} {lt : α → α → Prop} {l : List α} (hl : l.Pairwise lt) {g : α → Option β} {b : β} (h : l.findSome? g = some b) :
    ∃ a ∈ l, g a = some b ∧ ∀ a' ∈ l, g a' ≠ none → a' = a ∨ lt a a' := by
  induction l with
  | nil => simp at h
  | cons x l ih =>
    rw [List.pairwise_cons] at hl
    rw [List.findSome?_cons] at h
    cases hx : g x with
    | some y =>
      rw [hx] at h
      refine ⟨x, by simp, by rw [hx]; exact h, fun a' ha' _ => ?_⟩
      rcases List.mem_cons.1 ha' with rfl | ha'
      · exact .inl rfl
      · exact .inr (hl.1 a' ha')
    | none =>
      rw [hx] at h
      obtain ⟨a, ha, e, h2⟩ := ih hl.2 h
      refine ⟨a, by simp [ha], e, fun a' ha' hne => ?_⟩
      rcases List.mem_cons.1 ha' with rfl | ha'
      · exact absurd hx hne
      · exact h2 a' ha' hne

end Discorpy
