import Verif.Lemmas.Hdf

/-! # C61 — HDF listing is aligned -/

namespace Discorpy

open Spec

/-- **C61 (keys).** A key is listed exactly if it is the path, with a slash in front, of a dataset; or the path of a member of a group below
the root; or the path of an empty group. -/
theorem C61_keys {f : H5File} (hwf : WellFormedH5 (.group f)) (key : PyStr) :
    key ∈ (getHdfInformation f).1 ↔
      (∃ cs a t, NodeAt (.group f) cs (.dataset a t) ∧ key = '/' :: joinKey cs) ∨
      (∃ cs ch n c, cs ≠ [] ∧ NodeAt (.group f) cs (.group ch) ∧ (n, c) ∈ ch ∧ key = joinKey (cs ++ [n])) ∨
      (∃ cs, cs ≠ [] ∧ NodeAt (.group f) cs (.group []) ∧ key = joinKey cs) := by
  have hget : ∀ cs x, NodeAt (.group f) cs x → H5Object x → h5Get f (joinKey cs) = some x := fun cs x h1 h2 =>
    (h5Get_iff hwf (nodeAt_goodNames hwf h1) (.inl rfl) x).2 ⟨h1, h2⟩
  unfold getHdfInformation
  simp only
  rw [List.mem_flatMap]
  constructor
  · rintro ⟨k, hk, hkey⟩
    obtain ⟨cs, x, h0, rfl, h1, h2⟩ := (mem_h5Visit k).1 hk
    unfold h5KeysOf at hkey
    rw [hget cs x h1 h2] at hkey
    cases x with
    | dangling => exact h2.elim
    | dataset a t => exact .inl ⟨cs, a, t, h1, by simpa using hkey⟩
    | group ch =>
      right
      by_cases hch : ch = []
      · subst hch
        right; exact ⟨cs, h0, h1, by simpa using hkey⟩
      · left
        simp only [ne_eq, hch, not_false_eq_true, if_true, List.mem_map] at hkey
        obtain ⟨p, hp, rfl⟩ := hkey
        exact ⟨cs, ch, p.1, p.2, h0, h1, hp, (joinKey_append h0 _).symm⟩
  · rintro (⟨cs, a, t, h1, rfl⟩ | ⟨cs, ch, n, c, h0, h1, hm, rfl⟩ | ⟨cs, h0, h1, rfl⟩)
    · have h0 : cs ≠ [] := by rintro rfl; cases h1
      refine ⟨joinKey cs, (mem_h5Visit _).2 ⟨cs, _, h0, rfl, h1, trivial⟩, ?_⟩
      unfold h5KeysOf
      rw [hget cs _ h1 trivial]
      simp
    · refine ⟨joinKey cs, (mem_h5Visit _).2 ⟨cs, _, h0, rfl, h1, trivial⟩, ?_⟩
      unfold h5KeysOf
      rw [hget cs _ h1 trivial]
      have hch : ch ≠ [] := List.ne_nil_of_mem hm
      simp only [ne_eq, hch, not_false_eq_true, if_true]
      rw [joinKey_append h0]
      exact List.mem_map.2 ⟨_, hm, rfl⟩
    · refine ⟨joinKey cs, (mem_h5Visit _).2 ⟨cs, _, h0, rfl, h1, trivial⟩, ?_⟩
      unfold h5KeysOf
      rw [hget cs _ h1 trivial]
      simp

/-- **C61 (aligned).** The three lists have the same length. Every key leads to a member of the file, and at its position the two other lists
have the shape and the type of this member, `None` if it is not a dataset. -/
theorem C61_aligned {f : H5File} (hwf : WellFormedH5 (.group f)) :
    (getHdfInformation f).2.1.length = (getHdfInformation f).1.length ∧ (getHdfInformation f).2.2.length = (getHdfInformation f).1.length ∧
    ∀ (i : ℕ) (key : PyStr), (getHdfInformation f).1[i]? = some key → ∃ cs x, cs ≠ [] ∧ KeyTo key cs ∧ NodeAt (.group f) cs x ∧
      (getHdfInformation f).2.1[i]? = some (shapeOf x) ∧ (getHdfInformation f).2.2[i]? = some (typeOf x) := by
  refine ⟨by simp [getHdfInformation], by simp [getHdfInformation], fun i key hi => ?_⟩
  have hmem := (C61_keys hwf key).1 (List.mem_of_getElem? hi)
  have hex : ∃ cs x, cs ≠ [] ∧ KeyTo key cs ∧ NodeAt (.group f) cs x := by
    rcases hmem with ⟨cs, a, t, h1, rfl⟩ | ⟨cs, ch, n, c, h0, h1, hm, rfl⟩ | ⟨cs, h0, h1, rfl⟩
    · exact ⟨cs, .dataset a t, (by rintro rfl; cases h1), .inr rfl, h1⟩
    · exact ⟨cs ++ [n], c, by simp, .inl rfl, nodeAt_append h1 hm⟩
    · exact ⟨cs, _, h0, .inl rfl, h1⟩
  obtain ⟨cs, x, h0, hk, h1⟩ := hex
  refine ⟨cs, x, h0, hk, h1, ?_⟩
  have hg := nodeAt_goodNames hwf h1
  have hinfo : h5Info f key = (shapeOf x, typeOf x) := by
    unfold h5Info
    cases x with
    | dangling =>
      cases hx : h5Get f key with
      | none => rfl
      | some y =>
        have hy := ((h5Get_iff hwf hg hk y).1 hx)
        cases y with
        | dangling => rfl
        | group ch => rfl
        | dataset a t => exact absurd (nodeAt_unique hwf h1 hy.1) (by simp)
    | dataset a t => rw [(h5Get_iff hwf hg hk _).2 ⟨h1, trivial⟩]; rfl
    | group ch => rw [(h5Get_iff hwf hg hk _).2 ⟨h1, trivial⟩]; rfl
  have hi' : ((h5Visit f).flatMap (h5KeysOf f fun key => [key]))[i]? = some key := hi
  unfold getHdfInformation
  simp only [List.getElem?_map, hi', Option.map_some, hinfo, and_self]

/-- **C61 (complete).** Every dataset is listed by its path with a slash in front; a dataset in a group below the root is listed again
without it. -/
theorem C61_complete {f : H5File} (hwf : WellFormedH5 (.group f)) (cs : List PyStr) (a : NdArr ℝ) (t : PyStr)
    (h : NodeAt (.group f) cs (.dataset a t)) :
    ('/' :: joinKey cs) ∈ (getHdfInformation f).1 ∧ (2 ≤ cs.length → joinKey cs ∈ (getHdfInformation f).1) := by
  refine ⟨(C61_keys hwf _).2 (.inl ⟨cs, a, t, h, rfl⟩), fun hl => (C61_keys hwf _).2 (.inr (.inl ?_))⟩
  obtain ⟨ch, h1, h2⟩ := nodeAt_dropLast h (by rintro rfl; simp at hl)
  obtain ⟨ds, n, rfl⟩ : ∃ ds n, cs = ds ++ [n] := by
    rcases List.eq_nil_or_concat cs with rfl | ⟨ds, n, rfl⟩
    · simp at hl
    · exact ⟨ds, n, by simp⟩
  rw [List.dropLast_concat] at h1
  rw [List.getLast_append_singleton] at h2
  exact ⟨ds, ch, n, _, by rintro rfl; simp at hl, h1, h2, rfl⟩

/-- **C61 (search).** `find_hdf_key` returns the entries of the listing whose keys contain the pattern, in the same order. -/
theorem C61_find {f : H5File} (hwf : WellFormedH5 (.group f)) (pattern : PyStr) :
    List.zip (findHdfKey f pattern).1 (List.zip (findHdfKey f pattern).2.1 (findHdfKey f pattern).2.2) =
      (List.zip (getHdfInformation f).1 (List.zip (getHdfInformation f).2.1 (getHdfInformation f).2.2)).filter
        (fun p => decide (pattern <:+: p.1)) ∧
    (findHdfKey f pattern).2.1.length = (findHdfKey f pattern).1.length ∧
    (findHdfKey f pattern).2.2.length = (findHdfKey f pattern).1.length := by
  have hkeys : (h5Visit f).flatMap (h5KeysOf f fun _ => []) = (h5Visit f).flatMap (h5KeysOf f fun key => [key]) := by
    apply List.flatMap_congr
    intro k hk
    obtain ⟨cs, x, h0, rfl, h1, h2⟩ := (mem_h5Visit k).1 hk
    unfold h5KeysOf
    rw [(h5Get_iff hwf (nodeAt_goodNames hwf h1) (.inl rfl) x).2 ⟨h1, h2⟩]
    cases x <;> rfl
  have hzip : ∀ l : List PyStr, List.zip l (List.zip (l.map fun k => (h5Info f k).1) (l.map fun k => (h5Info f k).2)) =
      l.map fun k => (k, h5Info f k) := fun l => by
    induction l with
    | nil => rfl
    | cons a l ih => simp only [List.map_cons, List.zip_cons_cons, ih]
  refine ⟨?_, by simp [findHdfKey], by simp [findHdfKey]⟩
  unfold findHdfKey getHdfInformation
  simp only
  rw [hkeys, hzip, hzip, List.filter_map]
  congr 1
  apply List.filter_congr
  intro k _
  rw [Bool.eq_iff_iff, strIn_iff]
  simp

/-- A file with a group holding a dataset and a dangling link. -/
def exampleH5 : H5File :=
  [("entry".toList, .group [("data".toList, .dataset ⟨[2, 3], fun _ => 1⟩ "float32".toList), ("link".toList, .dangling)])]

/-- The hypothesis is met, and the dataset is listed twice. -/
example : WellFormedH5 (.group exampleH5) ∧ (getHdfInformation exampleH5).1 = ["entry/data".toList, "entry/link".toList, "/entry/data".toList] ∧
    (getHdfInformation exampleH5).2.1 = [some [2, 3], none, some [2, 3]] := by
  refine ⟨?_, by decide, by decide⟩
  intro cs ch h
  cases h with
  | here => exact ⟨by decide, by unfold exampleH5 GoodName; decide⟩
  | child hm h =>
    simp only [exampleH5, List.mem_singleton, Prod.mk.injEq] at hm
    obtain ⟨rfl, rfl⟩ := hm
    cases h with
    | here => exact ⟨by decide, by simp [GoodName]⟩
    | child hm h =>
      simp only [List.mem_cons, Prod.mk.injEq, List.not_mem_nil, or_false] at hm
      rcases hm with ⟨rfl, rfl⟩ | ⟨rfl, rfl⟩ <;> cases h

theorem exampleH5_wellFormed : WellFormedH5 (.group exampleH5) := by
  intro cs ch h
  cases h with
  | here => exact ⟨by decide, by unfold exampleH5 GoodName; decide⟩
  | child hm h =>
    simp only [exampleH5, List.mem_singleton, Prod.mk.injEq] at hm
    obtain ⟨rfl, rfl⟩ := hm
    cases h with
    | here => exact ⟨by decide, by simp [GoodName]⟩
    | child hm h =>
      simp only [List.mem_cons, Prod.mk.injEq, List.not_mem_nil, or_false] at hm
      rcases hm with ⟨rfl, rfl⟩ | ⟨rfl, rfl⟩ <;> cases h

example := C61_keys exampleH5_wellFormed "entry/data".toList

example := C61_aligned exampleH5_wellFormed

example := C61_complete exampleH5_wellFormed ["entry".toList, "data".toList] ⟨[2, 3], fun _ => 1⟩ "float32".toList (.child (List.mem_singleton.2 rfl) (.child (List.mem_cons_self ..) (.here _)))

example := C61_find exampleH5_wellFormed "data".toList

end Discorpy
