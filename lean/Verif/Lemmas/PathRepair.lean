import Verif.Spec.PathRepair
import Mathlib.Data.List.Sort

/-! # Lemmas about the repair of paths -/

namespace Discorpy

open Spec

/-- What becomes of one character. -/
def repairChar (c : Char) : PyStr :=
  match escapeTable.lookup c with
  | some t => '/' :: t.tail
  | none => if c = '\\' then ['/'] else [c]

theorem replaceChar_if (c : Char) (t s : PyStr) : (if c ∈ s then replaceChar c t s else s) = replaceChar c t s := by
  split_ifs with h
  · rfl
  · unfold replaceChar
    induction s with
    | nil => rfl
    | cons x r ih =>
      simp only [List.mem_cons, not_or] at h
      rw [List.flatMap_cons, if_neg (Ne.symm h.1), ← ih h.2]
      rfl

theorem replaceChar_flatMap (c : Char) (t s : PyStr) (g : Char → PyStr) :
    replaceChar c t (s.flatMap g) = s.flatMap fun x => replaceChar c t (g x) := by
  unfold replaceChar
  rw [List.flatMap_assoc]

theorem correctPath_eq (s : PyStr) : correctPath s = s.flatMap repairChar := by
  have h1 : s = s.flatMap fun x => [x] := by simp
  unfold correctPath
  simp only [replaceChar_if, escapeTable, List.foldl_cons, List.foldl_nil]
  conv_lhs => rw [h1]
  simp only [replaceChar_flatMap]
  apply List.flatMap_congr
  intro x _
  by_cases h7 : x = Char.ofNat 7
  · subst h7; decide
  by_cases h8 : x = Char.ofNat 8
  · subst h8; decide
  by_cases h12 : x = Char.ofNat 12
  · subst h12; decide
  by_cases h10 : x = Char.ofNat 10
  · subst h10; decide
  by_cases h13 : x = Char.ofNat 13
  · subst h13; decide
  by_cases h9 : x = Char.ofNat 9
  · subst h9; decide
  by_cases h11 : x = Char.ofNat 11
  · subst h11; decide
  by_cases h0 : x = Char.ofNat 0
  · subst h0; decide
  have hl : escapeTable.lookup x = none := by
    rw [List.lookup_eq_none_iff]
    intro p hp
    simp only [escapeTable, List.mem_cons, List.not_mem_nil, or_false] at hp
    rcases hp with rfl | rfl | rfl | rfl | rfl | rfl | rfl | rfl <;> simpa
  unfold repairChar
  rw [hl]
  simp [replaceChar, h7, h8, h9, h10, h11, h12, h13, h0]

theorem repairChar_plain {c : Char} (h1 : c ≠ '\\') (h2 : ∀ letter, ¬ EscapeOf letter c) : repairChar c = [c] := by
  have hl : escapeTable.lookup c = none := by
    rw [List.lookup_eq_none_iff]
    intro p hp
    simp only [escapeTable, List.mem_cons, List.not_mem_nil, or_false] at hp
    rcases hp with rfl | rfl | rfl | rfl | rfl | rfl | rfl | rfl
    · have := h2 'a'; simp [EscapeOf] at this; simpa using this
    · have := h2 'b'; simp [EscapeOf] at this; simpa using this
    · have := h2 'f'; simp [EscapeOf] at this; simpa using this
    · have := h2 'n'; simp [EscapeOf] at this; simpa using this
    · have := h2 'r'; simp [EscapeOf] at this; simpa using this
    · have := h2 't'; simp [EscapeOf] at this; simpa using this
    · have := h2 'v'; simp [EscapeOf] at this; simpa using this
    · have := h2 '0'; simp [EscapeOf] at this; simpa using this
  unfold repairChar
  rw [hl, if_neg h1]

theorem repairChar_escape {letter control : Char} (h : EscapeOf letter control) : repairChar control = ['/', letter] := by
  unfold EscapeOf at h
  simp only [List.mem_cons, Prod.mk.injEq, List.not_mem_nil, or_false] at h
  rcases h with ⟨rfl, rfl⟩ | ⟨rfl, rfl⟩ | ⟨rfl, rfl⟩ | ⟨rfl, rfl⟩ | ⟨rfl, rfl⟩ | ⟨rfl, rfl⟩ | ⟨rfl, rfl⟩ | ⟨rfl, rfl⟩ <;> decide

theorem repairChar_clean (c : Char) : CleanPath (repairChar c) := by
  by_cases hb : c = '\\'
  · subst hb
    refine ⟨by decide, fun letter control h => ?_⟩
    unfold EscapeOf at h
    simp only [List.mem_cons, Prod.mk.injEq, List.not_mem_nil, or_false] at h
    rcases h with ⟨rfl, rfl⟩ | ⟨rfl, rfl⟩ | ⟨rfl, rfl⟩ | ⟨rfl, rfl⟩ | ⟨rfl, rfl⟩ | ⟨rfl, rfl⟩ | ⟨rfl, rfl⟩ | ⟨rfl, rfl⟩ <;> decide
  by_cases he : ∃ letter, EscapeOf letter c
  · obtain ⟨letter, he⟩ := he
    rw [repairChar_escape he]
    have hl : letter ∈ ['a', 'b', 'f', 'n', 'r', 't', 'v', '0'] := by
      unfold EscapeOf at he
      simp only [List.mem_cons, Prod.mk.injEq, List.not_mem_nil, or_false] at he ⊢
      rcases he with ⟨h, -⟩ | ⟨h, -⟩ | ⟨h, -⟩ | ⟨h, -⟩ | ⟨h, -⟩ | ⟨h, -⟩ | ⟨h, -⟩ | ⟨h, -⟩ <;> simp [h]
    clear he
    unfold CleanPath EscapeOf
    refine ⟨?_, fun l' control h => ?_⟩
    · simp only [List.mem_cons, List.not_mem_nil, or_false] at hl
      rcases hl with rfl | rfl | rfl | rfl | rfl | rfl | rfl | rfl <;> decide
    · simp only [List.mem_cons, Prod.mk.injEq, List.not_mem_nil, or_false] at h hl
      rcases h with ⟨rfl, rfl⟩ | ⟨rfl, rfl⟩ | ⟨rfl, rfl⟩ | ⟨rfl, rfl⟩ | ⟨rfl, rfl⟩ | ⟨rfl, rfl⟩ | ⟨rfl, rfl⟩ | ⟨rfl, rfl⟩ <;>
        rcases hl with rfl | rfl | rfl | rfl | rfl | rfl | rfl | rfl <;> decide
  · push Not at he
    rw [repairChar_plain hb he]
    refine ⟨by simpa using Ne.symm hb, fun letter control h hm => ?_⟩
    rw [List.mem_singleton] at hm
    subst hm
    exact he _ h

end Discorpy
