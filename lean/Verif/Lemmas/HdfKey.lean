import Verif.Lemmas.Hdf

/-! # Lemmas about keys of HDF files -/

namespace Discorpy

open Spec

theorem h5LinkExists_iff {ch : List (PyStr × H5)} (h : WellFormedH5 (.group ch)) (parts : List PyStr) :
    h5LinkExists parts ch = true ↔
      ∃ x, NodeAt (.group ch) (parts.filter (· ≠ ['.'])) x ∧ (parts.getLast? = some ['.'] → ∃ sub, x = .group sub) := by
  induction parts generalizing ch with
  | nil => simp only [h5LinkExists, true_iff]; exact ⟨_, .here _, fun h => by simp at h⟩
  | cons p r ih =>
    rw [h5LinkExists]
    by_cases hp : p = ['.']
    · rw [if_pos hp, ih h, List.filter_cons, if_neg (by simp [hp])]
      by_cases hr : r = []
      · subst hr
        simp only [List.filter_nil]
        constructor
        · rintro ⟨x, h1, -⟩
          cases h1
          exact ⟨_, .here _, fun _ => ⟨ch, rfl⟩⟩
        · rintro ⟨x, h1, -⟩
          exact ⟨x, h1, fun h => by simp at h⟩
      · rw [List.getLast?_cons_of_ne_nil hr]
    · rw [if_neg hp, List.filter_cons, if_pos (by simp [hp])]
      have hl := lookup_iff_mem (h [] ch (.here _)).1 p
      cases hc : ch.lookup p with
      | none =>
        simp only [Bool.false_eq_true, false_iff, not_exists]
        rintro x ⟨h1, -⟩
        cases h1 with
        | child hm _ => rw [(hl _).2 hm] at hc; cases hc
      | some c =>
        have hm := (hl c).1 hc
        by_cases hr : r = []
        · subst hr
          simp only [if_true, true_iff]
          exact ⟨c, .child hm (.here _), fun h => absurd (by simpa using h) hp⟩
        · simp only [if_neg hr, List.getLast?_cons_of_ne_nil hr]
          have key : ∀ x, NodeAt (.group ch) (p :: r.filter (· ≠ ['.'])) x ↔ NodeAt c (r.filter (· ≠ ['.'])) x := by
            intro x
            constructor
            · intro h1
              cases h1 with
              | child hm' h2 =>
                have := (hl _).2 hm'
                rw [hc, Option.some.injEq] at this
                exact this ▸ h2
            · exact fun h2 => .child hm h2
          have hne : ∀ x, NodeAt c (r.filter (· ≠ ['.'])) x → (r.getLast? = some ['.'] → ∃ sub, x = .group sub) → ∃ sub, c = .group sub := by
            intro x h1 h2
            by_cases hf : r.filter (· ≠ ['.']) = []
            · rw [hf] at h1
              cases h1
              refine h2 ?_
              rw [List.getLast?_eq_getLast_of_ne_nil hr]
              have := List.filter_eq_nil_iff.1 hf _ (List.getLast_mem hr)
              simpa using this
            · generalize r.filter (· ≠ ['.']) = q at h1 hf
              cases h1 with
              | here => exact absurd rfl hf
              | child _ _ => exact ⟨_, rfl⟩
          cases c with
          | group sub =>
            simp only [key]
            exact ih (wellFormed_child h hm)
          | dataset a t =>
            simp only [Bool.false_eq_true, false_iff, key]
            rintro ⟨x, h1, h2⟩
            obtain ⟨sub, e⟩ := hne x h1 h2
            cases e
          | dangling =>
            simp only [Bool.false_eq_true, false_iff, key]
            rintro ⟨x, h1, h2⟩
            obtain ⟨sub, e⟩ := hne x h1 h2
            cases e

theorem keyComps_parts (key : PyStr) : keyComps key = ((key.splitOn '/').filter (· ≠ [])).filter (· ≠ ['.']) := by
  unfold keyComps
  rw [List.filter_filter]
  congr 1
  funext c
  by_cases h1 : c = [] <;> by_cases h2 : c = ['.'] <;> simp [h1, h2]

theorem h5Contains_iff {f : H5File} (h : WellFormedH5 (.group f)) (key : PyStr) :
    h5Contains f key = true ↔ key ≠ [] ∧ ∃ x, NodeAt (.group f) (keyComps key) x ∧
      (((key.splitOn '/').filter (· ≠ [])).getLast? = some ['.'] → ∃ sub, x = .group sub) := by
  unfold h5Contains
  rw [keyComps_parts, ← h5LinkExists_iff h]
  simp

theorem joinKey_ne_nil {cs : List PyStr} (h0 : cs ≠ []) (h : ∀ c ∈ cs, GoodName c) : joinKey cs ≠ [] := by
  intro hj
  have := keyComps_join h
  rw [hj] at this
  exact h0 (this.symm.trans (by decide))

theorem parts_keyTo {key : PyStr} {cs : List PyStr} (h : ∀ c ∈ cs, GoodName c) (hk : KeyTo key cs) :
    (key.splitOn '/').filter (· ≠ []) = cs := by
  have hf : cs.filter (· ≠ []) = cs := by
    rw [List.filter_eq_self]
    intro c hc
    simpa using (h c hc).1
  by_cases h0 : cs = []
  · subst h0
    rcases hk with rfl | rfl <;> decide
  · rcases hk with rfl | rfl
    · rw [splitOn_joinKey h0 fun c hc => (h c hc).2.2, hf]
    · have h1 := splitOn_append_cons' [] (joinKey cs) '/' (by simp)
      rw [List.nil_append] at h1
      rw [h1, splitOn_joinKey h0 fun c hc => (h c hc).2.2, List.filter_cons, if_neg (by simp), hf]

/-- A key in the usual form is in the file if there is something at its place, even a dangling link. -/
theorem h5Contains_keyTo {f : H5File} (h : WellFormedH5 (.group f)) {key : PyStr} {cs : List PyStr} (hg : ∀ c ∈ cs, GoodName c)
    (hk : KeyTo key cs) (h0 : key ≠ []) : h5Contains f key = true ↔ ∃ x, NodeAt (.group f) cs x := by
  rw [h5Contains_iff h, keyComps_keyTo hg hk, parts_keyTo hg hk]
  constructor
  · rintro ⟨-, x, h1, -⟩; exact ⟨x, h1⟩
  · rintro ⟨x, h1⟩
    refine ⟨h0, x, h1, fun hl => ?_⟩
    have := List.mem_of_getLast? hl
    exact absurd rfl (hg _ this).2.1

/-- A member below the components of a key. -/
theorem h5Contains_below {f : H5File} (h : WellFormedH5 (.group f)) (key n : PyStr) (hn : GoodName n) {x : H5}
    (hx : NodeAt (.group f) (keyComps key ++ [n]) x) :
    keyComps (key ++ '/' :: n) = keyComps key ++ [n] ∧ h5Contains f (key ++ '/' :: n) = true := by
  have hs : (key ++ '/' :: n).splitOn '/' = key.splitOn '/' ++ [n] := by
    rw [List.splitOn_append_cons_self, List.splitOn_eq_singleton hn.2.2]
  have hc : keyComps (key ++ '/' :: n) = keyComps key ++ [n] := by
    unfold keyComps
    rw [hs, List.filter_append, List.filter_cons, if_pos (by simpa using ⟨hn.1, hn.2.1⟩), List.filter_nil]
  refine ⟨hc, (h5Contains_iff h _).2 ⟨by simp, x, by rw [hc]; exact hx, fun hl => ?_⟩⟩
  rw [hs, List.filter_append, List.filter_cons, if_pos (by simpa using hn.1), List.filter_nil, List.getLast?_append] at hl
  simp only [List.getLast?_singleton, Option.some_or, Option.some.injEq] at hl
  exact absurd hl hn.2.1

end Discorpy
