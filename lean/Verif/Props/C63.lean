import Verif.Lemmas.PathRepair

/-! # C63 — Windows path repair -/

namespace Discorpy

open Spec

/-- **C63 (clean).** The result has no backslash and none of the eight control characters. -/
theorem C63_clean (s : PyStr) : CleanPath (correctPath s) := by
  rw [correctPath_eq]
  refine ⟨fun h => ?_, fun letter control he h => ?_⟩
  · obtain ⟨c, -, hc⟩ := List.mem_flatMap.1 h
    exact (repairChar_clean c).1 hc
  · obtain ⟨c, -, hc⟩ := List.mem_flatMap.1 h
    exact (repairChar_clean c).2 _ _ he hc

/-- **C63 (untouched).** A path that is clean already stays as it is; hence the repair is idempotent. On other systems than Windows no path is
changed except by `find_file`. -/
theorem C63_untouched (s : PyStr) : (CleanPath s → correctPath s = s) ∧ correctPath (correctPath s) = correctPath s ∧ getPathText false s = s := by
  have h : ∀ s, CleanPath s → correctPath s = s := by
    rintro s ⟨h1, h2⟩
    rw [correctPath_eq]
    have : s.flatMap repairChar = s.flatMap fun c => [c] := by
      apply List.flatMap_congr
      intro c hc
      refine repairChar_plain (fun h => h1 (h ▸ hc)) fun letter he => h2 _ _ he hc
    rw [this]
    simp
  exact ⟨h s, h _ (C63_clean s), rfl⟩

/-- **C63 (intended path).** If a path was typed with backslashes in an ordinary string literal, the repair gives the path that was meant. -/
theorem C63_intended (text value : PyStr) (h : Literal text value) : correctPath value = withSlashes text := by
  rw [correctPath_eq]
  induction h with
  | nil => rfl
  | @plain c text value h1 h2 _ ih =>
    rw [List.flatMap_cons, ih, repairChar_plain h1 h2]
    simp [withSlashes, h1]
  | @escape letter control text value h1 _ _ ih =>
    have hl : letter ≠ '\\' := by
      rintro rfl
      unfold EscapeOf at h1
      simp at h1
    rw [List.flatMap_cons, ih, repairChar_escape h1]
    simp [withSlashes, hl]
  | @kept c text value h1 h2 h3 _ ih =>
    have hc : c ≠ '\\' := by rintro rfl; exact h2 (by decide)
    rw [List.flatMap_cons, List.flatMap_cons, ih, repairChar_plain hc h3]
    have hb : repairChar '\\' = ['/'] := by decide
    rw [hb]
    simp [withSlashes, hc]

/-- **C63 (systems).** On Windows the functions that load and save files take every path repaired: clean, and as it was meant if
typed in an ordinary string literal. -/
theorem C63_windows (s text value : PyStr) (h : Literal text value) : CleanPath (getPathText true s) ∧ getPathText true value = withSlashes text := by
  simp only [getPathText, if_true]
  exact ⟨C63_clean s, C63_intended text value h⟩

/-- **C63 (not repaired).** `\1` in a string literal is the character of code 1, which stays: a folder called `1run` is not found. -/
theorem C63_octal : correctPath ("C:".toList ++ Char.ofNat 1 :: "run".toList) = "C:".toList ++ Char.ofNat 1 :: "run".toList ∧
    "C:".toList ++ Char.ofNat 1 :: "run".toList ≠ withSlashes "C:\\1run".toList := by decide

/-- **C63 (search).** `find_file` returns the files found for the repaired path, each once if they are distinct, in increasing order; it
raises `FileNotFoundError` exactly if there are none. -/
theorem C63_find (glob : PyStr → List PyStr) (path : PyStr) :
    (findFile glob path = .error .fileNotFoundError ↔ glob (correctPath path) = []) ∧
    ∀ res, findFile glob path = .ok res → res.Perm (glob (correctPath path)) ∧ res.Pairwise (· ≤ ·) := by
  unfold findFile
  simp only
  constructor
  · split_ifs with h <;> simp [h]
  · intro res h
    split_ifs at h with h0
    cases h
    refine ⟨List.mergeSort_perm _ _, ?_⟩
    have := List.pairwise_mergeSort (le := fun a b : PyStr => decide (a ≤ b)) (fun a b c h1 h2 => by
      simp only [decide_eq_true_eq] at *; exact List.le_trans h1 h2) (fun a b => by
      simp only [Bool.or_eq_true, decide_eq_true_eq]; exact List.le_total a b) (glob (correctPath path))
    exact this.imp fun h => by simpa using h

/-- `'C:\new\dot'` typed in an ordinary literal contains a newline, and is repaired to `C:/new/dot`. -/
example : Literal ['C', ':', '\\', 'n', 'e', 'w', '\\', 'd', 'o', 't'] ['C', ':', '\n', 'e', 'w', '\\', 'd', 'o', 't'] ∧
    correctPath ['C', ':', '\n', 'e', 'w', '\\', 'd', 'o', 't'] = "C:/new/dot".toList := by
  have hp : ∀ c ∈ ['C', ':', 'e', 'w', 'o', 't'], c ≠ '\\' ∧ ∀ letter, ¬ EscapeOf letter c := by
    intro c hc
    unfold EscapeOf
    simp only [List.mem_cons, List.not_mem_nil, or_false] at hc
    rcases hc with rfl | rfl | rfl | rfl | rfl | rfl <;> exact ⟨by decide, by simp⟩
  refine ⟨?_, by decide⟩
  have h : ∀ {c : Char} {a b : PyStr}, c ∈ ['C', ':', 'e', 'w', 'o', 't'] → Literal a b → Literal (c :: a) (c :: b) :=
    fun hc h => .plain (hp _ hc).1 (hp _ hc).2 h
  refine h (by decide) (h (by decide) (.escape (letter := 'n') (by unfold EscapeOf; decide) (fun h => absurd h (by decide)) (h (by decide)
    (h (by decide) (.kept ?_ (by decide) ?_ (h (by decide) (h (by decide) .nil)))))))
  · intro control; unfold EscapeOf; simp
  · intro letter; unfold EscapeOf; simp

/-- `'a\t'` typed in an ordinary literal. -/
theorem literal_tab : Literal ['a', '\\', 't'] ['a', '\t'] :=
  .plain (by decide) (by simp [EscapeOf]) (.escape (by simp [EscapeOf]) (fun h => absurd h (by decide)) .nil)

example := C63_intended _ _ literal_tab

example := C63_windows "a\\b".toList _ _ literal_tab

end Discorpy
