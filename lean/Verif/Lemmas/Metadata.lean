import Verif.Spec.Metadata
import Verif.Lemmas.Save

/-! # Helper lemmas: metadata files -/

namespace Discorpy

open Spec

theorem splitLinesAux_line {line : PyStr} (h : OneLine line) (cur r : PyStr) :
    splitLinesAux cur (line ++ '\n' :: r) = (cur ++ line) :: splitLinesAux [] r := by
  induction line generalizing cur with
  | nil =>
    rw [List.nil_append, splitLinesAux.eq_3 _ _ _ (by intro _ h; cases h)]
    rw [if_pos (by decide), List.append_nil]
  | cons c line ih =>
    have hc := h c (by simp)
    have hr : c ≠ '\r' := by rintro rfl; revert hc; decide
    rw [List.cons_append, splitLinesAux.eq_3 _ _ _ (fun _ h => absurd h hr), hc]
    rw [if_neg (by simp), ih (fun x hx => h x (by simp [hx]))]
    simp

theorem splitLines_textOf {lines : List PyStr} (h : ∀ l ∈ lines, OneLine l) : splitLines (textOf lines) = lines := by
  unfold splitLines textOf
  induction lines with
  | nil => rfl
  | cons l lines ih =>
    rw [List.flatMap_cons, List.append_assoc, List.singleton_append, splitLinesAux_line (h l (by simp)), List.nil_append,
      ih fun x hx => h x (by simp [hx])]

theorem splitWordsAux_word {w : PyStr} (h : ∀ c ∈ w, isPySpace c = false) (cur r : PyStr) :
    splitWordsAux cur (w ++ r) = splitWordsAux (cur ++ w) r := by
  induction w generalizing cur with
  | nil => simp
  | cons c w ih =>
    rw [List.cons_append, splitWordsAux, if_neg (by simp [h c (by simp)]), ih fun x hx => h x (by simp [hx])]
    simp

theorem splitWordsAux_space {s : PyStr} (h : ∀ c ∈ s, isPySpace c = true) (cur : PyStr) :
    splitWordsAux cur s = if cur = [] then [] else [cur] := by
  induction s generalizing cur with
  | nil => rfl
  | cons c s ih =>
    have ih' := ih (fun x hx => h x (by simp [hx])) []
    rw [if_pos rfl] at ih'
    rw [splitWordsAux, if_pos (h c (by simp)), ih']

theorem splitWordsAux_append {c : Char} (hc : isPySpace c = true) (u s cur : PyStr) :
    splitWordsAux cur (u ++ c :: s) = splitWordsAux cur u ++ splitWordsAux [] s := by
  induction u generalizing cur with
  | nil =>
    have e : splitWordsAux cur (c :: s) = if cur = [] then splitWordsAux [] s else cur :: splitWordsAux [] s := by
      rw [splitWordsAux, if_pos hc]
    rw [List.nil_append, e, splitWordsAux]
    split <;> rfl
  | cons d u ih =>
    rw [List.cons_append, splitWordsAux, splitWordsAux]
    split
    · split
      · exact ih []
      · rw [ih []]; rfl
    · exact ih _

theorem splitWords_last {line w : PyStr} (h : LastWord line w) : (splitWords line).getLast? = some w := by
  obtain ⟨pre, post, rfl, hpre, hw, hns, hpost⟩ := h
  have base : splitWordsAux [] (w ++ post) = [w] := by
    rw [splitWordsAux_word hns, List.nil_append, splitWordsAux_space hpost, if_neg hw]
  unfold splitWords
  rcases hpre with rfl | ⟨u, c, rfl, hc⟩
  · rw [List.nil_append, base]; rfl
  · have e : u ++ [c] ++ w ++ post = u ++ c :: (w ++ post) := by simp
    rw [e, splitWordsAux_append hc, base]; simp

theorem splitWords_blank {line : PyStr} (h : ∀ c ∈ line, isPySpace c = true) : splitWords line = [] := by
  unfold splitWords; rw [splitWordsAux_space h]; rfl

theorem dictSet_new {β : Type} {d : List (PyStr × β)} {k : PyStr} (h : ∀ kv ∈ d, kv.1 ≠ k) (v : β) : dictSet d k v = d ++ [(k, v)] := by
  induction d with
  | nil => rfl
  | cons kv d ih =>
    obtain ⟨k', v'⟩ := kv
    rw [dictSet, if_neg (h (k', v') (by simp)), ih fun x hx => h x (by simp [hx])]
    rfl

theorem factor_injective {a b : ℕ} (h : "factor".toList ++ Nat.toDigits 10 a = "factor".toList ++ Nat.toDigits 10 b) : a = b :=
  toDigits_injective (List.append_cancel_left h)

theorem metadataDict_fold {F : Type} (l : List F) (n : ℕ) (d : List (PyStr × F))
    (h : ∀ i, n ≤ i → ∀ kv ∈ d, kv.1 ≠ "factor".toList ++ Nat.toDigits 10 i) :
    (l.zipIdx n).foldl (fun d (fi : F × ℕ) => dictSet d ("factor".toList ++ Nat.toDigits 10 fi.2) fi.1) d =
      d ++ (l.zipIdx n).map fun fi => ("factor".toList ++ Nat.toDigits 10 fi.2, fi.1) := by
  induction l generalizing n d with
  | nil => simp
  | cons x l ih =>
    rw [List.zipIdx_cons, List.foldl_cons, List.map_cons, dictSet_new (h n le_rfl), ih]
    · simp
    · intro i hi kv hkv
      rcases List.mem_append.1 hkv with hkv | hkv
      · exact h i (by omega) kv hkv
      · rw [List.mem_singleton] at hkv
        subst hkv
        intro he
        have := factor_injective he
        omega

theorem metadataDict_eq {F : Type} (xc yc : F) (l : List F) : metadataDict xc yc l =
    ("xcenter".toList, xc) :: ("ycenter".toList, yc) :: l.zipIdx.map fun fi => ("factor".toList ++ Nat.toDigits 10 fi.2, fi.1) := by
  have e : dictSet (dictSet [] "xcenter".toList xc) "ycenter".toList yc = [("xcenter".toList, xc), ("ycenter".toList, yc)] := by
    rw [dictSet_new (d := []) (by simp), dictSet_new] <;> simp
  unfold metadataDict
  rw [e, metadataDict_fold]
  · rfl
  · intro i _ kv hkv
    simp only [List.mem_cons, List.not_mem_nil, or_false] at hkv
    rcases hkv with rfl | rfl <;> simp

theorem save_readback {α : Type} {lower : PyStr → PyStr} {fs : FS α} {j : SaveJob α} {q : FilePath} (hk : j.kind.isPlot = false)
    (h : (save lower fs j).1 = .ok q) : readFile (save lower fs j).2 q = .ok j.content := by
  unfold save at h ⊢
  split at h
  · cases h
  · rename_i q' fs1 hprep
    rcases finishSave_cases fs1 j q' with ⟨e, h1⟩ | ⟨fs2, hw, ⟨e, h1⟩ | h1⟩
    · rw [h1] at h; cases h
    · rw [h1] at h; cases h
    · rw [h1] at h ⊢
      cases h
      have ht : writeTarget j.kind q = q := by unfold writeTarget; simp [hk]
      rw [ht] at hw
      simp only
      unfold readFile
      rw [(writeFile_ok hw).1]
      simp

theorem parse_lines {F : Type} {float : PyStr → Except PyErr F} {lines : List PyStr} {xs : List F}
    (h : List.Forall₂ (ReadsAs float) lines xs) : lines.mapM (lastNumber float) = .ok xs := by
  rw [mapM_ok_iff]
  induction h with
  | nil => exact .nil
  | cons h _ ih =>
    refine .cons ?_ ih
    obtain ⟨-, w, h1, h2⟩ := h
    unfold lastNumber
    rw [splitWords_last h1]
    exact h2

theorem oneLine_of_reads {F : Type} {float : PyStr → Except PyErr F} {lines : List PyStr} {xs : List F}
    (h : List.Forall₂ (ReadsAs float) lines xs) : ∀ l ∈ lines, OneLine l := by
  induction h with
  | nil => simp
  | cons h _ ih =>
    intro l hl
    rcases List.mem_cons.1 hl with rfl | hl
    · exact h.1
    · exact ih l hl

theorem isLineBreak_space {c : Char} (h : isPySpace c = false) : isLineBreak c = false := by
  by_contra hb
  rw [Bool.not_eq_false] at hb
  unfold isLineBreak at hb
  unfold isPySpace at h
  rw [List.contains_iff_mem] at hb
  rw [← Bool.not_eq_true, List.contains_iff_mem] at h
  apply h
  simp only [List.mem_cons, List.not_mem_nil, or_false] at hb ⊢
  omega

end Discorpy
