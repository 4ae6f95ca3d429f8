import Verif.Lemmas.Metadata

/-! # Helper lemmas: JSON -/

namespace Discorpy

open Spec

variable {F : Type} {repr : F → PyStr} {number : PyStr → Except PyErr F}

theorem skipWs_cons {c : Char} (h : isJsonSpace c = false) (r : PyStr) : skipWs (c :: r) = c :: r := by
  unfold skipWs; rw [List.dropWhile_cons_of_neg (by simp [h])]

theorem skipWs_newline (k : ℕ) {c : Char} (h : isJsonSpace c = false) (r : PyStr) : skipWs (newline k ++ c :: r) = c :: r := by
  unfold skipWs newline
  rw [List.cons_append, List.dropWhile_cons_of_pos (by decide), List.dropWhile_append_of_pos, List.dropWhile_cons_of_neg (by simp [h])]
  intro a ha
  rw [(List.mem_replicate.1 ha).2]; decide

/-- A text at which a number ends. -/
def Ends (rest : PyStr) : Prop := ∀ c r, rest = c :: r → isJsonDelim c = true

theorem head_print (hn : JsonNumberText repr number) (k : ℕ) (v : JVal F) :
    ∃ c r, printJson repr k v = c :: r ∧ isJsonSpace c = false ∧ c ≠ ']' := by
  match v with
  | .num x =>
    rw [printJson]
    cases hx : repr x with
    | nil => exact absurd hx (hn.nonempty x)
    | cons c r =>
      have hc := hn.noDelim x c (by rw [hx]; simp)
      refine ⟨c, r, rfl, ?_, ?_⟩
      · unfold isJsonDelim at hc
        cases h : isJsonSpace c
        · rfl
        · simp [h] at hc
      · rintro rfl; revert hc; decide
  | .arr [] => exact ⟨'[', _, rfl, by decide, by decide⟩
  | .arr (w :: l) => rw [printJson]; exact ⟨'[', _, rfl, by decide, by decide⟩

theorem parse_number (hn : JsonNumberText repr number) (x : F) {n : ℕ} (h : (repr x).length ≤ n) {rest : PyStr} (hr : Ends rest) :
    parseJson number n (repr x ++ rest) = .ok (.num x, rest) := by
  cases hx : repr x with
  | nil => exact absurd hx (hn.nonempty x)
  | cons c t =>
    rw [hx] at h
    obtain ⟨n, rfl⟩ : ∃ m, n = m + 1 := ⟨n - 1, by simp at h; omega⟩
    have hd := hn.noDelim x
    have hc : c ≠ '[' := by
      rintro rfl
      have := hd '[' (by rw [hx]; simp)
      revert this; decide
    rw [List.cons_append, parseJson.eq_3 _ _ _ (fun r h => hc (by cases h; rfl))]
    rw [← List.cons_append, ← hx]
    have h1 : (repr x ++ rest).takeWhile (fun c => !isJsonDelim c) = repr x := by
      rw [List.takeWhile_append_of_pos (by intro a ha; simp [hd a ha])]
      cases rest with
      | nil => simp
      | cons d r => rw [List.takeWhile_cons_of_neg (by simp [hr d r rfl])]; simp
    have h2 : (repr x ++ rest).dropWhile (fun c => !isJsonDelim c) = rest := by
      rw [List.dropWhile_append_of_pos (by intro a ha; simp [hd a ha])]
      cases rest with
      | nil => simp
      | cons d r => rw [List.dropWhile_cons_of_neg (by simp [hr d r rfl])]
    simp only [h1, h2, hn.roundtrip x]
    rw [if_neg (hn.nonempty x)]
    rfl

mutual
theorem parse_print (hn : JsonNumberText repr number) (v : JVal F) (k n : ℕ) (rest : PyStr) (h : (printJson repr k v).length ≤ n) (hr : Ends rest) :
    parseJson number n (printJson repr k v ++ rest) = .ok (v, rest) := by
  match v with
  | .num x => rw [printJson] at h ⊢; exact parse_number hn x h hr
  | .arr [] =>
    rw [printJson] at h ⊢
    obtain ⟨n, rfl⟩ : ∃ m, n = m + 1 := ⟨n - 1, by simp at h; omega⟩
    show parseJson number (n + 1) ('[' :: (']' :: rest)) = _
    rw [parseJson, skipWs_cons (by decide)]
    rfl
  | .arr (w :: l) =>
    rw [printJson] at h ⊢
    obtain ⟨n, rfl⟩ : ∃ m, n = m + 1 := ⟨n - 1, by simp at h; omega⟩
    simp only [List.cons_append, List.length_cons, List.length_append, List.length_nil] at h
    have e : '[' :: newline (k + 1) ++ printJson repr (k + 1) w ++ printTail repr (k + 1) l ++ newline k ++ [']'] ++ rest =
        '[' :: (newline (k + 1) ++ (printJson repr (k + 1) w ++ (printTail repr (k + 1) l ++ newline k ++ ']' :: rest))) := by simp
    rw [e, parseJson]
    obtain ⟨c, r, hc, hs, hne⟩ := head_print hn (k + 1) w
    have e1 : skipWs (newline (k + 1) ++ (printJson repr (k + 1) w ++ (printTail repr (k + 1) l ++ newline k ++ ']' :: rest))) =
        printJson repr (k + 1) w ++ (printTail repr (k + 1) l ++ newline k ++ ']' :: rest) := by
      rw [hc, List.cons_append, skipWs_newline _ hs]
    rw [e1]
    have e2 : Ends (printTail repr (k + 1) l ++ newline k ++ ']' :: rest) := by
      intro d t hd
      cases l with
      | nil => rw [printTail, newline] at hd; simp at hd; rw [← hd.1]; decide
      | cons u l => rw [printTail] at hd; simp at hd; rw [← hd.1]; decide
    have h1 := parse_print hn w (k + 1) n _ (by omega) e2
    have h2 := parse_tail hn l (k + 1) k n rest (by omega)
    split
    · rename_i r' heq
      rw [hc, List.cons_append] at heq
      cases heq
      exact absurd rfl hne
    · rw [h1, ok_bind]
      simp only [h2, ok_bind]
theorem parse_tail (hn : JsonNumberText repr number) (l : List (JVal F)) (k m n : ℕ) (rest : PyStr)
    (h : (printTail repr k l).length + 1 ≤ n) :
    parseTail number n (skipWs (printTail repr k l ++ newline m ++ ']' :: rest)) = .ok (l, rest) := by
  obtain ⟨n, rfl⟩ : ∃ m, n = m + 1 := ⟨n - 1, by omega⟩
  match l with
  | [] =>
    rw [printTail, List.nil_append, skipWs_newline m (by decide), parseTail]
  | v :: l =>
    rw [printTail] at h ⊢
    simp only [List.cons_append, List.length_cons, List.length_append] at h
    have e : ',' :: newline k ++ printJson repr k v ++ printTail repr k l ++ newline m ++ ']' :: rest =
        ',' :: (newline k ++ (printJson repr k v ++ (printTail repr k l ++ newline m ++ ']' :: rest))) := by simp
    rw [e, skipWs_cons (by decide), parseTail]
    obtain ⟨c, r, hc, hs, hne⟩ := head_print hn k v
    have e1 : skipWs (newline k ++ (printJson repr k v ++ (printTail repr k l ++ newline m ++ ']' :: rest))) =
        printJson repr k v ++ (printTail repr k l ++ newline m ++ ']' :: rest) := by
      rw [hc, List.cons_append, skipWs_newline _ hs]
    have e2 : Ends (printTail repr k l ++ newline m ++ ']' :: rest) := by
      intro d t hd
      cases l with
      | nil => rw [printTail, newline] at hd; simp at hd; rw [← hd.1]; decide
      | cons u l => rw [printTail] at hd; simp at hd; rw [← hd.1]; decide
    have h1 := parse_print hn v k n _ (by omega) e2
    have h2 := parse_tail hn l k m n rest (by omega)
    rw [e1, h1, ok_bind]
    simp only [h2, ok_bind]
end

theorem parsePair_key (key : PyStr) (hk : '"' ∉ key) (s : PyStr) (n : ℕ) (v : JVal F) (rest : PyStr)
    (h : parseJson number n (skipWs s) = .ok (v, rest)) :
    parsePair number n ('"' :: (key ++ '"' :: ':' :: s)) = .ok ((key, v), rest) := by
  have h1 : (key ++ '"' :: ':' :: s).dropWhile (· ≠ '"') = '"' :: ':' :: s := by
    rw [List.dropWhile_append_of_pos (by intro a ha; simp; rintro rfl; exact hk ha)]
    rfl
  have h2 : (key ++ '"' :: ':' :: s).takeWhile (· ≠ '"') = key := by
    rw [List.takeWhile_append_of_pos (by intro a ha; simp; rintro rfl; exact hk ha)]
    simp
  rw [parsePair, h1, h2]
  simp only [skipWs_cons (c := ':') (by decide), h, ok_bind]

end Discorpy
