import Verif.Lemmas.Json

/-! # C57 — JSON metadata round-trips -/

namespace Discorpy

open Spec

variable {F : Type} (lower : PyStr → PyStr) (repr : F → PyStr) (number : PyStr → Except PyErr F)

theorem ends_comma (r : PyStr) : Ends (',' :: r) := by
  intro c t h; cases h; decide

theorem ends_newline (k : ℕ) (r : PyStr) : Ends (newline k ++ r) := by
  intro c t h; unfold newline at h; cases h; decide

theorem parseDoc_jsonText (hn : JsonNumberText repr number) (xc yc : F) (v : JVal F) :
    parseDoc number (jsonText repr xc yc v) =
      .ok [("xcenter".toList, .num xc), ("ycenter".toList, .num yc), ("list_fact".toList, v)] := by
  obtain ⟨N, hN⟩ : ∃ N, N = (jsonText repr xc yc v).length := ⟨_, rfl⟩
  have hlen : (repr xc).length + (repr yc).length + (printJson repr 1 v).length + 10 ≤ N := by
    rw [hN]; unfold jsonText
    simp only [List.length_append, List.length_cons]
    simp
    omega
  have e0 : jsonText repr xc yc v = '{' :: (newline 1 ++ '"' :: ("xcenter".toList ++ '"' :: ':' :: (' ' :: (repr xc ++ (',' :: (newline 1 ++
      '"' :: ("ycenter".toList ++ '"' :: ':' :: (' ' :: (repr yc ++ (',' :: (newline 1 ++
      '"' :: ("list_fact".toList ++ '"' :: ':' :: (' ' :: (printJson repr 1 v ++ (newline 0 ++ ['}']))))))))))))))) := by
    unfold jsonText; simp
  have hsp : ∀ s, skipWs (' ' :: s) = skipWs s := fun s => by unfold skipWs; rw [List.dropWhile_cons_of_pos (by decide)]
  have hnum : ∀ (x : F) (s : PyStr), skipWs (repr x ++ s) = repr x ++ s := by
    intro x s
    obtain ⟨c, r, h1, h2, -⟩ := head_print hn 0 (.num x)
    rw [printJson] at h1
    rw [h1, List.cons_append, skipWs_cons h2]
  have hval : ∀ (s : PyStr), skipWs (printJson repr 1 v ++ s) = printJson repr 1 v ++ s := by
    intro s
    obtain ⟨c, r, h1, h2, -⟩ := head_print hn 1 v
    rw [h1, List.cons_append, skipWs_cons h2]
  obtain ⟨N, rfl⟩ : ∃ M, N = M + 3 := ⟨N - 3, by omega⟩
  unfold parseDoc
  rw [← hN, e0, skipWs_cons (by decide)]
  split
  swap
  · rename_i h; exact absurd rfl (h _)
  rename_i r heq
  cases heq
  rw [skipWs_newline 1 (by decide)]
  split
  · rename_i heq
    have := (List.cons.inj heq).1
    exact absurd this (by decide)
  rw [parsePair_key _ (by decide) _ _ (.num xc) _ (by
    rw [hsp, hnum]; exact parse_number hn xc (by omega) (ends_comma _)), ok_bind]
  simp only
  rw [skipWs_cons (c := ',') (by decide), parsePairs, skipWs_newline 1 (by decide), parsePair_key _ (by decide) _ _ (.num yc) _ (by
    rw [hsp, hnum]; exact parse_number hn yc (by omega) (ends_comma _)), ok_bind]
  simp only
  rw [skipWs_cons (c := ',') (by decide), parsePairs, skipWs_newline 1 (by decide), parsePair_key _ (by decide) _ _ v _ (by
    rw [hsp, hval]; exact parse_print hn v 1 (N + 1) _ (by omega) (ends_newline 0 _)), ok_bind]
  simp only
  rw [skipWs_newline 0 (by decide), parsePairs]
  simp only [ok_bind]
  rw [if_pos (by rfl)]
  rfl

/-- **C57 (round trip).** If the coefficients can be written, loading the file from the path returned by `save_metadata_json` gives
the centre (as floats) and the same nested lists of numbers in the same order. -/
theorem C57_roundtrip (hn : JsonNumberText repr number) (toFloat : F → F) (part : PyStr) (fs : FS PyStr) (p q : FilePath) (xc yc : F)
    (l : PyVal F) (v : JVal F) (hv : l.toJson = .ok v) (overwrite : Bool)
    (h : (saveMetadataJson lower repr toFloat part fs p xc yc l overwrite).1 = .ok q) :
    loadMetadataJson number (saveMetadataJson lower repr toFloat part fs p xc yc l overwrite).2 q =
      .ok (.num (toFloat xc), .num (toFloat yc), v) := by
  unfold saveMetadataJson at h ⊢
  rw [hv] at h ⊢
  unfold loadMetadataJson
  rw [save_readback rfl h, ok_bind]
  simp only
  rw [parseDoc_jsonText repr number hn, ok_bind]
  rfl

theorem toJsonList_numbers {l : List (PyVal F)} {xs : List F} (h : List.Forall₂ (fun v x => v = .num x ∨ v = .npNum x) l xs) :
    PyVal.toJsonList l = .ok (xs.map .num) := by
  induction h with
  | nil => rw [PyVal.toJsonList]; rfl
  | cons h _ ih =>
    rw [PyVal.toJsonList]
    rcases h with rfl | rfl <;> (rw [PyVal.toJson, ok_bind, ih]; rfl)

/-- **C57 (lists, tuples, arrays).** Whether the coefficients are given as a list, a tuple or an array, of Python or numpy numbers,
they are loaded as the list of the numbers in order. -/
theorem C57_sequences (hn : JsonNumberText repr number) (toFloat : F → F) (part : PyStr) (fs : FS PyStr) (p q : FilePath) (xc yc : F)
    (l : PyVal F) (xs : List F) (hl : HoldsNumbers l xs) (overwrite : Bool)
    (h : (saveMetadataJson lower repr toFloat part fs p xc yc l overwrite).1 = .ok q) :
    loadMetadataJson number (saveMetadataJson lower repr toFloat part fs p xc yc l overwrite).2 q =
      .ok (.num (toFloat xc), .num (toFloat yc), .arr (xs.map .num)) := by
  refine C57_roundtrip lower repr number hn toFloat part fs p q xc yc l _ ?_ overwrite h
  cases hl with
  | seq b l xs hl => rw [PyVal.toJson, toJsonList_numbers hl]; rfl
  | ndarray xs => rw [PyVal.toJson]

/-- **C57 (other objects).** If an element is of another type, a TypeError is raised (unless the file cannot be opened), but only after
the file has been opened: with `overwrite=True` a file that was there has been lost. -/
theorem C57_type_error (toFloat : F → F) (part : PyStr) (fs : FS PyStr) (p : FilePath) (old : PyStr) (xc yc : F) (isTuple : Bool)
    (pre post : List (PyVal F)) (xs : List F) (hpre : List.Forall₂ (fun v x => v = .num x ∨ v = .npNum x) pre xs)
    (hs : ∃ stem, SplitAs p.name stem ".json".toList) (hl : lower ".json".toList = ".json".toList) (hd : fs p.dir = some .dir)
    (hold : HasFile fs p.comps old) :
    saveMetadataJson lower repr toFloat part fs p xc yc (.seq isTuple (pre ++ .other :: post)) true =
      (.error .typeError, fun q => if q = p.comps then some (.file part) else fs q) := by
  have h1 : (PyVal.seq isTuple (pre ++ .other :: post)).toJson = .error .typeError := by
    rw [PyVal.toJson]
    have : PyVal.toJsonList (pre ++ .other :: post) = .error .typeError := by
      induction hpre with
      | nil => rw [List.nil_append, PyVal.toJsonList, PyVal.toJson]; rfl
      | cons h _ ih =>
        rw [List.cons_append, PyVal.toJsonList]
        rcases h with rfl | rfl <;> (rw [PyVal.toJson, ok_bind, ih]; rfl)
    rw [this]; rfl
  obtain ⟨st, hs⟩ := hs
  obtain ⟨e1, -⟩ := suffixOf_split hs
  have h2 : normalise lower .json p = .ok p := by
    unfold normalise SaveKind.suffixes
    simp only
    rw [e1, hl, if_pos (by decide)]
  have h3 : createFolder fs p = .ok fs := by
    have e : createFolder fs p = if (fs (folderOf p)).isSome then .ok fs else mkdirs fs (folderOf p) := rfl
    have e2 : folderOf p = p.dir := by unfold folderOf; rw [e1, if_pos (by decide)]
    rw [e, e2, hd]; rfl
  have hold' : fs p.comps = some (.file old) := hold
  unfold saveMetadataJson
  rw [h1]
  simp only
  unfold save prepareSave
  simp only [h2, h3, if_true]
  unfold finishSave writeTarget writeFile
  simp only [SaveKind.isPlot, SaveKind.failsFirst, Bool.false_eq_true, if_false, hd, hold']

/-- **C57 (missing entry).** A JSON file without one of the three entries raises a KeyError. -/
theorem C57_missing_entry (fs : FS PyStr) (p : FilePath) (text : PyStr) (d : List (PyStr × JVal F)) (hfile : HasFile fs p.comps text)
    (hd : parseDoc number text = .ok d)
    (hmiss : ∃ k ∈ ["xcenter".toList, "ycenter".toList, "list_fact".toList], ∀ kv ∈ d, kv.1 ≠ k) :
    loadMetadataJson number fs p = .error .keyError := by
  have hfile' : fs p.comps = some (.file text) := hfile
  have hread : readFile fs p = .ok text := by unfold readFile; rw [hfile']
  have hget : ∀ k, dictGet d k = .error .keyError ∨ ∃ v, dictGet d k = .ok v := by
    intro k; unfold dictGet; split
    · exact .inr ⟨_, rfl⟩
    · exact .inl rfl
  have hbad : ∀ k, (∀ kv ∈ d, kv.1 ≠ k) → dictGet d k = .error .keyError := by
    intro k hk
    unfold dictGet
    have : d.find? (fun kv => kv.1 = k) = none := by
      rw [List.find?_eq_none]; intro kv hkv; simpa using hk kv hkv
    rw [this]
  unfold loadMetadataJson
  rw [hread, ok_bind, hd, ok_bind]
  obtain ⟨k, hk, hm⟩ := hmiss
  simp only [List.mem_cons, List.not_mem_nil, or_false] at hk
  rcases hget "xcenter".toList with h1 | ⟨v1, h1⟩
  · rw [h1]; rfl
  · rcases hget "ycenter".toList with h2 | ⟨v2, h2⟩
    · rw [h1, h2]; rfl
    · rcases hk with rfl | rfl | rfl
      · rw [hbad _ hm] at h1; cases h1
      · rw [hbad _ hm] at h2; cases h2
      · rw [h1, h2, hbad _ hm]; rfl

theorem dictGet_set {β : Type} (d : List (PyStr × β)) (k : PyStr) (v : β) : dictGet (dictSet d k v) k = .ok v := by
  induction d with
  | nil => simp [dictSet, dictGet]
  | cons a d ih =>
    obtain ⟨k', v'⟩ := a
    rw [dictSet]
    split_ifs with h
    · simp [dictGet, h]
    · unfold dictGet at ih ⊢
      rw [List.find?_cons_of_neg (by simpa using h)]
      exact ih

theorem dictGet_set_ne {β : Type} (d : List (PyStr × β)) (k k' : PyStr) (v : β) (hk : k ≠ k') :
    dictGet (dictSet d k v) k' = dictGet d k' := by
  induction d with
  | nil => simp [dictSet, dictGet, hk]
  | cons a d ih =>
    obtain ⟨k1, v1⟩ := a
    rw [dictSet]
    split_ifs with h
    · subst h
      unfold dictGet
      rw [List.find?_cons_of_neg (by simpa using hk), List.find?_cons_of_neg (by simpa using hk)]
    · unfold dictGet at ih ⊢
      by_cases h1 : k1 = k'
      · rw [List.find?_cons_of_pos (by simpa using h1), List.find?_cons_of_pos (by simpa using h1)]
      · rw [List.find?_cons_of_neg (by simpa using h1), List.find?_cons_of_neg (by simpa using h1)]
        exact ih

theorem dictGet_fold_ne {β : Type} (l : List (PyStr × β)) (d : List (PyStr × β)) (k : PyStr) (h : ∀ kv ∈ l, kv.1 ≠ k) :
    dictGet (l.foldl (fun d kv => dictSet d kv.1 kv.2) d) k = dictGet d k := by
  induction l generalizing d with
  | nil => rfl
  | cons a l ih => rw [List.foldl_cons, ih _ fun kv hkv => h kv (by simp [hkv]), dictGet_set_ne _ _ _ _ (h a (by simp))]

theorem dictGet_fold_last {β : Type} {l : List (PyStr × β)} {k : PyStr} {v : β} (h : LastEntry l k v) :
    dictGet (l.foldl (fun d kv => dictSet d kv.1 kv.2) []) k = .ok v := by
  obtain ⟨l₁, l₂, rfl, h⟩ := h
  rw [List.foldl_append, List.foldl_cons, dictGet_fold_ne _ _ _ h, dictGet_set]

/-- The text of the entries after the first. -/
def moreText (repr : F → PyStr) (l : List (PyStr × JVal F)) : PyStr :=
  l.flatMap fun kv => ',' :: newline 1 ++ '"' :: (kv.1 ++ '"' :: ':' :: ' ' :: printJson repr 1 kv.2)

theorem entriesText_cons (kv : PyStr × JVal F) (l : List (PyStr × JVal F)) :
    entriesText (printJson repr 1) (kv :: l) =
      newline 1 ++ '"' :: (kv.1 ++ '"' :: ':' :: ' ' :: (printJson repr 1 kv.2 ++ moreText repr l)) := by
  induction l generalizing kv with
  | nil => simp [entriesText, moreText, newline]
  | cons a l ih =>
    have e : entriesText (printJson repr 1) (kv :: a :: l) = "\n    \"".toList ++ kv.1 ++ "\": ".toList ++ printJson repr 1 kv.2 ++
        [','] ++ entriesText (printJson repr 1) (a :: l) := by
      unfold entriesText
      rw [List.map_cons, List.map_cons, List.intercalate_cons_cons]
    rw [e, ih]
    simp [moreText, newline]

theorem parsePairs_more (hn : JsonNumberText repr number) (l : List (PyStr × JVal F)) (hq : ∀ kv ∈ l, '"' ∉ kv.1) (tail : PyStr)
    (n : ℕ) (h : (moreText repr l).length + 1 ≤ n) :
    parsePairs number n (skipWs (moreText repr l ++ (newline 0 ++ '}' :: tail))) = .ok (l, tail) := by
  induction l generalizing n with
  | nil =>
    obtain ⟨n, rfl⟩ : ∃ m, n = m + 1 := ⟨n - 1, by omega⟩
    rw [show moreText repr [] = [] from rfl, List.nil_append, skipWs_newline 0 (by decide), parsePairs]
  | cons kv l ih =>
    obtain ⟨n, rfl⟩ : ∃ m, n = m + 1 := ⟨n - 1, by omega⟩
    have e : moreText repr (kv :: l) ++ (newline 0 ++ '}' :: tail) = ',' :: (newline 1 ++ '"' :: (kv.1 ++ '"' :: ':' :: ' ' ::
        (printJson repr 1 kv.2 ++ (moreText repr l ++ (newline 0 ++ '}' :: tail))))) := by
      simp [moreText]
    have hl : (moreText repr (kv :: l)).length = 1 + 5 + 1 + kv.1.length + 3 + (printJson repr 1 kv.2).length + (moreText repr l).length := by
      simp [moreText, newline]
      omega
    have hsp : ∀ s, skipWs (' ' :: s) = skipWs s := fun s => by unfold skipWs; rw [List.dropWhile_cons_of_pos (by decide)]
    have hval : ∀ (s : PyStr), skipWs (printJson repr 1 kv.2 ++ s) = printJson repr 1 kv.2 ++ s := by
      intro s
      obtain ⟨c, r, h1, h2, -⟩ := head_print hn 1 kv.2
      rw [h1, List.cons_append, skipWs_cons h2]
    have he : Ends (moreText repr l ++ (newline 0 ++ '}' :: tail)) := by
      cases l with
      | nil => exact ends_newline 0 _
      | cons a l => exact ends_comma _
    rw [e, skipWs_cons (by decide), parsePairs, skipWs_newline 1 (by decide), parsePair_key _ (hq kv (by simp)) _ _ kv.2 _ (by
      rw [hsp, hval]; exact parse_print hn kv.2 1 n _ (by omega) he), ok_bind]
    simp only
    rw [ih (fun x hx => hq x (by simp [hx])) n (by omega), ok_bind]

theorem parseDoc_object (hn : JsonNumberText repr number) (entries : List (PyStr × JVal F)) (hq : ∀ kv ∈ entries, '"' ∉ kv.1) (tail : PyStr) :
    parseDoc number (objectText (printJson repr 1) entries ++ tail) =
      if skipWs tail = [] then .ok (entries.foldl (fun d kv => dictSet d kv.1 kv.2) []) else .error .valueError := by
  cases entries with
  | nil =>
    have e : objectText (printJson repr 1) [] ++ tail = '{' :: (newline 0 ++ '}' :: tail) := by
      simp [objectText, entriesText, newline]
    unfold parseDoc
    rw [e, skipWs_cons (by decide)]
    simp only
    rw [skipWs_newline 0 (by decide)]
    rfl
  | cons kv l =>
    obtain ⟨N, hN⟩ : ∃ N, N = (objectText (printJson repr 1) (kv :: l) ++ tail).length := ⟨_, rfl⟩
    have e : objectText (printJson repr 1) (kv :: l) ++ tail = '{' :: (newline 1 ++ '"' :: (kv.1 ++ '"' :: ':' :: ' ' ::
        (printJson repr 1 kv.2 ++ (moreText repr l ++ (newline 0 ++ '}' :: tail))))) := by
      unfold objectText
      rw [entriesText_cons]
      simp [newline]
    have hl : (printJson repr 1 kv.2).length + (moreText repr l).length + 1 ≤ N := by
      rw [hN, e]
      simp
      omega
    have hsp : ∀ s, skipWs (' ' :: s) = skipWs s := fun s => by unfold skipWs; rw [List.dropWhile_cons_of_pos (by decide)]
    have hval : ∀ (s : PyStr), skipWs (printJson repr 1 kv.2 ++ s) = printJson repr 1 kv.2 ++ s := by
      intro s
      obtain ⟨c, r, h1, h2, -⟩ := head_print hn 1 kv.2
      rw [h1, List.cons_append, skipWs_cons h2]
    have he : Ends (moreText repr l ++ (newline 0 ++ '}' :: tail)) := by
      cases l with
      | nil => exact ends_newline 0 _
      | cons a l => exact ends_comma _
    unfold parseDoc
    rw [← hN, e, skipWs_cons (by decide)]
    split
    swap
    · rename_i h; exact absurd rfl (h _)
    rename_i r heq
    cases heq
    rw [skipWs_newline 1 (by decide)]
    split
    · rename_i heq
      have := (List.cons.inj heq).1
      exact absurd this (by decide)
    rw [parsePair_key _ (hq kv (by simp)) _ _ kv.2 _ (by
      rw [hsp, hval]; exact parse_print hn kv.2 1 N _ (by omega) he), ok_bind]
    simp only
    rw [parsePairs_more repr number hn l (fun x hx => hq x (by simp [hx])) tail N (by omega), ok_bind]

theorem skipWs_spaces {tail : PyStr} : skipWs tail = [] ↔ ∀ c ∈ tail, c ∈ [' ', '\t', '\n', '\r'] := by
  unfold skipWs
  induction tail with
  | nil => simp
  | cons c t ih =>
    by_cases h : isJsonSpace c = true
    · rw [List.dropWhile_cons_of_pos h, ih]
      simp [isJsonSpace] at h
      simp [or_assoc] at h ⊢
      exact fun _ => h
    · rw [List.dropWhile_cons_of_neg h]
      simp [isJsonSpace] at h
      simp
      tauto

/-- **C57 (any object).** The file may hold any entries in any order, written one per line, followed by white space: `load_metadata_json`
returns the last value given for each of the three names, and raises a KeyError when one of them does not occur (for example in an empty
object). -/
theorem C57_entries (hn : JsonNumberText repr number) (fs : FS PyStr) (p : FilePath) (entries : List (PyStr × JVal F))
    (hq : ∀ kv ∈ entries, '"' ∉ kv.1) (tail : PyStr) (htail : ∀ c ∈ tail, c ∈ [' ', '\t', '\n', '\r'])
    (hfile : HasFile fs p.comps (objectText (printJson repr 1) entries ++ tail)) :
    (∀ x y l, LastEntry entries "xcenter".toList x → LastEntry entries "ycenter".toList y → LastEntry entries "list_fact".toList l →
      loadMetadataJson number fs p = .ok (x, y, l)) ∧
    ((∃ k ∈ ["xcenter".toList, "ycenter".toList, "list_fact".toList], ∀ kv ∈ entries, kv.1 ≠ k) →
      loadMetadataJson number fs p = .error .keyError) := by
  have hfile' : fs p.comps = some (.file _) := hfile
  have hread : readFile fs p = .ok (objectText (printJson repr 1) entries ++ tail) := by unfold readFile; rw [hfile']
  have hparse : parseDoc number (objectText (printJson repr 1) entries ++ tail) =
      .ok (entries.foldl (fun d kv => dictSet d kv.1 kv.2) []) := by
    rw [parseDoc_object repr number hn entries hq tail, if_pos (skipWs_spaces.2 htail)]
  refine ⟨fun x y l hx hy hl => ?_, fun hm => ?_⟩
  · unfold loadMetadataJson
    rw [hread, ok_bind, hparse, ok_bind, dictGet_fold_last hx, dictGet_fold_last hy, dictGet_fold_last hl]
    rfl
  · refine C57_missing_entry number fs p _ _ hfile hparse ?_
    obtain ⟨k, hk, h⟩ := hm
    refine ⟨k, hk, ?_⟩
    have key : ∀ (l d : List (PyStr × JVal F)), (∀ kv ∈ l, kv.1 ≠ k) → (∀ kv ∈ d, kv.1 ≠ k) →
        ∀ kv ∈ l.foldl (fun d kv => dictSet d kv.1 kv.2) d, kv.1 ≠ k := by
      intro l
      induction l with
      | nil => exact fun d _ h => h
      | cons a l ih =>
        intro d h1 h2
        refine ih _ (fun kv hkv => h1 kv (by simp [hkv])) ?_
        have : ∀ d : List (PyStr × JVal F), (∀ kv ∈ d, kv.1 ≠ k) → ∀ kv ∈ dictSet d a.1 a.2, kv.1 ≠ k := by
          intro d
          induction d with
          | nil => intro _ kv hkv; rw [dictSet, List.mem_singleton] at hkv; rw [hkv]; exact h1 a (by simp)
          | cons b d ihd =>
            intro h3 kv hkv
            rw [dictSet] at hkv
            split_ifs at hkv with hb
            · rcases List.mem_cons.1 hkv with rfl | hkv
              · exact h3 b (by simp)
              · exact h3 kv (by simp [hkv])
            · rcases List.mem_cons.1 hkv with rfl | hkv
              · exact h3 _ (by simp)
              · exact ihd (fun x hx => h3 x (by simp [hx])) kv hkv
        exact this d h2
    exact key entries [] h (by simp)

/-- **C57 (more text).** If anything but white space follows the object in the file, loading raises a ValueError. -/
theorem C57_trailing (hn : JsonNumberText repr number) (fs : FS PyStr) (p : FilePath) (entries : List (PyStr × JVal F))
    (hq : ∀ kv ∈ entries, '"' ∉ kv.1) (tail : PyStr) (htail : ∃ c ∈ tail, c ∉ [' ', '\t', '\n', '\r'])
    (hfile : HasFile fs p.comps (objectText (printJson repr 1) entries ++ tail)) : loadMetadataJson number fs p = .error .valueError := by
  have hfile' : fs p.comps = some (.file _) := hfile
  have hread : readFile fs p = .ok (objectText (printJson repr 1) entries ++ tail) := by unfold readFile; rw [hfile']
  obtain ⟨c, hc, hcs⟩ := htail
  unfold loadMetadataJson
  rw [hread, ok_bind, parseDoc_object repr number hn entries hq tail, if_neg (fun h => hcs (skipWs_spaces.1 h c hc))]
  rfl

/-- **C57 (existing files).** With `overwrite=False` no existing file changes, whatever the outcome. -/
theorem C57_keeps (toFloat : F → F) (part : PyStr) (fs : FS PyStr) (p : FilePath) (xc yc : F) (l : PyVal F) (q : List PyStr) (c : PyStr)
    (h : HasFile fs q c) : HasFile (saveMetadataJson lower repr toFloat part fs p xc yc l false).2 q c := by
  unfold saveMetadataJson
  split <;> exact save_keeps rfl (by simp [SaveKind.isPlot]) q _ h

/-- The result of a reader: a value with a shorter rest of the text, or a `ValueError`. -/
def ReadsOrValueError {β : Type} (s : PyStr) (r : Except PyErr (β × PyStr)) : Prop :=
  (∃ v t, r = .ok (v, t) ∧ t <:+ s ∧ t.length < s.length) ∨ r = .error .valueError

theorem skipWs_suffix (s : PyStr) : skipWs s <:+ s := List.dropWhile_suffix _

theorem parse_shape (hnum : ∀ t e, number t = .error e → e = .valueError) (n : ℕ) :
    (∀ s, s.length < n → ReadsOrValueError s (parseJson number n s)) ∧ ∀ s, s.length < n → ReadsOrValueError s (parseTail number n s) := by
  induction n with
  | zero => exact ⟨fun s hs => absurd hs (Nat.not_lt_zero _), fun s hs => absurd hs (Nat.not_lt_zero _)⟩
  | succ n ih =>
    have both : ∀ r : PyStr, r.length < n → ∀ s : PyStr, r <:+ s → r.length < s.length →
        ReadsOrValueError s (do
          let (v, r1) ← parseJson number n (skipWs r)
          let (l, r2) ← parseTail number n (skipWs r1)
          Except.ok (v :: l, r2) : Except PyErr (List (JVal F) × PyStr)) := by
      intro r hr s hs hl
      have h0 := skipWs_suffix r
      rcases ih.1 (skipWs r) (by have := h0.length_le; omega) with ⟨v, t, e, h1, h2⟩ | e
      · rw [e, ok_bind]
        simp only
        have h3 := skipWs_suffix t
        rcases ih.2 (skipWs t) (by have := h0.length_le; have := h3.length_le; omega) with ⟨v', t', e', h4, h5⟩ | e'
        · rw [e', ok_bind]
          refine Or.inl ⟨_, t', rfl, h4.trans (h3.trans (h1.trans (h0.trans hs))), ?_⟩
          have := h0.length_le
          have := h3.length_le
          omega
        · rw [e']
          exact Or.inr rfl
      · rw [e]
        exact Or.inr rfl
    constructor
    · intro s hs
      unfold parseJson
      split
      · rename_i h
        cases h
      · rename_i m r h
        cases h
        split
        · rename_i r' h'
          have := h' ▸ skipWs_suffix r
          refine Or.inl ⟨_, r', rfl, (List.suffix_cons _ _).trans (this.trans (List.suffix_cons _ _)), ?_⟩
          have := this.length_le
          simp only [List.length_cons] at *
          omega
        · rename_i r' h'
          have hb := both r (by simpa using hs) ('[' :: r) (List.suffix_cons _ _) (by simp)
          rcases hb with ⟨v, t, e, h1, h2⟩ | e
          · obtain ⟨⟨v1, t1⟩, e1, e2⟩ := bind_ok_iff.1 e
            obtain ⟨⟨v2, t2⟩, e3, e4⟩ := bind_ok_iff.1 e2
            cases e4
            refine Or.inl ⟨.arr (v1 :: v2), t, ?_, h1, h2⟩
            rw [e1, ok_bind]
            simp only
            rw [e3, ok_bind]
          · right
            cases e1 : parseJson number n (skipWs r) with
            | error x =>
              rw [e1] at e
              cases e
              rfl
            | ok a =>
              rw [e1, ok_bind] at e
              rw [ok_bind]
              simp only at e ⊢
              cases e3 : parseTail number n (skipWs a.2) with
              | error x =>
                rw [e3] at e
                cases e
                rfl
              | ok b =>
                rw [e3, ok_bind] at e
                cases e
      · rename_i s _ _ _ _ _
        simp only
        split_ifs with ht
        · exact Or.inr rfl
        · cases hx : number (s.takeWhile fun c => !isJsonDelim c) with
          | error e =>
            rw [hnum _ e hx]
            exact Or.inr rfl
          | ok x =>
            refine Or.inl ⟨_, _, rfl, List.dropWhile_suffix _, ?_⟩
            have h1 := congrArg List.length (List.takeWhile_append_dropWhile (p := fun c => !isJsonDelim c) (l := s))
            rw [List.length_append] at h1
            have h2 := List.length_pos_of_ne_nil ht
            omega
    · intro s hs
      unfold parseTail
      split
      · rename_i h
        cases h
      · rename_i m r h
        exact Or.inl ⟨_, r, rfl, List.suffix_cons _ _, by simp⟩
      · rename_i m r h
        cases h
        exact both r (by simpa using hs) (',' :: r) (List.suffix_cons _ _) (by simp)
      · exact Or.inr rfl

theorem parsePair_shape (hnum : ∀ t e, number t = .error e → e = .valueError) (n : ℕ) (s : PyStr) (hs : s.length < n) :
    ReadsOrValueError s (parsePair number n s) := by
  unfold parsePair
  split
  · rename_i r
    split
    · rename_i r1 h1
      have s1 := h1 ▸ List.dropWhile_suffix (l := r) (fun x => decide (x ≠ '"'))
      split
      · rename_i r2 h2
        have s2 := h2 ▸ skipWs_suffix r1
        have s3 := skipWs_suffix r2
        have hle : r2 <:+ '"' :: r := ((List.suffix_cons _ _).trans s2).trans (((List.suffix_cons _ _).trans s1).trans (List.suffix_cons _ _))
        have hl2 : r2.length < ('"' :: r).length := by
          have := s1.length_le
          have := s2.length_le
          simp only [List.length_cons] at *
          omega
        rcases (parse_shape number hnum n).1 (skipWs r2) (by have := s3.length_le; omega) with ⟨v, t, e, h3, h4⟩ | e
        · rw [e, ok_bind]
          refine Or.inl ⟨_, t, rfl, h3.trans (s3.trans hle), ?_⟩
          have := s3.length_le
          omega
        · rw [e]
          exact Or.inr rfl
      · exact Or.inr rfl
    · exact Or.inr rfl
  · exact Or.inr rfl

theorem parsePairs_shape (hnum : ∀ t e, number t = .error e → e = .valueError) (n : ℕ) : ∀ s : PyStr, s.length < n →
    (∃ v t, parsePairs number n s = .ok (v, t) ∧ '}' ∈ s) ∨ parsePairs number n s = .error .valueError := by
  induction n with
  | zero => exact fun s hs => absurd hs (Nat.not_lt_zero _)
  | succ n ih =>
    intro s hs
    unfold parsePairs
    split
    · rename_i h
      cases h
    · exact Or.inl ⟨_, _, rfl, by simp⟩
    · rename_i m r h
      cases h
      have h0 := skipWs_suffix r
      have hr : r.length < n := by simpa using hs
      rcases parsePair_shape number hnum n (skipWs r) (by have := h0.length_le; omega) with ⟨v, t, e, h1, h2⟩ | e
      · rw [e, ok_bind]
        simp only
        have h3 := skipWs_suffix t
        rcases ih (skipWs t) (by have := h0.length_le; have := h3.length_le; omega) with ⟨v', t', e', h4⟩ | e'
        · rw [e', ok_bind]
          exact Or.inl ⟨_, _, rfl, List.mem_cons_of_mem _ ((h3.trans (h1.trans h0)).subset h4)⟩
        · rw [e']
          exact Or.inr rfl
      · rw [e]
        exact Or.inr rfl
    · exact Or.inr rfl

/-- A text without a closing brace is refused. -/
theorem parseDoc_unclosed (hnum : ∀ t e, number t = .error e → e = .valueError) (text : PyStr) (h : '}' ∉ text) :
    parseDoc number text = .error .valueError := by
  have s0 := skipWs_suffix text
  unfold parseDoc
  split
  · rename_i r h1
    rw [h1] at s0
    have s1 := skipWs_suffix r
    split
    · rename_i r' h2
      rw [h2] at s1
      exact absurd (s0.subset (List.mem_cons_of_mem _ (s1.subset List.mem_cons_self))) h
    · have hr : r.length < text.length := by simpa using s0.length_le
      rcases parsePair_shape number hnum text.length (skipWs r) (by have := s1.length_le; omega) with ⟨v, t, e, h3, h4⟩ | e
      · rw [e, ok_bind]
        simp only
        have s3 := skipWs_suffix t
        rcases parsePairs_shape number hnum text.length (skipWs t) (by have := s1.length_le; have := s3.length_le; omega) with ⟨v', t', e', h5⟩ | e'
        · exact absurd (s0.subset (List.mem_cons_of_mem _ ((s3.trans (h3.trans s1)).subset h5))) h
        · rw [e']
          rfl
      · rw [e]
        rfl
  · rfl

mutual
theorem printJson_noBrace (hn : JsonNumberText repr number) (k : ℕ) : ∀ v : JVal F, '}' ∉ printJson repr k v
  | .num x => by
    intro h
    rw [printJson] at h
    exact absurd (hn.noDelim x _ h) (by decide)
  | .arr [] => by
    rw [printJson]
    decide
  | .arr (v :: l) => by
    rw [printJson]
    have h1 := printJson_noBrace hn (k + 1) v
    have h2 := printTail_noBrace hn (k + 1) l
    simp [newline, h1, h2]
theorem printTail_noBrace (hn : JsonNumberText repr number) (k : ℕ) : ∀ l : List (JVal F), '}' ∉ printTail repr k l
  | [] => by
    rw [printTail]
    simp
  | v :: l => by
    rw [printTail]
    have h1 := printJson_noBrace hn k v
    have h2 := printTail_noBrace hn k l
    simp [newline, h1, h2]
end

/-- **C57 (cut off).** A file which `save_metadata_json` has written, cut off anywhere before its end (for example by a full disk), is never
taken for other data: loading it raises a ValueError (`JSONDecodeError`). -/
theorem C57_cut (hn : JsonNumberText repr number) (hnum : ∀ t e, number t = .error e → e = .valueError) (fs : FS PyStr) (p : FilePath)
    (xc yc : F) (v : JVal F) (part : PyStr) (hpart : part <+: jsonText repr xc yc v) (hne : part ≠ jsonText repr xc yc v)
    (hfile : HasFile fs p.comps part) : loadMetadataJson number fs p = .error .valueError := by
  have hfile' : fs p.comps = some (.file part) := hfile
  have hread : readFile fs p = .ok part := by unfold readFile; rw [hfile']
  have hno : '}' ∉ part := by
    obtain ⟨body, hb, hbody⟩ : ∃ body, jsonText repr xc yc v = body ++ ['}'] ∧ '}' ∉ body := by
      refine ⟨_, by unfold jsonText; rfl, ?_⟩
      have h1 : ∀ x, '}' ∉ repr x := fun x h => absurd (hn.noDelim x _ h) (by decide)
      have h2 := printJson_noBrace repr number hn 1 v
      simp [newline, h1, h2]
    obtain ⟨rest, hr⟩ := hpart
    rw [hb] at hr hne
    rcases List.eq_nil_or_concat rest with rfl | ⟨rest', c, rfl⟩
    · rw [List.append_nil] at hr
      exact absurd hr hne
    · rw [List.concat_eq_append, ← List.append_assoc] at hr
      obtain ⟨h1, -⟩ := List.append_inj' hr rfl
      intro hm
      exact hbody (h1 ▸ List.mem_append_left _ hm)
  unfold loadMetadataJson
  rw [hread, ok_bind, parseDoc_unclosed number hnum part hno]
  rfl

/-- The empty file is such a part (numbers as natural numbers). -/
example : ([] : PyStr) <+: jsonText (F := ℕ) (Nat.toDigits 10) 3 4 (.arr [.num 1]) ∧ [] ≠ jsonText (F := ℕ) (Nat.toDigits 10) 3 4 (.arr [.num 1]) ∧
    "{\n    \"xcenter\": 3,\n    \"yc".toList <+: jsonText (F := ℕ) (Nat.toDigits 10) 3 4 (.arr [.num 1]) := by
  refine ⟨List.nil_prefix, by unfold jsonText; simp, ?_⟩
  decide

/-- A file with its entries in another order, one of them given twice. -/
example : LastEntry [("list_fact".toList, JVal.arr [.num 1]), ("ycenter".toList, .num 2), ("xcenter".toList, .num 3),
    ("ycenter".toList, .num 4)] "ycenter".toList (.num 4) ∧
    LastEntry [("list_fact".toList, JVal.arr [.num 1]), ("ycenter".toList, .num 2), ("xcenter".toList, .num 3),
    ("ycenter".toList, .num 4)] "xcenter".toList (.num 3) :=
  ⟨⟨[_, _, _], [], rfl, by simp⟩, ⟨[_, _], [_], rfl, by simp⟩⟩

/-- The assumption on numbers is met by natural numbers in decimals, tuples and arrays hold numbers, and nested lists are printed and
parsed. -/
example : JsonNumberText (F := ℕ) (Nat.toDigits 10) (fun s => .ok (decimalValue s)) ∧
    HoldsNumbers (F := ℕ) (.seq true [.num 1, .npNum 20]) [1, 20] ∧
    parseDoc (F := ℕ) (fun s => .ok (decimalValue s)) (jsonText (Nat.toDigits 10) 3 4 (.arr [.num 1, .arr [], .arr [.num 20]])) =
      .ok [("xcenter".toList, .num 3), ("ycenter".toList, .num 4), ("list_fact".toList, .arr [.num 1, .arr [], .arr [.num 20]])] := by
  have h : JsonNumberText (F := ℕ) (Nat.toDigits 10) (fun s => .ok (decimalValue s)) := by
    refine ⟨fun x => by rw [decimalValue_toDigits], fun x => Nat.toDigits_ne_nil, fun x c hc => ?_⟩
    have h1 := isDigit_toNat (Nat.isDigit_of_mem_toDigits (by norm_num) (by norm_num) hc)
    have : ∀ d : Char, (d.toNat < 48 ∨ 57 < d.toNat) → c ≠ d := by rintro d hd rfl; omega
    unfold isJsonDelim isJsonSpace
    simp [this ' ' (by decide), this '\t' (by decide), this '\n' (by decide), this '\r' (by decide), this ',' (by decide),
      this ':' (by decide), this '[' (by decide), this ']' (by decide), this '{' (by decide), this '}' (by decide), this '"' (by decide)]
  exact ⟨h, .seq _ _ _ (.cons (.inl rfl) (.cons (.inr rfl) .nil)), parseDoc_jsonText _ _ h _ _ _⟩

theorem nat_jsonNumberText : JsonNumberText (F := ℕ) (Nat.toDigits 10) (fun s => .ok (decimalValue s)) := by
  refine ⟨fun x => by rw [decimalValue_toDigits], fun x => Nat.toDigits_ne_nil, fun x c hc => ?_⟩
  have h1 := isDigit_toNat (Nat.isDigit_of_mem_toDigits (by norm_num) (by norm_num) hc)
  have : ∀ d : Char, (d.toNat < 48 ∨ 57 < d.toNat) → c ≠ d := by rintro d hd rfl; omega
  unfold isJsonDelim isJsonSpace
  simp [this ' ' (by decide), this '\t' (by decide), this '\n' (by decide), this '\r' (by decide), this ',' (by decide),
    this ':' (by decide), this '[' (by decide), this ']' (by decide), this '{' (by decide), this '}' (by decide), this '"' (by decide)]

/-- A directory with the file `c.json`. -/
def jsonDir (text : PyStr) : FS PyStr := fun q => if q = [] then some .dir else if q = ["c.json".toList] then some (.file text) else none

theorem jsonDir_save (part : PyStr) (l : PyVal ℕ) (v : JVal ℕ) (hv : l.toJson = .ok v) :
    (saveMetadataJson id (Nat.toDigits 10) id part (jsonDir "{}".toList) ⟨[], "c.json".toList⟩ 12 7 l true).1 = .ok ⟨[], "c.json".toList⟩ := by
  have h1 : normalise id .json ⟨[], "c.json".toList⟩ = .ok ⟨[], "c.json".toList⟩ := by rfl
  have h2 : createFolder (jsonDir "{}".toList) ⟨[], "c.json".toList⟩ = .ok (jsonDir "{}".toList) := by rfl
  unfold saveMetadataJson
  simp only [hv]
  unfold save prepareSave
  simp only [h1, h2]
  rfl

example := C57_roundtrip id _ _ nat_jsonNumberText id [] (jsonDir "{}".toList) ⟨[], "c.json".toList⟩ ⟨[], "c.json".toList⟩ 12 7 _ (.arr [.num 1, .num 20]) rfl true
  (jsonDir_save [] (.seq true [.num 1, .npNum 20]) _ rfl)

example := C57_sequences id _ _ nat_jsonNumberText id [] (jsonDir "{}".toList) ⟨[], "c.json".toList⟩ ⟨[], "c.json".toList⟩ 12 7 (.seq true [.num 1, .npNum 20]) [1, 20]
  (.seq _ _ _ (.cons (.inl rfl) (.cons (.inr rfl) .nil))) true (jsonDir_save [] (.seq true [.num 1, .npNum 20]) _ rfl)

example := C57_type_error (F := ℕ) id (Nat.toDigits 10) id "{".toList (jsonDir "{}".toList) ⟨[], "c.json".toList⟩ "{}".toList 12 7 false [.num 1] [.num 2] [1] (.cons (.inl rfl) .nil)
  ⟨"c".toList, by decide, by decide, "json".toList, by decide, by decide, by decide⟩ rfl rfl rfl

/-- A file without the coefficients. -/
example : loadMetadataJson (F := ℕ) (fun s => .ok (decimalValue s)) (jsonDir (objectText (printJson (Nat.toDigits 10) 1) [("xcenter".toList, .num 3), ("ycenter".toList, .num 4)]))
    ⟨[], "c.json".toList⟩ = .error .keyError := by
  refine (C57_entries _ _ nat_jsonNumberText _ _ [("xcenter".toList, .num 3), ("ycenter".toList, .num 4)] (by decide) [] (by simp) ?_).2 ⟨"list_fact".toList, by simp, by decide⟩
  rw [List.append_nil]
  rfl

example : loadMetadataJson (F := ℕ) (fun s => .ok (decimalValue s)) (jsonDir (objectText (printJson (Nat.toDigits 10) 1) [("xcenter".toList, .num 3)] ++ "x".toList))
    ⟨[], "c.json".toList⟩ = .error .valueError :=
  C57_trailing _ _ nat_jsonNumberText _ _ [("xcenter".toList, .num 3)] (by decide) _ ⟨'x', by decide, by decide⟩ rfl

example := C57_missing_entry (F := ℕ) (fun s => .ok (decimalValue s)) (jsonDir "{}".toList) ⟨[], "c.json".toList⟩ "{}".toList [] rfl (by rfl) ⟨"xcenter".toList, by simp, by simp⟩

example := C57_keeps (F := ℕ) id (Nat.toDigits 10) id [] (jsonDir "{}".toList) ⟨[], "c.json".toList⟩ 12 7 (.num 3) ["c.json".toList] "{}".toList rfl

example := C57_cut _ _ nat_jsonNumberText (by intro t e h; cases h) (jsonDir "{\n    \"xcenter\": 3,\n    \"yc".toList) ⟨[], "c.json".toList⟩ 3 4 (.arr [.num 1]) _ (by decide) (by decide) rfl

end Discorpy
