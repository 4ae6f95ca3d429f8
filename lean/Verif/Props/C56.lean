import Verif.Lemmas.Metadata

/-! # C56 — text metadata round-trips -/

namespace Discorpy

open Spec

variable {F : Type} (lower : PyStr → PyStr) (str : F → PyStr) (float : PyStr → Except PyErr F)

/-- **C56 (text).** The file holds one line per number: the centre first, then the coefficients in order, none lost. -/
theorem C56_text (xc yc : F) (l : List F) : metadataText str xc yc l =
    textOf (("xcenter = ".toList ++ str xc) :: ("ycenter = ".toList ++ str yc) ::
      l.zipIdx.map fun fi => "factor".toList ++ Nat.toDigits 10 fi.2 ++ " = ".toList ++ str fi.1) := by
  unfold metadataText textOf
  rw [metadataDict_eq]
  simp [List.flatMap_map]

/-- **C56 (reading).** The loader returns the last word of each line as a number: the first line gives the x-centre, the second the
y-centre, the others the coefficients in order. The beginning of the lines does not matter. -/
theorem C56_reads (lines : List PyStr) (xc yc : F) (l : List F) (h : List.Forall₂ (ReadsAs float) lines (xc :: yc :: l)) :
    parseMetadataText float (textOf lines) = .ok (xc, yc, l) := by
  unfold parseMetadataText
  rw [splitLines_textOf (oneLine_of_reads h), parse_lines h]
  rfl

theorem readsAs_line (hn : NumberText str float) {pre : PyStr} (h : OneLine pre) (hs : ∃ u c, pre = u ++ [c] ∧ isPySpace c = true) (x : F) :
    ReadsAs float (pre ++ str x) x := by
  refine ⟨?_, str x, ⟨pre, [], by simp, .inr hs, hn.nonempty x, hn.noSpace x, by simp⟩, hn.roundtrip x⟩
  intro c hc
  rcases List.mem_append.1 hc with hc | hc
  · exact h c hc
  · exact isLineBreak_space (hn.noSpace x c hc)

theorem oneLine_factor (i : ℕ) : OneLine ("factor".toList ++ Nat.toDigits 10 i ++ " = ".toList) := by
  intro c hc
  rw [List.mem_append, List.mem_append] at hc
  rcases hc with (hc | hc) | hc
  · have : ∀ c ∈ "factor".toList, isLineBreak c = false := by decide
    exact this c hc
  · have h1 := isDigit_toNat (Nat.isDigit_of_mem_toDigits (by norm_num) (by norm_num) hc)
    have h2 : c.toNat ∈ (List.range 58).filter (48 ≤ ·) := by simp; omega
    have h3 : ∀ n ∈ (List.range 58).filter (48 ≤ ·), [0x0a, 0x0b, 0x0c, 0x0d, 0x1c, 0x1d, 0x1e, 0x85, 0x2028, 0x2029].contains n = false := by
      decide
    exact h3 _ h2
  · have : ∀ c ∈ " = ".toList, isLineBreak c = false := by decide
    exact this c hc

theorem parse_metadataText (hn : NumberText str float) (xc yc : F) (l : List F) :
    parseMetadataText float (metadataText str xc yc l) = .ok (xc, yc, l) := by
  rw [C56_text]
  apply C56_reads
  refine .cons ?_ (.cons ?_ ?_)
  · exact readsAs_line str float hn (by unfold OneLine; decide) ⟨"xcenter =".toList, ' ', by decide, by decide⟩ xc
  · exact readsAs_line str float hn (by unfold OneLine; decide) ⟨"ycenter =".toList, ' ', by decide, by decide⟩ yc
  · rw [List.forall₂_map_left_iff]
    have : ∀ (l : List F) (n : ℕ), List.Forall₂ (fun (fi : F × ℕ) x =>
        ReadsAs float ("factor".toList ++ Nat.toDigits 10 fi.2 ++ " = ".toList ++ str fi.1) x) (l.zipIdx n) l := by
      intro l
      induction l with
      | nil => intro n; exact .nil
      | cons x l ih =>
        intro n
        rw [List.zipIdx_cons]
        refine .cons ?_ (ih (n + 1))
        exact readsAs_line str float hn (oneLine_factor n) ⟨"factor".toList ++ Nat.toDigits 10 n ++ " =".toList, ' ', by simp, by decide⟩ x
    exact this l 0

/-- **C56 (round trip).** Loading the file saved by `save_metadata_txt` from the path it returned gives back the centre and all
coefficients in order, for any number of them, with or without overwriting. -/
theorem C56_roundtrip (hn : NumberText str float) (fs : FS PyStr) (p q : FilePath) (xc yc : F) (l : List F) (overwrite : Bool)
    (h : (saveMetadataTxt lower str fs p xc yc l overwrite).1 = .ok q) :
    loadMetadataTxt float (saveMetadataTxt lower str fs p xc yc l overwrite).2 q = .ok (xc, yc, l) := by
  unfold saveMetadataTxt at h ⊢
  unfold loadMetadataTxt
  rw [save_readback rfl h, ok_bind]
  exact parse_metadataText str float hn xc yc l

/-- **C56 (existing files).** With `overwrite=False` no existing file changes. -/
theorem C56_keeps (fs : FS PyStr) (p : FilePath) (xc yc : F) (l : List F) (q : List PyStr) (c : PyStr) (h : HasFile fs q c) :
    HasFile (saveMetadataTxt lower str fs p xc yc l false).2 q c :=
  save_keeps rfl (by simp [SaveKind.isPlot]) q _ h

/-- **C56 (cut off).** If a file which `save_metadata_txt` has written is cut off after at least two lines (for example by a full disk), loading
it raises no error: it gives the centre and the coefficients of the lines that are left. -/
theorem C56_cut (hn : NumberText str float) (xc yc : F) (l : List F) (k : ℕ) (hk : k ≤ l.length) :
    ∃ part, part <+: metadataText str xc yc l ∧ part = metadataText str xc yc (l.take k) ∧ (k < l.length → part ≠ metadataText str xc yc l) ∧
      parseMetadataText float part = .ok (xc, yc, l.take k) := by
  have happ : metadataText str xc yc l = metadataText str xc yc (l.take k) ++
      textOf (((l.drop k).zipIdx k).map fun fi => "factor".toList ++ Nat.toDigits 10 fi.2 ++ " = ".toList ++ str fi.1) := by
    rw [C56_text, C56_text]
    conv_lhs => rw [← List.take_append_drop k l, List.zipIdx_append, List.length_take, min_eq_left hk, Nat.zero_add]
    unfold textOf
    simp
  refine ⟨_, ⟨_, happ.symm⟩, rfl, fun h e => ?_, parse_metadataText str float hn xc yc (l.take k)⟩
  have h1 := congrArg (parseMetadataText float) e
  rw [parse_metadataText str float hn, parse_metadataText str float hn] at h1
  have h2 := congrArg List.length (Prod.mk.inj (Prod.mk.inj (Except.ok.inj h1)).2).2
  rw [List.length_take, min_eq_left hk] at h2
  omega

/-- **C56 (few lines).** A file with fewer than two numbers raises an IndexError. -/
theorem C56_few_lines (lines : List PyStr) (xs : List F) (h : List.Forall₂ (ReadsAs float) lines xs) (hx : xs.length < 2) :
    parseMetadataText float (textOf lines) = .error .indexError := by
  unfold parseMetadataText
  rw [splitLines_textOf (oneLine_of_reads h), parse_lines h]
  match xs with
  | [] => rfl
  | [_] => rfl
  | _ :: _ :: _ => simp at hx

theorem mapM_error {α β ε : Type} {f : α → Except ε β} {l r : List α} {a : α} {bs : List β} {e : ε}
    (h : List.Forall₂ (fun a b => f a = .ok b) l bs) (ha : f a = .error e) : (l ++ a :: r).mapM f = .error e := by
  induction h with
  | nil => rw [List.nil_append, List.mapM_cons, ha]; rfl
  | cons h _ ih => rw [List.cons_append, List.mapM_cons, h, ok_bind, ih]; rfl

/-- **C56 (bad line).** The first line that is blank raises an IndexError, the first whose last word is not a number raises the
error of `float`, wherever the file goes on. -/
theorem C56_bad_line (lines rest : List PyStr) (bad : PyStr) (xs : List F) (h : List.Forall₂ (ReadsAs float) lines xs)
    (hrest : ∀ l ∈ rest, OneLine l) (hbad : OneLine bad) :
    ((∀ c ∈ bad, isPySpace c = true) → parseMetadataText float (textOf (lines ++ bad :: rest)) = .error .indexError) ∧
    (∀ w e, LastWord bad w → float w = .error e → parseMetadataText float (textOf (lines ++ bad :: rest)) = .error e) := by
  have hl : ∀ l ∈ lines ++ bad :: rest, OneLine l := by
    intro l hl
    rcases List.mem_append.1 hl with hl | hl
    · exact oneLine_of_reads h l hl
    · rcases List.mem_cons.1 hl with rfl | hl
      · exact hbad
      · exact hrest l hl
  have hok := mapM_ok_iff.1 (parse_lines h)
  constructor
  · intro hb
    unfold parseMetadataText
    rw [splitLines_textOf hl, mapM_error hok (e := .indexError) (by unfold lastNumber; rw [splitWords_blank hb]; rfl)]
    rfl
  · intro w e hw he
    unfold parseMetadataText
    rw [splitLines_textOf hl, mapM_error hok (e := e) (by unfold lastNumber; rw [splitWords_last hw]; exact he)]
    rfl

/-- **C56 (no file).** Loading from a path that does not exist raises a ValueError. -/
theorem C56_no_file (fs : FS PyStr) (p : FilePath) (h : fs p.comps = none) : loadMetadataTxt float fs p = .error .valueError := by
  unfold loadMetadataTxt readFile
  rw [h]; rfl

theorem toDigits_noSpace {n : ℕ} {c : Char} (hc : c ∈ Nat.toDigits 10 n) : isPySpace c = false := by
  have h1 := isDigit_toNat (Nat.isDigit_of_mem_toDigits (by norm_num) (by norm_num) hc)
  unfold isPySpace
  rw [← Bool.not_eq_true, List.contains_iff_mem]
  simp only [List.mem_cons, List.not_mem_nil, or_false]
  omega

/-- The assumption on numbers is met, for instance, by natural numbers in decimals; saving succeeds in an empty file system. -/
example : NumberText (F := ℕ) (Nat.toDigits 10) (fun s => .ok (decimalValue s)) ∧
    (saveMetadataTxt (F := ℕ) id (Nat.toDigits 10) (fun q => if q = [] then some .dir else none) ⟨[], "c.txt".toList⟩ 12 7 [1, 0, 3] false).1 =
      .ok ⟨[], "c.txt".toList⟩ := by
  refine ⟨⟨fun x => by rw [decimalValue_toDigits], fun x => Nat.toDigits_ne_nil, fun x c hc => toDigits_noSpace hc⟩, ?_⟩
  have h1 : normalise id .txt ⟨[], "c.txt".toList⟩ = .ok ⟨[], "c.txt".toList⟩ := by rfl
  have h2 : createFolder (fun q => if q = [] then some .dir else none : FS PyStr) ⟨[], "c.txt".toList⟩ =
      .ok (fun q => if q = [] then some .dir else none) := by rfl
  unfold saveMetadataTxt save prepareSave
  simp only [h1, h2]
  rw [if_neg (by simp), createFileName_free (by rfl)]
  rfl

theorem nat_numberText : NumberText (F := ℕ) (Nat.toDigits 10) (fun s => .ok (decimalValue s)) :=
  ⟨fun x => by rw [decimalValue_toDigits], fun x => Nat.toDigits_ne_nil, fun x c hc => toDigits_noSpace hc⟩

/-- The line `x = 12`. -/
theorem reads_twelve : ReadsAs (F := ℕ) (fun s => .ok (decimalValue s)) "x = 12".toList 12 :=
  ⟨by unfold OneLine; decide, "12".toList, ⟨"x = ".toList, [], by decide, .inr ⟨"x =".toList, ' ', by decide, by decide⟩, by decide, by decide, by simp⟩, by rfl⟩

example := C56_reads (F := ℕ) _ ["x = 12".toList, "x = 12".toList, "x = 12".toList] 12 12 [12] (.cons reads_twelve (.cons reads_twelve (.cons reads_twelve .nil)))

example : ∃ q, (saveMetadataTxt (F := ℕ) id (Nat.toDigits 10) (fun q => if q = [] then some .dir else none) ⟨[], "c.txt".toList⟩ 12 7 [1, 0, 3] false).1 = .ok q ∧
    loadMetadataTxt (fun s => .ok (decimalValue s))
      (saveMetadataTxt (F := ℕ) id (Nat.toDigits 10) (fun q => if q = [] then some .dir else none) ⟨[], "c.txt".toList⟩ 12 7 [1, 0, 3] false).2 q = .ok (12, 7, [1, 0, 3]) := by
  have h : (saveMetadataTxt (F := ℕ) id (Nat.toDigits 10) (fun q => if q = [] then some .dir else none) ⟨[], "c.txt".toList⟩ 12 7 [1, 0, 3] false).1 =
      .ok ⟨[], "c.txt".toList⟩ := by
    have h1 : normalise id .txt ⟨[], "c.txt".toList⟩ = .ok ⟨[], "c.txt".toList⟩ := by rfl
    have h2 : createFolder (fun q => if q = [] then some .dir else none : FS PyStr) ⟨[], "c.txt".toList⟩ =
        .ok (fun q => if q = [] then some .dir else none) := by rfl
    unfold saveMetadataTxt save prepareSave
    simp only [h1, h2]
    rw [if_neg (by simp), createFileName_free (by rfl)]
    rfl
  exact ⟨_, h, C56_roundtrip _ _ _ nat_numberText _ _ _ _ _ _ _ h⟩

example := C56_keeps (F := ℕ) id (Nat.toDigits 10) (fun q => if q = [] then some .dir else some (.file "7".toList)) ⟨[], "c.txt".toList⟩ 12 7 [1, 0, 3] ["d.txt".toList] "7".toList (by
  unfold HasFile; rfl)

example := C56_cut _ _ nat_numberText 12 7 [1, 0, 3] 2 (by simp)

example := C56_few_lines (F := ℕ) _ ["x = 12".toList] [12] (.cons reads_twelve .nil) (by simp)

/-- A blank line, and a line which ends in a word. -/
example : parseMetadataText (F := ℕ) (fun s => .ok (decimalValue s)) (textOf ["x = 12".toList, "  ".toList, "x".toList]) = .error .indexError :=
  (C56_bad_line (F := ℕ) _ ["x = 12".toList] ["x".toList] "  ".toList [12] (.cons reads_twelve .nil) (by unfold OneLine; decide) (by unfold OneLine; decide)).1 (by decide)

example := C56_no_file (F := ℕ) (fun s => .ok (decimalValue s)) (fun _ => none) ⟨[], "c.txt".toList⟩ rfl

end Discorpy
