import Verif.Model.Metadata

/-! # Specification: metadata files -/

namespace Discorpy.Spec

/-- Printing and parsing of numbers: parsing gives back the number printed, and a printed number is a non-empty word without white
space. -/
structure NumberText {F : Type} (str : F → PyStr) (float : PyStr → Except PyErr F) : Prop where
  roundtrip : ∀ x, float (str x) = .ok x
  nonempty : ∀ x, str x ≠ []
  noSpace : ∀ x, ∀ c ∈ str x, isPySpace c = false

/-- The last word of a line. -/
def LastWord (line w : PyStr) : Prop :=
  ∃ pre post, line = pre ++ w ++ post ∧ (pre = [] ∨ ∃ u c, pre = u ++ [c] ∧ isPySpace c = true) ∧ w ≠ [] ∧ (∀ c ∈ w, isPySpace c = false) ∧
    ∀ c ∈ post, isPySpace c = true

/-- A text made of lines, each ended by a line feed. -/
def textOf (lines : List PyStr) : PyStr := lines.flatMap (· ++ ['\n'])

/-- A line without line breaks. -/
def OneLine (line : PyStr) : Prop := ∀ c ∈ line, isLineBreak c = false

/-- A line from which a number is read. -/
def ReadsAs {F : Type} (float : PyStr → Except PyErr F) (line : PyStr) (x : F) : Prop := OneLine line ∧ ∃ w, LastWord line w ∧ float w = .ok x

/-- Printing and parsing of numbers in JSON: a printed number contains no white space, bracket, brace, comma, colon or quote. -/
structure JsonNumberText {F : Type} (repr : F → PyStr) (number : PyStr → Except PyErr F) : Prop where
  roundtrip : ∀ x, number (repr x) = .ok x
  nonempty : ∀ x, repr x ≠ []
  noDelim : ∀ x, ∀ c ∈ repr x, isJsonDelim c = false

/-- An object holding a list of numbers: a list or tuple of Python and numpy numbers, or a one-dimensional numpy array. -/
inductive HoldsNumbers {F : Type} : PyVal F → List F → Prop
  | seq (isTuple : Bool) (l : List (PyVal F)) (xs : List F) (h : List.Forall₂ (fun v x => v = .num x ∨ v = .npNum x) l xs) :
      HoldsNumbers (.seq isTuple l) xs
  | ndarray (xs : List F) : HoldsNumbers (.ndarray (.arr (xs.map .num))) xs

/-- The entry `(k, v)` is the last one with its key. -/
def LastEntry {β : Type} (entries : List (PyStr × β)) (k : PyStr) (v : β) : Prop :=
  ∃ l₁ l₂, entries = l₁ ++ (k, v) :: l₂ ∧ ∀ kv ∈ l₂, kv.1 ≠ k

/-- The text of the entries of a JSON object, each on its own line; `pr` is the text of a value. -/
def entriesText {β : Type} (pr : β → PyStr) (entries : List (PyStr × β)) : PyStr :=
  [','].intercalate (entries.map fun kv => "\n    \"".toList ++ kv.1 ++ "\": ".toList ++ pr kv.2)

/-- The text of a JSON object. -/
def objectText {β : Type} (pr : β → PyStr) (entries : List (PyStr × β)) : PyStr :=
  ['{'] ++ entriesText pr entries ++ "\n}".toList

end Discorpy.Spec
