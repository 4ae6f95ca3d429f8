import Verif.Model.PathRepair

/-! # Specification: repair of Windows paths -/

namespace Discorpy.Spec

/-- The control characters of the escape sequences `\a \b \f \n \r \t \v \0`, with the letter of the sequence. -/
def EscapeOf (letter control : Char) : Prop :=
  (letter, control) ∈ [('a', Char.ofNat 7), ('b', Char.ofNat 8), ('f', Char.ofNat 12), ('n', Char.ofNat 10), ('r', Char.ofNat 13),
    ('t', Char.ofNat 9), ('v', Char.ofNat 11), ('0', Char.ofNat 0)]

/-- A path without backslashes and without these control characters. -/
def CleanPath (s : PyStr) : Prop := '\\' ∉ s ∧ ∀ letter control, EscapeOf letter control → control ∉ s

/-- A string literal of Python, without its quotes, that was meant as a path on Windows: the text as typed, and the string Python makes of
it. An escape sequence becomes a control character; a backslash before another character stays. Sequences that begin with `\x`, `\u`,
`\U`, `\N`, a digit other than 0, a quote or a second backslash are left out, as is `\0` before a digit. -/
inductive Literal : PyStr → PyStr → Prop
  | nil : Literal [] []
  | plain {c : Char} {text value : PyStr} : c ≠ '\\' → (∀ letter, ¬ EscapeOf letter c) → Literal text value → Literal (c :: text) (c :: value)
  | escape {letter control : Char} {text value : PyStr} : EscapeOf letter control →
      (letter = '0' → ∀ d r, text = d :: r → ¬ d.isDigit) → Literal text value → Literal ('\\' :: letter :: text) (control :: value)
  | kept {c : Char} {text value : PyStr} : (∀ control, ¬ EscapeOf c control) → c ∉ "\\xuUN'\"1234567".toList → (∀ letter, ¬ EscapeOf letter c) →
      Literal text value → Literal ('\\' :: c :: text) ('\\' :: c :: value)

/-- The path that was meant, with slashes. -/
def withSlashes (text : PyStr) : PyStr := text.map fun c => if c = '\\' then '/' else c

end Discorpy.Spec
