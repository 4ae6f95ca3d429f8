import Verif.Model.Path

/-! # Specification: file names -/

namespace Discorpy.Spec

/-- A name with a suffix: a non-empty stem, and a dot followed by at least one character and no further dot. -/
def SplitAs (name stem suf : PyStr) : Prop :=
  name = stem ++ suf ∧ stem ≠ [] ∧ ∃ ext : PyStr, suf = '.' :: ext ∧ ext ≠ [] ∧ '.' ∉ ext

/-- A name without a suffix. -/
def Suffixless (name : PyStr) : Prop := ∀ stem suf, ¬ SplitAs name stem suf

/-- The value of a list of decimal digits. -/
def decimalValue (s : PyStr) : ℕ := s.foldl (fun v c => 10 * v + (c.toNat - '0'.toNat)) 0

/-- A number in decimals, filled with zeros to four places; longer numbers have no leading zero. -/
def Padded (n : ℕ) (s : PyStr) : Prop :=
  (∀ c ∈ s, c.isDigit) ∧ decimalValue s = n ∧ 4 ≤ s.length ∧ (4 < s.length → s.head? ≠ some '0')

/-- The variant `stem_NNNN.ext` of a name. -/
def Variant (name : PyStr) (n : ℕ) (name' : PyStr) : Prop :=
  ∃ stem suf num, (SplitAs name stem suf ∨ (Suffixless name ∧ stem = name ∧ suf = [])) ∧ Padded n num ∧
    name' = stem ++ ['_'] ++ num ++ suf

/-- The suffixes of the save functions for metadata, HDF files and lists, as documented. -/
def AcceptedSuffix : SaveKind → PyStr → Prop
  | .hdf, s | .hdfStream, s => s = ".hdf".toList ∨ s = ".h5".toList ∨ s = ".nxs".toList ∨ s = ".hdf5".toList
  | .txt, s => s = ".txt".toList ∨ s = ".dat".toList
  | .json, s => s = ".json".toList
  | .pickle, s => s = ".pkl".toList
  | _, _ => True

/-- `str.lower` leaves lower-case suffixes as they are. -/
def LowerFixes (lower : PyStr → PyStr) : Prop := ∀ s ∈ [".hdf", ".txt", ".json", ".pkl"], lower s.toList = s.toList

/-- The suffix that is set if there is no accepted one. -/
def defaultSuffix : SaveKind → PyStr
  | .hdf | .hdfStream => ".hdf".toList
  | .txt => ".txt".toList
  | .json => ".json".toList
  | _ => ".pkl".toList

/-- Save functions that normalise the suffix. -/
def Normalises (k : SaveKind) : Prop := k = .hdf ∨ k = .hdfStream ∨ k = .txt ∨ k = .json ∨ k = .pickle

/-- A name in which Matplotlib finds the format: a suffix, and a stem that does not consist of dots. -/
def FormatInName (name : PyStr) : Prop := ∃ stem suf, SplitAs name stem suf ∧ ∃ c ∈ stem, c ≠ '.'

/-- A file with this content at this path. -/
def HasFile {α : Type} (fs : FS α) (q : List PyStr) (c : α) : Prop := fs q = some (.file c)

/-- Finitely many files and directories. -/
def FiniteFS {α : Type} (fs : FS α) : Prop := {q | fs q ≠ none}.Finite

end Discorpy.Spec
