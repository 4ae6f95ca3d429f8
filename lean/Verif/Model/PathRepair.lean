import Verif.Model.Path

/-!
# Model: repair of Windows paths and search for files (`losa/loadersaver.py`)

The functions work on the text of a path.
-/

namespace Discorpy

/-- `escape_sequences` (loadersaver.py, lines 53-62): a control character and the text that stands for it. -/
def escapeTable : List (Char × PyStr) :=
  [(Char.ofNat 7, ['\\', 'a']), (Char.ofNat 8, ['\\', 'b']), (Char.ofNat 12, ['\\', 'f']), (Char.ofNat 10, ['\\', 'n']),
   (Char.ofNat 13, ['\\', 'r']), (Char.ofNat 9, ['\\', 't']), (Char.ofNat 11, ['\\', 'v']), (Char.ofNat 0, ['\\', '0'])]

/-- `s.replace(c, t)` for one character. -/
def replaceChar (c : Char) (t : PyStr) (s : PyStr) : PyStr := s.flatMap fun x => if x = c then t else [x]

/-- `__correct_path` (loadersaver.py, lines 47-67), up to the conversion to `Path`. -/
def correctPath (s : PyStr) : PyStr :=
  replaceChar '\\' ['/'] (escapeTable.foldl (fun s p => if p.1 ∈ s then replaceChar p.1 p.2 s else s) s)

/-- The text of a path as `__get_path` takes it on each system (loadersaver.py, lines 70-77). -/
def getPathText (windows : Bool) (s : PyStr) : PyStr := if windows then correctPath s else s

/-- `find_file` (loadersaver.py, lines 899-917). `glob p` are the paths found by `path.parent.glob(path.name)`, in any order. -/
def findFile (glob : PyStr → List PyStr) (path : PyStr) : Except PyErr (List PyStr) :=
  let found := glob (correctPath path)
  if found = [] then .error .fileNotFoundError else .ok (found.mergeSort fun a b => decide (a ≤ b))

end Discorpy
