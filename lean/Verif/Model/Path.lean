import Verif.Py.Loop
import Mathlib.Data.Set.Finite.Basic

/-!
# Model: file names and saving to files (`losa/loadersaver.py`)

Strings are lists of characters. A path is the list of its components from the root; `resolve` and symbolic links are not
modelled, so paths are taken as resolved. The rules for suffixes are those of `pathlib` in Python ≤ 3.13. The file system is a
map from paths to directories and files; permissions, disk space and name lengths are not modelled.
-/

namespace Discorpy

/-- A Python string. -/
abbrev PyStr := List Char

/-- `name.rfind('.')`, `none` for -1. -/
def lastDot (s : PyStr) : Option ℕ := if '.' ∈ s then some (s.length - 1 - s.reverse.idxOf '.') else none

/-- `Path.suffix` of a path with the given name (used in loadersaver.py, lines 368, 395, 593). -/
def suffixOf (s : PyStr) : PyStr :=
  match lastDot s with
  | none => []
  | some i => if 0 < i ∧ i < s.length - 1 then s.drop i else []

/-- `Path.stem` of a path with the given name (used in loadersaver.py, line 394). -/
def stemOf (s : PyStr) : PyStr :=
  match lastDot s with
  | none => s
  | some i => if 0 < i ∧ i < s.length - 1 then s.take i else s

/-- A path with a parent directory and a final name. -/
structure FilePath where
  dir : List PyStr
  name : PyStr
deriving DecidableEq

/-- The components of a path. -/
def FilePath.comps (p : FilePath) : List PyStr := p.dir ++ [p.name]

/-- `Path.with_suffix` for a well-formed suffix (used in loadersaver.py, lines 594, 636, 737, 815, 890). -/
def withSuffix (p : FilePath) (suf : PyStr) : Except PyErr FilePath :=
  if p.name = [] then .error .valueError
  else
    let old := suffixOf p.name
    .ok ⟨p.dir, if old = [] then p.name ++ suf else p.name.take (p.name.length - old.length) ++ suf⟩

/-- `f"{n:04d}"` (loadersaver.py, line 400). -/
def fmt04 (n : ℕ) : PyStr := List.leftpad 4 '0' (Nat.toDigits 10 n)

/-- The numbered name (loadersaver.py, lines 400-402). -/
def numbered (p : FilePath) (n : ℕ) : FilePath := ⟨p.dir, stemOf p.name ++ ('_' :: fmt04 n) ++ suffixOf p.name⟩

/-- `_create_file_name` (loadersaver.py, lines 379-408) in a directory where `ex` tells which paths exist. -/
noncomputable def createFileName (ex : FilePath → Bool) (p : FilePath) : Except PyErr FilePath :=
  if ex p then
    whileLoop (fun n : ℕ => if ex (numbered p n) then .ok (.inl (n + 1)) else .ok (.inr (numbered p n))) 0
  else .ok p

/-- What a path can be. -/
inductive Node (α : Type) where
  | dir
  | file (content : α)
deriving DecidableEq

/-- A file system. -/
abbrev FS (α : Type) := List PyStr → Option (Node α)

/-- Whether a path is a file. -/
def isFile {α : Type} (fs : FS α) (q : List PyStr) : Bool :=
  match fs q with
  | some (.file _) => true
  | _ => false

/-- `mkdir(parents=True, exist_ok=True)` for a path that does not exist, with the exception of loadersaver.py, lines 373-376. -/
def mkdirs {α : Type} (fs : FS α) (d : List PyStr) : Except PyErr (FS α) :=
  if d.inits.any (isFile fs) then .error .valueError
  else .ok fun q => if q.isPrefixOf d ∧ fs q = none then some .dir else fs q

/-- `_create_folder` (loadersaver.py, lines 358-376). -/
def createFolder {α : Type} (fs : FS α) (p : FilePath) : Except PyErr (FS α) :=
  let folder := if suffixOf p.name ≠ [] then p.dir else p.comps
  if (fs folder).isSome then .ok fs else mkdirs fs folder

/-- Opening a file for writing and writing a content to it. -/
def writeFile {α : Type} (fs : FS α) (p : FilePath) (content : α) : Except PyErr (FS α) :=
  match fs p.dir with
  | some .dir =>
    (match fs p.comps with
     | some .dir => .error .osError
     | _ => .ok fun q => if q = p.comps then some (.file content) else fs q)
  | _ => .error .osError

/-- Reading a file. -/
def readFile {α : Type} (fs : FS α) (p : FilePath) : Except PyErr α :=
  match fs p.comps with
  | some (.file c) => .ok c
  | some .dir => .error .osError
  | none => .error .valueError

/-- The functions that save a file. -/
inductive SaveKind where
  | image | plotImage | residualPlot | plotPoints | hdf | hdfStream | txt | json | pickle
deriving DecidableEq

/-- The suffixes accepted by a save function, and the one it sets otherwise (loadersaver.py, lines 593-594, 635-636, 736-737,
814-815, 889-890); none for images and plots. -/
def SaveKind.suffixes : SaveKind → Option (List PyStr × PyStr)
  | .hdf | .hdfStream => some ([".hdf".toList, ".h5".toList, ".nxs".toList, ".hdf5".toList], ".hdf".toList)
  | .txt => some ([".txt".toList, ".dat".toList], ".txt".toList)
  | .json => some ([".json".toList], ".json".toList)
  | .pickle => some ([".pkl".toList], ".pkl".toList)
  | _ => none

/-- The path a save function works with (loadersaver.py, lines 593-594, 635-636, 736-737, 814-815, 889-890). `lower` is
`str.lower`. -/
def normalise (lower : PyStr → PyStr) (k : SaveKind) (p : FilePath) : Except PyErr FilePath :=
  match k.suffixes with
  | none => .ok p
  | some (acc, dflt) => if lower (suffixOf p.name) ∈ acc then .ok p else withSuffix p dflt

/-- Whether a function draws a figure and saves it by `plt.savefig`. -/
def SaveKind.isPlot : SaveKind → Bool
  | .plotImage | .residualPlot | .plotPoints => true
  | _ => false

/-- `os.path.splitext(name)[1][1:]`, by which `plt.savefig` finds the format. -/
def formatOf (s : PyStr) : PyStr :=
  match lastDot s with
  | none => []
  | some i => if (s.take i).all (· = '.') then [] else s.drop (i + 1)

/-- The file to which `plt.savefig` writes: without a format in the name, `.png` is added after removing final dots. -/
def savefigTarget (p : FilePath) : FilePath :=
  if formatOf p.name = [] then ⟨p.dir, (p.name.reverse.dropWhile (· = '.')).reverse ++ ".png".toList⟩ else p

/-- The file to which a save function writes. -/
def writeTarget (k : SaveKind) (p : FilePath) : FilePath := if k.isPlot then savefigTarget p else p

/-- Whether a failure happens before the file is touched: Pillow and Matplotlib refuse unknown formats first (and Pillow removes
what it has begun); the others open the file and then fail to write the data. -/
def SaveKind.failsFirst : SaveKind → Bool
  | .image | .plotImage | .residualPlot | .plotPoints => true
  | _ => false

/-- The exception if a file cannot be opened (loadersaver.py, lines 448-449, 494-495, 565-566, 600-601, 642-643, 707-708; no
handler in lines 747, 824, 894). -/
def SaveKind.openError : SaveKind → PyErr
  | .txt | .json | .pickle => .osError
  | _ => .valueError

/-- A call of a save function: the path, what is written, and the exception raised for data that cannot be written. -/
structure SaveJob (α : Type) where
  kind : SaveKind
  path : FilePath
  content : α
  failed : Option PyErr
  overwrite : Bool

/-- The first half of a save function: suffix, folder and name (loadersaver.py, lines 429 and 442-444, 479-482, 549-552, 592-597,
634-639, 691-694, 735-740, 813-818, 888-893). -/
noncomputable def prepareSave {α : Type} (lower : PyStr → PyStr) (fs : FS α) (j : SaveJob α) : Except PyErr FilePath × FS α :=
  match normalise lower j.kind j.path with
  | .error e => (.error e, fs)
  | .ok p =>
    (match createFolder fs p with
     | .error e => (.error e, fs)
     | .ok fs1 =>
       if j.overwrite then (.ok p, fs1) else (createFileName (fun q => (fs1 q.comps).isSome) p, fs1))

/-- The second half: writing (loadersaver.py, lines 445-450, 492-497, 563-569, 598-605, 640-656, 705-710, 747-751, 824-826,
894-896). -/
def finishSave {α : Type} (fs : FS α) (j : SaveJob α) (q : FilePath) : Except PyErr FilePath × FS α :=
  match j.failed, j.kind.failsFirst with
  | some e, true => (.error e, fs)
  | failed, _ =>
    (match writeFile fs (writeTarget j.kind q) j.content with
     | .error _ => (.error j.kind.openError, fs)
     | .ok fs2 =>
       match failed with
       | some e => (.error e, fs2)
       | none => (.ok q, fs2))

/-- A whole call. -/
noncomputable def save {α : Type} (lower : PyStr → PyStr) (fs : FS α) (j : SaveJob α) : Except PyErr FilePath × FS α :=
  match prepareSave lower fs j with
  | (.error e, fs1) => (.error e, fs1)
  | (.ok q, fs1) => finishSave fs1 j q

/-- A sequence of calls by one process: the results and the file system at the end. -/
noncomputable def saveAll {α : Type} (lower : PyStr → PyStr) : FS α → List (SaveJob α) → List (Except PyErr FilePath) × FS α
  | fs, [] => ([], fs)
  | fs, j :: js => ((save lower fs j).1 :: (saveAll lower (save lower fs j).2 js).1, (saveAll lower (save lower fs j).2 js).2)

/-- What happens in a file system used by several processes: a process chooses a name, writes to the name it has chosen, or a file
is written or removed otherwise. -/
inductive FsEvent (α : Type) where
  | choose (proc : ℕ) (j : SaveJob α)
  | write (proc : ℕ) (j : SaveJob α)
  | other (p : FilePath) (content : α)
  | remove (p : FilePath)

/-- One event. The state is the file system and the name chosen by each process. -/
noncomputable def fsStep {α : Type} (lower : PyStr → PyStr) (s : FS α × (ℕ → Option FilePath)) : FsEvent α → FS α × (ℕ → Option FilePath)
  | .choose i j =>
    (match prepareSave lower s.1 j with
     | (.error _, fs1) => (fs1, Function.update s.2 i none)
     | (.ok q, fs1) => (fs1, Function.update s.2 i (some q)))
  | .write i j =>
    (match s.2 i with
     | none => s
     | some q => ((finishSave s.1 j q).2, Function.update s.2 i none))
  | .other p c =>
    (match writeFile s.1 p c with
     | .error _ => s
     | .ok fs => (fs, s.2))
  | .remove p => (fun q => if q = p.comps ∧ isFile s.1 q then none else s.1 q, s.2)

/-- A run of events. -/
noncomputable def fsRun {α : Type} (lower : PyStr → PyStr) (s : FS α × (ℕ → Option FilePath)) (l : List (FsEvent α)) :
    FS α × (ℕ → Option FilePath) := l.foldl (fsStep lower) s

end Discorpy
