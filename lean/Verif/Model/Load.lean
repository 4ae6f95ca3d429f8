import Verif.Model.Hdf
import Verif.Model.ImageIO

/-!
# Model: loading files (`losa/loadersaver.py`)

The loaders, from the path to what is returned. What h5py, Pillow and pickle find in the content of a file are parameters. The path is
taken as resolved; its repair on Windows is modelled in PathRepair.lean. A file left open after an exception is not modelled.
-/

namespace Discorpy

/-- `h5py.File(__get_path(file_path), 'r')`; `parse` reads the content of a file. -/
def openHdf {α : Type} (parse : α → Except PyErr H5File) (fs : FS α) (p : FilePath) : Except PyErr H5File := do
  parse (← readFile fs p)

/-- `load_hdf_file` (loadersaver.py, lines 248-329). -/
def loadHdfFileAt {α : Type} (parse : α → Except PyErr H5File) (h5List : ℕ → List ℤ → Except PyErr (List ℕ)) (f32 : ℝ → ℝ) (fs : FS α)
    (p : FilePath) (key : Option PyStr) (index : HdfIndex) (axis : ℤ) : Except PyErr (NdArr ℝ) :=
  match openHdf parse fs p with
  | .error _ => .error .valueError
  | .ok f => loadHdfFile h5List f32 f key index axis

/-- `load_hdf_object` (loadersaver.py, lines 332-355). -/
def loadHdfObject {α : Type} (parse : α → Except PyErr H5File) (fs : FS α) (p : FilePath) (key : PyStr) : Except PyErr H5 :=
  match openHdf parse fs p with
  | .error _ => .error .valueError
  | .ok f =>
    if h5Contains f key = false then .error .valueError
    else
      match h5Get f key with
      | none => .error .keyError
      | some x => .ok x

/-- `get_hdf_information` (loadersaver.py, lines 109-168). -/
def getHdfInformationAt {α : Type} (parse : α → Except PyErr H5File) (fs : FS α) (p : FilePath) :
    Except PyErr (List PyStr × List (Option (List ℕ)) × List (Option PyStr)) := do
  .ok (getHdfInformation (← openHdf parse fs p))

/-- `find_hdf_key` (loadersaver.py, lines 171-234). -/
def findHdfKeyAt {α : Type} (parse : α → Except PyErr H5File) (fs : FS α) (p : FilePath) (pattern : PyStr) :
    Except PyErr (List PyStr × List (Option (List ℕ)) × List (Option PyStr)) := do
  .ok (findHdfKey (← openHdf parse fs p) pattern)

/-- `load_image` (loadersaver.py, lines 84-106); `decode` is `np.array(Image.open(path), dtype=np.float32)`. -/
noncomputable def loadImageAt {α : Type} (decode : α → Except PyErr Img) (fs : FS α) (p : FilePath) (average : Bool) : Except PyErr Img :=
  match (do decode (← readFile fs p)) with
  | .error _ => .error .valueError
  | .ok img => loadImageData img average

/-- `load_python_list` (loadersaver.py, lines 851-867); `loads` is `pickle.load`. -/
def loadPythonList {α V : Type} (loads : α → Except PyErr V) (fs : FS α) (p : FilePath) : Except PyErr V := do
  loads (← readFile fs p)

/-- `save_python_list` (loadersaver.py, lines 870-896); `dumps` is `pickle.dump`: what it writes and the exception it raises. -/
noncomputable def savePythonList {α V : Type} (lower : PyStr → PyStr) (dumps : V → α × Option PyErr) (fs : FS α) (p : FilePath) (v : V)
    (overwrite : Bool) : Except PyErr FilePath × FS α :=
  save lower fs ⟨.pickle, p, (dumps v).1, (dumps v).2, overwrite⟩

end Discorpy
