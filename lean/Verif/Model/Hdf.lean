import Verif.Model.Path
import Verif.Model.Pattern
import Mathlib.Data.List.Sort

/-!
# Model: HDF files (`losa/loadersaver.py`)

A file is a tree of groups and datasets; a member of a group can also be a dangling link. Links to other objects, attributes and
region references are not modelled. h5py visits the members of a group in the order in which they are given here.
-/

namespace Discorpy

/-- A member of an HDF file. -/
inductive H5 where
  | dataset (arr : NdArr ℝ) (dtype : PyStr)
  | group (members : List (PyStr × H5))
  | dangling

/-- The members of a group below the root. -/
abbrev H5File := List (PyStr × H5)

/-- The components of a key path: empty components and `.` are skipped. -/
def keyComps (key : PyStr) : List PyStr := (key.splitOn '/').filter fun c => c ≠ [] ∧ c ≠ ['.']

/-- A key path with the given components. -/
def joinKey (cs : List PyStr) : PyStr := ['/'].intercalate cs

/-- The object found by following the components. -/
def h5Find : H5 → List PyStr → Option H5
  | .dangling, _ => none
  | t, [] => some t
  | .dataset _ _, _ :: _ => none
  | .group ch, n :: r =>
    match ch.lookup n with
    | none => none
    | some c => h5Find c r

/-- `file[key]`; `none` stands for `KeyError`. -/
def h5Get (f : H5File) (key : PyStr) : Option H5 := h5Find (.group f) (keyComps key)

/-- The loop of h5py for `key in file` over the parts of a key, from a group: every part but the last has to be a group, the last one can
be a dangling link. -/
def h5LinkExists : List PyStr → List (PyStr × H5) → Bool
  | [], _ => true
  | p :: r, ch =>
    if p = ['.'] then h5LinkExists r ch
    else
      match ch.lookup p with
      | none => false
      | some c =>
        if r = [] then true
        else
          match c with
          | .group sub => h5LinkExists r sub
          | _ => false

/-- `key in file` (loadersaver.py, lines 278, 352). -/
def h5Contains (f : H5File) (key : PyStr) : Bool := key ≠ [] && h5LinkExists ((key.splitOn '/').filter (· ≠ [])) f

mutual
/-- The objects visited by `visit` and `visititems` at and below an object, with their components. -/
def h5VisitNode (path : List PyStr) : H5 → List (List PyStr × H5)
  | .dataset a t => [(path, .dataset a t)]
  | .group ch => (path, .group ch) :: h5VisitMembers path ch
  | .dangling => []
/-- The objects visited below a group. -/
def h5VisitMembers (path : List PyStr) : List (PyStr × H5) → List (List PyStr × H5)
  | [] => []
  | (n, c) :: r => h5VisitNode (path ++ [n]) c ++ h5VisitMembers path r
end

/-- The keys passed to the function by `file.visit` (loadersaver.py, lines 131, 195). -/
def h5Visit (f : H5File) : List PyStr := (h5VisitMembers [] f).map fun p => joinKey p.1

/-- The first loop of `get_hdf_information` and `find_hdf_key` (loadersaver.py, lines 133-147 and 196-209): the keys found for one
visited key. -/
def h5KeysOf (f : H5File) (onKeyError : PyStr → List PyStr) (key : PyStr) : List PyStr :=
  match h5Get f key with
  | none => onKeyError key
  | some (.group ch) => if ch ≠ [] then ch.map fun p => key ++ '/' :: p.1 else [key]
  | some _ => ['/' :: key]

/-- Shape and type of an object (loadersaver.py, lines 148-159 and 214-224). -/
def h5Info (f : H5File) (key : PyStr) : Option (List ℕ) × Option PyStr :=
  match h5Get f key with
  | some (.dataset a t) => (some a.shape, some t)
  | _ => (none, none)

/-- `get_hdf_information` (loadersaver.py, lines 109-168). -/
def getHdfInformation (f : H5File) : List PyStr × List (Option (List ℕ)) × List (Option PyStr) :=
  let keys := (h5Visit f).flatMap (h5KeysOf f fun key => [key])
  (keys, keys.map fun k => (h5Info f k).1, keys.map fun k => (h5Info f k).2)

/-- `pattern in key`. -/
def strIn (pattern key : PyStr) : Bool := key.tails.any (pattern.isPrefixOf ·)

/-- `find_hdf_key` (loadersaver.py, lines 171-234). -/
def findHdfKey (f : H5File) (pattern : PyStr) : List PyStr × List (Option (List ℕ)) × List (Option PyStr) :=
  let keys := ((h5Visit f).flatMap (h5KeysOf f fun _ => [])).filter (strIn pattern)
  (keys, keys.map fun k => (h5Info f k).1, keys.map fun k => (h5Info f k).2)

/-- Whether a member of a group is a dataset called `data` (loadersaver.py, lines 243-244). -/
def isDataMember : PyStr × H5 → Bool
  | (n, .dataset _ _) => n = "data".toList
  | _ => false

/-- `_get_key` (loadersaver.py, lines 237-245). -/
def getKey : List PyStr × H5 → Option PyStr
  | (path, .group ch) => if ch.any isDataMember then some ('/' :: joinKey path ++ '/' :: "data".toList) else none
  | _ => none

/-- The forms of the argument `index`. -/
inductive HdfIndex where
  | none
  | int (i : ℤ)
  | list (l : List ℤ)
  | other

/-- The list of indices meant by a tuple or list (loadersaver.py, lines 305-315). -/
def hdfIndexList : List ℤ → Except PyErr (List ℤ)
  | [start, stop, step] => pyRange start stop step
  | [start, stop] => pyRange start stop 1
  | l => .ok l

/-- `data[..., i, ...]` along an axis. -/
def takeIndex (a : NdArr ℝ) (axis i : ℕ) : NdArr ℝ := ⟨a.shape.eraseIdx axis, fun idx => a.get (idx.insertIdx axis i)⟩

/-- `data[..., l, ...]` along an axis for a list of indices. -/
def takeList (a : NdArr ℝ) (axis : ℕ) (l : List ℕ) : NdArr ℝ :=
  ⟨a.shape.set axis l.length, fun idx => a.get (idx.modify axis fun k => l.getD k 0)⟩

/-- Exchange of an entry with the first one. -/
def swapFirst {α : Type} : ℕ → List α → List α
  | 1, a :: b :: r => b :: a :: r
  | 2, a :: b :: c :: r => c :: b :: a :: r
  | _, l => l

/-- `np.swapaxes(mat, axis, 0)[0]` (loadersaver.py, line 326). -/
def squeezeAxis (a : NdArr ℝ) (axis : ℕ) : NdArr ℝ := ⟨(swapFirst axis a.shape).tail, fun idx => a.get (swapFirst axis (0 :: idx))⟩

/-- A single index in h5py: negative ones count from the end. -/
def h5IntIndex (n : ℕ) (i : ℤ) : Except PyErr ℕ :=
  if 0 ≤ i ∧ i < n then .ok i.toNat else if i < 0 ∧ 0 ≤ i + n then .ok (i + n).toNat else .error .indexError

/-- The final checks (loadersaver.py, lines 325-328). -/
def hdfFinish (mat : NdArr ℝ) (axis : ℕ) : Except PyErr (NdArr ℝ) := do
  let n ← npGet mat.shape axis
  let mat := if n = 1 then squeezeAxis mat axis else mat
  let n ← npGet mat.shape axis
  if n = 0 then .error .valueError else .ok mat

/-- The slicing in `load_hdf_file` (loadersaver.py, lines 283-329) for a dataset. `h5List n l` is what h5py makes of a list of
indices for an axis of length `n`, `f32` is the conversion to float32. -/
def hdfSlice (h5List : ℕ → List ℤ → Except PyErr (List ℕ)) (f32 : ℝ → ℝ) (a : NdArr ℝ) (index : HdfIndex) (axis : ℤ) :
    Except PyErr (NdArr ℝ) :=
  if a.shape.length < 2 ∨ a.shape.length > 3 then .error .valueError
  else if a.shape.length = 2 then .ok a
  else
    let axis := (max 0 (min axis 2)).toNat
    match index with
    | .none => .ok ⟨a.shape, fun idx => f32 (a.get idx)⟩
    | .int i => do
      let n ← npGet a.shape axis
      let i ← h5IntIndex n i
      let mat := takeIndex a axis i
      hdfFinish ⟨mat.shape, fun idx => f32 (mat.get idx)⟩ (min axis 1)
    | .list l => do
      let l ← hdfIndexList l
      let n ← npGet a.shape axis
      let l ← h5List n l
      let mat := takeList a axis l
      hdfFinish ⟨mat.shape, fun idx => f32 (mat.get idx)⟩ axis
    | .other => .error .attributeError

/-- `load_hdf_file` (loadersaver.py, lines 248-329) for a file that can be opened. -/
def loadHdfFile (h5List : ℕ → List ℤ → Except PyErr (List ℕ)) (f32 : ℝ → ℝ) (f : H5File) (key : Option PyStr) (index : HdfIndex)
    (axis : ℤ) : Except PyErr (NdArr ℝ) :=
  let key := match key with
    | some k => some k
    | none => (h5VisitMembers [] f).findSome? getKey
  match key with
  | none => .error .valueError
  | some k =>
    if h5Contains f k = false then .error .valueError
    else
      match h5Get f k with
      | none => .error .keyError
      | some (.dataset a _) => hdfSlice h5List f32 a index axis
      | some _ => .error .attributeError

/-- A member is put into a group, in order of the names. -/
def h5AddMember (m : PyStr × H5) (ch : List (PyStr × H5)) : List (PyStr × H5) := ch.orderedInsert (fun a b => a.1 ≤ b.1) m

/-- `create_group` and `create_dataset` of h5py: intermediate groups are created; an existing name is an error. -/
def h5Create (new : H5) : List PyStr → H5File → Except PyErr H5File
  | [], _ => .error .valueError
  | [n], ch =>
    (match ch.lookup n with
     | some _ => .error .valueError
     | none => .ok (h5AddMember (n, new) ch))
  | n :: m :: r, ch =>
    match ch.lookup n with
    | none => do .ok (h5AddMember (n, .group (← h5Create new (m :: r) [])) ch)
    | some (.group sub) => do
      let sub' ← h5Create new (m :: r) sub
      .ok (ch.map fun p => if p.1 = n then (n, .group sub') else p)
    | some _ => .error .valueError

/-- An argument of `open_hdf_stream` beyond the named ones: a dictionary from key paths to data, or something else. -/
inductive HdfOption where
  | dict (items : List (PyStr × H5))
  | other

/-- The loop over one dictionary (loadersaver.py, lines 647-654): the file and the exception raised. -/
def hdfAddItems (keyPath : PyStr) : H5File → List (PyStr × H5) → H5File × Option PyErr
  | f, [] => (f, none)
  | f, (key, d) :: r =>
    if strIn keyPath key then (f, some .valueError)
    else
      match h5Create d (keyComps key) f with
      | .error e => (f, some e)
      | .ok f' => hdfAddItems keyPath f' r

/-- The loop over the options (loadersaver.py, lines 644-654). -/
def hdfAddOptions (keyPath : PyStr) : H5File → List HdfOption → H5File × Option PyErr
  | f, [] => (f, none)
  | f, .other :: _ => (f, some .typeError)
  | f, .dict items :: r =>
    match hdfAddItems keyPath f items with
    | (f', some e) => (f', some e)
    | (f', none) => hdfAddOptions keyPath f' r

/-- What `open_hdf_stream` writes to the new file and the exception it raises (loadersaver.py, lines 644-655); `d` is the dataset of
the given shape. -/
def hdfStreamContent (keyPath : PyStr) (d : H5) (options : List HdfOption) : H5File × Option PyErr :=
  match hdfAddOptions keyPath [] options with
  | (f, some e) => (f, some e)
  | (f, none) =>
    match h5Create d (keyComps keyPath) f with
    | .error e => (f, some e)
    | .ok f' => (f', none)

/-- `open_hdf_stream` (loadersaver.py, lines 608-656). -/
noncomputable def openHdfStream (lower : PyStr → PyStr) (fs : FS H5File) (p : FilePath) (keyPath : PyStr) (d : H5) (overwrite : Bool)
    (options : List HdfOption) : Except PyErr FilePath × FS H5File :=
  save lower fs ⟨.hdfStream, p, (hdfStreamContent keyPath d options).1, (hdfStreamContent keyPath d options).2, overwrite⟩

/-- What `save_hdf_file` writes to the new file (loadersaver.py, lines 602-603). -/
def hdfSaveContent (keyPath : PyStr) (d : H5) : H5File × Option PyErr :=
  match h5Create (.group []) (keyComps keyPath) [] with
  | .error e => ([], some e)
  | .ok f =>
    match h5Create d (keyComps keyPath ++ ["data".toList]) f with
    | .error e => (f, some e)
    | .ok f' => (f', none)

/-- `save_hdf_file` (loadersaver.py, lines 572-605). -/
noncomputable def saveHdfFile (lower : PyStr → PyStr) (fs : FS H5File) (p : FilePath) (d : H5) (keyPath : PyStr) (overwrite : Bool) :
    Except PyErr FilePath × FS H5File :=
  save lower fs ⟨.hdf, p, (hdfSaveContent keyPath d).1, (hdfSaveContent keyPath d).2, overwrite⟩

end Discorpy
