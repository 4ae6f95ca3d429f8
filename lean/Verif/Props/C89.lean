import Verif.Model.Load
import Verif.Lemmas.HdfCreate
import Verif.Lemmas.HdfKey
import Verif.Lemmas.Metadata

/-! # C89 — loading files -/

namespace Discorpy

open Spec

/-- **C89 (no file).** Every loader raises `ValueError` for a path that does not exist. -/
theorem C89_no_file {α : Type} (parse : α → Except PyErr H5File) (decode : α → Except PyErr Img)
    {V F : Type} (loads : α → Except PyErr V) (number : PyStr → Except PyErr F) (fs : FS α) (fst : FS PyStr)
    (h5List : ℕ → List ℤ → Except PyErr (List ℕ)) (f32 : ℝ → ℝ) (p : FilePath) (key pattern : PyStr) (okey : Option PyStr) (index : HdfIndex)
    (axis : ℤ) (average : Bool) (h : fs p.comps = none) (ht : fst p.comps = none) :
    loadImageAt decode fs p average = .error .valueError ∧ loadHdfFileAt parse h5List f32 fs p okey index axis = .error .valueError ∧
    loadHdfObject parse fs p key = .error .valueError ∧ getHdfInformationAt parse fs p = .error .valueError ∧
    findHdfKeyAt parse fs p pattern = .error .valueError ∧ loadPythonList loads fs p = .error .valueError ∧
    loadMetadataTxt number fst p = .error .valueError ∧ loadMetadataJson number fst p = .error .valueError := by
  have hr : readFile fs p = .error .valueError := by unfold readFile; rw [h]
  have hrt : readFile fst p = .error .valueError := by unfold readFile; rw [ht]
  have ho : openHdf parse fs p = .error .valueError := by unfold openHdf; rw [hr]; rfl
  refine ⟨?_, ?_, ?_, ?_, ?_, ?_, ?_, ?_⟩
  · unfold loadImageAt; rw [hr]; rfl
  · unfold loadHdfFileAt; rw [ho]
  · unfold loadHdfObject; rw [ho]
  · unfold getHdfInformationAt; rw [ho]; rfl
  · unfold findHdfKeyAt; rw [ho]; rfl
  · unfold loadPythonList; rw [hr]; rfl
  · unfold loadMetadataTxt; rw [hrt]; rfl
  · unfold loadMetadataJson; rw [hrt]; rfl

/-- **C89 (directory).** For a directory `load_image`, `load_hdf_file` and `load_hdf_object` raise `ValueError`, the others `OSError`. -/
theorem C89_directory {α : Type} (parse : α → Except PyErr H5File) (decode : α → Except PyErr Img)
    {V F : Type} (loads : α → Except PyErr V) (number : PyStr → Except PyErr F) (fs : FS α) (fst : FS PyStr)
    (h5List : ℕ → List ℤ → Except PyErr (List ℕ)) (f32 : ℝ → ℝ) (p : FilePath) (key pattern : PyStr) (okey : Option PyStr) (index : HdfIndex)
    (axis : ℤ) (average : Bool) (h : fs p.comps = some .dir) (ht : fst p.comps = some .dir) :
    loadImageAt decode fs p average = .error .valueError ∧ loadHdfFileAt parse h5List f32 fs p okey index axis = .error .valueError ∧
    loadHdfObject parse fs p key = .error .valueError ∧ getHdfInformationAt parse fs p = .error .osError ∧
    findHdfKeyAt parse fs p pattern = .error .osError ∧ loadPythonList loads fs p = .error .osError ∧
    loadMetadataTxt number fst p = .error .osError ∧ loadMetadataJson number fst p = .error .osError := by
  have hr : readFile fs p = .error .osError := by unfold readFile; rw [h]
  have hrt : readFile fst p = .error .osError := by unfold readFile; rw [ht]
  have ho : openHdf parse fs p = .error .osError := by unfold openHdf; rw [hr]; rfl
  refine ⟨?_, ?_, ?_, ?_, ?_, ?_, ?_, ?_⟩
  · unfold loadImageAt; rw [hr]; rfl
  · unfold loadHdfFileAt; rw [ho]
  · unfold loadHdfObject; rw [ho]
  · unfold getHdfInformationAt; rw [ho]; rfl
  · unfold findHdfKeyAt; rw [ho]; rfl
  · unfold loadPythonList; rw [hr]; rfl
  · unfold loadMetadataTxt; rw [hrt]; rfl
  · unfold loadMetadataJson; rw [hrt]; rfl

/-- **C89 (wrong content).** If the content of a file cannot be read, `load_image`, `load_hdf_file` and `load_hdf_object` raise
`ValueError` whatever the exception of the reader was; the others pass it on. -/
theorem C89_unreadable {α : Type} (parse : α → Except PyErr H5File) (decode : α → Except PyErr Img) {V : Type} (loads : α → Except PyErr V)
    (fs : FS α) (h5List : ℕ → List ℤ → Except PyErr (List ℕ)) (f32 : ℝ → ℝ) (p : FilePath) (key pattern : PyStr) (okey : Option PyStr)
    (index : HdfIndex) (axis : ℤ) (average : Bool) (c : α) (e : PyErr) (hf : HasFile fs p.comps c) :
    (decode c = .error e → loadImageAt decode fs p average = .error .valueError) ∧
    (parse c = .error e → loadHdfFileAt parse h5List f32 fs p okey index axis = .error .valueError ∧
      loadHdfObject parse fs p key = .error .valueError ∧ getHdfInformationAt parse fs p = .error e ∧
      findHdfKeyAt parse fs p pattern = .error e) ∧
    (loads c = .error e → loadPythonList loads fs p = .error e) := by
  have hr : readFile fs p = .ok c := by unfold readFile; rw [show fs p.comps = some (.file c) from hf]
  refine ⟨fun h => ?_, fun h => ?_, fun h => ?_⟩
  · unfold loadImageAt; rw [hr, ok_bind, h]
  · have ho : openHdf parse fs p = .error e := by unfold openHdf; rw [hr, ok_bind, h]
    refine ⟨?_, ?_, ?_, ?_⟩
    · unfold loadHdfFileAt; rw [ho]
    · unfold loadHdfObject; rw [ho]
    · unfold getHdfInformationAt; rw [ho]; rfl
    · unfold findHdfKeyAt; rw [ho]; rfl
  · unfold loadPythonList; rw [hr, ok_bind, h]

/-- **C89 (content).** Otherwise the loaders work on what is in the file. -/
theorem C89_content {α : Type} (parse : α → Except PyErr H5File) (decode : α → Except PyErr Img) {V : Type} (loads : α → Except PyErr V)
    (fs : FS α) (h5List : ℕ → List ℤ → Except PyErr (List ℕ)) (f32 : ℝ → ℝ) (p : FilePath) (pattern : PyStr) (okey : Option PyStr)
    (index : HdfIndex) (axis : ℤ) (average : Bool) (c : α) (hf : HasFile fs p.comps c) :
    (∀ img, decode c = .ok img → loadImageAt decode fs p average = loadImageData img average) ∧
    (∀ f, parse c = .ok f → loadHdfFileAt parse h5List f32 fs p okey index axis = loadHdfFile h5List f32 f okey index axis ∧
      getHdfInformationAt parse fs p = .ok (getHdfInformation f) ∧ findHdfKeyAt parse fs p pattern = .ok (findHdfKey f pattern)) ∧
    (∀ v, loads c = .ok v → loadPythonList loads fs p = .ok v) := by
  have hr : readFile fs p = .ok c := by unfold readFile; rw [show fs p.comps = some (.file c) from hf]
  refine ⟨fun img h => ?_, fun f h => ?_, fun v h => ?_⟩
  · unfold loadImageAt; rw [hr, ok_bind, h]
  · have ho : openHdf parse fs p = .ok f := by unfold openHdf; rw [hr, ok_bind, h]
    refine ⟨?_, ?_, ?_⟩
    · unfold loadHdfFileAt; rw [ho]
    · unfold getHdfInformationAt; rw [ho]; rfl
    · unfold findHdfKeyAt; rw [ho]; rfl
  · unfold loadPythonList; rw [hr, ok_bind, h]

/-- **C89 (object).** `load_hdf_object` returns the group or dataset to which the key leads, with or without a slash in front; it raises
`KeyError` if the key leads to a dangling link, and `ValueError` if it leads nowhere or is empty. -/
theorem C89_object {α : Type} (parse : α → Except PyErr H5File) (fs : FS α) (p : FilePath) (c : α) (f : H5File) (hf : HasFile fs p.comps c)
    (hp : parse c = .ok f) (hwf : WellFormedH5 (.group f)) :
    loadHdfObject parse fs p [] = .error .valueError ∧
    ∀ (key : PyStr) (cs : List PyStr), (∀ n ∈ cs, GoodName n) → KeyTo key cs → key ≠ [] →
      (∀ x, loadHdfObject parse fs p key = .ok x ↔ NodeAt (.group f) cs x ∧ H5Object x) ∧
      (NodeAt (.group f) cs .dangling → loadHdfObject parse fs p key = .error .keyError) ∧
      ((¬ ∃ x, NodeAt (.group f) cs x) → loadHdfObject parse fs p key = .error .valueError) := by
  have hr : readFile fs p = .ok c := by unfold readFile; rw [show fs p.comps = some (.file c) from hf]
  have ho : openHdf parse fs p = .ok f := by unfold openHdf; rw [hr, ok_bind, hp]
  unfold loadHdfObject
  simp only [ho]
  refine ⟨by simp [h5Contains], fun key cs hg hk h0 => ?_⟩
  have hc := h5Contains_keyTo hwf hg hk h0
  have hget := h5Get_iff hwf hg hk
  have hnone : h5Get f key = none ↔ ∀ x, NodeAt (.group f) cs x → x = .dangling := by
    constructor
    · intro h x hx
      cases x with
      | dangling => rfl
      | dataset a t => rw [(hget _).2 ⟨hx, trivial⟩] at h; cases h
      | group ch => rw [(hget _).2 ⟨hx, trivial⟩] at h; cases h
    · intro h
      cases hx : h5Get f key with
      | none => rfl
      | some x =>
        obtain ⟨h1, h2⟩ := (hget x).1 hx
        rw [h x h1] at h2
        exact h2.elim
  refine ⟨fun x => ?_, fun h => ?_, fun h => ?_⟩
  · rw [← hget x]
    by_cases hin : h5Contains f key = false
    · rw [if_pos hin]
      have hn : h5Get f key = none := by
        rw [hnone]
        intro x hx
        rw [hc.2 ⟨x, hx⟩] at hin
        cases hin
      rw [hn]
      simp
    · rw [if_neg hin]
      cases h5Get f key <;> simp
  · rw [if_neg (by rw [hc.2 ⟨_, h⟩]; simp), hnone.2 fun x hx => nodeAt_unique hwf hx h]
  · rw [if_pos (by rw [← Bool.not_eq_true, hc]; exact h)]

/-- **C89 (object of a saved file).** `load_hdf_object` returns the dataset written by `save_hdf_file` unchanged, without the conversion to
float32 of `load_hdf_file`. -/
theorem C89_saved_object (lower : PyStr → PyStr) (fs : FS H5File) (p q : FilePath) (d : H5) (hd : IsDataset d) (key : PyStr) (overwrite : Bool)
    (hk : keyComps key ≠ []) (h : (saveHdfFile lower fs p d key overwrite).1 = .ok q) :
    loadHdfObject .ok (saveHdfFile lower fs p d key overwrite).2 q (key ++ "/data".toList) = .ok d := by
  obtain ⟨f, hf, hx⟩ := hdfSaveContent_exactly (d := d) hd hk
  have hst := (save_ok_stores rfl h).2
  unfold saveHdfFile at h ⊢
  simp only [hf] at hst
  have hnode := hx.2.1 _ (List.mem_singleton.2 rfl)
  simp only at hnode
  obtain ⟨hkc, hin⟩ := h5Contains_below hx.1 key "data".toList (by unfold GoodName; decide) hnode
  have he : key ++ "/data".toList = key ++ '/' :: "data".toList := rfl
  have hobj : H5Object d := by cases d <;> trivial
  have hr : readFile (save lower fs ⟨.hdf, p, (hdfSaveContent key d).1, (hdfSaveContent key d).2, overwrite⟩).2 q = .ok f := by
    rw [hf]; exact hst
  unfold loadHdfObject openHdf
  rw [hr, ok_bind]
  simp only [h5Get, he, hkc, hin]
  rw [(h5Find_iff hx.1 _ _).2 ⟨hnode, hobj⟩]
  simp

/-- **C89 (lists).** A list saved by `save_python_list` is loaded from the path it returned, if `pickle` restores what it dumps without an
exception. -/
theorem C89_list_roundtrip {α V : Type} (lower : PyStr → PyStr) (dumps : V → α × Option PyErr) (loads : α → Except PyErr V)
    (hpickle : ∀ v, (dumps v).2 = none → loads (dumps v).1 = .ok v) (fs : FS α) (p q : FilePath) (v : V) (overwrite : Bool)
    (h : (savePythonList lower dumps fs p v overwrite).1 = .ok q) :
    loadPythonList loads (savePythonList lower dumps fs p v overwrite).2 q = .ok v := by
  unfold savePythonList at h ⊢
  unfold loadPythonList
  rw [save_readback rfl h, ok_bind]
  refine hpickle v ?_
  by_contra hne
  obtain ⟨e, he⟩ := Option.ne_none_iff_exists'.1 hne
  rw [he] at h
  unfold save at h
  split at h
  · cases h
  · unfold finishSave at h
    simp only [SaveKind.failsFirst] at h
    split at h
    · cases h
    · cases h

/-- **C89 (existing files).** With `overwrite=False` no existing file changes, also if the list cannot be pickled. -/
theorem C89_list_keeps {α V : Type} (lower : PyStr → PyStr) (dumps : V → α × Option PyErr) (fs : FS α) (p : FilePath) (v : V) (q : List PyStr)
    (c : α) (h : HasFile fs q c) : HasFile (savePythonList lower dumps fs p v false).2 q c :=
  save_keeps rfl (by simp [SaveKind.isPlot]) q _ h

/-- **C89 (destroyed file).** With `overwrite=True` a list that cannot be pickled destroys an existing file: the exception is raised after
the file has been opened for writing. -/
theorem C89_list_destroys {α V : Type} (lower : PyStr → PyStr) (dumps : V → α × Option PyErr) (fs : FS α) (p q : FilePath) (v : V) (old : α)
    (e : PyErr) (he : (dumps v).2 = some e) (hn : normalise lower .pickle p = .ok q) (hs : ∃ stem suf, SplitAs q.name stem suf)
    (hdir : fs q.dir = some .dir) (hold : HasFile fs q.comps old) :
    (savePythonList lower dumps fs p v true).1 = .error e ∧ HasFile (savePythonList lower dumps fs p v true).2 q.comps (dumps v).1 := by
  unfold savePythonList
  rw [he, save_overwrite (p := q) (old := old) rfl rfl rfl hn hs hdir hold]
  refine ⟨rfl, ?_⟩
  unfold HasFile
  simp

/-- A file with a dataset, a group and a dangling link: what `load_hdf_object` finds. -/
example (a : NdArr ℝ) (t : PyStr) :
    let f : H5File := [("entry".toList, .group [("data".toList, .dataset a t), ("link".toList, .dangling)])]
    let fs : FS H5File := fun q => if q = ["a.hdf".toList] then some (.file f) else if q = [] then some .dir else none
    WellFormedH5 (.group f) ∧ HasFile fs (FilePath.comps ⟨[], "a.hdf".toList⟩) f ∧
    loadHdfObject .ok fs ⟨[], "a.hdf".toList⟩ "entry/data".toList = .ok (.dataset a t) ∧
    loadHdfObject .ok fs ⟨[], "a.hdf".toList⟩ "/entry/link".toList = .error .keyError ∧
    loadHdfObject .ok fs ⟨[], "a.hdf".toList⟩ "entry/data/x".toList = .error .valueError ∧
    loadHdfObject .ok fs ⟨[], "b.hdf".toList⟩ "entry/data".toList = .error .valueError := by
  refine ⟨?_, rfl, ?_, ?_, ?_, ?_⟩
  · intro cs ch h
    cases h with
    | here =>
      refine ⟨(by decide : ["entry".toList].Nodup), fun p hp => ?_⟩
      rw [List.mem_singleton] at hp
      subst hp
      unfold GoodName
      exact (by decide : "entry".toList ≠ [] ∧ "entry".toList ≠ ['.'] ∧ '/' ∉ "entry".toList)
    | child hm h2 =>
      rw [List.mem_singleton, Prod.mk.injEq] at hm
      obtain ⟨-, rfl⟩ := hm
      cases h2 with
      | here =>
        refine ⟨(by decide : ["data".toList, "link".toList].Nodup), fun p hp => ?_⟩
        simp only [List.mem_cons, List.not_mem_nil, or_false] at hp
        unfold GoodName
        rcases hp with rfl | rfl
        · exact (by decide : "data".toList ≠ [] ∧ "data".toList ≠ ['.'] ∧ '/' ∉ "data".toList)
        · exact (by decide : "link".toList ≠ [] ∧ "link".toList ≠ ['.'] ∧ '/' ∉ "link".toList)
      | child hm h3 =>
        simp only [List.mem_cons, Prod.mk.injEq, List.not_mem_nil, or_false] at hm
        rcases hm with ⟨-, rfl⟩ | ⟨-, rfl⟩ <;> cases h3
  all_goals rfl

example {V F : Type} (number : PyStr → Except PyErr F) (loads : PyStr → Except PyErr V) (decode : PyStr → Except PyErr Img) (parse : PyStr → Except PyErr H5File)
    (h5List : ℕ → List ℤ → Except PyErr (List ℕ)) := C89_no_file parse decode loads number (fun _ => none) (fun _ => none) h5List id
  ⟨[], "a.hdf".toList⟩ "entry/data".toList "data".toList none .none 0 true rfl rfl
example {V F : Type} (number : PyStr → Except PyErr F) (loads : PyStr → Except PyErr V) (decode : PyStr → Except PyErr Img) (parse : PyStr → Except PyErr H5File)
    (h5List : ℕ → List ℤ → Except PyErr (List ℕ)) := C89_directory parse decode loads number (fun _ => some .dir) (fun _ => some .dir) h5List id
  ⟨[], "a.hdf".toList⟩ "entry/data".toList "data".toList none .none 0 true rfl rfl
/-- A text that is neither an image nor an HDF file. -/
example (h5List : ℕ → List ℤ → Except PyErr (List ℕ)) := C89_unreadable (fun _ => .error .osError) (fun _ => .error .osError) (fun t : PyStr => .ok t)
  (fun q => if q = ["a.hdf".toList] then some (.file "text".toList) else none) h5List id ⟨[], "a.hdf".toList⟩ "entry/data".toList "data".toList none .none 0 true
  "text".toList .osError rfl
example (h5List : ℕ → List ℤ → Except PyErr (List ℕ)) (f : H5File) := C89_content (fun _ => .ok f) (fun _ => .error .osError) (fun t : PyStr => .ok t)
  (fun q => if q = ["a.hdf".toList] then some (.file "text".toList) else none) h5List id ⟨[], "a.hdf".toList⟩ "data".toList none .none 0 true
  "text".toList rfl
example (f : H5File) (hwf : WellFormedH5 (.group f)) := C89_object .ok (fun q => if q = ["a.hdf".toList] then some (.file f) else none)
  ⟨[], "a.hdf".toList⟩ f f rfl rfl hwf
/-- A dataset saved in an empty directory. -/
example (a : NdArr ℝ) (t : PyStr) : ∃ q, (saveHdfFile id (fun q => if q = [] then some .dir else none) ⟨[], "a.hdf".toList⟩ (.dataset a t) "entry".toList true).1 = .ok q ∧
    loadHdfObject .ok (saveHdfFile id (fun q => if q = [] then some .dir else none) ⟨[], "a.hdf".toList⟩ (.dataset a t) "entry".toList true).2 q
      ("entry".toList ++ "/data".toList) = .ok (.dataset a t) :=
  ⟨⟨[], "a.hdf".toList⟩, rfl, C89_saved_object id _ _ _ (.dataset a t) trivial "entry".toList true (by decide) rfl⟩
/-- A list saved in an empty directory. -/
example (v : List ℕ) : ∃ q, (savePythonList id (fun v => (v, none)) (fun q => if q = [] then some .dir else none) ⟨[], "a.pkl".toList⟩ v true).1 = .ok q ∧
    loadPythonList .ok (savePythonList id (fun v => (v, none)) (fun q => if q = [] then some .dir else none) ⟨[], "a.pkl".toList⟩ v true).2 q = .ok v :=
  ⟨⟨[], "a.pkl".toList⟩, rfl, C89_list_roundtrip id (fun v => (v, none)) .ok (fun _ _ => rfl) _ _ _ _ _ rfl⟩
/-- A file that is there already is kept. -/
example (v old : List ℕ) := C89_list_keeps id (fun v => (v, none)) (fun q => if q = [] then some .dir else if q = ["a.pkl".toList] then some (.file old) else none)
  ⟨[], "a.pkl".toList⟩ v ["a.pkl".toList] old rfl
/-- A list that cannot be pickled replaces the old file by what was written before the error. -/
example (v old : List ℕ) := C89_list_destroys id (fun v => (v.take 1, some .typeError))
  (fun q => if q = [] then some .dir else if q = ["a.pkl".toList] then some (.file old) else none) ⟨[], "a.pkl".toList⟩ ⟨[], "a.pkl".toList⟩ v old .typeError rfl
  rfl ⟨"a".toList, ".pkl".toList, by decide, by decide, "pkl".toList, by decide, by decide, by decide⟩ rfl rfl

end Discorpy
