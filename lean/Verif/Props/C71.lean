import Verif.Lemmas.HdfCreate
import Verif.Lemmas.HdfKey

/-! # C71 — HDF round trip -/

namespace Discorpy

open Spec

/-- **C71 (automatic key).** Without a key, `load_hdf_file` uses a dataset called `data` in a group below the root if there is one, and raises
`ValueError` otherwise. -/
theorem C71_auto {f : H5File} (hwf : WellFormedH5 (.group f)) (h5List : ℕ → List ℤ → Except PyErr (List ℕ)) (f32 : ℝ → ℝ) (index : HdfIndex)
    (axis : ℤ) :
    ((∃ cs a t, cs ≠ [] ∧ NodeAt (.group f) (cs ++ ["data".toList]) (.dataset a t)) →
      ∃ cs a t, cs ≠ [] ∧ NodeAt (.group f) (cs ++ ["data".toList]) (.dataset a t) ∧
        loadHdfFile h5List f32 f none index axis = hdfSlice h5List f32 a index axis) ∧
    ((¬ ∃ cs a t, cs ≠ [] ∧ NodeAt (.group f) (cs ++ ["data".toList]) (.dataset a t)) →
      loadHdfFile h5List f32 f none index axis = .error .valueError) := by
  constructor
  · rintro ⟨cs, a, t, h0, h1⟩
    cases hk : (h5VisitMembers [] f).findSome? getKey with
    | none => exact absurd h1 (autoKey_none hk cs a t h0)
    | some key =>
      obtain ⟨ds, b, u, h2, rfl, h3⟩ := autoKey_some hk
      refine ⟨ds, b, u, h2, h3, ?_⟩
      unfold loadHdfFile
      simp only [hk]
      rw [(h5Get_iff hwf (nodeAt_goodNames hwf h3) (.inr rfl) _).2 ⟨h3, trivial⟩,
        (h5Contains_keyTo hwf (nodeAt_goodNames hwf h3) (.inr rfl) (by simp)).2 ⟨_, h3⟩]
      simp
  · intro hno
    cases hk : (h5VisitMembers [] f).findSome? getKey with
    | none => unfold loadHdfFile; simp only [hk]
    | some key =>
      obtain ⟨ds, b, u, h2, rfl, h3⟩ := autoKey_some hk
      exact absurd ⟨ds, b, u, h2, h3⟩ hno

/-- **C71 (round trip).** If `save_hdf_file` returns a path, the file there holds the data as its only dataset; `load_hdf_file` finds it without
a key and under the key path followed by `/data`. A 2D array is loaded as it was saved; a 3D array without an index is converted to
float32. -/
theorem C71_roundtrip (lower : PyStr → PyStr) (fs : FS H5File) (p q : FilePath) (arr : NdArr ℝ) (t key : PyStr) (overwrite : Bool)
    (hk : keyComps key ≠ []) (h : (saveHdfFile lower fs p (.dataset arr t) key overwrite).1 = .ok q) :
    ∃ f, readFile (saveHdfFile lower fs p (.dataset arr t) key overwrite).2 q = .ok f ∧
      HasExactly f [(keyComps key ++ ["data".toList], .dataset arr t)] ∧
      ∀ (h5List : ℕ → List ℤ → Except PyErr (List ℕ)) (f32 : ℝ → ℝ) (index : HdfIndex) (axis : ℤ),
        (∀ k ∈ [none, some (key ++ "/data".toList)], loadHdfFile h5List f32 f k index axis = hdfSlice h5List f32 arr index axis) ∧
        (arr.shape.length = 2 → loadHdfFile h5List f32 f none index axis = .ok arr) ∧
        (arr.shape.length = 3 → ∃ res, loadHdfFile h5List f32 f none .none axis = .ok res ∧ res.shape = arr.shape ∧
          ∀ idx, res.get idx = f32 (arr.get idx)) := by
  obtain ⟨f, hf, hx⟩ := hdfSaveContent_exactly (d := .dataset arr t) trivial hk
  have hst := save_ok_stores rfl h
  unfold saveHdfFile at h ⊢
  simp only [hf] at hst
  have hnode := hx.2.1 _ (List.mem_singleton.2 rfl)
  simp only at hnode
  have hauto : ∀ h5List f32 index axis, loadHdfFile h5List f32 f none index axis = hdfSlice h5List f32 arr index axis := by
    intro h5List f32 index axis
    obtain ⟨cs, a, u, h0, h1, h2⟩ := (C71_auto hx.1 h5List f32 index axis).1 ⟨_, arr, t, hk, hnode⟩
    rcases hx.2.2 _ _ (by simp) h1 with hm | ⟨⟨ch, he⟩, -⟩
    · rw [List.mem_singleton, Prod.mk.injEq] at hm
      have := hm.2
      cases this
      exact h2
    · simp at he
  refine ⟨f, by rw [hf]; exact hst.2, hx, fun h5List f32 index axis => ⟨?_, ?_, ?_⟩⟩
  · intro k hk'
    rw [List.mem_cons, List.mem_singleton] at hk'
    rcases hk' with rfl | rfl
    · exact hauto ..
    · obtain ⟨hkc, hin⟩ := h5Contains_below hx.1 key "data".toList (by unfold GoodName; decide) hnode
      have he : key ++ "/data".toList = key ++ '/' :: "data".toList := rfl
      unfold loadHdfFile
      simp only [h5Get, he, hkc, hin]
      rw [(h5Find_iff hx.1 _ _).2 ⟨hnode, trivial⟩]
      simp
  · intro h2
    rw [hauto]
    unfold hdfSlice
    rw [if_neg (by omega), if_pos h2]
  · intro h3
    refine ⟨⟨arr.shape, fun idx => f32 (arr.get idx)⟩, ?_, rfl, fun _ => rfl⟩
    rw [hauto]
    unfold hdfSlice
    rw [if_neg (by omega), if_neg (by omega)]

/-- **C71 (key path to the root).** With a key path that leads to the root, the call fails after an existing file has been emptied. -/
theorem C71_root_key (lower : PyStr → PyStr) (fs : FS H5File) (p q : FilePath) (old : H5File) (d : H5) (key : PyStr) (hk : keyComps key = [])
    (hn : normalise lower .hdf p = .ok q) (hs : ∃ stem suf, SplitAs q.name stem suf) (hdir : fs q.dir = some .dir)
    (hold : HasFile fs q.comps old) :
    (∃ e, (saveHdfFile lower fs p d key true).1 = .error e) ∧ HasFile (saveHdfFile lower fs p d key true).2 q.comps [] := by
  have hc : hdfSaveContent key d = ([], some .valueError) := by
    unfold hdfSaveContent
    rw [hk]
    rfl
  unfold saveHdfFile
  rw [hc, save_overwrite (p := q) (old := old) rfl rfl rfl hn hs hdir hold]
  refine ⟨⟨_, rfl⟩, ?_⟩
  unfold HasFile
  simp

/-- **C71 (dataset at the root).** A dataset called `data` directly below the root is not found without a key. -/
theorem C71_root_data (h5List : ℕ → List ℤ → Except PyErr (List ℕ)) (f32 : ℝ → ℝ) (index : HdfIndex) (axis : ℤ) (a : NdArr ℝ) (t : PyStr) :
    NodeAt (.group [("data".toList, .dataset a t)]) ["data".toList] (.dataset a t) ∧
    loadHdfFile h5List f32 [("data".toList, .dataset a t)] none index axis = .error .valueError :=
  ⟨.child (by simp) (.here _), rfl⟩

/-- The default key path, saved to a new file in the root directory. -/
example : keyComps "entry".toList = ["entry".toList] ∧ ∃ q, (saveHdfFile id (fun q => if q = [] then some .dir else none) ⟨[], "a.hdf".toList⟩
    (.dataset ⟨[2, 3], fun _ => 7⟩ "float32".toList) "entry".toList true).1 = .ok q :=
  ⟨by decide, _, rfl⟩

theorem entryData_wellFormed : WellFormedH5 (.group [("entry".toList, .group [("data".toList, .dataset ⟨[2, 3], fun _ => 1⟩ "float32".toList)])]) := by
  intro cs ch h
  cases h with
  | here => exact ⟨by decide, by unfold GoodName; decide⟩
  | child hm h =>
    simp only [List.mem_singleton, Prod.mk.injEq] at hm
    obtain ⟨rfl, rfl⟩ := hm
    cases h with
    | here => exact ⟨by decide, by simp [GoodName]⟩
    | child hm h =>
      simp only [List.mem_singleton, Prod.mk.injEq] at hm
      obtain ⟨rfl, rfl⟩ := hm
      cases h

example (h5List : ℕ → List ℤ → Except PyErr (List ℕ)) := (C71_auto entryData_wellFormed h5List id .none 0).1 ⟨["entry".toList], _, _, by simp,
  .child (List.mem_singleton.2 rfl) (.child (List.mem_cons_self ..) (.here _))⟩

example : ∃ q f, (saveHdfFile id (fun q => if q = [] then some .dir else none) ⟨[], "a.hdf".toList⟩ (.dataset ⟨[2, 3], fun _ => 7⟩ "float32".toList) "entry".toList true).1 = .ok q ∧
    readFile (saveHdfFile id (fun q => if q = [] then some .dir else none) ⟨[], "a.hdf".toList⟩ (.dataset ⟨[2, 3], fun _ => 7⟩ "float32".toList) "entry".toList true).2 q = .ok f ∧
    HasExactly f [(["entry".toList, "data".toList], .dataset ⟨[2, 3], fun _ => 7⟩ "float32".toList)] := by
  obtain ⟨f, h1, h2, _⟩ := C71_roundtrip id (fun q => if q = [] then some .dir else none) ⟨[], "a.hdf".toList⟩ _ ⟨[2, 3], fun _ => 7⟩ "float32".toList "entry".toList true
    (by decide) rfl
  exact ⟨_, f, rfl, h1, h2⟩

example := C71_root_key id (fun q => if q = [] then some .dir else if q = ["a.hdf".toList] then some (.file []) else none) ⟨[], "a.hdf".toList⟩ ⟨[], "a.hdf".toList⟩ []
  (.dataset ⟨[2, 3], fun _ => 7⟩ "float32".toList) "/".toList (by decide) (by rfl)
  ⟨"a".toList, ".hdf".toList, by decide, by decide, "hdf".toList, by decide, by decide, by decide⟩ rfl rfl
example (h5List : ℕ → List ℤ → Except PyErr (List ℕ)) := C71_root_data h5List id .none 0 ⟨[2, 3], fun _ => 7⟩ "float32".toList

end Discorpy
