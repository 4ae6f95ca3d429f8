import Verif.Lemmas.HdfOrder
import Verif.Lemmas.HdfKey
import Verif.Props.C71

/-! # C88 — the order of the members of HDF files -/

namespace Discorpy
open Spec

/-- **C88 (first dataset).** Without a key, the dataset called `data` is loaded from the group whose path comes first in the order of the
names, among all groups below the root that have one. -/
theorem C88_first {f : H5File} (hwf : WellFormedH5 (.group f)) (hs : SortedH5 (.group f)) (h5List : ℕ → List ℤ → Except PyErr (List ℕ))
    (f32 : ℝ → ℝ) (index : HdfIndex) (axis : ℤ) (cs : List PyStr) (a : NdArr ℝ) (t : PyStr) (h0 : cs ≠ [])
    (hn : NodeAt (.group f) (cs ++ ["data".toList]) (.dataset a t))
    (hmin : ∀ ds b u, ds ≠ [] → NodeAt (.group f) (ds ++ ["data".toList]) (.dataset b u) → cs = ds ∨ cs < ds) :
    loadHdfFile h5List f32 f none index axis = hdfSlice h5List f32 a index axis := by
  cases hk : (h5VisitMembers [] f).findSome? getKey with
  | none => exact absurd hn (autoKey_none hk cs a t h0)
  | some key =>
    obtain ⟨p, hp, hg, hfirst⟩ := findSome_first (h5VisitMembers_sorted [] f hs) hk
    obtain ⟨ch, b, u, h1, h2, rfl⟩ := getKey_iff.1 hg
    obtain ⟨n, c, ds, hm, h3, h4, -⟩ := (mem_h5VisitMembers [] f p).1 hp
    rw [h1] at h4
    rw [List.nil_append] at h3
    have hb : NodeAt (.group f) ((n :: ds) ++ ["data".toList]) (.dataset b u) := nodeAt_append (.child hm h4) h2
    -- the group given is visited, too
    have hcs : cs = n :: ds := by
      rcases hmin _ b u (by simp) hb with h | h
      · exact h
      · exfalso
        obtain ⟨ch', e1, e2⟩ := nodeAt_dropLast hn (by simp)
        rw [List.dropLast_concat] at e1
        rw [List.getLast_append_singleton] at e2
        have hmem : (cs, H5.group ch') ∈ h5VisitMembers [] f := by
          rw [mem_h5VisitMembers]
          cases e1 with
          | here => exact absurd rfl h0
          | child hm h1 => exact ⟨_, _, _, hm, rfl, h1, trivial⟩
        rcases hfirst _ hmem (by rw [getKey_iff.2 ⟨ch', a, t, rfl, e2, rfl⟩]; simp) with e | e
        · rw [← e] at h3
          exact absurd h (by rw [← h3]; exact lt_irrefl _)
        · rw [h3] at e
          exact absurd (h.trans e) (lt_irrefl _)
    have hget : h5Get f ('/' :: joinKey p.1 ++ '/' :: "data".toList) = some (.dataset a t) ∧
        h5Contains f ('/' :: joinKey p.1 ++ '/' :: "data".toList) = true := by
      have e : '/' :: joinKey p.1 ++ '/' :: "data".toList = '/' :: joinKey (cs ++ ["data".toList]) := by
        rw [joinKey_append (by rw [hcs]; simp), h3, hcs]
        rfl
      rw [e]
      exact ⟨(h5Get_iff hwf (nodeAt_goodNames hwf hn) (.inr rfl) _).2 ⟨hn, trivial⟩,
        (h5Contains_keyTo hwf (nodeAt_goodNames hwf hn) (.inr rfl) (by simp)).2 ⟨_, hn⟩⟩
    unfold loadHdfFile
    simp only [hk, hget.1, hget.2]
    simp

def isDs : H5 → Bool
  | .dataset _ _ => true
  | _ => false

/-- **C88 (listing).** The keys of datasets listed with a leading slash come in the order of the paths; each dataset is listed so
exactly once. -/
theorem C88_listing {f : H5File} (hwf : WellFormedH5 (.group f)) (hs : SortedH5 (.group f)) :
    ∃ paths : List (List PyStr), paths.Pairwise (· < ·) ∧ (∀ cs, cs ∈ paths ↔ ∃ a t, NodeAt (.group f) cs (.dataset a t)) ∧
      (getHdfInformation f).1.filter (fun k => decide (k.head? = some '/')) = paths.map fun cs => '/' :: joinKey cs := by
  refine ⟨((h5VisitMembers [] f).filter fun p => isDs p.2).map Prod.fst, ?_, ?_, ?_⟩
  · rw [List.pairwise_map]
    exact (h5VisitMembers_sorted [] f hs).filter _
  · intro cs
    rw [List.mem_map]
    constructor
    · rintro ⟨⟨p, x⟩, hp, rfl⟩
      rw [List.mem_filter] at hp
      obtain ⟨n, c, ds, hm, h3, h4, -⟩ := (mem_h5VisitMembers [] f _).1 hp.1
      rw [List.nil_append] at h3
      simp only at h3 h4
      cases x with
      | dataset a t => exact ⟨a, t, by rw [h3]; exact .child hm h4⟩
      | group ch => simp [isDs] at hp
      | dangling => simp [isDs] at hp
    · rintro ⟨a, t, hn⟩
      refine ⟨(cs, .dataset a t), List.mem_filter.2 ⟨?_, rfl⟩, rfl⟩
      rw [mem_h5VisitMembers]
      cases hn with
      | child hm h1 => exact ⟨_, _, _, hm, rfl, h1, trivial⟩
  · have key : ∀ l : List (List PyStr × H5), (∀ p ∈ l, p ∈ h5VisitMembers [] f) →
        ((l.map fun p => joinKey p.1).flatMap (h5KeysOf f fun key => [key])).filter (fun k => decide (k.head? = some '/')) =
          ((l.filter fun p => isDs p.2).map Prod.fst).map fun cs => '/' :: joinKey cs := by
      intro l
      induction l with
      | nil => intro _; rfl
      | cons p l ih =>
        intro hl
        rw [List.map_cons, List.flatMap_cons, List.filter_append, ih fun q hq => hl q (by simp [hq]), List.filter_cons]
        obtain ⟨n, c, ds, hm, h3, h4, h5⟩ := (mem_h5VisitMembers [] f p).1 (hl p (by simp))
        rw [List.nil_append] at h3
        have hnode : NodeAt (.group f) p.1 p.2 := by rw [h3]; exact .child hm h4
        have hgood := nodeAt_goodNames hwf hnode
        have hget : h5Get f (joinKey p.1) = some p.2 := (h5Get_iff hwf hgood (.inl rfl) _).2 ⟨hnode, h5⟩
        obtain ⟨g0, -, g2⟩ := hgood n (by rw [h3]; simp)
        have hhead : ∀ r : PyStr, (joinKey p.1 ++ r).head? ≠ some '/' := by
          intro r
          have : ∃ r', joinKey p.1 = n ++ r' := by
            rw [h3]
            cases ds with
            | nil => exact ⟨[], by simp [joinKey]⟩
            | cons d ds => exact ⟨'/' :: joinKey (d :: ds), by simp [joinKey, List.intercalate]⟩
          obtain ⟨r', e⟩ := this
          rw [e]
          cases n with
          | nil => exact absurd rfl g0
          | cons x n =>
            simp only [List.cons_append, List.head?_cons, ne_eq, Option.some.injEq]
            rintro rfl
            simp at g2
        unfold h5KeysOf
        rw [hget]
        cases hx : p.2 with
        | dataset a t => simp [isDs]
        | dangling => rw [hx] at h5; exact absurd h5 (by simp [H5Object])
        | group ch =>
          simp only
          rw [if_neg (show ¬ (isDs (.group ch) = true) by simp [isDs])]
          have : ∀ l : List PyStr, (∀ k ∈ l, ∃ r, k = joinKey p.1 ++ r) → l.filter (fun k => decide (k.head? = some '/')) = [] := by
            intro l hl
            rw [List.filter_eq_nil_iff]
            intro k hk
            obtain ⟨r, rfl⟩ := hl k hk
            simpa using hhead r
          rw [this]
          · rfl
          · intro k hk
            split at hk
            · obtain ⟨q, -, rfl⟩ := List.mem_map.1 hk
              exact ⟨_, rfl⟩
            · rw [List.mem_singleton] at hk
              exact ⟨[], by simp [hk]⟩
    exact key _ fun p hp => hp

theorem content_sorted (keyPath : PyStr) (d : H5) (hd : IsDataset d) (dicts : List (List (PyStr × H5)))
    (hi : ∀ p ∈ dicts.flatten, IsDataset p.2) :
    SortedH5 (.group (hdfSaveContent keyPath d).1) ∧ SortedH5 (.group (hdfStreamContent keyPath d (dicts.map .dict)).1) := by
  have hnil : SortedH5 (.group []) := sorted_group_iff.2 (by simp)
  constructor
  · unfold hdfSaveContent
    split
    · exact hnil
    · rename_i f hf
      have h1 := h5Create_sorted _ hnil _ _ _ hf hnil
      split
      · exact h1
      · rename_i f' hf'
        exact h5Create_sorted _ (sorted_dataset hd) _ _ _ hf' h1
  · have hopt : ∀ (ds : List (List (PyStr × H5))) (f : H5File), (∀ p ∈ ds.flatten, IsDataset p.2) → SortedH5 (.group f) →
        SortedH5 (.group (hdfAddOptions keyPath f (ds.map .dict)).1) := by
      intro ds
      induction ds with
      | nil => intro f _ h; exact h
      | cons a ds ih =>
        intro f hds h
        rw [List.map_cons, hdfAddOptions]
        have h1 := hdfAddItems_sorted keyPath a f (fun p hp => sorted_dataset (hds p (by simp [hp]))) h
        split
        · rename_i e; rw [e] at h1; exact h1
        · rename_i e; rw [e] at h1
          exact ih _ (fun p hp => hds p (by rw [List.flatten_cons]; exact List.mem_append_right _ hp)) h1
    have h1 := hopt dicts [] hi hnil
    unfold hdfStreamContent
    split
    · rename_i e; rw [e] at h1; exact h1
    · rename_i e; rw [e] at h1
      split
      · exact h1
      · rename_i hf'
        exact h5Create_sorted _ (sorted_dataset hd) _ _ _ hf' h1

/-- **C88 (files created).** The files made by `save_hdf_file` and `open_hdf_stream` have their members in order, whatever the order of
the keys in the dictionaries. -/
theorem C88_created (lower : PyStr → PyStr) (fs : FS H5File) (p q : FilePath) (keyPath : PyStr) (d : H5) (hd : IsDataset d) (overwrite : Bool)
    (f : H5File) :
    ((saveHdfFile lower fs p d keyPath overwrite).1 = .ok q → readFile (saveHdfFile lower fs p d keyPath overwrite).2 q = .ok f →
      SortedH5 (.group f)) ∧
    ∀ dicts : List (List (PyStr × H5)), (∀ r ∈ dicts.flatten, IsDataset r.2) →
      (openHdfStream lower fs p keyPath d overwrite (dicts.map .dict)).1 = .ok q →
      readFile (openHdfStream lower fs p keyPath d overwrite (dicts.map .dict)).2 q = .ok f → SortedH5 (.group f) := by
  refine ⟨fun h1 h2 => ?_, fun dicts hi h1 h2 => ?_⟩
  · have := (save_ok_stores rfl h1).2
    unfold saveHdfFile at h2
    rw [h2] at this
    cases this
    exact (content_sorted keyPath d hd [] (by simp)).1
  · have := (save_ok_stores rfl h1).2
    unfold openHdfStream at h2
    rw [h2] at this
    cases this
    exact (content_sorted keyPath d hd dicts hi).2

/-- **C88 (stream).** A file opened by `open_hdf_stream` with datasets from dictionaries, then loaded without a key: the dataset called
`data` whose group comes first in the order of the names is loaded, which need not be the main dataset. -/
theorem C88_stream (lower : PyStr → PyStr) (fs : FS H5File) (p q : FilePath) (overwrite : Bool) (keyPath : PyStr) (d : H5)
    (dicts : List (List (PyStr × H5))) (hd : IsDataset d) (hk : keyComps keyPath ≠ [])
    (hi : ∀ p ∈ dicts.flatten, IsDataset p.2 ∧ keyComps p.1 ≠ [] ∧ ¬ keyPath <:+: p.1)
    (hc : Compatible ((dicts.flatten.map fun p => keyComps p.1) ++ [keyComps keyPath]))
    (hok : (openHdfStream lower fs p keyPath d overwrite (dicts.map .dict)).1 = .ok q)
    (cs : List PyStr) (a : NdArr ℝ) (t : PyStr) (h0 : cs ≠ [])
    (hmem : (cs ++ ["data".toList], H5.dataset a t) ∈ (dicts.flatten.map fun p => (keyComps p.1, p.2)) ++ [(keyComps keyPath, d)])
    (hmin : ∀ ds b, ds ≠ [] → (ds ++ ["data".toList], b) ∈ (dicts.flatten.map fun p => (keyComps p.1, p.2)) ++ [(keyComps keyPath, d)] →
      cs = ds ∨ cs < ds) :
    ∃ f, readFile (openHdfStream lower fs p keyPath d overwrite (dicts.map .dict)).2 q = .ok f ∧
      ∀ (h5List : ℕ → List ℤ → Except PyErr (List ℕ)) (f32 : ℝ → ℝ) (index : HdfIndex) (axis : ℤ),
        loadHdfFile h5List f32 f none index axis = hdfSlice h5List f32 a index axis := by
  obtain ⟨f, hf, hx⟩ := hdfStreamContent_exactly keyPath d dicts hd hk hi hc
  have hst := (save_ok_stores rfl hok).2
  have hs := (content_sorted keyPath d hd dicts fun p hp => (hi p hp).1).2
  simp only [hf] at hs hst
  refine ⟨f, by unfold openHdfStream; rw [hf]; exact hst, fun h5List f32 index axis => ?_⟩
  refine C88_first hx.1 hs h5List f32 index axis cs a t h0 (hx.2.1 _ hmem) fun ds b u hds hb => hmin ds (.dataset b u) hds ?_
  rcases hx.2.2 _ _ (by simp) hb with h | ⟨⟨ch, h⟩, -⟩
  · exact h
  · cases h

/-- Dark fields stored next to the main dataset at `entry/data` are loaded instead of it: `dark` comes before `entry`. -/
example (a b : NdArr ℝ) (t : PyStr) : ∃ f q,
    readFile (openHdfStream id (fun q => if q = [] then some .dir else none) ⟨[], "a.hdf".toList⟩ "entry/data".toList (.dataset a t) true
      [.dict [("dark/data".toList, .dataset b t)]]).2 q = .ok f ∧
    ∀ (h5List : ℕ → List ℤ → Except PyErr (List ℕ)) (f32 : ℝ → ℝ) (index : HdfIndex) (axis : ℤ),
      loadHdfFile h5List f32 f none index axis = hdfSlice h5List f32 b index axis := by
  obtain ⟨f, h1, h2⟩ := C88_stream id (fun q => if q = [] then some .dir else none) ⟨[], "a.hdf".toList⟩ ⟨[], "a.hdf".toList⟩ true
    "entry/data".toList (.dataset a t) [[("dark/data".toList, .dataset b t)]] trivial (by decide)
    (by
      intro p hp
      simp only [List.flatten_cons, List.flatten_nil, List.append_nil, List.mem_singleton] at hp
      subst hp
      exact ⟨trivial, (by decide : keyComps "dark/data".toList ≠ []), (by decide : ¬ "entry/data".toList <:+: "dark/data".toList)⟩)
    (by
      have : Compatible [keyComps "dark/data".toList, keyComps "entry/data".toList] := by unfold Compatible; decide
      exact this) rfl ["dark".toList] b t (by decide) (by
      left) (by
      intro ds c hds hm
      simp only [List.flatten_cons, List.flatten_nil, List.append_nil, List.map_cons, List.map_nil, List.cons_append, List.nil_append,
        List.mem_cons, Prod.mk.injEq, List.not_mem_nil, or_false] at hm
      have e1 : keyComps "dark/data".toList = ["dark".toList] ++ ["data".toList] := by decide
      have e2 : keyComps "entry/data".toList = ["entry".toList] ++ ["data".toList] := by decide
      rw [e1, e2] at hm
      rcases hm with ⟨h, -⟩ | ⟨h, -⟩
      · exact .inl (List.append_cancel_right h).symm
      · right
        rw [List.append_cancel_right h]
        decide)
  exact ⟨f, _, h1, h2⟩

theorem entryData_sorted : SortedH5 (.group [("entry".toList, .group [("data".toList, .dataset ⟨[2, 3], fun _ => 1⟩ "float32".toList)])]) := by
  intro cs ch h
  cases h with
  | here => simp
  | child hm h2 =>
    rw [List.mem_singleton, Prod.mk.injEq] at hm
    obtain ⟨-, rfl⟩ := hm
    cases h2 with
    | here => simp
    | child hm h3 =>
      rw [List.mem_singleton, Prod.mk.injEq] at hm
      obtain ⟨-, rfl⟩ := hm
      cases h3

example := C88_listing entryData_wellFormed entryData_sorted
example (h5List : ℕ → List ℤ → Except PyErr (List ℕ)) := C88_first entryData_wellFormed entryData_sorted h5List id .none 0 ["entry".toList] ⟨[2, 3], fun _ => 1⟩
  "float32".toList (by decide) (.child (List.mem_singleton.2 rfl) (.child (List.mem_cons_self ..) (.here _))) (by
    intro ds b u hds hn
    left
    obtain ⟨d, ds, rfl⟩ := List.exists_cons_of_ne_nil hds
    cases hn with
    | child hm h2 =>
      rw [List.mem_singleton, Prod.mk.injEq] at hm
      obtain ⟨rfl, rfl⟩ := hm
      rcases ds with _ | ⟨e, ds⟩
      · rfl
      · cases h2 with
        | child hm h3 =>
          rw [List.mem_singleton, Prod.mk.injEq] at hm
          obtain ⟨-, rfl⟩ := hm
          rcases ds with _ | _ <;> cases h3)
example (a : NdArr ℝ) (t : PyStr) : ∃ q f, readFile (saveHdfFile id (fun q => if q = [] then some .dir else none) ⟨[], "a.hdf".toList⟩ (.dataset a t) "entry".toList true).2 q =
    .ok f ∧ SortedH5 (.group f) :=
  ⟨⟨[], "a.hdf".toList⟩, _, rfl, (C88_created id (fun q => if q = [] then some .dir else none) ⟨[], "a.hdf".toList⟩ ⟨[], "a.hdf".toList⟩ "entry".toList (.dataset a t) trivial true _).1 rfl rfl⟩

end Discorpy
