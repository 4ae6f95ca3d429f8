import Verif.Lemmas.HdfCreate

/-! # C62 — HDF stream option check -/

namespace Discorpy

open Spec

/-- **C62 (success).** If no option key contains the key path, and no path leads through another one, the new file holds exactly the options
and the dataset. The call succeeds whenever saving such a file does. -/
theorem C62_success (keyPath : PyStr) (d : H5) (dicts : List (List (PyStr × H5))) (hd : IsDataset d) (h0 : keyComps keyPath ≠ [])
    (hi : ∀ p ∈ dicts.flatten, IsDataset p.2 ∧ keyComps p.1 ≠ [] ∧ ¬ keyPath <:+: p.1)
    (hc : Compatible ((dicts.flatten.map fun p => keyComps p.1) ++ [keyComps keyPath])) :
    ∃ f, (∀ (lower : PyStr → PyStr) (fs : FS H5File) (p : FilePath) (overwrite : Bool),
        openHdfStream lower fs p keyPath d overwrite (dicts.map .dict) = save lower fs ⟨.hdfStream, p, f, none, overwrite⟩) ∧
      HasExactly f ((dicts.flatten.map fun p => (keyComps p.1, p.2)) ++ [(keyComps keyPath, d)]) := by
  obtain ⟨f, hf, hx⟩ := hdfStreamContent_exactly keyPath d dicts hd h0 hi hc
  exact ⟨f, fun lower fs p overwrite => by unfold openHdfStream; rw [hf], hx⟩

/-- **C62 (rejection).** At the first option key that contains the key path, `ValueError` is raised; by then an existing file has been replaced
by one that holds the options before this key only. -/
theorem C62_rejection (lower : PyStr → PyStr) (fs : FS H5File) (p q : FilePath) (old : H5File) (keyPath : PyStr) (d : H5)
    (dicts : List (List (PyStr × H5))) (pre post : List (PyStr × H5)) (key : PyStr) (v : H5) (hsplit : dicts.flatten = pre ++ (key, v) :: post)
    (hkey : keyPath <:+: key) (hi : ∀ p ∈ pre, IsDataset p.2 ∧ keyComps p.1 ≠ [] ∧ ¬ keyPath <:+: p.1)
    (hc : Compatible (pre.map fun p => keyComps p.1)) (hn : normalise lower .hdfStream p = .ok q) (hs : ∃ stem suf, SplitAs q.name stem suf)
    (hdir : fs q.dir = some .dir) (hold : HasFile fs q.comps old) :
    (openHdfStream lower fs p keyPath d true (dicts.map .dict)).1 = .error .valueError ∧
    ∃ f, HasFile (openHdfStream lower fs p keyPath d true (dicts.map .dict)).2 q.comps f ∧
      HasExactly f (pre.map fun p => (keyComps p.1, p.2)) := by
  obtain ⟨f1, hf1, hx1⟩ := hdfAddItems_exactly keyPath pre [] [] hasExactly_nil (by simp) hi (by
    simpa [itemPaths, Function.comp_def] using hc)
  rw [List.nil_append] at hx1
  have hcont : hdfStreamContent keyPath d (dicts.map .dict) = (f1, some .valueError) := by
    unfold hdfStreamContent
    rw [hdfAddOptions_dicts, hsplit, hdfAddItems_append keyPath _ _ hf1, hdfAddItems, if_pos ((strIn_iff _ _).2 hkey)]
  unfold openHdfStream
  rw [hcont, save_overwrite (p := q) (old := old) rfl rfl rfl hn hs hdir hold]
  refine ⟨rfl, f1, ?_, hx1⟩
  unfold HasFile
  simp

/-- Something is there already. -/
theorem create_taken (new : H5) : ∀ (cs : List PyStr) (f : H5File) (y : H5), cs ≠ [] → WellFormedH5 (.group f) → NodeAt (.group f) cs y →
    h5Create new cs f = .error .valueError := by
  intro cs
  induction cs with
  | nil => intro f y h; exact absurd rfl h
  | cons n r ih =>
    intro f y _ hw hn
    cases hn with
    | @child _ _ c _ _ hm hn =>
      have hl := (lookup_iff_mem (wellFormed_group_iff.1 hw).1 _ _).2 hm
      cases r with
      | nil => rw [h5Create, hl]
      | cons m r =>
        cases c with
        | group sub =>
          rw [h5Create_cons_group hl, ih sub y (by simp) (wellFormed_child hw hm) hn]
          rfl
        | dataset a t => cases hn
        | dangling => cases hn

/-- A dataset is on the way. -/
theorem create_through (new : H5) : ∀ (p q : List PyStr) (f : H5File) (d : H5), p ≠ [] → q ≠ [] → IsDataset d → WellFormedH5 (.group f) →
    NodeAt (.group f) p d → ∃ e, h5Create new (p ++ q) f = .error e := by
  intro p
  induction p with
  | nil => intro q f d h; exact absurd rfl h
  | cons n r ih =>
    intro q f d _ hq hd hw hn
    cases hn with
    | child hm hn =>
      have hl := (lookup_iff_mem (wellFormed_group_iff.1 hw).1 _ _).2 hm
      rename_i c
      cases r with
      | nil =>
        cases hn
        cases q with
        | nil => exact absurd rfl hq
        | cons m q =>
          cases d with
          | dataset a t => exact ⟨.valueError, by rw [List.cons_append, List.nil_append, h5Create, hl]⟩
          | group ch => exact hd.elim
          | dangling => exact hd.elim
      | cons m r =>
        cases c with
        | group sub =>
          obtain ⟨e, he⟩ := ih q sub d (by simp) hq hd (wellFormed_child hw hm) hn
          refine ⟨e, ?_⟩
          rw [List.cons_append] at he
          rw [List.cons_append, List.cons_append, h5Create_cons_group hl, he]
          rfl
        | dataset a t => cases hn
        | dangling => cases hn

theorem nodeAt_take : ∀ {p q : List PyStr} {t x : H5}, NodeAt t (p ++ q) x → ∃ y, NodeAt t p y := by
  intro p
  induction p with
  | nil => intro q t x _; exact ⟨t, .here t⟩
  | cons n p ih =>
    intro q t x h
    cases h with
    | child hm hn =>
      obtain ⟨y, hy⟩ := ih hn
      exact ⟨y, .child hm hy⟩

theorem create_conflict {f : H5File} {items : List (List PyStr × H5)} (h : HasExactly f items) (hi : ∀ q ∈ items, IsDataset q.2 ∧ q.1 ≠ []) (new : H5)
    {cs : List PyStr} (h0 : cs ≠ []) (hc : ∃ q ∈ items, cs <+: q.1 ∨ q.1 <+: cs) :
    (∃ e, h5Create new cs f = .error e) ∧ ((∃ q ∈ items, cs <+: q.1) → h5Create new cs f = .error .valueError) := by
  have key : (∃ q ∈ items, cs <+: q.1) → h5Create new cs f = .error .valueError := by
    rintro ⟨⟨_, d⟩, hq, r, rfl⟩
    obtain ⟨y, hy⟩ := nodeAt_take (h.2.1 _ hq)
    exact create_taken new cs f y h0 h.1 hy
  refine ⟨?_, key⟩
  obtain ⟨q, hq, hp | hp⟩ := hc
  · exact ⟨_, key ⟨q, hq, hp⟩⟩
  · obtain ⟨r, rfl⟩ := hp
    by_cases hr : r = []
    · subst hr
      exact ⟨_, key ⟨q, hq, by simp⟩⟩
    · exact create_through new q.1 r f q.2 (hi q hq).2 hr (hi q hq).1 h.1 (h.2.1 q hq)

/-- **C62 (conflict).** An option whose path leads through that of an earlier option makes the call fail, even if no key contains the key path; if
the path is that of an earlier option (written otherwise or in another dictionary) or leads to it, with `ValueError`. By then an existing file has
been replaced by one that holds the options before this key only. -/
theorem C62_conflict (lower : PyStr → PyStr) (fs : FS H5File) (p q : FilePath) (old : H5File) (keyPath : PyStr) (d : H5)
    (dicts : List (List (PyStr × H5))) (pre post : List (PyStr × H5)) (key : PyStr) (v : H5) (hsplit : dicts.flatten = pre ++ (key, v) :: post)
    (hkey : ¬ keyPath <:+: key) (h0 : keyComps key ≠ []) (hi : ∀ p ∈ pre, IsDataset p.2 ∧ keyComps p.1 ≠ [] ∧ ¬ keyPath <:+: p.1)
    (hc : Compatible (pre.map fun p => keyComps p.1)) (hx : ∃ p ∈ pre, keyComps key <+: keyComps p.1 ∨ keyComps p.1 <+: keyComps key)
    (hn : normalise lower .hdfStream p = .ok q) (hs : ∃ stem suf, SplitAs q.name stem suf) (hdir : fs q.dir = some .dir) (hold : HasFile fs q.comps old) :
    (∃ e, (openHdfStream lower fs p keyPath d true (dicts.map .dict)).1 = .error e) ∧
    ((∃ p ∈ pre, keyComps key <+: keyComps p.1) → (openHdfStream lower fs p keyPath d true (dicts.map .dict)).1 = .error .valueError) ∧
    ∃ f, HasFile (openHdfStream lower fs p keyPath d true (dicts.map .dict)).2 q.comps f ∧
      HasExactly f (pre.map fun p => (keyComps p.1, p.2)) := by
  obtain ⟨f1, hf1, hx1⟩ := hdfAddItems_exactly keyPath pre [] [] hasExactly_nil (by simp) hi (by
    simpa [itemPaths, Function.comp_def] using hc)
  rw [List.nil_append] at hx1
  have hmem : ∀ {P : List PyStr → Prop}, (∃ p ∈ pre, P (keyComps p.1)) → ∃ q ∈ itemPaths pre, P q.1 := by
    rintro P ⟨r, hr, h⟩
    exact ⟨(keyComps r.1, r.2), List.mem_map.2 ⟨r, hr, rfl⟩, h⟩
  obtain ⟨⟨e, he⟩, hval⟩ := create_conflict hx1 (by
    intro q hq
    obtain ⟨r, hr, rfl⟩ := List.mem_map.1 hq
    exact ⟨(hi r hr).1, (hi r hr).2.1⟩) v h0 (hmem (P := fun c => keyComps key <+: c ∨ c <+: keyComps key) hx)
  have hcont : hdfStreamContent keyPath d (dicts.map .dict) = (f1, some e) := by
    unfold hdfStreamContent
    rw [hdfAddOptions_dicts, hsplit, hdfAddItems_append keyPath _ _ hf1, hdfAddItems, if_neg (fun h => hkey ((strIn_iff _ _).1 h)), he]
  unfold openHdfStream
  rw [hcont, save_overwrite (p := q) (old := old) rfl rfl rfl hn hs hdir hold]
  refine ⟨⟨e, rfl⟩, fun h => ?_, f1, ?_, hx1⟩
  · rw [hval (hmem (P := fun c => keyComps key <+: c) h)] at he
    cases he
    rfl
  · unfold HasFile
    simp

/-- **C62 (conflict with the dataset).** If the path of the dataset leads through that of an option, the call fails; if it is the path of an option
or leads to it, with `ValueError`. The file holds the options. -/
theorem C62_conflict_main (lower : PyStr → PyStr) (fs : FS H5File) (p q : FilePath) (old : H5File) (keyPath : PyStr) (d : H5)
    (dicts : List (List (PyStr × H5))) (h0 : keyComps keyPath ≠ [])
    (hi : ∀ p ∈ dicts.flatten, IsDataset p.2 ∧ keyComps p.1 ≠ [] ∧ ¬ keyPath <:+: p.1) (hc : Compatible (dicts.flatten.map fun p => keyComps p.1))
    (hx : ∃ p ∈ dicts.flatten, keyComps keyPath <+: keyComps p.1 ∨ keyComps p.1 <+: keyComps keyPath)
    (hn : normalise lower .hdfStream p = .ok q) (hs : ∃ stem suf, SplitAs q.name stem suf) (hdir : fs q.dir = some .dir) (hold : HasFile fs q.comps old) :
    (∃ e, (openHdfStream lower fs p keyPath d true (dicts.map .dict)).1 = .error e) ∧
    ((∃ p ∈ dicts.flatten, keyComps keyPath <+: keyComps p.1) → (openHdfStream lower fs p keyPath d true (dicts.map .dict)).1 = .error .valueError) ∧
    ∃ f, HasFile (openHdfStream lower fs p keyPath d true (dicts.map .dict)).2 q.comps f ∧
      HasExactly f (dicts.flatten.map fun p => (keyComps p.1, p.2)) := by
  obtain ⟨f1, hf1, hx1⟩ := hdfAddItems_exactly keyPath dicts.flatten [] [] hasExactly_nil (by simp) hi (by
    simpa [itemPaths, Function.comp_def] using hc)
  rw [List.nil_append] at hx1
  have hmem : ∀ {P : List PyStr → Prop}, (∃ p ∈ dicts.flatten, P (keyComps p.1)) → ∃ q ∈ itemPaths dicts.flatten, P q.1 := by
    rintro P ⟨r, hr, h⟩
    exact ⟨(keyComps r.1, r.2), List.mem_map.2 ⟨r, hr, rfl⟩, h⟩
  obtain ⟨⟨e, he⟩, hval⟩ := create_conflict hx1 (by
    intro q hq
    obtain ⟨r, hr, rfl⟩ := List.mem_map.1 hq
    exact ⟨(hi r hr).1, (hi r hr).2.1⟩) d h0 (hmem (P := fun c => keyComps keyPath <+: c ∨ c <+: keyComps keyPath) hx)
  have hcont : hdfStreamContent keyPath d (dicts.map .dict) = (f1, some e) := by
    unfold hdfStreamContent
    rw [hdfAddOptions_dicts, hf1]
    simp only
    rw [he]
  unfold openHdfStream
  rw [hcont, save_overwrite (p := q) (old := old) rfl rfl rfl hn hs hdir hold]
  refine ⟨⟨e, rfl⟩, fun h => ?_, f1, ?_, hx1⟩
  · rw [hval (hmem (P := fun c => keyComps keyPath <+: c) h)] at he
    cases he
    rfl
  · unfold HasFile
    simp

/-- The keys "entry/a" and "/entry/a" of a dictionary name the same dataset. -/
example : keyComps "/entry/a".toList = keyComps "entry/a".toList ∧ keyComps "entry/a".toList ≠ [] ∧
    ¬ "entry/data".toList <:+: "/entry/a".toList := by
  refine ⟨by decide, by decide, by decide⟩

/-- With the key path "/entry/data" the option "entry/data" passes the check though it is the same path. -/
example : keyComps "/entry/data".toList = keyComps "entry/data".toList ∧ ¬ "/entry/data".toList <:+: "entry/data".toList := by
  refine ⟨by decide, by decide⟩

/-- **C62 (options that are not dictionaries).** An argument that is not a dictionary, e.g. `energy=53`, raises `TypeError`; an existing file has
been emptied by then. -/
theorem C62_not_dict (lower : PyStr → PyStr) (fs : FS H5File) (p q : FilePath) (old : H5File) (keyPath : PyStr) (d : H5) (rest : List HdfOption)
    (hn : normalise lower .hdfStream p = .ok q) (hs : ∃ stem suf, SplitAs q.name stem suf) (hdir : fs q.dir = some .dir)
    (hold : HasFile fs q.comps old) :
    (openHdfStream lower fs p keyPath d true (.other :: rest)).1 = .error .typeError ∧
    HasFile (openHdfStream lower fs p keyPath d true (.other :: rest)).2 q.comps [] := by
  unfold openHdfStream
  rw [save_overwrite (p := q) (old := old) rfl rfl rfl hn hs hdir hold]
  refine ⟨rfl, ?_⟩
  unfold HasFile
  simp [hdfStreamContent, hdfAddOptions]

/-- **C62 (the check is not exact).** An option next to the dataset whose name begins with the name of the dataset is refused, although the
paths do not conflict; an option on the way to the dataset passes the check, and the creation of the dataset fails. -/
theorem C62_check (a : NdArr ℝ) (t : PyStr) :
    (Compatible [keyComps "entry/data_dark".toList, keyComps "entry/data".toList] ∧
      (hdfStreamContent "entry/data".toList (.dataset a t) [.dict [("entry/data_dark".toList, .dataset a t)]]).2 = some .valueError) ∧
    (¬ "entry/data".toList <:+: "entry".toList ∧
      ∃ e, (hdfStreamContent "entry/data".toList (.dataset a t) [.dict [("entry".toList, .dataset a t)]]).2 = some e) := by
  refine ⟨⟨?_, ?_⟩, ?_, ?_⟩
  · unfold Compatible; decide
  · rfl
  · decide
  · exact ⟨.valueError, rfl⟩

/-- Two options next to the dataset meet the hypotheses of `C62_success`. -/
example (a : NdArr ℝ) (t : PyStr) : ∃ f, openHdfStream id (fun _ => none) ⟨[], "a.hdf".toList⟩ "entry/data".toList (.dataset a t) true
      [.dict [("entry/angles".toList, .dataset a t), ("entry/energy".toList, .dataset a t)]] =
      save id (fun _ => none) ⟨.hdfStream, ⟨[], "a.hdf".toList⟩, f, none, true⟩ ∧
    NodeAt (.group f) ["entry".toList, "energy".toList] (.dataset a t) := by
  obtain ⟨f, h1, h2⟩ := C62_success "entry/data".toList (.dataset a t) [[("entry/angles".toList, .dataset a t), ("entry/energy".toList, .dataset a t)]]
    trivial (by decide) (by
      intro p hp
      simp only [List.flatten_cons, List.flatten_nil, List.append_nil, List.mem_cons, List.not_mem_nil, or_false] at hp
      rcases hp with rfl | rfl <;> exact ⟨trivial, (by simp only; decide), (by simp only; decide)⟩) (by
      unfold Compatible
      simp only [List.flatten_cons, List.flatten_nil, List.append_nil, List.map_cons, List.map_nil]
      decide)
  exact ⟨f, h1 id _ _ true, h2.2.1 (["entry".toList, "energy".toList], .dataset a t) (by
    simp only [List.flatten_cons, List.flatten_nil, List.append_nil, List.map_cons, List.map_nil, List.mem_append, List.mem_cons]
    left; right; left
    rfl)⟩

/-- A directory with the file `a.hdf`. -/
def hdfDir : FS H5File := fun q => if q = [] then some .dir else if q = ["a.hdf".toList] then some (.file []) else none

theorem split_hdf : ∃ stem suf, SplitAs (⟨[], "a.hdf".toList⟩ : FilePath).name stem suf :=
  ⟨"a".toList, ".hdf".toList, by decide, by decide, "hdf".toList, by decide, by decide, by decide⟩

example (a : NdArr ℝ) (t : PyStr) := C62_rejection id hdfDir ⟨[], "a.hdf".toList⟩ ⟨[], "a.hdf".toList⟩ [] "entry/data".toList (.dataset a t)
  [[("entry/angles".toList, .dataset a t), ("entry/data2".toList, .dataset a t)]] [("entry/angles".toList, .dataset a t)] [] "entry/data2".toList (.dataset a t) rfl (by decide)
  (by intro p hp; rw [List.mem_singleton.1 hp]; exact ⟨trivial, (by simp only; decide), (by simp only; decide)⟩) (by simp [Compatible]) (by rfl) split_hdf rfl rfl

example (a : NdArr ℝ) (t : PyStr) := C62_conflict id hdfDir ⟨[], "a.hdf".toList⟩ ⟨[], "a.hdf".toList⟩ [] "entry/data".toList (.dataset a t)
  [[("entry/angles".toList, .dataset a t), ("entry".toList, .dataset a t)]] [("entry/angles".toList, .dataset a t)] [] "entry".toList (.dataset a t) rfl (by decide) (by decide)
  (by intro p hp; rw [List.mem_singleton.1 hp]; exact ⟨trivial, (by simp only; decide), (by simp only; decide)⟩) (by simp [Compatible])
  ⟨_, List.mem_singleton.2 rfl, .inl (by simp only; decide)⟩ (by rfl) split_hdf rfl rfl

example (a : NdArr ℝ) (t : PyStr) := C62_conflict_main id hdfDir ⟨[], "a.hdf".toList⟩ ⟨[], "a.hdf".toList⟩ [] "entry/data".toList (.dataset a t)
  [[("entry".toList, .dataset a t)]] (by decide)
  (by intro p hp; rw [List.mem_singleton.1 hp]; exact ⟨trivial, (by simp only; decide), (by simp only; decide)⟩) (by simp [Compatible])
  ⟨_, List.mem_singleton.2 rfl, .inr (by simp only; decide)⟩ (by rfl) split_hdf rfl rfl

example (a : NdArr ℝ) (t : PyStr) := C62_not_dict id hdfDir ⟨[], "a.hdf".toList⟩ ⟨[], "a.hdf".toList⟩ [] "entry/data".toList (.dataset a t) [] (by rfl) split_hdf rfl rfl

end Discorpy
