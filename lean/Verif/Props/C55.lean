import Verif.Lemmas.Save

/-! # C55 — `overwrite=False` never destroys data -/

namespace Discorpy

open Spec

variable {α : Type} (lower : PyStr → PyStr)

/-- **C55 (one call).** A call of a save function with `overwrite=False` leaves every existing file as it is, whether the call
succeeds or raises an exception. For the plot functions the name must contain a format. -/
theorem C55_preserves (fs : FS α) (j : SaveJob α) (ho : j.overwrite = false) (hp : j.kind.isPlot → FormatInName j.path.name)
    (q : List PyStr) (c : α) (h : HasFile fs q c) : HasFile (save lower fs j).2 q c :=
  save_keeps ho hp q _ h

/-- **C55 (histories).** In any sequence of calls with `overwrite=False`, starting from any file system: all files that existed
keep their content; every call that returns a path has stored its data there, in a place that was free, and it is still there at the
end; the returned paths are distinct. -/
theorem C55_history (fs : FS α) (js : List (SaveJob α)) (ho : ∀ j ∈ js, j.overwrite = false)
    (hp : ∀ j ∈ js, j.kind.isPlot → FormatInName j.path.name) :
    (∀ q c, HasFile fs q c → HasFile (saveAll lower fs js).2 q c) ∧
    (∀ (i : ℕ) (q : FilePath), (saveAll lower fs js).1[i]? = some (.ok q) →
      fs q.comps = none ∧ ∃ j, js[i]? = some j ∧ readFile (saveAll lower fs js).2 q = .ok j.content) ∧
    (∀ (i k : ℕ) (q q' : FilePath), i ≠ k → (saveAll lower fs js).1[i]? = some (.ok q) → (saveAll lower fs js).1[k]? = some (.ok q') → q ≠ q') := by
  have main : ∀ (js : List (SaveJob α)) (fs : FS α), (∀ j ∈ js, j.overwrite = false) → (∀ j ∈ js, j.kind.isPlot → FormatInName j.path.name) →
      Keeps fs (saveAll lower fs js).2 ∧
      (∀ (i : ℕ) (q : FilePath), (saveAll lower fs js).1[i]? = some (.ok q) →
        fs q.comps = none ∧ ∃ j, js[i]? = some j ∧ (saveAll lower fs js).2 q.comps = some (.file j.content)) ∧
      (∀ (i k : ℕ) (q q' : FilePath), i < k → (saveAll lower fs js).1[i]? = some (.ok q) → (saveAll lower fs js).1[k]? = some (.ok q') → q ≠ q') := by
    intro js
    induction js with
    | nil =>
      intro fs _ _
      exact ⟨.refl _, fun i q h => by simp [saveAll] at h, fun i k q q' _ h => by simp [saveAll] at h⟩
    | cons j js ih =>
      intro fs ho hp
      have hk := save_keeps (lower := lower) (fs := fs) (ho j (by simp)) (hp j (by simp))
      obtain ⟨h1, h2, h3⟩ := ih (save lower fs j).2 (fun x hx => ho x (by simp [hx])) (fun x hx => hp x (by simp [hx]))
      have h0 : ∀ q, (save lower fs j).1 = .ok q → fs q.comps = none ∧ (save lower fs j).2 q.comps = some (.file j.content) :=
        fun q hq => save_stores (ho j (by simp)) (hp j (by simp)) hq
      refine ⟨hk.trans h1, ?_, ?_⟩
      · intro i q hi
        cases i with
        | zero =>
          have hi' : (save lower fs j).1 = .ok q := by simpa [saveAll] using hi
          obtain ⟨h4, h5⟩ := h0 q hi'
          exact ⟨h4, j, rfl, h1 _ _ h5⟩
        | succ i =>
          have hi' : (saveAll lower (save lower fs j).2 js).1[i]? = some (.ok q) := by simpa [saveAll] using hi
          obtain ⟨h4, h5⟩ := h2 i q hi'
          exact ⟨hk.none h4, by simpa [saveAll] using h5⟩
      · intro i k q q' hik hi hk'
        obtain ⟨k, rfl⟩ : ∃ m, k = m + 1 := ⟨k - 1, by omega⟩
        have hk2 : (saveAll lower (save lower fs j).2 js).1[k]? = some (.ok q') := by simpa [saveAll] using hk'
        cases i with
        | zero =>
          have hi' : (save lower fs j).1 = .ok q := by simpa [saveAll] using hi
          obtain ⟨-, h5⟩ := h0 q hi'
          rintro rfl
          rw [(h2 k q hk2).1] at h5
          cases h5
        | succ i =>
          have hi' : (saveAll lower (save lower fs j).2 js).1[i]? = some (.ok q) := by simpa [saveAll] using hi
          exact h3 i k q q' (by omega) hi' hk2
  obtain ⟨h1, h2, h3⟩ := main js fs ho hp
  refine ⟨fun q c h => h1 q _ h, fun i q hi => ?_, fun i k q q' hik hi hk => ?_⟩
  · obtain ⟨h4, j, h5, h6⟩ := h2 i q hi
    exact ⟨h4, j, h5, by unfold readFile; rw [h6]⟩
  · rcases Nat.lt_or_gt_of_ne hik with hlt | hlt
    · exact h3 i k q q' hlt hi hk
    · exact (h3 k i q' q hlt hk hi).symm

/-- **C55 (success).** A call whose data can be written succeeds, however many files there are, if the path has a suffix and no
directory on the way is in fact a file. The path itself is used if it is free. -/
theorem C55_success (fs : FS α) (hf : FiniteFS fs) (j : SaveJob α) (p : FilePath) (ho : j.overwrite = false)
    (hn : normalise lower j.kind j.path = .ok p) (hs : ∃ stem suf, SplitAs p.name stem suf)
    (hp : j.kind.isPlot → FormatInName p.name) (hfail : j.failed = none)
    (hd : ∀ d, d <+: p.dir → ∀ c, ¬ HasFile fs d c) :
    ∃ q, (save lower fs j).1 = .ok q ∧ q.dir = p.dir ∧ (fs p.comps = none → q = p) := by
  obtain ⟨st, sf, hs⟩ := hs
  have hsf : suffixOf p.name ≠ [] := fun h => suffixOf_eq_nil.1 h _ _ hs
  have hfold : folderOf p = p.dir := by unfold folderOf; rw [if_pos hsf]
  have hcf : ∃ fs1, createFolder fs p = .ok fs1 ∧ fs1 p.dir = some .dir := by
    have e : createFolder fs p = if (fs (folderOf p)).isSome then .ok fs else mkdirs fs (folderOf p) := rfl
    rw [e, hfold]
    cases hx : fs p.dir with
    | some x =>
      refine ⟨fs, rfl, ?_⟩
      cases x with
      | dir => exact hx
      | file c => exact absurd hx (hd _ (List.prefix_refl _) c)
    | none =>
      simp only [Option.isSome_none, Bool.false_eq_true, if_false]
      unfold mkdirs
      rw [if_neg]
      · refine ⟨_, rfl, ?_⟩
        simp [hx]
      · simp only [List.any_eq_true, List.mem_inits, not_exists, not_and]
        intro d hdp hfile
        unfold isFile at hfile
        split at hfile
        · rename_i c hc; exact hd d hdp c hc
        · cases hfile
  obtain ⟨fs1, hc, hdir⟩ := hcf
  have hfin := createFolder_finite hc hf
  obtain ⟨q, hq1, hq2, hq3⟩ := createFileName_ok (ex := fun q => (fs1 q.comps).isSome) p (existing_finite hfin)
  have hprep : prepareSave lower fs j = (.ok q, fs1) := by
    unfold prepareSave
    rw [hn]
    simp only [hc, ho, Bool.false_eq_true, if_false, hq1]
  have htar : writeTarget j.kind q = q := by
    refine writeTarget_self fun hk => ?_
    rcases (createFileName_result hq1).2 with rfl | ⟨n, rfl⟩
    · exact hp hk
    · exact formatInName_numbered (hp hk) n
  have hfree : fs1 q.comps = none := by simpa using hq2
  refine ⟨q, ?_, hq3, ?_⟩
  · unfold save
    rw [hprep]
    simp only [finishSave, hfail]
    rw [htar]
    have : writeFile fs1 q j.content = .ok fun r => if r = q.comps then some (.file j.content) else fs1 r := by
      unfold writeFile
      rw [hq3, hdir, hfree]
    rw [this]
  · intro hfr
    have : fs1 p.comps = none := by
      rcases createFolder_get hc p.comps with h | ⟨-, h, -⟩
      · rw [h, hfr]
      · rw [hfold] at h
        have := h.length_le
        simp [FilePath.comps] at this
    rw [createFileName_free (by simp [this])] at hq1
    cases hq1; rfl

/-- **C55 (overwriting).** Any call, also with `overwrite=True`, changes at most one existing file. -/
theorem C55_one_file (fs : FS α) (j : SaveJob α) : ∃ t : FilePath, ∀ q c, q ≠ t.comps → HasFile fs q c → HasFile (save lower fs j).2 q c := by
  cases hprep : prepareSave lower fs j with
  | mk r fs1 =>
    cases r with
    | error e =>
      refine ⟨j.path, fun q c _ h => ?_⟩
      unfold save; rw [hprep]
      exact prepareSave_keeps hprep _ _ h
    | ok p =>
      refine ⟨writeTarget j.kind p, fun q c hq h => ?_⟩
      unfold save; rw [hprep]
      rcases finishSave_get fs1 j p q with h1 | ⟨h1, -⟩
      · exact h1.trans (prepareSave_keeps hprep _ _ h)
      · exact absurd h1 hq

/-- **C55 (several processes).** If another process or program uses the same directory, a call with `overwrite=False` can destroy
a file, but only one that has been created between the choice of the name and the writing. -/
theorem C55_interleaved (s : FS α × (ℕ → Option FilePath)) (i : ℕ) (j : SaveJob α) (ho : j.overwrite = false)
    (hp : j.kind.isPlot → FormatInName j.path.name) (mid : List (FsEvent α))
    (hmid : ∀ e ∈ mid, (∀ j', e ≠ .choose i j') ∧ ∀ j', e ≠ .write i j') (q : List PyStr) (c : α)
    (h : HasFile (fsRun lower (fsStep lower s (.choose i j)) mid).1 q c)
    (hlost : ¬ HasFile (fsStep lower (fsRun lower (fsStep lower s (.choose i j)) mid) (.write i j)).1 q c) :
    ∃ pre e post, mid = pre ++ e :: post ∧ (fsRun lower (fsStep lower s (.choose i j)) pre).1 q = none ∧
      (fsRun lower (fsStep lower s (.choose i j)) (pre ++ [e])).1 q ≠ none := by
  generalize hs1 : fsStep lower s (.choose i j) = s1 at h hlost ⊢
  -- the choice is not changed by the events in between
  have hpend : ∀ l : List (FsEvent α), (∀ e ∈ l, (∀ j', e ≠ .choose i j') ∧ ∀ j', e ≠ .write i j') → ∀ s1, (fsRun lower s1 l).2 i = s1.2 i := by
    intro l
    induction l with
    | nil => intro _ _; rfl
    | cons e l ih =>
      intro hl s1
      have h1 : fsRun lower s1 (e :: l) = fsRun lower (fsStep lower s1 e) l := rfl
      rw [h1, ih (fun x hx => hl x (by simp [hx]))]
      obtain ⟨he1, he2⟩ := hl e (by simp)
      cases e with
      | choose k j' =>
        have hk : i ≠ k := by rintro rfl; exact he1 j' rfl
        simp only [fsStep]
        split <;> simp [Function.update_of_ne hk]
      | write k j' =>
        have hk : i ≠ k := by rintro rfl; exact he2 j' rfl
        simp only [fsStep]
        split
        · rfl
        · simp [Function.update_of_ne hk]
      | other p c =>
        simp only [fsStep]
        split <;> rfl
      | remove p => rfl
  -- the chosen name is free when it is chosen
  have hfree : ∀ p, s1.2 i = some p → s1.1 p.comps = none ∧ writeTarget j.kind p = p := by
    intro p hpp
    rw [← hs1] at hpp ⊢
    simp only [fsStep] at hpp ⊢
    cases hprep : prepareSave lower s.1 j with
    | mk r fs1 =>
      rw [hprep] at hpp
      cases r with
      | error e => simp at hpp
      | ok p' =>
        simp only [Function.update_self, Option.some.injEq] at hpp
        subst hpp
        obtain ⟨-, -, h3, -⟩ := prepareSave_fresh hprep ho
        exact ⟨h3, prepareSave_target hprep ho hp⟩
  -- so the lost file is the one chosen
  have hwr : ∃ p, s1.2 i = some p ∧ q = p.comps := by
    have e := hpend mid hmid s1
    cases hpp : s1.2 i with
    | none =>
      exfalso
      apply hlost
      simp only [fsStep]
      rw [e, hpp]
      exact h
    | some p =>
      refine ⟨p, rfl, ?_⟩
      by_contra hne
      apply hlost
      simp only [fsStep]
      rw [e, hpp]
      simp only
      rcases finishSave_get (fsRun lower s1 mid).1 j p q with h1 | ⟨h1, -⟩
      · exact h1.trans h
      · rw [(hfree p hpp).2] at h1; exact absurd h1 hne
  obtain ⟨p, hpp, rfl⟩ := hwr
  -- and it has been created in between
  have hcreate : ∀ l : List (FsEvent α), (fsRun lower s1 l).1 p.comps ≠ none → ∃ pre e post, l = pre ++ e :: post ∧
      (fsRun lower s1 pre).1 p.comps = none ∧ (fsRun lower s1 (pre ++ [e])).1 p.comps ≠ none := by
    intro l
    induction l using List.reverseRecOn with
    | nil => intro hl; exact absurd (hfree p hpp).1 hl
    | append_singleton l e ih =>
      intro hl
      by_cases hn : (fsRun lower s1 l).1 p.comps = none
      · exact ⟨l, e, [], rfl, hn, hl⟩
      · obtain ⟨pre, e', post, h1, h2, h3⟩ := ih hn
        exact ⟨pre, e', post ++ [e], by rw [h1]; simp, h2, h3⟩
  exact hcreate mid (by rw [show (fsRun lower s1 mid).1 p.comps = some (.file c) from h]; simp)

/-- An empty directory `d`. -/
def emptyDir : FS ℕ := fun q => if q = [] ∨ q = ["d".toList] then some .dir else none

/-- A call saving a number as text to `d/a.txt` without overwriting. -/
def textJob (n : ℕ) : SaveJob ℕ := ⟨.txt, ⟨["d".toList], "a.txt".toList⟩, n, none, false⟩

theorem prepare_textJob (n : ℕ) : prepareSave id emptyDir (textJob n) = (.ok ⟨["d".toList], "a.txt".toList⟩, emptyDir) := by
  have h1 : normalise id (textJob n).kind (textJob n).path = .ok ⟨["d".toList], "a.txt".toList⟩ := by rfl
  have h2 : createFolder emptyDir ⟨["d".toList], "a.txt".toList⟩ = .ok emptyDir := by rfl
  unfold prepareSave
  rw [h1]
  simp only [h2]
  rw [if_neg (by simp [textJob]), createFileName_free (by rfl)]

/-- **C55 (race).** Two processes that save to the same free name: if both choose before one writes, both get the same path and the
data of the first are lost. -/
theorem C55_race : ∃ (s : FS ℕ × (ℕ → Option FilePath)) (p : FilePath),
    HasFile (fsRun id s [.choose 1 (textJob 10), .choose 2 (textJob 20), .write 1 (textJob 10)]).1 p.comps 10 ∧
    HasFile (fsRun id s [.choose 1 (textJob 10), .choose 2 (textJob 20), .write 1 (textJob 10), .write 2 (textJob 20)]).1 p.comps 20 := by
  refine ⟨(emptyDir, fun _ => none), ⟨["d".toList], "a.txt".toList⟩, ?_⟩
  have h1 : fsRun id (emptyDir, fun _ => none) [.choose 1 (textJob 10), .choose 2 (textJob 20)] =
      (emptyDir, Function.update (Function.update (fun _ => none) 1 (some ⟨["d".toList], "a.txt".toList⟩)) 2
        (some ⟨["d".toList], "a.txt".toList⟩)) := by
    simp only [fsRun, List.foldl_cons, List.foldl_nil, fsStep, prepare_textJob]
  have h2 : ∀ l, fsRun id (emptyDir, fun _ => none) (.choose 1 (textJob 10) :: .choose 2 (textJob 20) :: l) =
      fsRun id (fsRun id (emptyDir, fun _ => none) [.choose 1 (textJob 10), .choose 2 (textJob 20)]) l := fun l => rfl
  rw [h2, h2, h1]
  exact ⟨rfl, rfl⟩

/-- A directory with one plot. -/
def plotDir : FS ℕ := fun q => if q = [] then some .dir else if q = ["plot_0000.png".toList] then some (.file 1) else none

/-- **C55 (no file can be opened).** Saving over a directory (the target of the call is one) raises `OSError` for text, JSON and
pickle, where the file is opened without a handler, and `ValueError` for images, plots and HDF files; nothing is changed. -/
theorem C55_directory (fs : FS α) (j : SaveJob α) (p : FilePath) (ho : j.overwrite = true) (hf : j.failed = none)
    (hn : normalise lower j.kind j.path = .ok p) (hd : fs (folderOf p) = some .dir) (ht : fs (writeTarget j.kind p).comps = some .dir) :
    (save lower fs j).2 = fs ∧
    (j.kind = .txt ∨ j.kind = .json ∨ j.kind = .pickle → (save lower fs j).1 = .error .osError) ∧
    (¬ (j.kind = .txt ∨ j.kind = .json ∨ j.kind = .pickle) → (save lower fs j).1 = .error .valueError) := by
  have hc : createFolder fs p = .ok fs := by
    have e : createFolder fs p = if (fs (folderOf p)).isSome then .ok fs else mkdirs fs (folderOf p) := rfl
    rw [e, hd]
    rfl
  have hw : ∃ e, writeFile fs (writeTarget j.kind p) j.content = .error e := by
    unfold writeFile
    rw [ht]
    split <;> simp_all
  obtain ⟨e, hw⟩ := hw
  have hs : save lower fs j = (.error j.kind.openError, fs) := by
    unfold save prepareSave
    rw [hn]
    simp only [hc, ho, if_true, finishSave, hf, hw]
  rw [hs]
  refine ⟨rfl, ?_, ?_⟩
  · rintro (h | h | h) <;> rw [h] <;> rfl
  · intro h
    cases hk : j.kind <;> simp_all [SaveKind.openError]

/-- **C55 (no folder can be made).** If the folder of the path does not exist and a file stands in its way, every save function
raises `ValueError` and changes nothing, with or without `overwrite`. -/
theorem C55_blocked (fs : FS α) (j : SaveJob α) (p : FilePath) (hn : normalise lower j.kind j.path = .ok p)
    (hs : ∃ stem suf, SplitAs p.name stem suf) (hd : fs p.dir = none) (q : List PyStr) (hq : q <+: p.dir) (c : α)
    (hc : HasFile fs q c) : save lower fs j = (.error .valueError, fs) := by
  obtain ⟨st, sf, hs⟩ := hs
  have hsf : suffixOf p.name ≠ [] := fun h => suffixOf_eq_nil.1 h _ _ hs
  have hfold : folderOf p = p.dir := by unfold folderOf; rw [if_pos hsf]
  have hcf : createFolder fs p = .error .valueError := by
    have e : createFolder fs p = if (fs (folderOf p)).isSome then .ok fs else mkdirs fs (folderOf p) := rfl
    rw [e, hfold, hd]
    simp only [Option.isSome_none, Bool.false_eq_true, if_false]
    unfold mkdirs
    rw [if_pos]
    simp only [List.any_eq_true, List.mem_inits]
    refine ⟨q, hq, ?_⟩
    unfold isFile
    rw [show fs q = some (.file c) from hc]
  unfold save prepareSave
  rw [hn]
  simp only [hcf]

/-- **C55 (refused data).** An image or a plot that cannot be written (an unknown format) raises an exception and leaves exactly the
files that were there, also with `overwrite=True`. -/
theorem C55_refused (fs : FS α) (j : SaveJob α) (hk : j.kind = .image ∨ j.kind = .plotImage ∨ j.kind = .residualPlot ∨ j.kind = .plotPoints)
    (e : PyErr) (hf : j.failed = some e) :
    (∃ e', (save lower fs j).1 = .error e') ∧ ∀ q c, HasFile (save lower fs j).2 q c ↔ HasFile fs q c := by
  have hff : j.kind.failsFirst = true := by rcases hk with h | h | h | h <;> rw [h] <;> rfl
  have hn : normalise lower j.kind j.path = .ok j.path := by rcases hk with h | h | h | h <;> rw [h] <;> rfl
  unfold save prepareSave
  rw [hn]
  cases hc : createFolder fs j.path with
  | error e' =>
    simp only [hc]
    exact ⟨⟨e', rfl⟩, fun _ _ => by trivial⟩
  | ok fs1 =>
    have hfile : ∀ q c, HasFile fs1 q c ↔ HasFile fs q c := by
      intro q c
      unfold HasFile
      rcases createFolder_get hc q with h | ⟨h1, -, h2⟩
      · rw [h]
      · simp [h1, h2]
    by_cases ho : j.overwrite = true
    · simp only [hc, ho, if_true, finishSave, hf, hff]
      exact ⟨⟨e, rfl⟩, hfile⟩
    · simp only [hc, ho, Bool.false_eq_true, if_false]
      cases hcn : createFileName (fun q => (fs1 q.comps).isSome) j.path with
      | error e' => exact ⟨⟨e', rfl⟩, hfile⟩
      | ok q =>
        simp only [finishSave, hf, hff]
        exact ⟨⟨e, rfl⟩, hfile⟩

/-- A file `d` where a folder is needed, and an image of unknown format. -/
example : save id (fun q => if q = ["d".toList] then some (.file 7) else if q = [] then some .dir else none)
    (⟨.txt, ⟨["d".toList, "e".toList], "a.txt".toList⟩, 3, none, true⟩ : SaveJob ℕ) =
      (.error .valueError, fun q => if q = ["d".toList] then some (.file 7) else if q = [] then some .dir else none) :=
  C55_blocked id _ _ ⟨["d".toList, "e".toList], "a.txt".toList⟩ (by decide) ⟨"a".toList, ".txt".toList, rfl, by decide, "txt".toList, rfl, by decide, by decide⟩ (by decide) ["d".toList]
    (by decide) 7 rfl

example := C55_refused id emptyDir (⟨.image, ⟨["d".toList], "a.xyz".toList⟩, 3, some .valueError, true⟩ : SaveJob ℕ) (Or.inl rfl) .valueError rfl

/-- **C55 (one write per choice).** A process that has written cannot write again before it has chosen another name, whatever other
processes do in between. -/
theorem C55_once (s : FS α × (ℕ → Option FilePath)) (i : ℕ) (j j' : SaveJob α) (mid : List (FsEvent α))
    (hmid : ∀ e ∈ mid, ∀ j', e ≠ .choose i j') :
    fsStep lower (fsRun lower (fsStep lower s (.write i j)) mid) (.write i j') = fsRun lower (fsStep lower s (.write i j)) mid := by
  have h0 : (fsStep lower s (.write i j)).2 i = none := by
    unfold fsStep
    simp only
    cases h : s.2 i <;> simp [h]
  have hall : ∀ (l : List (FsEvent α)) (s1 : FS α × (ℕ → Option FilePath)), (∀ e ∈ l, ∀ j', e ≠ .choose i j') → s1.2 i = none →
      (fsRun lower s1 l).2 i = none := by
    intro l
    induction l with
    | nil => intro s1 _ h; exact h
    | cons e l ih =>
      intro s1 hl h
      refine ih _ (fun e he => hl e (by simp [he])) ?_
      cases e with
      | choose k j' =>
        have hk : i ≠ k := fun hk => hl (.choose k j') (by simp) j' (by rw [hk])
        unfold fsStep
        simp only
        split <;> simp [Function.update_of_ne hk, h]
      | write k j' =>
        unfold fsStep
        simp only
        cases hs : s1.2 k with
        | none => exact h
        | some q =>
          simp only
          by_cases hk : i = k
          · rw [hk]; simp
          · rw [Function.update_of_ne hk, h]
      | other p c =>
        unfold fsStep
        simp only
        split <;> exact h
      | remove p => exact h
  have := hall mid _ hmid h0
  generalize fsRun lower (fsStep lower s (.write i j)) mid = s2 at this ⊢
  rw [fsStep]
  simp only [this]

/-- **C55 (plots without a suffix).** A plot (image, residuals or points) saved with `overwrite=False` to a path without a suffix can replace an existing file: a
directory with the name of the path is made, the name `plot_0000` is found to be free, but Matplotlib writes `plot_0000.png`. The
path returned does not exist. -/
theorem C55_plot_suffix (k : SaveKind) (hk : k = .plotImage ∨ k = .residualPlot ∨ k = .plotPoints) : HasFile plotDir ["plot_0000.png".toList] 1 ∧
    (save id plotDir ⟨k, ⟨[], "plot".toList⟩, 2, none, false⟩).1 = .ok ⟨[], "plot_0000".toList⟩ ∧
    HasFile (save id plotDir ⟨k, ⟨[], "plot".toList⟩, 2, none, false⟩).2 ["plot_0000.png".toList] 2 ∧
    (save id plotDir ⟨k, ⟨[], "plot".toList⟩, 2, none, false⟩).2 ["plot_0000".toList] = none := by
  have h1 : ∃ fs1, createFolder plotDir ⟨[], "plot".toList⟩ = .ok fs1 ∧ (fs1 ["plot".toList]).isSome = true ∧
      (fs1 ["plot_0000".toList]) = none ∧ fs1 [] = some .dir ∧ fs1 ["plot_0000.png".toList] = some (.file 1) :=
    ⟨_, rfl, rfl, rfl, rfl, rfl⟩
  obtain ⟨fs1, h1, h2, h3, h4, h5⟩ := h1
  have h6 : prepareSave id plotDir ⟨k, ⟨[], "plot".toList⟩, 2, none, false⟩ = (.ok ⟨[], "plot_0000".toList⟩, fs1) := by
    have e : normalise id k ⟨[], "plot".toList⟩ = .ok ⟨[], "plot".toList⟩ := by rcases hk with rfl | rfl | rfl <;> rfl
    have e2 : createFileName (fun q => (fs1 q.comps).isSome) ⟨[], "plot".toList⟩ = .ok ⟨[], "plot_0000".toList⟩ := by
      have en : numbered ⟨[], "plot".toList⟩ 0 = ⟨[], "plot_0000".toList⟩ := by decide
      unfold createFileName
      rw [if_pos (by exact h2), whileLoop_unfold, if_neg]
      · simp only [en]
      · rw [en]; simp [FilePath.comps]; exact h3
    unfold prepareSave
    simp only [e, h1, e2]
    rfl
  have h7 : writeTarget k ⟨[], "plot_0000".toList⟩ = ⟨[], "plot_0000.png".toList⟩ := by rcases hk with rfl | rfl | rfl <;> decide
  have h8 : save id plotDir ⟨k, ⟨[], "plot".toList⟩, 2, none, false⟩ =
      (.ok ⟨[], "plot_0000".toList⟩, fun q => if q = ["plot_0000.png".toList] then some (.file 2) else fs1 q) := by
    unfold save
    rw [h6]
    simp only [finishSave, h7]
    have : writeFile fs1 ⟨[], "plot_0000.png".toList⟩ 2 = .ok fun q => if q = ["plot_0000.png".toList] then some (.file 2) else fs1 q := by
      have e3 : FilePath.comps ⟨[], "plot_0000.png".toList⟩ = ["plot_0000.png".toList] := rfl
      unfold writeFile
      rw [e3, h4, h5]
    rw [this]
  rw [h8]
  refine ⟨rfl, rfl, ?_, ?_⟩
  · simp [HasFile]
  · simp only
    rw [if_neg (by decide)]
    exact h3

/-- Saving a text over the directory `d`. -/
example : normalise id .txt ⟨[], "d.txt".toList⟩ = .ok ⟨[], "d.txt".toList⟩ ∧
    (save id (fun q => if q = [] ∨ q = ["d.txt".toList] then some .dir else none) ⟨.txt, ⟨[], "d.txt".toList⟩, 1, none, true⟩).1 =
      .error .osError :=
  ⟨rfl, ((C55_directory (lower := id) (fun q => if q = [] ∨ q = ["d.txt".toList] then some .dir else none)
    ⟨.txt, ⟨[], "d.txt".toList⟩, 1, none, true⟩ ⟨[], "d.txt".toList⟩ rfl rfl rfl rfl rfl).2.1 (.inl rfl))⟩

/-- The hypotheses of the positive theorems are met: saving twice to `d/a.txt`. -/
example : FiniteFS emptyDir ∧ (textJob 1).overwrite = false ∧ ((textJob 1).kind.isPlot → FormatInName (textJob 1).path.name) ∧
    (saveAll id emptyDir [textJob 1, textJob 2]).1[0]? = some (.ok ⟨["d".toList], "a.txt".toList⟩) := by
  refine ⟨?_, rfl, by simp [textJob, SaveKind.isPlot], ?_⟩
  · refine Set.Finite.subset (s := {[], ["d".toList]}) (by simp) fun q hq => ?_
    by_contra hne
    apply hq
    unfold emptyDir
    rw [if_neg (by simpa using hne)]
  · simp only [saveAll, save, prepare_textJob]
    rfl

/-- A directory with the file `d/a.txt`. -/
def oneFileDir : FS ℕ := fun q => if q = [] ∨ q = ["d".toList] then some .dir else if q = ["d".toList, "a.txt".toList] then some (.file 7) else none

example := C55_preserves id oneFileDir (textJob 1) rfl (by simp [textJob, SaveKind.isPlot]) ["d".toList, "a.txt".toList] 7 (by unfold HasFile oneFileDir; rfl)

example := C55_history id oneFileDir [textJob 1, textJob 2] (by simp [textJob]) (by simp [textJob, SaveKind.isPlot])

example := C55_success id oneFileDir (by
    refine Set.Finite.subset (s := {[], ["d".toList], ["d".toList, "a.txt".toList]}) (by simp) fun q hq => ?_
    by_contra hne
    simp only [Set.mem_insert_iff, Set.mem_singleton_iff, not_or] at hne
    apply hq
    unfold oneFileDir
    rw [if_neg (by tauto), if_neg hne.2.2]) (textJob 1) ⟨["d".toList], "a.txt".toList⟩ rfl rfl
  ⟨"a".toList, ".txt".toList, by decide, by decide, "txt".toList, by decide, by decide, by decide⟩ (by simp [textJob, SaveKind.isPlot]) rfl
  (by
    intro d hd c h
    have : d = [] ∨ d = ["d".toList] := by
      obtain ⟨t, ht⟩ := hd
      rcases d with _ | ⟨a, d⟩
      · exact .inl rfl
      · simp only [List.cons_append, List.cons.injEq, List.append_eq_nil_iff] at ht
        exact .inr (by rw [ht.1, ht.2.1])
    unfold HasFile oneFileDir at h
    rw [if_pos this] at h
    cases h)

/-- Another program writes `d/a.txt` between the choice of this name and the writing, and the file is lost. -/
example : ∃ pre e post, [FsEvent.other ⟨["d".toList], "a.txt".toList⟩ 9] = pre ++ e :: post ∧
    (fsRun id (fsStep id (emptyDir, fun _ => none) (.choose 0 (textJob 1))) pre).1 ["d".toList, "a.txt".toList] = none ∧
    (fsRun id (fsStep id (emptyDir, fun _ => none) (.choose 0 (textJob 1))) (pre ++ [e])).1 ["d".toList, "a.txt".toList] ≠ none := by
  have h0 : fsStep id (emptyDir, fun _ => none) (.choose 0 (textJob 1)) =
      (emptyDir, Function.update (fun _ => none) 0 (some ⟨["d".toList], "a.txt".toList⟩)) := by
    simp only [fsStep, prepare_textJob]
  refine C55_interleaved id (emptyDir, fun _ => none) 0 (textJob 1) rfl (by simp [textJob, SaveKind.isPlot]) _ (by simp) _ 9 ?_ ?_
  · rw [h0]
    rfl
  · rw [h0]
    intro h
    cases h

example := C55_once id (oneFileDir, fun _ => none) 0 (textJob 1) (textJob 2) [.remove ⟨["d".toList], "a.txt".toList⟩] (by simp)

example := C55_plot_suffix .plotPoints (.inr (.inr rfl))

end Discorpy
