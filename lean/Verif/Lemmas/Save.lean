import Verif.Lemmas.Path
import Mathlib.Data.List.Infix

/-! # Helper lemmas: saving to files -/

namespace Discorpy

open Spec

variable {α : Type} {lower : PyStr → PyStr}

theorem comps_injective {p q : FilePath} (h : p.comps = q.comps) : p = q := by
  unfold FilePath.comps at h
  obtain ⟨h1, h2⟩ := List.append_inj' h rfl
  cases p; cases q
  simp_all

/-- Everything in `fs` is still there in `fs'`, unchanged. -/
def Keeps (fs fs' : FS α) : Prop := ∀ q x, fs q = some x → fs' q = some x

theorem Keeps.refl (fs : FS α) : Keeps fs fs := fun _ _ h => h

theorem Keeps.trans {a b c : FS α} (h1 : Keeps a b) (h2 : Keeps b c) : Keeps a c := fun q x h => h2 q x (h1 q x h)

theorem Keeps.none {fs fs' : FS α} (h : Keeps fs fs') {q : List PyStr} (hq : fs' q = none) : fs q = none := by
  cases hx : fs q with
  | none => rfl
  | some x => rw [h q x hx] at hq; cases hq

/-- The folder made for a path. -/
def folderOf (p : FilePath) : List PyStr := if suffixOf p.name ≠ [] then p.dir else p.comps

theorem mkdirs_ok {fs fs1 : FS α} {d : List PyStr} (h : mkdirs fs d = .ok fs1) :
    fs1 = fun q => if q.isPrefixOf d ∧ fs q = none then some .dir else fs q := by
  unfold mkdirs at h
  split at h
  · cases h
  · cases h; rfl

theorem createFolder_get {fs fs1 : FS α} {p : FilePath} (h : createFolder fs p = .ok fs1) (q : List PyStr) :
    fs1 q = fs q ∨ (fs q = none ∧ q <+: folderOf p ∧ fs1 q = some .dir) := by
  have h : (if (fs (folderOf p)).isSome then .ok fs else mkdirs fs (folderOf p)) = Except.ok fs1 := h
  split at h
  · cases h; exact .inl rfl
  · rw [mkdirs_ok h]
    simp only
    split
    · rename_i hc
      exact .inr ⟨hc.2, List.isPrefixOf_iff_prefix.1 hc.1, rfl⟩
    · exact .inl rfl

theorem createFolder_keeps {fs fs1 : FS α} {p : FilePath} (h : createFolder fs p = .ok fs1) : Keeps fs fs1 := by
  intro q x hx
  rcases createFolder_get h q with h | ⟨h, -⟩
  · rw [h, hx]
  · rw [hx] at h; cases h

theorem createFolder_finite {fs fs1 : FS α} {p : FilePath} (h : createFolder fs p = .ok fs1) (hf : FiniteFS fs) : FiniteFS fs1 := by
  have hsub : {q | fs1 q ≠ none} ⊆ {q | fs q ≠ none} ∪ {q | q ∈ (folderOf p).inits} := by
    intro q hq
    rcases createFolder_get h q with h | ⟨-, h, -⟩
    · left; simpa [h] using hq
    · right; simpa using h
  exact (hf.union (List.finite_toSet _)).subset hsub

theorem writeFile_ok {fs fs2 : FS α} {p : FilePath} {c : α} (h : writeFile fs p c = .ok fs2) :
    (fs2 = fun q => if q = p.comps then some (.file c) else fs q) ∧ fs p.dir = some .dir ∧ fs p.comps ≠ some .dir := by
  unfold writeFile at h
  split at h
  · rename_i hd
    split at h
    · cases h
    · rename_i hc
      cases h
      exact ⟨rfl, hd, hc⟩
  · cases h

theorem writeFile_finite {fs fs2 : FS α} {p : FilePath} {c : α} (h : writeFile fs p c = .ok fs2) (hf : FiniteFS fs) : FiniteFS fs2 := by
  have hsub : {q | fs2 q ≠ none} ⊆ insert p.comps {q | fs q ≠ none} := by
    intro q hq
    rw [(writeFile_ok h).1] at hq
    by_cases hqp : q = p.comps
    · exact .inl hqp
    · right; simpa [hqp] using hq
  exact (hf.insert _).subset hsub

theorem existing_finite {fs : FS α} (hf : FiniteFS fs) : {q : FilePath | (fs q.comps).isSome = true}.Finite := by
  refine Set.Finite.of_finite_image (f := FilePath.comps) (hf.subset ?_) fun _ _ _ _ h => comps_injective h
  rintro _ ⟨q, hq, rfl⟩
  have : (fs q.comps).isSome = true := hq
  intro h
  rw [h] at this; cases this

theorem prepareSave_state {fs fs1 : FS α} {j : SaveJob α} {r : Except PyErr FilePath} (h : prepareSave lower fs j = (r, fs1))
    (hf : FiniteFS fs) : Keeps fs fs1 ∧ FiniteFS fs1 := by
  unfold prepareSave at h
  split at h
  · cases h; exact ⟨.refl _, hf⟩
  · split at h
    · cases h; exact ⟨.refl _, hf⟩
    · rename_i hc
      split at h <;> (cases h; exact ⟨createFolder_keeps hc, createFolder_finite hc hf⟩)

theorem prepareSave_keeps {fs fs1 : FS α} {j : SaveJob α} {r : Except PyErr FilePath} (h : prepareSave lower fs j = (r, fs1)) :
    Keeps fs fs1 := by
  unfold prepareSave at h
  split at h
  · cases h; exact .refl _
  · split at h
    · cases h; exact .refl _
    · rename_i hc
      split at h <;> (cases h; exact createFolder_keeps hc)

theorem createFileName_result {ex : FilePath → Bool} {p q : FilePath} (h : createFileName ex p = .ok q) :
    ex q = false ∧ (q = p ∨ ∃ n, q = numbered p n) := by
  unfold createFileName at h
  split at h
  · refine whileLoop_inv (fun _ => True) (fun q => ex q = false ∧ (q = p ∨ ∃ n, q = numbered p n)) (fun _ _ _ _ => trivial) ?_ trivial h
    intro n b _ hb
    split at hb
    · cases hb
    · rename_i hn
      cases hb
      exact ⟨by simpa using hn, .inr ⟨n, rfl⟩⟩
  · rename_i hn
    cases h
    exact ⟨by simpa using hn, .inl rfl⟩

theorem prepareSave_fresh {fs fs1 : FS α} {j : SaveJob α} {q : FilePath} (h : prepareSave lower fs j = (.ok q, fs1))
    (ho : j.overwrite = false) : ∃ p, normalise lower j.kind j.path = .ok p ∧ fs1 q.comps = none ∧ (q = p ∨ ∃ n, q = numbered p n) := by
  unfold prepareSave at h
  split at h
  · cases h
  · rename_i p hp
    split at h
    · cases h
    · rw [ho] at h
      simp only [Bool.false_eq_true, if_false, Prod.mk.injEq] at h
      obtain ⟨h1, rfl⟩ := h
      obtain ⟨h2, h3⟩ := createFileName_result h1
      exact ⟨p, hp, by simpa using h2, h3⟩

theorem formatOf_split {name stem suf : PyStr} (h : SplitAs name stem suf) (hd : ∃ c ∈ stem, c ≠ '.') : formatOf name ≠ [] := by
  obtain ⟨rfl, -, ext, rfl, he, hnd⟩ := h
  unfold formatOf
  rw [lastDot_append hnd]
  simp only
  rw [if_neg]
  · simpa using he
  · simp only [List.take_left']
    obtain ⟨c, hc, hne⟩ := hd
    simp only [List.all_eq_true, decide_eq_true_eq, not_forall]
    exact ⟨c, hc, hne⟩

theorem savefigTarget_self {q : FilePath} (h : FormatInName q.name) : savefigTarget q = q := by
  obtain ⟨st, sf, h1, h2⟩ := h
  unfold savefigTarget
  rw [if_neg (formatOf_split h1 h2)]

theorem formatInName_numbered {p : FilePath} (h : FormatInName p.name) (n : ℕ) : FormatInName (numbered p n).name := by
  obtain ⟨st, sf, h1, h2⟩ := h
  obtain ⟨e1, e2⟩ := suffixOf_split h1
  refine ⟨st ++ ('_' :: fmt04 n), sf, ⟨?_, by simp, h1.2.2⟩, '_', by simp, by decide⟩
  simp only [numbered, e1, e2]

theorem writeTarget_self {k : SaveKind} {q : FilePath} (h : k.isPlot → FormatInName q.name) : writeTarget k q = q := by
  unfold writeTarget
  split
  · rename_i hk; exact savefigTarget_self (h hk)
  · rfl

theorem normalise_plot {k : SaveKind} (h : k.isPlot) (p : FilePath) : normalise lower k p = .ok p := by
  cases k <;> simp_all [SaveKind.isPlot, normalise, SaveKind.suffixes]

/-- The path written is the one chosen. -/
theorem prepareSave_target {fs fs1 : FS α} {j : SaveJob α} {q : FilePath} (h : prepareSave lower fs j = (.ok q, fs1))
    (ho : j.overwrite = false) (hp : j.kind.isPlot → FormatInName j.path.name) : writeTarget j.kind q = q := by
  refine writeTarget_self fun hk => ?_
  obtain ⟨p, h1, -, h3⟩ := prepareSave_fresh h ho
  rw [normalise_plot hk] at h1
  cases h1
  rcases h3 with rfl | ⟨n, rfl⟩
  · exact hp hk
  · exact formatInName_numbered (hp hk) n

/-- What the second half does. -/
theorem finishSave_cases (fs : FS α) (j : SaveJob α) (q : FilePath) :
    (∃ e, finishSave fs j q = (.error e, fs)) ∨
    (∃ fs2, writeFile fs (writeTarget j.kind q) j.content = .ok fs2 ∧
      ((∃ e, finishSave fs j q = (.error e, fs2)) ∨ finishSave fs j q = (.ok q, fs2))) := by
  unfold finishSave
  split
  · exact .inl ⟨_, rfl⟩
  · cases hw : writeFile fs (writeTarget j.kind q) j.content with
    | error e => exact .inl ⟨_, rfl⟩
    | ok fs2 =>
      right
      refine ⟨fs2, rfl, ?_⟩
      simp only
      split
      · exact .inl ⟨_, rfl⟩
      · exact .inr rfl

theorem finishSave_get (fs : FS α) (j : SaveJob α) (q : FilePath) (r : List PyStr) :
    (finishSave fs j q).2 r = fs r ∨ (r = (writeTarget j.kind q).comps ∧ (finishSave fs j q).2 r = some (.file j.content)) := by
  rcases finishSave_cases fs j q with ⟨e, h⟩ | ⟨fs2, hw, h⟩
  · rw [h]; exact .inl rfl
  · have h2 : (finishSave fs j q).2 = fs2 := by rcases h with ⟨e, h⟩ | h <;> rw [h]
    rw [h2, (writeFile_ok hw).1]
    simp only
    split
    · rename_i hr; exact .inr ⟨hr, rfl⟩
    · exact .inl rfl

theorem finishSave_finite {fs : FS α} (j : SaveJob α) (q : FilePath) (hf : FiniteFS fs) : FiniteFS (finishSave fs j q).2 := by
  rcases finishSave_cases fs j q with ⟨e, h⟩ | ⟨fs2, hw, h⟩
  · rw [h]; exact hf
  · have h2 : (finishSave fs j q).2 = fs2 := by rcases h with ⟨e, h⟩ | h <;> rw [h]
    rw [h2]; exact writeFile_finite hw hf

theorem save_finite {fs : FS α} (j : SaveJob α) (hf : FiniteFS fs) : FiniteFS (save lower fs j).2 := by
  unfold save
  split
  · rename_i h; exact (prepareSave_state h hf).2
  · rename_i h; exact finishSave_finite _ _ (prepareSave_state h hf).2

theorem save_keeps {fs : FS α} {j : SaveJob α} (ho : j.overwrite = false) (hp : j.kind.isPlot → FormatInName j.path.name) :
    Keeps fs (save lower fs j).2 := by
  unfold save
  split
  · rename_i h; exact prepareSave_keeps h
  · rename_i q fs1 h
    refine (prepareSave_keeps h).trans fun r x hx => ?_
    rcases finishSave_get fs1 j q r with h1 | ⟨h1, -⟩
    · rw [h1, hx]
    · rw [prepareSave_target h ho hp] at h1
      obtain ⟨-, -, h3, -⟩ := prepareSave_fresh h ho
      rw [h1, h3] at hx; cases hx

theorem save_stores {fs : FS α} {j : SaveJob α} {q : FilePath} (ho : j.overwrite = false)
    (hp : j.kind.isPlot → FormatInName j.path.name) (h : (save lower fs j).1 = .ok q) :
    fs q.comps = none ∧ (save lower fs j).2 q.comps = some (.file j.content) := by
  unfold save at h ⊢
  split at h
  · cases h
  · rename_i q' fs1 hprep
    rcases finishSave_cases fs1 j q' with ⟨e, h1⟩ | ⟨fs2, hw, ⟨e, h1⟩ | h1⟩
    · rw [h1] at h; cases h
    · rw [h1] at h; cases h
    · rw [h1] at h ⊢
      cases h
      obtain ⟨-, -, h3, -⟩ := prepareSave_fresh hprep ho
      refine ⟨(prepareSave_keeps hprep).none h3, ?_⟩
      rw [prepareSave_target hprep ho hp] at hw
      simp only
      rw [(writeFile_ok hw).1]
      simp

end Discorpy
