import Verif.Lemmas.Hdf
import Verif.Lemmas.Save

/-! # Lemmas about writing HDF files -/

namespace Discorpy

open Spec

theorem keyComps_good (key : PyStr) : ∀ c ∈ keyComps key, GoodName c := by
  intro c hc
  unfold keyComps at hc
  rw [List.mem_filter] at hc
  obtain ⟨h1, h2⟩ := hc
  simp only [ne_eq, decide_eq_true_eq] at h2
  refine ⟨h2.1, h2.2, ?_⟩
  have : ∀ (s : PyStr), ∀ c ∈ s.splitOn '/', '/' ∉ c := by
    intro s
    induction s with
    | nil => simp [List.splitOn_nil]
    | cons x r ih =>
      intro c hc
      rw [List.splitOn_cons_eq_if_modifyHead] at hc
      split_ifs at hc with hx
      · rcases List.mem_cons.1 hc with rfl | hc
        · simp
        · exact ih c hc
      · cases hs : r.splitOn '/' with
        | nil => rw [hs] at hc; simp at hc
        | cons y ys =>
          rw [hs] at hc ih
          rw [List.modifyHead_cons] at hc
          rcases List.mem_cons.1 hc with rfl | hc
          · have := ih y (by simp)
            simp only [List.mem_cons, not_or]
            exact ⟨fun h => hx (by rw [← h]; simp), this⟩
          · exact ih c (List.mem_cons_of_mem _ hc)
  exact this key c h1

theorem wellFormed_group_iff {ch : List (PyStr × H5)} :
    WellFormedH5 (.group ch) ↔ (ch.map Prod.fst).Nodup ∧ (∀ p ∈ ch, GoodName p.1) ∧ ∀ p ∈ ch, WellFormedH5 p.2 := by
  constructor
  · intro h
    exact ⟨(h [] ch (.here _)).1, (h [] ch (.here _)).2, fun p hp => wellFormed_child h (n := p.1) hp⟩
  · rintro ⟨h1, h2, h3⟩ cs ch' hn
    cases hn with
    | here => exact ⟨h1, h2⟩
    | child hm hn => exact h3 _ hm _ _ hn

theorem mem_h5AddMember {m p : PyStr × H5} {ch : List (PyStr × H5)} : p ∈ h5AddMember m ch ↔ p = m ∨ p ∈ ch := by
  unfold h5AddMember
  exact List.mem_orderedInsert _

theorem nodup_h5AddMember {m : PyStr × H5} {ch : List (PyStr × H5)} (h : (ch.map Prod.fst).Nodup) (hm : ch.lookup m.1 = none) :
    ((h5AddMember m ch).map Prod.fst).Nodup := by
  have hp : (h5AddMember m ch).Perm (m :: ch) := List.perm_orderedInsert _ _ _
  rw [(hp.map Prod.fst).nodup_iff, List.map_cons, List.nodup_cons]
  refine ⟨fun hc => ?_, h⟩
  obtain ⟨p, hp1, hp2⟩ := List.mem_map.1 hc
  rw [List.lookup_eq_none_iff] at hm
  have := hm p hp1
  simp [hp2] at this

/-- A group is changed below one of its members. -/
def replaceMember (n : PyStr) (t : H5) (ch : List (PyStr × H5)) : List (PyStr × H5) := ch.map fun p => if p.1 = n then (n, t) else p

theorem replaceMember_names (n : PyStr) (t : H5) (ch : List (PyStr × H5)) : (replaceMember n t ch).map Prod.fst = ch.map Prod.fst := by
  unfold replaceMember
  rw [List.map_map]
  apply List.map_congr_left
  intro p _
  simp only [Function.comp]
  split_ifs with h
  · exact h.symm
  · rfl

theorem mem_replaceMember {n : PyStr} {t : H5} {ch : List (PyStr × H5)} {c : H5} (hc : (n, c) ∈ ch) {p : PyStr × H5} :
    p ∈ replaceMember n t ch ↔ p = (n, t) ∨ (p ∈ ch ∧ p.1 ≠ n) := by
  unfold replaceMember
  rw [List.mem_map]
  constructor
  · rintro ⟨q, hq, rfl⟩
    split_ifs with h
    · exact .inl rfl
    · exact .inr ⟨hq, h⟩
  · rintro (rfl | ⟨h1, h2⟩)
    · exact ⟨_, hc, by simp⟩
    · exact ⟨p, h1, by rw [if_neg h2]⟩

theorem lookup_mem {ch : List (PyStr × H5)} {n : PyStr} {c : H5} (h : ch.lookup n = some c) : (n, c) ∈ ch := by
  induction ch with
  | nil => simp at h
  | cons p r ih =>
    obtain ⟨m, d⟩ := p
    rw [List.lookup_cons] at h
    by_cases hm : n = m
    · subst hm; simp only [beq_self_eq_true, Option.some.injEq] at h; subst h; simp
    · have : (n == m) = false := by simpa using hm
      rw [this] at h
      exact List.mem_cons_of_mem _ (ih h)

theorem not_mem_of_lookup {ch : List (PyStr × H5)} {n : PyStr} (h : ch.lookup n = none) (c : H5) : (n, c) ∉ ch := by
  intro hc
  rw [List.lookup_eq_none_iff] at h
  have := h _ hc
  simp at this

theorem h5Create_cons_none {new : H5} {n m : PyStr} {r : List PyStr} {ch : H5File} (h : ch.lookup n = none) :
    h5Create new (n :: m :: r) ch = (do .ok (h5AddMember (n, .group (← h5Create new (m :: r) [])) ch)) := by
  rw [h5Create, h]

theorem h5Create_cons_group {new : H5} {n m : PyStr} {r : List PyStr} {ch sub : H5File} (h : ch.lookup n = some (.group sub)) :
    h5Create new (n :: m :: r) ch = (do .ok (replaceMember n (.group (← h5Create new (m :: r) sub)) ch)) := by
  rw [h5Create, h]
  rfl

/-- What is in the file after something has been created. -/
theorem h5Create_spec (new : H5) : ∀ (cs : List PyStr) (f f' : H5File), h5Create new cs f = .ok f' → WellFormedH5 (.group f) →
    WellFormedH5 new → (∀ c ∈ cs, GoodName c) → WellFormedH5 (.group f') ∧ NodeAt (.group f') cs new ∧
      (∀ p x, p ≠ [] → NodeAt (.group f') p x → (∃ q, p = cs ++ q ∧ NodeAt new q x) ∨ (∃ y, NodeAt (.group f) p y) ∨ (p <+: cs ∧ p ≠ cs)) ∧
      (∀ p a t, NodeAt (.group f') p (.dataset a t) ↔ (∃ q, p = cs ++ q ∧ NodeAt new q (.dataset a t)) ∨ NodeAt (.group f) p (.dataset a t)) ∧
      (∀ p, NodeAt (.group f') p .dangling ↔ (∃ q, p = cs ++ q ∧ NodeAt new q .dangling) ∨ NodeAt (.group f) p .dangling) := by
  intro cs
  induction cs with
  | nil => intro f f' h; simp [h5Create] at h
  | cons n r ih =>
    intro f f' h hwf hnew hgood
    obtain ⟨hnd, hgf, hsub⟩ := wellFormed_group_iff.1 hwf
    cases r with
    | nil =>
      rw [h5Create] at h
      cases hl : f.lookup n with
      | some y => rw [hl] at h; simp at h
      | none =>
        rw [hl] at h
        simp only [Except.ok.injEq] at h
        subst h
        have hno := not_mem_of_lookup hl
        refine ⟨?_, ?_, ?_, ?_, ?_⟩
        · rw [wellFormed_group_iff]
          refine ⟨nodup_h5AddMember hnd hl, ?_, ?_⟩
          · intro p hp
            rcases mem_h5AddMember.1 hp with rfl | hp
            · exact hgood n (by simp)
            · exact hgf p hp
          · intro p hp
            rcases mem_h5AddMember.1 hp with rfl | hp
            · exact hnew
            · exact hsub p hp
        · exact .child (mem_h5AddMember.2 (.inl rfl)) (.here _)
        · intro p x h0 hp
          cases hp with
          | here => exact absurd rfl h0
          | child hm hp =>
            rcases mem_h5AddMember.1 hm with he | hm
            · cases he; exact .inl ⟨_, rfl, hp⟩
            · exact .inr (.inl ⟨x, .child hm hp⟩)
        · intro p a t
          constructor
          · intro hp
            cases hp with
            | child hm hp =>
              rcases mem_h5AddMember.1 hm with he | hm
              · cases he; exact .inl ⟨_, rfl, hp⟩
              · exact .inr (.child hm hp)
          · rintro (⟨q, rfl, hq⟩ | hp)
            · exact .child (mem_h5AddMember.2 (.inl rfl)) hq
            · cases hp with
              | child hm hp => exact .child (mem_h5AddMember.2 (.inr hm)) hp
        · intro p
          constructor
          · intro hp
            cases hp with
            | child hm hp =>
              rcases mem_h5AddMember.1 hm with he | hm
              · cases he; exact .inl ⟨_, rfl, hp⟩
              · exact .inr (.child hm hp)
          · rintro (⟨q, rfl, hq⟩ | hp)
            · exact .child (mem_h5AddMember.2 (.inl rfl)) hq
            · cases hp with
              | child hm hp => exact .child (mem_h5AddMember.2 (.inr hm)) hp
    | cons m r =>
      have hg2 : ∀ c ∈ m :: r, GoodName c := fun c hc => hgood c (List.mem_cons_of_mem _ hc)
      have hnil : ∀ (p : List PyStr) x, p ≠ [] → ¬ NodeAt (.group []) p x := by
        intro p x h0 hp
        cases hp with
        | here => exact h0 rfl
        | child hm _ => simp at hm
      cases hl : f.lookup n with
      | none =>
        rw [h5Create_cons_none hl] at h
        obtain ⟨sub', hs, he⟩ := bind_ok_iff.1 h
        simp only [Except.ok.injEq] at he
        subst he
        obtain ⟨i1, i2, i3, i4, i5⟩ := ih [] sub' hs (by rw [wellFormed_group_iff]; simp) hnew hg2
        refine ⟨?_, ?_, ?_, ?_, ?_⟩
        · rw [wellFormed_group_iff]
          refine ⟨nodup_h5AddMember hnd hl, ?_, ?_⟩
          · intro p hp
            rcases mem_h5AddMember.1 hp with rfl | hp
            · exact hgood n (by simp)
            · exact hgf p hp
          · intro p hp
            rcases mem_h5AddMember.1 hp with rfl | hp
            · exact i1
            · exact hsub p hp
        · exact .child (mem_h5AddMember.2 (.inl rfl)) i2
        · intro p x h0 hp
          cases hp with
          | here => exact absurd rfl h0
          | @child _ _ _ _ p' hm hp =>
            rcases mem_h5AddMember.1 hm with he | hm
            · cases he
              by_cases hp0 : p' = []
              · subst hp0; right; right; exact ⟨⟨m :: r, rfl⟩, by simp⟩
              · rcases i3 _ x hp0 hp with ⟨q, rfl, hq⟩ | ⟨y, hy⟩ | ⟨hpre, hne⟩
                · exact .inl ⟨q, rfl, hq⟩
                · exact absurd hy (hnil _ _ hp0)
                · exact .inr (.inr ⟨List.cons_prefix_cons.2 ⟨rfl, hpre⟩, fun h => hne (List.cons_inj_right _ |>.1 h)⟩)
            · exact .inr (.inl ⟨x, .child hm hp⟩)
        · intro p a t
          constructor
          · intro hp
            cases hp with
            | child hm hp =>
              rcases mem_h5AddMember.1 hm with he | hm
              · cases he
                rcases (i4 _ a t).1 hp with ⟨q, rfl, hq⟩ | hq
                · exact .inl ⟨q, rfl, hq⟩
                · exact absurd hq (hnil _ _ (by rintro rfl; cases hq))
              · exact .inr (.child hm hp)
          · rintro (⟨q, rfl, hq⟩ | hp)
            · exact .child (mem_h5AddMember.2 (.inl rfl)) ((i4 _ a t).2 (.inl ⟨q, rfl, hq⟩))
            · cases hp with
              | child hm hp => exact .child (mem_h5AddMember.2 (.inr hm)) hp
        · intro p
          constructor
          · intro hp
            cases hp with
            | child hm hp =>
              rcases mem_h5AddMember.1 hm with he | hm
              · cases he
                rcases (i5 _).1 hp with ⟨q, rfl, hq⟩ | hq
                · exact .inl ⟨q, rfl, hq⟩
                · exact absurd hq (hnil _ _ (by rintro rfl; cases hq))
              · exact .inr (.child hm hp)
          · rintro (⟨q, rfl, hq⟩ | hp)
            · exact .child (mem_h5AddMember.2 (.inl rfl)) ((i5 _).2 (.inl ⟨q, rfl, hq⟩))
            · cases hp with
              | child hm hp => exact .child (mem_h5AddMember.2 (.inr hm)) hp
      | some y =>
        cases y with
        | dataset a t => rw [h5Create, hl] at h; simp at h
        | dangling => rw [h5Create, hl] at h; simp at h
        | group sub =>
          rw [h5Create_cons_group hl] at h
          obtain ⟨sub', hs, he⟩ := bind_ok_iff.1 h
          simp only [Except.ok.injEq] at he
          subst he
          have hmem := lookup_mem hl
          have hu : ∀ c, (n, c) ∈ f → c = .group sub := fun c hc => by
            have := (lookup_iff_mem hnd n c).2 hc
            rw [hl, Option.some.injEq] at this; exact this.symm
          obtain ⟨i1, i2, i3, i4, i5⟩ := ih sub sub' hs (hsub _ hmem) hnew hg2
          refine ⟨?_, ?_, ?_, ?_, ?_⟩
          · rw [wellFormed_group_iff, replaceMember_names]
            refine ⟨hnd, ?_, ?_⟩
            · intro p hp
              rcases (mem_replaceMember hmem).1 hp with rfl | hp
              · exact hgood n (by simp)
              · exact hgf p hp.1
            · intro p hp
              rcases (mem_replaceMember hmem).1 hp with rfl | hp
              · exact i1
              · exact hsub p hp.1
          · exact .child ((mem_replaceMember hmem).2 (.inl rfl)) i2
          · intro p x h0 hp
            cases hp with
            | here => exact absurd rfl h0
            | @child _ _ _ _ p' hm hp =>
              rcases (mem_replaceMember hmem).1 hm with he | hm
              · cases he
                by_cases hp0 : p' = []
                · subst hp0; right; right; exact ⟨⟨m :: r, rfl⟩, by simp⟩
                · rcases i3 _ x hp0 hp with ⟨q, rfl, hq⟩ | ⟨y, hy⟩ | ⟨hpre, hne⟩
                  · exact .inl ⟨q, rfl, hq⟩
                  · exact .inr (.inl ⟨y, .child hmem hy⟩)
                  · exact .inr (.inr ⟨List.cons_prefix_cons.2 ⟨rfl, hpre⟩, fun h => hne (List.cons_inj_right _ |>.1 h)⟩)
              · exact .inr (.inl ⟨x, .child hm.1 hp⟩)
          · intro p a t
            constructor
            · intro hp
              cases hp with
              | child hm hp =>
                rcases (mem_replaceMember hmem).1 hm with he | hm
                · cases he
                  rcases (i4 _ a t).1 hp with ⟨q, rfl, hq⟩ | hq
                  · exact .inl ⟨q, rfl, hq⟩
                  · exact .inr (.child hmem hq)
                · exact .inr (.child hm.1 hp)
            · rintro (⟨q, rfl, hq⟩ | hp)
              · exact .child ((mem_replaceMember hmem).2 (.inl rfl)) ((i4 _ a t).2 (.inl ⟨q, rfl, hq⟩))
              · cases hp with
                | @child _ k _ _ _ hm hp =>
                  by_cases hk : k = n
                  · subst hk
                    have := hu _ hm
                    subst this
                    exact .child ((mem_replaceMember hmem).2 (.inl rfl)) ((i4 _ a t).2 (.inr hp))
                  · exact .child ((mem_replaceMember hmem).2 (.inr ⟨hm, hk⟩)) hp
          · intro p
            constructor
            · intro hp
              cases hp with
              | child hm hp =>
                rcases (mem_replaceMember hmem).1 hm with he | hm
                · cases he
                  rcases (i5 _).1 hp with ⟨q, rfl, hq⟩ | hq
                  · exact .inl ⟨q, rfl, hq⟩
                  · exact .inr (.child hmem hq)
                · exact .inr (.child hm.1 hp)
            · rintro (⟨q, rfl, hq⟩ | hp)
              · exact .child ((mem_replaceMember hmem).2 (.inl rfl)) ((i5 _).2 (.inl ⟨q, rfl, hq⟩))
              · cases hp with
                | @child _ k _ _ _ hm hp =>
                  by_cases hk : k = n
                  · subst hk
                    have := hu _ hm
                    subst this
                    exact .child ((mem_replaceMember hmem).2 (.inl rfl)) ((i5 _).2 (.inr hp))
                  · exact .child ((mem_replaceMember hmem).2 (.inr ⟨hm, hk⟩)) hp

/-- Creation succeeds if on the way there are only groups and nothing is at the place itself. -/
theorem h5Create_ok (new : H5) : ∀ (cs : List PyStr) (f : H5File), cs ≠ [] →
    (∀ p x, p ≠ [] → NodeAt (.group f) p x → p <+: cs → p ≠ cs ∧ ∃ ch, x = .group ch) → ∃ f', h5Create new cs f = .ok f' := by
  intro cs
  induction cs with
  | nil => intro f h; exact absurd rfl h
  | cons n r ih =>
    intro f _ h
    cases r with
    | nil =>
      rw [h5Create]
      cases hl : f.lookup n with
      | none => exact ⟨_, rfl⟩
      | some y => exact absurd rfl (h [n] y (by simp) (.child (lookup_mem hl) (.here _)) (by simp)).1
    | cons m r =>
      cases hl : f.lookup n with
      | none =>
        rw [h5Create_cons_none hl]
        obtain ⟨s, hs⟩ := ih [] (by simp) (by
          intro p x h0 hp
          cases hp with
          | here => exact absurd rfl h0
          | child hm _ => simp at hm)
        exact ⟨_, by rw [hs, ok_bind]⟩
      | some y =>
        obtain ⟨-, ch, rfl⟩ := h [n] y (by simp) (.child (lookup_mem hl) (.here _)) ⟨m :: r, rfl⟩
        rw [h5Create_cons_group hl]
        obtain ⟨s, hs⟩ := ih ch (by simp) (by
          intro p x h0 hp hpre
          obtain ⟨h1, h2⟩ := h (n :: p) x (by simp) (.child (lookup_mem hl) hp) (List.cons_prefix_cons.2 ⟨rfl, hpre⟩)
          exact ⟨fun he => h1 (by rw [he]), h2⟩)
        exact ⟨_, by rw [hs, ok_bind]⟩

theorem wellFormed_dataset {d : H5} (h : IsDataset d) : WellFormedH5 d := by
  intro cs ch hn
  cases d with
  | dataset a t => cases hn
  | group ch => exact h.elim
  | dangling => exact h.elim

theorem nodeAt_dataset {d x : H5} {q : List PyStr} (h : IsDataset d) (hn : NodeAt d q x) : q = [] ∧ x = d := by
  cases d with
  | dataset a t => cases hn; exact ⟨rfl, rfl⟩
  | group ch => exact h.elim
  | dangling => exact h.elim

theorem hasExactly_nil : HasExactly [] [] := by
  refine ⟨by rw [wellFormed_group_iff]; simp, by simp, fun p x h0 hp => ?_⟩
  cases hp with
  | here => exact absurd rfl h0
  | child hm _ => simp at hm

theorem create_exactly {f : H5File} {items : List (List PyStr × H5)} (h : HasExactly f items) (hd : ∀ q ∈ items, IsDataset q.2) {d : H5}
    (hds : IsDataset d) {cs : List PyStr} (h0 : cs ≠ []) (hg : ∀ c ∈ cs, GoodName c) (hc : ∀ q ∈ items, ¬ q.1 <+: cs ∧ ¬ cs <+: q.1) :
    ∃ f', h5Create d cs f = .ok f' ∧ HasExactly f' (items ++ [(cs, d)]) := by
  obtain ⟨hwf, hin, hout⟩ := h
  obtain ⟨f', hf'⟩ := h5Create_ok d cs f h0 (by
    intro p x hp0 hp hpre
    rcases hout p x hp0 hp with hm | ⟨⟨ch, rfl⟩, q, hq, h1, h2⟩
    · exact absurd hpre (hc _ hm).1
    · refine ⟨?_, ch, rfl⟩
      rintro rfl
      exact (hc q hq).2 h1)
  obtain ⟨i1, i2, i3, i4, i5⟩ := h5Create_spec d cs f f' hf' hwf (wellFormed_dataset hds) hg
  refine ⟨f', hf', i1, ?_, ?_⟩
  · intro q hq
    rcases List.mem_append.1 hq with hq | hq
    · have h1 := hin q hq
      have h2 := hd q hq
      cases hx : q.2 with
      | dataset a t => rw [hx] at h1; exact (i4 _ a t).2 (.inr h1)
      | group ch => rw [hx] at h2; exact h2.elim
      | dangling => rw [hx] at h2; exact h2.elim
    · rw [List.mem_singleton] at hq; subst hq; exact i2
  · intro p x hp0 hp
    cases x with
    | dataset a t =>
      left
      rcases (i4 p a t).1 hp with ⟨q, rfl, hq⟩ | hq
      · obtain ⟨rfl, rfl⟩ := nodeAt_dataset hds hq
        simp
      · rcases hout p _ hp0 hq with hm | ⟨⟨ch, hx⟩, -⟩
        · exact List.mem_append_left _ hm
        · simp at hx
    | dangling =>
      rcases (i5 p).1 hp with ⟨q, rfl, hq⟩ | hq
      · obtain ⟨rfl, rfl⟩ := nodeAt_dataset hds hq
        exact hds.elim
      · rcases hout p _ hp0 hq with hm | ⟨⟨ch, hx⟩, -⟩
        · exact (hd _ hm).elim
        · simp at hx
    | group ch =>
      right
      refine ⟨⟨ch, rfl⟩, ?_⟩
      rcases i3 p _ hp0 hp with ⟨q, rfl, hq⟩ | ⟨y, hy⟩ | ⟨h1, h2⟩
      · obtain ⟨rfl, he⟩ := nodeAt_dataset hds hq
        rw [← he] at hds
        exact hds.elim
      · rcases hout p y hp0 hy with hm | ⟨-, q, hq, h1, h2⟩
        · have h1 := hd _ hm
          cases y with
          | dataset a t => exact absurd (nodeAt_unique i1 hp ((i4 p a t).2 (.inr hy))) (by simp)
          | group ch => exact h1.elim
          | dangling => exact h1.elim
        · exact ⟨q, List.mem_append_left _ hq, h1, h2⟩
      · exact ⟨(cs, d), by simp, h1, h2⟩

/-- The paths and data of items. -/
def itemPaths (items : List (PyStr × H5)) : List (List PyStr × H5) := items.map fun p => (keyComps p.1, p.2)

theorem hdfAddItems_exactly (keyPath : PyStr) : ∀ (items : List (PyStr × H5)) (f : H5File) (done : List (List PyStr × H5)), HasExactly f done →
    (∀ q ∈ done, IsDataset q.2) → (∀ p ∈ items, IsDataset p.2 ∧ keyComps p.1 ≠ [] ∧ ¬ keyPath <:+: p.1) →
    Compatible ((done ++ itemPaths items).map Prod.fst) → ∃ f', hdfAddItems keyPath f items = (f', none) ∧ HasExactly f' (done ++ itemPaths items) := by
  intro items
  induction items with
  | nil => intro f done h _ _ _; exact ⟨f, rfl, by simpa [itemPaths] using h⟩
  | cons p r ih =>
    intro f done h hd hi hc
    obtain ⟨key, d⟩ := p
    obtain ⟨h1, h2, h3⟩ := hi _ (List.mem_cons_self ..)
    have hc' : Compatible (((done ++ [(keyComps key, d)]) ++ itemPaths r).map Prod.fst) := by
      simpa [itemPaths] using hc
    obtain ⟨f1, hf1, hx⟩ := create_exactly h hd h1 h2 (keyComps_good key) (by
      intro q hq
      unfold Compatible at hc
      rw [List.map_append, List.pairwise_append] at hc
      exact hc.2.2 q.1 (List.mem_map.2 ⟨q, hq, rfl⟩) (keyComps key) (by simp [itemPaths]))
    obtain ⟨f2, hf2, hx2⟩ := ih f1 (done ++ [(keyComps key, d)]) hx (by
      intro q hq
      rcases List.mem_append.1 hq with hq | hq
      · exact hd q hq
      · rw [List.mem_singleton] at hq; subst hq; exact h1) (fun p hp => hi p (List.mem_cons_of_mem _ hp)) hc'
    refine ⟨f2, ?_, by simpa [itemPaths] using hx2⟩
    rw [hdfAddItems, if_neg (by rw [strIn_iff]; exact h3), hf1]
    exact hf2

theorem hdfAddItems_append (keyPath : PyStr) (a b : List (PyStr × H5)) {f f' : H5File} (h : hdfAddItems keyPath f a = (f', none)) :
    hdfAddItems keyPath f (a ++ b) = hdfAddItems keyPath f' b := by
  induction a generalizing f with
  | nil => simp only [hdfAddItems, Prod.mk.injEq, and_true] at h; subst h; rfl
  | cons p r ih =>
    obtain ⟨key, d⟩ := p
    rw [hdfAddItems] at h
    rw [List.cons_append, hdfAddItems]
    split_ifs at h ⊢ with h1
    · simp at h
    · cases hc : h5Create d (keyComps key) f with
      | error e => rw [hc] at h; simp at h
      | ok f1 =>
        rw [hc] at h
        exact ih h

theorem hdfAddItems_append_error (keyPath : PyStr) (a b : List (PyStr × H5)) {f f' : H5File} {e : PyErr}
    (h : hdfAddItems keyPath f a = (f', some e)) : hdfAddItems keyPath f (a ++ b) = (f', some e) := by
  induction a generalizing f with
  | nil => simp [hdfAddItems] at h
  | cons p r ih =>
    obtain ⟨key, d⟩ := p
    rw [hdfAddItems] at h
    rw [List.cons_append, hdfAddItems]
    split_ifs at h ⊢ with h1
    · exact h
    · cases hc : h5Create d (keyComps key) f with
      | error e => rw [hc] at h; exact h
      | ok f1 =>
        rw [hc] at h
        exact ih h

theorem hdfAddOptions_dicts (keyPath : PyStr) : ∀ (ls : List (List (PyStr × H5))) (f : H5File),
    hdfAddOptions keyPath f (ls.map HdfOption.dict) = hdfAddItems keyPath f ls.flatten := by
  intro ls
  induction ls with
  | nil => intro f; rfl
  | cons l r ih =>
    intro f
    rw [List.map_cons, hdfAddOptions, List.flatten_cons]
    rcases hx : hdfAddItems keyPath f l with ⟨f', _ | e⟩
    · rw [hdfAddItems_append keyPath _ _ hx]
      exact ih f'
    · rw [hdfAddItems_append_error keyPath _ _ hx]

/-- The content written by `open_hdf_stream` if nothing fails. -/
theorem hdfStreamContent_exactly (keyPath : PyStr) (d : H5) (dicts : List (List (PyStr × H5))) (hd : IsDataset d) (h0 : keyComps keyPath ≠ [])
    (hi : ∀ p ∈ dicts.flatten, IsDataset p.2 ∧ keyComps p.1 ≠ [] ∧ ¬ keyPath <:+: p.1)
    (hc : Compatible ((dicts.flatten.map fun p => keyComps p.1) ++ [keyComps keyPath])) :
    ∃ f, hdfStreamContent keyPath d (dicts.map .dict) = (f, none) ∧
      HasExactly f ((dicts.flatten.map fun p => (keyComps p.1, p.2)) ++ [(keyComps keyPath, d)]) := by
  obtain ⟨f1, hf1, hx1⟩ := hdfAddItems_exactly keyPath dicts.flatten [] [] hasExactly_nil (by simp) hi (by
    unfold Compatible at hc ⊢
    rw [List.pairwise_append] at hc
    simpa [itemPaths, Function.comp_def] using hc.1)
  rw [List.nil_append] at hx1
  obtain ⟨f2, hf2, hx2⟩ := create_exactly hx1 (by
    intro q hq
    obtain ⟨p, hp, rfl⟩ := List.mem_map.1 hq
    exact (hi p hp).1) hd h0 (keyComps_good keyPath) (by
    intro q hq
    obtain ⟨p, hp, rfl⟩ := List.mem_map.1 hq
    unfold Compatible at hc
    rw [List.pairwise_append] at hc
    exact hc.2.2 _ (List.mem_map.2 ⟨p, hp, rfl⟩) _ (by simp))
  refine ⟨f2, ?_, hx2⟩
  unfold hdfStreamContent
  rw [hdfAddOptions_dicts, hf1]
  simp only
  rw [hf2]

theorem save_ok_stores {α : Type} {lower : PyStr → PyStr} {fs : FS α} {j : SaveJob α} {q : FilePath} (hp : j.kind.isPlot = false)
    (h : (save lower fs j).1 = .ok q) : j.failed = none ∧ readFile (save lower fs j).2 q = .ok j.content := by
  unfold save at h ⊢
  split at h
  · cases h
  · rename_i q' fs1 hprep
    have hw' : writeTarget j.kind q' = q' := by unfold writeTarget; rw [hp]; rfl
    rcases finishSave_cases fs1 j q' with ⟨e, h1⟩ | ⟨fs2, hw, ⟨e, h1⟩ | h1⟩
    · rw [h1] at h; cases h
    · rw [h1] at h; cases h
    · refine ⟨?_, ?_⟩
      · unfold finishSave at h1
        cases hf : j.failed with
        | none => rfl
        | some e =>
          rw [hf, hw] at h1
          cases hff : j.kind.failsFirst <;> rw [hff] at h1 <;> simp at h1
      · rw [h1] at h ⊢
        cases h
        rw [hw'] at hw
        simp only
        rw [(writeFile_ok hw).1]
        unfold readFile
        simp

/-- A visited object for which a key is found is a group with a dataset called `data`. -/
theorem getKey_iff {p : List PyStr × H5} {key : PyStr} : getKey p = some key ↔
    ∃ ch a t, p.2 = .group ch ∧ ("data".toList, .dataset a t) ∈ ch ∧ key = '/' :: joinKey p.1 ++ '/' :: "data".toList := by
  obtain ⟨path, x⟩ := p
  cases x with
  | dataset a t => simp [getKey]
  | dangling => simp [getKey]
  | group ch =>
    simp only [getKey]
    by_cases h : ch.any isDataMember
    · rw [if_pos h]
      rw [List.any_eq_true] at h
      obtain ⟨⟨n, c⟩, hm, hd⟩ := h
      cases c with
      | group _ => simp [isDataMember] at hd
      | dangling => simp [isDataMember] at hd
      | dataset a t =>
        simp only [isDataMember, decide_eq_true_eq] at hd
        subst hd
        constructor
        · rintro h; cases h; exact ⟨ch, a, t, rfl, hm, rfl⟩
        · rintro ⟨_, _, _, -, -, rfl⟩; rfl
    · rw [if_neg h]
      simp only [reduceCtorEq, false_iff, not_exists, not_and]
      rintro ch' a t he hm
      cases he
      exact absurd (List.any_eq_true.2 ⟨_, hm, by simp [isDataMember]⟩) h

/-- The key that is found automatically leads to a dataset called `data` in a group below the root. -/
theorem autoKey_some {f : H5File} {key : PyStr} (h : (h5VisitMembers [] f).findSome? getKey = some key) :
    ∃ cs a t, cs ≠ [] ∧ key = '/' :: joinKey (cs ++ ["data".toList]) ∧ NodeAt (.group f) (cs ++ ["data".toList]) (.dataset a t) := by
  obtain ⟨p, hp, hk⟩ := List.exists_of_findSome?_eq_some h
  obtain ⟨ch, a, t, h1, h2, rfl⟩ := getKey_iff.1 hk
  obtain ⟨n, c, cs, hm, h3, h4, -⟩ := (mem_h5VisitMembers [] f p).1 hp
  rw [h1] at h4
  rw [List.nil_append] at h3
  refine ⟨n :: cs, a, t, by simp, ?_, nodeAt_append (.child hm h4) h2⟩
  rw [joinKey_append (by simp), h3]
  rfl

theorem autoKey_none {f : H5File} (h : (h5VisitMembers [] f).findSome? getKey = none) (cs : List PyStr) (a : NdArr ℝ) (t : PyStr)
    (h0 : cs ≠ []) : ¬ NodeAt (.group f) (cs ++ ["data".toList]) (.dataset a t) := by
  intro hn
  rw [List.findSome?_eq_none_iff] at h
  obtain ⟨ch, h1, h2⟩ := nodeAt_dropLast hn (by simp)
  rw [List.dropLast_concat] at h1
  rw [List.getLast_append_singleton] at h2
  have hmem : (cs, H5.group ch) ∈ h5VisitMembers [] f := by
    rw [mem_h5VisitMembers]
    cases h1 with
    | here => exact absurd rfl h0
    | child hm h1 => exact ⟨_, _, _, hm, rfl, h1, trivial⟩
  have h3 := h _ hmem
  rw [getKey_iff.2 ⟨ch, a, t, rfl, h2, rfl⟩] at h3
  cases h3

/-- Saving over an existing file. -/
theorem save_overwrite {α : Type} {lower : PyStr → PyStr} {fs : FS α} {j : SaveJob α} {p : FilePath} {old : α} (ho : j.overwrite = true)
    (hk : j.kind.failsFirst = false) (hp : j.kind.isPlot = false) (hn : normalise lower j.kind j.path = .ok p)
    (hs : ∃ stem suf, SplitAs p.name stem suf) (hdir : fs p.dir = some .dir) (hold : HasFile fs p.comps old) :
    save lower fs j = ((match j.failed with | some e => .error e | none => .ok p), fun q => if q = p.comps then some (.file j.content) else fs q) := by
  obtain ⟨st, sf, hs⟩ := hs
  have hsf : suffixOf p.name ≠ [] := fun h => suffixOf_eq_nil.1 h _ _ hs
  have hcf : createFolder fs p = .ok fs := by
    have e : createFolder fs p = if (fs (folderOf p)).isSome then .ok fs else mkdirs fs (folderOf p) := rfl
    have hfold : folderOf p = p.dir := by unfold folderOf; rw [if_pos hsf]
    rw [e, hfold, hdir]; rfl
  have hprep : prepareSave lower fs j = (.ok p, fs) := by
    unfold prepareSave
    rw [hn]
    simp only
    rw [hcf]
    simp only [ho, if_true]
  have hw : writeTarget j.kind p = p := by unfold writeTarget; rw [hp]; rfl
  have hwr : writeFile fs p j.content = .ok fun q => if q = p.comps then some (.file j.content) else fs q := by
    unfold writeFile
    rw [hdir]
    simp only
    rw [show fs p.comps = some (.file old) from hold]
  unfold save
  rw [hprep]
  simp only
  unfold finishSave
  rw [hk, hw, hwr]
  cases j.failed <;> rfl

theorem hdfSaveContent_exactly {key : PyStr} {d : H5} (hd : IsDataset d) (hk : keyComps key ≠ []) :
    ∃ f, hdfSaveContent key d = (f, none) ∧ HasExactly f [(keyComps key ++ ["data".toList], d)] := by
  have hg := keyComps_good key
  have hdata : GoodName "data".toList := by unfold GoodName; decide
  have hnil : ∀ (p : List PyStr) x, p ≠ [] → ¬ NodeAt (.group []) p x := by
    intro p x h0 hp
    cases hp with
    | here => exact h0 rfl
    | child hm _ => simp at hm
  have hwn : WellFormedH5 (.group []) := by rw [wellFormed_group_iff]; simp
  obtain ⟨f1, hf1⟩ := h5Create_ok (.group []) (keyComps key) [] hk fun p x h0 hp => absurd hp (hnil p x h0)
  obtain ⟨i1, i2, i3, i4, i5⟩ := h5Create_spec _ _ _ _ hf1 hwn hwn hg
  have honly : ∀ p x, p ≠ [] → NodeAt (.group f1) p x → p <+: keyComps key ∧ ∃ ch, x = .group ch := by
    intro p x h0 hp
    have hpre : p <+: keyComps key := by
      rcases i3 p x h0 hp with ⟨q, rfl, hq⟩ | ⟨y, hy⟩ | h
      · by_cases hq0 : q = []
        · subst hq0; simp
        · exact absurd hq (hnil q x hq0)
      · exact absurd hy (hnil p y h0)
      · exact h.1
    refine ⟨hpre, ?_⟩
    cases x with
    | group ch => exact ⟨ch, rfl⟩
    | dataset a t =>
      rcases (i4 p a t).1 hp with ⟨q, -, hq⟩ | hq
      · exact absurd hq (hnil q _ (by rintro rfl; cases hq))
      · exact absurd hq (hnil p _ h0)
    | dangling =>
      rcases (i5 p).1 hp with ⟨q, -, hq⟩ | hq
      · exact absurd hq (hnil q _ (by rintro rfl; cases hq))
      · exact absurd hq (hnil p _ h0)
  have hg2 : ∀ c ∈ keyComps key ++ ["data".toList], GoodName c := by
    intro c hc
    rcases List.mem_append.1 hc with hc | hc
    · exact hg c hc
    · rw [List.mem_singleton] at hc; subst hc; exact hdata
  obtain ⟨f2, hf2⟩ := h5Create_ok d (keyComps key ++ ["data".toList]) f1 (by simp) fun p x h0 hp hpre => by
    obtain ⟨h1, ch, rfl⟩ := honly p x h0 hp
    refine ⟨?_, ch, rfl⟩
    rintro rfl
    have := h1.length_le
    simp at this
  obtain ⟨j1, j2, j3, j4, j5⟩ := h5Create_spec _ _ _ _ hf2 i1 (wellFormed_dataset hd) hg2
  refine ⟨f2, ?_, j1, ?_, ?_⟩
  · unfold hdfSaveContent
    rw [hf1]
    simp only
    rw [hf2]
  · intro q hq
    rw [List.mem_singleton] at hq; subst hq; exact j2
  · intro p x h0 hp
    cases x with
    | dataset a t =>
      left
      rcases (j4 p a t).1 hp with ⟨q, rfl, hq⟩ | hq
      · obtain ⟨rfl, rfl⟩ := nodeAt_dataset hd hq; simp
      · obtain ⟨-, ch, he⟩ := honly p _ h0 hq; simp at he
    | dangling =>
      rcases (j5 p).1 hp with ⟨q, rfl, hq⟩ | hq
      · obtain ⟨rfl, rfl⟩ := nodeAt_dataset hd hq; exact hd.elim
      · obtain ⟨-, ch, he⟩ := honly p _ h0 hq; simp at he
    | group ch =>
      right
      refine ⟨⟨ch, rfl⟩, (keyComps key ++ ["data".toList], d), by simp, ?_⟩
      rcases j3 p _ h0 hp with ⟨q, rfl, hq⟩ | ⟨y, hy⟩ | h
      · obtain ⟨rfl, he⟩ := nodeAt_dataset hd hq
        rw [← he] at hd; exact hd.elim
      · obtain ⟨h1, -⟩ := honly p _ h0 hy
        refine ⟨h1.trans (List.prefix_append _ _), ?_⟩
        rintro rfl
        have := h1.length_le
        simp at this
      · exact h

end Discorpy
