import Verif.Lemmas.Path

/-! # C54 — a fresh file name -/

namespace Discorpy

open Spec

/-- **C54 (free).** A path that does not exist is returned as it is. -/
theorem C54_free (ex : FilePath → Bool) (p : FilePath) (h : ex p = false) : createFileName ex p = .ok p := createFileName_free h

example := C54_free (fun _ => false) ⟨[], "a.tif".toList⟩ rfl

/-- **C54 (taken).** If the path exists, the search ends, with the first variant `stem_NNNN.ext` in the same directory that does
not exist; there is no limit on the number of existing files. -/
theorem C54_taken (ex : FilePath → Bool) (p : FilePath) (h : ex p = true) (hf : {q | ex q = true}.Finite) :
    ∃ q n, createFileName ex p = .ok q ∧ ex q = false ∧ q.dir = p.dir ∧ Variant p.name n q.name ∧
      ∀ m < n, ∃ r : FilePath, r.dir = p.dir ∧ Variant p.name m r.name ∧ ex r = true := by
  have hv : ∀ n, Variant p.name n (numbered p n).name := by
    intro n
    refine ⟨stemOf p.name, suffixOf p.name, fmt04 n, ?_, fmt04_padded n, by simp [numbered]⟩
    rcases split_cases p.name with h | h
    · exact .inl h
    · exact .inr ⟨h, (suffixOf_none h).2, (suffixOf_none h).1⟩
  obtain ⟨n, h1, h2, h3⟩ := createFileName_taken h hf
  exact ⟨numbered p n, n, h1, h2, rfl, hv n, fun m hm => ⟨numbered p m, rfl, hv m, h3 m hm⟩⟩

example := C54_taken (fun q => decide (q = ⟨[], "a.tif".toList⟩)) ⟨[], "a.tif".toList⟩ (by simp) (by simp)

/-- **C54 (unique number).** A name is a variant for at most one number, and for each number there is only one variant: the number
has no other spelling. -/
theorem C54_variant_unique (name : PyStr) (m n : ℕ) (a b : PyStr) (ha : Variant name m a) (hb : Variant name n b) : a = b ↔ m = n := by
  obtain ⟨st, sf, u, hs, hu, rfl⟩ := ha
  obtain ⟨st', sf', v, hs', hv, rfl⟩ := hb
  have hss : st = st' ∧ sf = sf' := by
    rcases hs with hs | ⟨h1, h2, h3⟩ <;> rcases hs' with hs' | ⟨h1', h2', h3'⟩
    · rw [← (suffixOf_split hs).1, ← (suffixOf_split hs).2, ← (suffixOf_split hs').1, ← (suffixOf_split hs').2]; simp
    · exact absurd hs (h1' _ _)
    · exact absurd hs' (h1 _ _)
    · rw [h2, h3, h2', h3']; simp
  obtain ⟨rfl, rfl⟩ := hss
  simp only [List.append_cancel_left_eq, List.append_cancel_right_eq]
  constructor
  · rintro rfl; rw [← hu.2.1, ← hv.2.1]
  · rintro rfl; exact padded_unique hu hv

/-- **C54 (suffix).** The suffix is kept, unless the name ends with a dot. -/
theorem C54_suffix (ex : FilePath → Bool) (p q : FilePath) (hdot : p.name.getLast? ≠ some '.') (h : createFileName ex p = .ok q)
    (hf : {q | ex q = true}.Finite) :
    (∀ stem suf, SplitAs p.name stem suf → ∃ stem', SplitAs q.name stem' suf) ∧ (Suffixless p.name → Suffixless q.name) := by
  cases hp : ex p with
  | false =>
    rw [createFileName_free hp] at h
    cases h
    exact ⟨fun st sf h => ⟨st, h⟩, id⟩
  | true =>
    obtain ⟨n, h1, -, -⟩ := createFileName_taken hp hf
    rw [h1] at h
    cases h
    have hnd : '.' ∉ fmt04 n := fun h => by
      have := (fmt04_padded n).1 _ h
      revert this; decide
    constructor
    · intro st sf hs
      obtain ⟨e1, e2⟩ := suffixOf_split hs
      refine ⟨st ++ ('_' :: fmt04 n), ?_, by simp, hs.2.2⟩
      simp only [numbered]; rw [e1, e2]
    · intro hs
      obtain ⟨e1, e2⟩ := suffixOf_none hs
      rw [← suffixOf_eq_nil]
      simp only [numbered]
      rw [e1, e2, List.append_nil]
      by_cases hd : '.' ∈ p.name
      · obtain ⟨a, b, hab, hb⟩ := exists_lastDot hd
        have hbn : b ≠ [] := by
          rintro rfl
          rw [hab] at hdot; simp at hdot
        have ha : a = [] := by
          by_contra ha
          exact hs a ('.' :: b) ⟨hab, ha, b, rfl, hbn, hb⟩
        subst ha
        rw [hab]
        have : [] ++ '.' :: b ++ '_' :: fmt04 n = [] ++ '.' :: (b ++ '_' :: fmt04 n) := by simp
        unfold suffixOf
        rw [this, lastDot_append (by simp [hb, hnd])]
        simp
      · unfold suffixOf lastDot
        rw [if_neg (by simp [hd, hnd])]

/-- **C54 (final dot).** A name that ends with a dot has no suffix, but its variants do. -/
theorem C54_final_dot : Suffixless "a.".toList ∧ ∃ ex : FilePath → Bool, {q | ex q = true}.Finite ∧
    ∃ q, createFileName ex ⟨[], "a.".toList⟩ = .ok q ∧ SplitAs q.name "a".toList "._0000".toList := by
  refine ⟨suffixOf_eq_nil.1 (by decide), fun q => q = ⟨[], "a.".toList⟩, by simp, ?_⟩
  refine ⟨numbered ⟨[], "a.".toList⟩ 0, ?_, by decide, by decide, "_0000".toList, by decide, by decide, by decide⟩
  unfold createFileName
  rw [if_pos (by simp), whileLoop_unfold, if_neg (by decide)]

open Classical in
/-- Directories with a path and its first N variants. -/
theorem C54_many (p : FilePath) (N : ℕ) (h : ∀ n, numbered p n ≠ p) : ∃ ex : FilePath → Bool, {q | ex q = true}.Finite ∧ ex p = true ∧
    createFileName ex p = .ok (numbered p N) := by
  refine ⟨fun q => decide (q = p ∨ ∃ n < N, q = numbered p n), ?_, by simp, ?_⟩
  · have : {q | (fun q => decide (q = p ∨ ∃ n < N, q = numbered p n)) q = true} ⊆ insert p ((numbered p) '' Set.Iio N) := by
      intro q hq
      simp only [decide_eq_true_eq, Set.mem_ofPred_eq] at hq
      rcases hq with h | ⟨n, hn, h⟩
      · exact .inl h
      · exact .inr ⟨n, hn, h.symm⟩
    exact (((Set.finite_Iio N).image _).insert _).subset this
  · unfold createFileName
    rw [if_pos (by simp)]
    refine whileLoop_search (fun n => decide (numbered p n = p ∨ ∃ m < N, numbered p n = numbered p m)) (numbered p) ?_ ?_
    · rw [decide_eq_false_iff_not]
      rintro (h' | ⟨m, hm, h'⟩)
      · exact h _ h'
      · have := numbered_injective _ h'; omega
    · intro m hm
      exact decide_eq_true (Or.inr ⟨m, hm, rfl⟩)

/-- 10001 existing files `a.tif`, `a_0000.tif`, …, `a_9999.tif`: the next name is `a_10000.tif`. -/
example : ∃ ex : FilePath → Bool, {q | ex q = true}.Finite ∧ ex ⟨[], "a.tif".toList⟩ = true ∧
    createFileName ex ⟨[], "a.tif".toList⟩ = .ok ⟨[], "a_10000.tif".toList⟩ := by
  have he : (⟨[], "a_10000.tif".toList⟩ : FilePath) = numbered ⟨[], "a.tif".toList⟩ 10000 := by decide
  rw [he]
  refine C54_many _ _ fun n hn => ?_
  have h1 : (numbered ⟨[], "a.tif".toList⟩ n).name.length = ("a.tif".toList : PyStr).length := by rw [hn]
  have e1 : stemOf "a.tif".toList = "a".toList := by decide
  have e2 : suffixOf "a.tif".toList = ".tif".toList := by decide
  simp only [numbered] at h1
  rw [e1, e2] at h1
  simp at h1

/-- The hypotheses of `C54_suffix` are met by such a directory. -/
example : ("a.tif".toList : PyStr).getLast? ≠ some '.' ∧ SplitAs "a.tif".toList "a".toList ".tif".toList :=
  ⟨by decide, by decide, by decide, "tif".toList, by decide, by decide, by decide⟩

example : "a_0001.tif".toList = "a_0001.tif".toList ↔ 1 = 1 :=
  C54_variant_unique "a.tif".toList 1 1 _ _ ⟨"a".toList, ".tif".toList, "0001".toList, .inl ⟨by decide, by decide, "tif".toList, by decide, by decide, by decide⟩,
      ⟨by decide, by decide, by decide, by decide⟩, by decide⟩
    ⟨"a".toList, ".tif".toList, "0001".toList, .inl ⟨by decide, by decide, "tif".toList, by decide, by decide, by decide⟩,
      ⟨by decide, by decide, by decide, by decide⟩, by decide⟩

end Discorpy
