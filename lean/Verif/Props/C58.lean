import Verif.Lemmas.Path

/-! # C58 — suffix normalisation of the save functions -/

namespace Discorpy

open Spec

/-- **C58 (accepted).** A path with an accepted suffix (in any letter case) is left untouched. -/
theorem C58_accepted (lower : PyStr → PyStr) (k : SaveKind) (p : FilePath) (stem suf : PyStr) (hs : SplitAs p.name stem suf)
    (h : AcceptedSuffix k (lower suf)) : normalise lower k p = .ok p := by
  obtain ⟨h1, -⟩ := suffixOf_split hs
  cases k <;> simp_all [normalise, SaveKind.suffixes, AcceptedSuffix]

/-- **C58 (replaced).** Any other suffix, and a missing one, is replaced by the standard suffix; directory and stem stay. -/
theorem C58_replaced (lower : PyStr → PyStr) (hl : LowerFixes lower) (k : SaveKind) (hk : Normalises k) (p : FilePath) (hp : p.name ≠ [])
    (stem suf : PyStr) (hs : SplitAs p.name stem suf ∨ (Suffixless p.name ∧ stem = p.name ∧ suf = []))
    (h : ¬ AcceptedSuffix k (lower suf)) :
    ∃ q, normalise lower k p = .ok q ∧ q.dir = p.dir ∧ q.name = stem ++ defaultSuffix k ∧ SplitAs q.name stem (defaultSuffix k) ∧
      AcceptedSuffix k (lower (defaultSuffix k)) := by
  have e : suffixOf p.name = suf ∧ stemOf p.name = stem := by
    rcases hs with hs | ⟨h1, rfl, rfl⟩
    · exact suffixOf_split hs
    · exact suffixOf_none h1
  rcases normalise_cases hk p with ⟨h1, -⟩ | ⟨-, h2⟩
  · rw [e.1] at h1; exact absurd h1 h
  · obtain ⟨q, hq⟩ : ∃ q, withSuffix p (defaultSuffix k) = .ok q := by unfold withSuffix; rw [if_neg hp]; exact ⟨_, rfl⟩
    obtain ⟨-, h3, h4, h5⟩ := suffixOf_withSuffix hq (defaultSuffix_form k)
    rw [e.2] at h4 h5
    exact ⟨q, h2.trans hq, h3, h4, h5, by rw [defaultSuffix_lower hl]; exact defaultSuffix_accepted hk⟩

/-- **C58 (no name).** A path without a name (the root) is refused with a ValueError. -/
theorem C58_no_name (lower : PyStr → PyStr) (k : SaveKind) (hk : Normalises k) (p : FilePath) (hp : p.name = [])
    (h : ¬ AcceptedSuffix k (lower [])) : normalise lower k p = .error .valueError := by
  rcases normalise_cases hk p with ⟨h1, -⟩ | ⟨-, h2⟩
  · rw [hp] at h1; exact absurd h1 h
  · rw [h2]; unfold withSuffix; rw [if_pos hp]

/-- **C58 (idempotent).** Normalising twice is the same as normalising once. -/
theorem C58_idempotent (lower : PyStr → PyStr) (hl : LowerFixes lower) (k : SaveKind) (hk : Normalises k) (p q : FilePath)
    (h : normalise lower k p = .ok q) : normalise lower k q = .ok q := by
  rcases normalise_cases hk p with ⟨h1, h2⟩ | ⟨-, h2⟩
  · rw [h2] at h; cases h; exact h2
  · rw [h2] at h
    obtain ⟨-, -, -, h5⟩ := suffixOf_withSuffix h (defaultSuffix_form k)
    refine C58_accepted lower k q _ _ h5 ?_
    rw [defaultSuffix_lower hl]; exact defaultSuffix_accepted hk

/-- **C58 (collisions).** Two names with the same stem and foreign suffixes in the same directory are saved to the same file. -/
theorem C58_collision (lower : PyStr → PyStr) (hl : LowerFixes lower) (k : SaveKind) (hk : Normalises k) (d : List PyStr)
    (stem suf suf' name name' : PyStr) (hs : SplitAs name stem suf) (hs' : SplitAs name' stem suf')
    (h : ¬ AcceptedSuffix k (lower suf)) (h' : ¬ AcceptedSuffix k (lower suf')) :
    normalise lower k ⟨d, name⟩ = normalise lower k ⟨d, name'⟩ := by
  have hn : name ≠ [] := by rw [hs.1]; simp [hs.2.1]
  have hn' : name' ≠ [] := by rw [hs'.1]; simp [hs'.2.1]
  obtain ⟨q, h1, h2, h3, -⟩ := C58_replaced lower hl k hk ⟨d, name⟩ hn stem suf (.inl hs) h
  obtain ⟨q', h1', h2', h3', -⟩ := C58_replaced lower hl k hk ⟨d, name'⟩ hn' stem suf' (.inl hs') h'
  rw [h1, h1']
  congr 1
  cases q; cases q'
  simp_all

/-- **C58 (images and plots).** `save_image` and the plot functions leave the path as it is. -/
theorem C58_images (lower : PyStr → PyStr) (k : SaveKind) (hk : ¬ Normalises k) (p : FilePath) : normalise lower k p = .ok p := by
  cases k <;> simp_all [Normalises, normalise, SaveKind.suffixes]

/-- ASCII lower case meets the assumption, `out.HDF5` is accepted, and `run.1` and `run.2` collide in `run.txt`. -/
example : LowerFixes (List.map Char.toLower) ∧ normalise (List.map Char.toLower) .hdf ⟨[], "out.HDF5".toList⟩ = .ok ⟨[], "out.HDF5".toList⟩ ∧
    normalise (List.map Char.toLower) .txt ⟨[], "run.1".toList⟩ = .ok ⟨[], "run.txt".toList⟩ ∧
    normalise (List.map Char.toLower) .txt ⟨[], "run.2".toList⟩ = .ok ⟨[], "run.txt".toList⟩ :=
  ⟨by unfold LowerFixes; decide, by rfl, by rfl, by rfl⟩

theorem split_run : SplitAs "run.1".toList "run".toList ".1".toList := ⟨by decide, by decide, "1".toList, by decide, by decide, by decide⟩

theorem lower_ascii : LowerFixes (List.map Char.toLower) := by unfold LowerFixes; decide

example := C58_accepted (List.map Char.toLower) .txt ⟨[], "run.DAT".toList⟩ "run".toList ".DAT".toList ⟨by decide, by decide, "DAT".toList, by decide, by decide, by decide⟩ (.inr (by decide))

example := C58_replaced _ lower_ascii .txt (.inr (.inr (.inl rfl))) ⟨[], "run.1".toList⟩ (by decide) _ _ (.inl split_run) (by unfold AcceptedSuffix; decide)

example := C58_no_name (List.map Char.toLower) .txt (.inr (.inr (.inl rfl))) ⟨[], []⟩ rfl (by unfold AcceptedSuffix; decide)

example := C58_idempotent _ lower_ascii .txt (.inr (.inr (.inl rfl))) ⟨[], "run.1".toList⟩ ⟨[], "run.txt".toList⟩ (by rfl)

example := C58_collision _ lower_ascii .txt (.inr (.inr (.inl rfl))) [] _ _ _ _ _ split_run (show SplitAs "run.2".toList "run".toList ".2".toList from
  ⟨by decide, by decide, "2".toList, by decide, by decide, by decide⟩) (by unfold AcceptedSuffix; decide) (by unfold AcceptedSuffix; decide)

example := C58_images (List.map Char.toLower) .image (by simp [Normalises]) ⟨[], "a.1".toList⟩

end Discorpy
