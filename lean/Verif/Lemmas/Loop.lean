import Verif.Py.Loop
import Verif.Lemmas.Except

/-! # Helper lemmas: `while` loops -/

namespace Discorpy

variable {σ β : Type} {step : σ → Except PyErr (σ ⊕ β)}

theorem runFuel_mono {n m : ℕ} {s : σ} {r : Except PyErr β} (h : runFuel step n s = some r) (hm : n ≤ m) :
    runFuel step m s = some r := by
  induction n generalizing m s with
  | zero => cases h
  | succ n ih =>
    obtain ⟨m, rfl⟩ : ∃ k, m = k + 1 := ⟨m - 1, by omega⟩
    rw [runFuel] at h ⊢
    split at h <;> simp_all

theorem whileLoop_eq {n : ℕ} {s : σ} {r : Except PyErr β} (h : runFuel step n s = some r) : whileLoop step s = r := by
  have hex : ∃ n r, runFuel step n s = some r := ⟨n, r, h⟩
  unfold whileLoop
  rw [dif_pos hex]
  have h1 := hex.choose_spec.choose_spec
  rcases le_total n hex.choose with hle | hle
  · have := runFuel_mono h hle
    exact Option.some_inj.1 (h1.symm.trans this)
  · have := runFuel_mono h1 hle
    rw [this] at h
    exact Option.some_inj.1 h

theorem whileLoop_unfold (s : σ) : whileLoop step s =
    match step s with
    | .error e => .error e
    | .ok (.inr b) => .ok b
    | .ok (.inl s') => whileLoop step s' := by
  cases hs : step s with
  | error e => exact whileLoop_eq (n := 1) (by simp [runFuel, hs])
  | ok x =>
    cases x with
    | inr b => exact whileLoop_eq (n := 1) (by simp [runFuel, hs])
    | inl s' =>
      by_cases hex : ∃ n r, runFuel step n s' = some r
      · obtain ⟨n, r, h⟩ := hex
        simp only
        rw [whileLoop_eq h]
        exact whileLoop_eq (n := n + 1) (by simp [runFuel, hs, h])
      · have hex' : ¬ ∃ n r, runFuel step n s = some r := by
          rintro ⟨n, r, h⟩
          cases n with
          | zero => cases h
          | succ n =>
            rw [runFuel, hs] at h
            exact hex ⟨n, r, h⟩
        simp only
        unfold whileLoop
        rw [dif_neg hex, dif_neg hex']

/-- Termination by a decreasing measure on states satisfying an invariant. -/
theorem exists_runFuel (I : σ → Prop) (μ : σ → ℕ) (hI : ∀ s s', I s → step s = .ok (.inl s') → I s' ∧ μ s' < μ s) :
    ∀ s, I s → ∃ n r, runFuel step n s = some r := by
  intro s
  induction hn : μ s using Nat.strong_induction_on generalizing s with
  | _ k ih =>
    intro hs
    cases hst : step s with
    | error e => exact ⟨1, .error e, by simp [runFuel, hst]⟩
    | ok x =>
      cases x with
      | inr b => exact ⟨1, .ok b, by simp [runFuel, hst]⟩
      | inl s' =>
        obtain ⟨h1, h2⟩ := hI s s' hs hst
        obtain ⟨n, r, h⟩ := ih (μ s') (by omega) s' rfl h1
        exact ⟨n + 1, r, by simp [runFuel, hst, h]⟩

/-- Invariant rule. -/
theorem whileLoop_inv (I : σ → Prop) (Q : β → Prop) (hI : ∀ s s', I s → step s = .ok (.inl s') → I s')
    (hQ : ∀ s b, I s → step s = .ok (.inr b) → Q b) {s : σ} (hs : I s) {b : β} (h : whileLoop step s = .ok b) : Q b := by
  by_cases hex : ∃ n r, runFuel step n s = some r
  · obtain ⟨n, r, hr⟩ := hex
    rw [whileLoop_eq hr] at h
    subst h
    induction n generalizing s with
    | zero => cases hr
    | succ n ih =>
      rw [runFuel] at hr
      split at hr
      · simp at hr
      · rename_i b' hst
        simp at hr
        subst hr
        exact hQ s _ hs hst
      · rename_i s' hst
        exact ih (hI s s' hs hst) hr
  · unfold whileLoop at h
    rw [dif_neg hex] at h
    cases h

theorem stateAfter_whileLoop {n : ℕ} {s s' : σ} (h : stateAfter step n s = some s') : whileLoop step s = whileLoop step s' := by
  induction n generalizing s' with
  | zero => simp only [stateAfter, Option.some.injEq] at h; rw [h]
  | succ n ih =>
    rw [stateAfter] at h
    split at h
    · cases h
    · rename_i t ht
      rw [ih ht, whileLoop_unfold]
      split at h
      · rename_i u hu
        rw [hu]
        simp only [Option.some.injEq] at h
        rw [h]
      · cases h

/-- A loop that is still running after any number of turns never ends. -/
theorem whileLoop_diverges {s : σ} (h : ∀ n, ∃ s', stateAfter step n s = some s') : whileLoop step s = .error .diverges := by
  have key : ∀ n s t, stateAfter step n s = some t → runFuel step n s = none := by
    intro n
    have shift : ∀ n s s', step s = .ok (.inl s') → stateAfter step (n + 1) s = stateAfter step n s' := by
      intro n
      induction n with
      | zero => intro s s' hs; simp [stateAfter, hs]
      | succ n ih => intro s s' hs; rw [stateAfter, ih s s' hs]; rfl
    have first : ∀ n s t, stateAfter step (n + 1) s = some t → ∃ s', step s = .ok (.inl s') := by
      intro n
      induction n with
      | zero =>
        intro s t ht
        rw [stateAfter, stateAfter] at ht
        split at ht
        · cases ht
        · rename_i s0 h0
          cases h0
          split at ht
          · rename_i u hu; exact ⟨u, hu⟩
          · cases ht
      | succ n ih =>
        intro s t ht
        rw [stateAfter] at ht
        split at ht
        · cases ht
        · rename_i s0 h0; exact ih s s0 h0
    induction n with
    | zero => intro s t _; rfl
    | succ n ih =>
      intro s t ht
      obtain ⟨s', hs'⟩ := first n s t ht
      rw [shift n s s' hs'] at ht
      rw [runFuel, hs']
      exact ih s' t ht
  unfold whileLoop
  rw [dif_neg]
  rintro ⟨n, r, hr⟩
  obtain ⟨t, ht⟩ := h n
  rw [key n s t ht] at hr
  cases hr

end Discorpy
