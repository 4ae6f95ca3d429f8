import Verif.Py.Array

/-! # Helper lemmas: exceptions as values -/

namespace Discorpy

variable {ε α β γ : Type}

theorem bind_ok_iff {x : Except ε α} {f : α → Except ε β} {b : β} :
    (x >>= f) = .ok b ↔ ∃ a, x = .ok a ∧ f a = .ok b := by
  cases x with
  | error e => simp [bind, Except.bind]
  | ok a => simp [bind, Except.bind]

@[simp] theorem ok_bind (a : α) (f : α → Except ε β) : (Except.ok a >>= f) = f a := rfl

@[simp] theorem error_bind (e : ε) (f : α → Except ε β) : ((Except.error e : Except ε α) >>= f) = .error e := rfl

theorem mapM_ok_iff {f : α → Except ε β} {l : List α} {r : List β} :
    l.mapM f = .ok r ↔ List.Forall₂ (fun a b => f a = .ok b) l r := by
  induction l generalizing r with
  | nil =>
    constructor
    · intro h
      have : r = [] := by simpa [pure, Except.pure] using h.symm
      rw [this]; exact .nil
    · intro h; cases h; rfl
  | cons a l ih =>
    rw [List.mapM_cons, bind_ok_iff]
    constructor
    · rintro ⟨b, hb, h⟩
      rw [bind_ok_iff] at h
      obtain ⟨bs, hbs, h⟩ := h
      have : r = b :: bs := by simpa [pure, Except.pure] using h.symm
      rw [this]
      exact .cons hb (ih.1 hbs)
    · intro h
      cases h with
      | @cons _ b _ bs hb hbs =>
        exact ⟨b, hb, bind_ok_iff.2 ⟨bs, ih.2 hbs, rfl⟩⟩

theorem exists_mapM_ok {f : α → Except ε β} {l : List α} (h : ∀ a ∈ l, ∃ b, f a = .ok b) : ∃ r, l.mapM f = .ok r := by
  induction l with
  | nil => exact ⟨[], rfl⟩
  | cons a l ih =>
    obtain ⟨b, hb⟩ := h a (by simp)
    obtain ⟨r, hr⟩ := ih (fun x hx => h x (by simp [hx]))
    exact ⟨b :: r, mapM_ok_iff.2 (.cons hb (mapM_ok_iff.1 hr))⟩

theorem mapM_eq_map {f : α → Except ε β} {g : α → β} {l : List α} (h : ∀ a ∈ l, f a = .ok (g a)) :
    l.mapM f = .ok (l.map g) := by
  rw [mapM_ok_iff, List.forall₂_map_right_iff, List.forall₂_same]
  exact h

theorem mapM_congr' {f g : α → Except ε β} {l : List α} (h : ∀ a ∈ l, f a = g a) : l.mapM f = l.mapM g := by
  induction l with
  | nil => rfl
  | cons a l ih =>
    rw [List.mapM_cons, List.mapM_cons, h a (by simp), ih fun x hx => h x (by simp [hx])]

theorem mapM_map' {f : β → Except ε γ} {g : α → β} {l : List α} : (l.map g).mapM f = l.mapM (fun a => f (g a)) := by
  induction l with
  | nil => rfl
  | cons a l ih => rw [List.map_cons, List.mapM_cons, List.mapM_cons, ih]

theorem npGet_ok_iff {l : List α} {i : ℕ} {a : α} : npGet l i = .ok a ↔ l[i]? = some a := by
  unfold npGet
  split <;> simp_all

theorem npGet_of_lt {l : List α} {i : ℕ} (h : i < l.length) : npGet l i = .ok l[i] := by
  rw [npGet_ok_iff, List.getElem?_eq_getElem h]

theorem finDiv_ok {a b : ℝ} (h : b ≠ 0) : finDiv a b = .ok (a / b) := by rw [finDiv, if_neg h]

theorem finDiv_ok_iff {a b q : ℝ} : finDiv a b = .ok q ↔ b ≠ 0 ∧ q = a / b := by
  unfold finDiv
  split
  · simp_all
  · simp_all [eq_comm]

end Discorpy
