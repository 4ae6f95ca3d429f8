import Verif.Lemmas.Fit

/-! # Helper lemmas: splitting a sorted list -/

namespace Discorpy

theorem sorted_split {α : Type*} (key : α → ℝ) (P : α → Bool) (l : List α)
    (hs : l.Pairwise fun a b => key a ≤ key b) (hP : ∀ a b, key a ≤ key b → P b = true → P a = true) :
    l = l.filter P ++ l.filter (fun a => !P a) := by
  induction l with
  | nil => rfl
  | cons a l ih =>
    obtain ⟨h1, h2⟩ := List.pairwise_cons.1 hs
    have e := ih h2
    by_cases h : P a = true
    · rw [List.filter_cons_of_pos h, List.filter_cons_of_neg (by simp [h]), List.cons_append, ← e]
    · have hn : ∀ b ∈ l, ¬ P b = true := fun b hb hb' => h (hP a b (h1 b hb) hb')
      have e1 : l.filter P = [] := List.filter_eq_nil_iff.2 hn
      have e2 : l.filter (fun a => !P a) = l := List.filter_eq_self.2 (by intro b hb; simpa using hn b hb)
      rw [List.filter_cons_of_neg h, List.filter_cons_of_pos (by simp [h]), e1, e2]
      rfl

open Classical in
/-- A list sorted by a key that is a rearrangement of `A ++ B`, all keys of `A` being smaller, starts with `A`. -/
theorem sorted_take_drop {α : Type*} (key : α → ℝ) {l A B : List α} (hs : l.Pairwise fun a b => key a ≤ key b)
    (hp : l.Perm (A ++ B)) (hlt : ∀ a ∈ A, ∀ b ∈ B, key a < key b) :
    (l.take A.length).Perm A ∧ (l.drop A.length).Perm B := by
  set P : α → Bool := fun x => decide (∃ a ∈ A, key x ≤ key a) with hPd
  have e := sorted_split key P l hs (by
    intro a b hab hb
    simp only [hPd, decide_eq_true_eq] at *
    obtain ⟨c, hc, h⟩ := hb
    exact ⟨c, hc, hab.trans h⟩)
  have hA : ∀ a ∈ A, P a = true := fun a ha => by simp only [hPd, decide_eq_true_eq]; exact ⟨a, ha, le_rfl⟩
  have hB : ∀ b ∈ B, ¬ P b = true := fun b hb h => by
    simp only [hPd, decide_eq_true_eq] at h
    obtain ⟨a, ha, h⟩ := h
    exact absurd (hlt a ha b hb) (not_lt.2 h)
  have f1 : (l.filter P).Perm A := by
    have := hp.filter P
    rwa [List.filter_append, List.filter_eq_self.2 hA, List.filter_eq_nil_iff.2 hB, List.append_nil] at this
  have f2 : (l.filter fun a => !P a).Perm B := by
    have := hp.filter fun a => !P a
    have e1 : A.filter (fun a => !P a) = [] := List.filter_eq_nil_iff.2 (by intro a ha; simp [hA a ha])
    have e2 : B.filter (fun a => !P a) = B := List.filter_eq_self.2 (by intro b hb; simpa using hB b hb)
    rwa [List.filter_append, e1, e2, List.nil_append] at this
  have hl := f1.length_eq
  have t1 : l.take A.length = l.filter P := by
    conv_lhs => rw [e, ← hl]
    rw [List.take_left']
    rfl
  have t2 : l.drop A.length = l.filter (fun a => !P a) := by
    conv_lhs => rw [e, ← hl]
    rw [List.drop_left']
    rfl
  rw [t1, t2]
  exact ⟨f1, f2⟩

/-- Two elements in strict key order. -/
theorem sorted_pair {α : Type*} (key : α → ℝ) {l : List α} {a b : α} (hs : l.Pairwise fun a b => key a ≤ key b)
    (hp : l.Perm [a, b]) (hlt : key a < key b) : l = [a, b] := by
  obtain ⟨h1, h2⟩ := sorted_take_drop key (A := [a]) (B := [b]) hs hp (by simpa using hlt)
  rw [← List.take_append_drop 1 l]
  have e1 : List.take 1 l = [a] := List.perm_singleton.1 h1
  have e2 : List.drop 1 l = [b] := List.perm_singleton.1 h2
  rw [e1, e2]
  rfl

end Discorpy
