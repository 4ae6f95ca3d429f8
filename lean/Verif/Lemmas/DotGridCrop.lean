import Verif.Lemmas.DotGrid

/-! # Lemmas about the part of a grid of round dots seen through a window -/

namespace Discorpy

open Spec

/-- The positions of dots (rows or columns, counted from `a`) whose dots of half-size `r` are inside a window of `n` pixels and do
not touch its border. -/
def inWindow (P : Set ℤ) (a n : ℕ) (e r : ℤ) : Set ℤ := {p | p + a ∈ P ∧ 1 ≤ p + e - r ∧ p + r + 2 ≤ n}

theorem Spaced.window {n : ℕ} {e r : ℤ} {P : Set ℤ} (h : Spaced n e r P) (a k : ℕ) : Spaced k e r (inWindow P a k e r) :=
  ⟨fun p hp p' hp' hl => by have := h.apart _ hp.1 _ hp'.1 (by omega); omega, fun _ hp => hp.2.1, fun _ hp => hp.2.2⟩

theorem Spec.Joined.refl {touch : ℕ × ℕ → ℕ × ℕ → Prop} {A : Set (ℕ × ℕ)} {p : ℕ × ℕ} (hp : p ∈ A) : Joined touch A p p :=
  ⟨hp, fun _ h _ => h⟩

theorem Spec.Joined.step {touch : ℕ × ℕ → ℕ × ℕ → Prop} {A : Set (ℕ × ℕ)} {p q x : ℕ × ℕ} (h : Joined touch A p q) (hx : x ∈ A)
    (ht : touch q x) : Joined touch A p x :=
  ⟨h.1, fun D hp hD => hD _ (h.2 D hp hD) _ hx ht⟩

section
variable {h w : ℕ} {e r : ℤ} {P Q : Set ℤ} {S : ℤ → ℤ → Prop} (g : Grid h w e r P Q S)
include g

/-- The dots of the grid that are inside a window without touching its border form a grid. -/
theorem Grid.window (a b h' w' : ℕ) : Grid h' w' e r (inWindow P a h' e r) (inWindow Q b w' e r) S :=
  ⟨g.round, g.le1, g.le2, g.rows.window a h', g.cols.window b w'⟩

/-- The objects seen through a window that do not reach its border are the dots inside the window. -/
theorem Grid.crop (t1 : ∃ v, S r v) (t2 : ∃ u, S u r) {a b h' w' : ℕ} {A : Set (ℕ × ℕ)}
    (hA : ∀ x : ℕ × ℕ, x ∈ A ↔ x ∈ Spec.frame h' w' ∧ (x.1 + a, x.2 + b) ∈ gridSet P Q S) :
    awayFromRim h' w' A = gridSet (inWindow P a h' e r) (inWindow Q b w' e r) S := by
  have g' := g.window a b h' w'
  ext x
  constructor
  · rintro ⟨hx, hrim⟩
    obtain ⟨hf, p, hp, q, hq, hd⟩ := (hA x).1 hx
    have hin : ∀ y ∈ A, Joined CornerTouch A x y → 1 ≤ y.1 ∧ y.1 + 2 ≤ h' ∧ 1 ≤ y.2 ∧ y.2 + 2 ≤ w' := by
      intro y hy hj
      have hfy := ((hA y).1 hy).1
      have : y ∉ rim h' w' := fun hr => hrim y hr hj
      simp only [rim, Spec.frame, Set.mem_ofPred_eq] at this hfy
      omega
    have hall := g.round.all (T := fun u v => ∃ y : ℕ × ℕ, y ∈ A ∧ Joined CornerTouch A x y ∧ (y.1 : ℤ) + a = p + u ∧ (y.2 : ℤ) + b = q + v)
      (by
        rintro u v ⟨y, hy, hj, e1, e2⟩ u' v' hs' ha
        obtain ⟨i1, i2, i3, i4⟩ := hin y hy hj
        have a1 : |u - u'| ≤ 1 := by have := abs_nonneg (v - v'); omega
        have a2 : |v - v'| ≤ 1 := by have := abs_nonneg (u - u'); omega
        rw [abs_le] at a1 a2
        have f1 : ((p + u' - a).toNat : ℤ) = p + u' - a := Int.toNat_of_nonneg (by omega)
        have f2 : ((q + v' - b).toNat : ℤ) = q + v' - b := Int.toNat_of_nonneg (by omega)
        have hz : ((p + u' - a).toNat, (q + v' - b).toNat) ∈ A := by
          refine (hA _).2 ⟨?_, p, hp, q, hq, ?_⟩
          · simp only [Spec.frame, Set.mem_ofPred_eq]
            omega
          · simp only [dotAt, Set.mem_ofPred_eq]
            push_cast
            rw [f1, f2, show p + u' - a + a - p = u' by ring, show q + v' - b + b - q = v' by ring]
            exact hs'
        refine ⟨_, hz, hj.step hz ?_, by rw [f1]; ring, by rw [f2]; ring⟩
        simp only [CornerTouch]
        rw [f1, f2, show (y.1 : ℤ) - (p + u' - a) = u - u' by omega, show (y.2 : ℤ) - (q + v' - b) = v - v' by omega]
        rcases abs_cases (u - u') with ⟨q1, _⟩ | ⟨q1, _⟩ <;> rcases abs_cases (v - v') with ⟨q2, _⟩ | ⟨q2, _⟩ <;> rw [q1, q2] at ha ⊢ <;> omega)
      (u := ((x.1 + a : ℕ) : ℤ) - p) (v := ((x.2 + b : ℕ) : ℤ) - q) hd ⟨x, hx, .refl hx, by push_cast; ring, by push_cast; ring⟩
    have bnd : ∀ u v, S u v → 1 ≤ p + u - a ∧ p + u - a + 2 ≤ h' ∧ 1 ≤ q + v - b ∧ q + v - b + 2 ≤ w' := by
      intro u v hs
      obtain ⟨y, hy, hj, e1, e2⟩ := hall u v hs
      obtain ⟨i1, i2, i3, i4⟩ := hin y hy hj
      omega
    obtain ⟨v0, h0⟩ := t1
    obtain ⟨u0, h0'⟩ := t2
    have b1 := bnd _ _ h0
    have b2 := bnd _ _ (g.round.sym1 _ _ h0)
    have b3 := bnd _ _ h0'
    have b4 := bnd _ _ (g.round.sym2 _ _ h0')
    refine ⟨p - a, ⟨by rwa [show p - a + a = p by ring], by omega, by omega⟩, q - b, ⟨by rwa [show q - b + b = q by ring], by omega, by omega⟩, ?_⟩
    simp only [dotAt, Set.mem_ofPred_eq] at hd ⊢
    push_cast at hd
    rwa [show (x.1 : ℤ) - (p - a) = x.1 + a - p by ring, show (x.2 : ℤ) - (q - b) = x.2 + b - q by ring]
  · intro hx
    have up : ∀ {y : ℕ × ℕ} {p q : ℤ}, y ∈ dotAt S p q ↔ (y.1 + a, y.2 + b) ∈ dotAt S (p + a) (q + b) := by
      intro y p q
      simp only [dotAt, Set.mem_ofPred_eq]
      push_cast
      rw [show (y.1 : ℤ) + a - (p + a) = y.1 - p by ring, show (y.2 : ℤ) + b - (q + b) = y.2 - q by ring]
    have hxf := g'.frame hx
    obtain ⟨p, hp, q, hq, hd⟩ := hx
    refine ⟨(hA x).2 ⟨hxf, _, hp.1, _, hq.1, up.1 hd⟩, fun y hy hj => ?_⟩
    have : y ∈ dotAt S p q := by
      refine hj.2 (dotAt S p q) hd fun s hs t ht hst => ?_
      obtain ⟨_, p', hp', q', hq', htd⟩ := (hA t).1 ht
      simp only [CornerTouch] at hst
      obtain ⟨e1, e2⟩ := g.same hp.1 hq.1 hp' hq' (up.1 hs) htd
        (by push_cast; rw [show (s.1 : ℤ) + a - (t.1 + a) = s.1 - t.1 by ring]; exact hst ▸ le_max_left _ _)
        (by push_cast; rw [show (s.2 : ℤ) + b - (t.2 + b) = s.2 - t.2 by ring]; exact hst ▸ le_max_right _ _)
      rw [up, e1, e2]
      exact htd
    exact g'.not_rim ⟨p, hp, q, hq, this⟩ hy

/-- The number of pixels is the same for all dots. -/
theorem Grid.ncard {h₂ w₂ : ℕ} {P₂ Q₂ : Set ℤ} (g₂ : Grid h₂ w₂ e r P₂ Q₂ S) {p q p' q' : ℤ} (hp : p ∈ P) (hq : q ∈ Q) (hp' : p' ∈ P₂) (hq' : q' ∈ Q₂) :
    (dotAt S p q).ncard = (dotAt S p' q').ncard := by
  refine Set.ncard_congr (fun x _ => (((x.1 : ℤ) - p + p').toNat, ((x.2 : ℤ) - q + q').toNat)) ?_ ?_ ?_
  · intro x hx
    have a1 := g.ge1 hx
    have a2 := g.ge2 hx
    have b1 := g₂.rows.low _ hp'
    have b2 := g₂.cols.low _ hq'
    simp only [dotAt, Set.mem_ofPred_eq] at hx ⊢
    rw [Int.toNat_of_nonneg (by omega), Int.toNat_of_nonneg (by omega)]
    rwa [show (x.1 : ℤ) - p + p' - p' = x.1 - p by ring, show (x.2 : ℤ) - q + q' - q' = x.2 - q by ring]
  · intro x y hx hy he
    have a1 := g.ge1 hx
    have a2 := g.ge2 hx
    have c1 := g.ge1 hy
    have c2 := g.ge2 hy
    have b1 := g₂.rows.low _ hp'
    have b2 := g₂.cols.low _ hq'
    simp only [Prod.mk.injEq] at he
    ext <;> omega
  · intro y hy
    have a1 := g₂.ge1 hy
    have a2 := g₂.ge2 hy
    have b1 := g.rows.low _ hp
    have b2 := g.cols.low _ hq
    have f1 : (((y.1 : ℤ) - p' + p).toNat : ℤ) = y.1 - p' + p := Int.toNat_of_nonneg (by omega)
    have f2 : (((y.2 : ℤ) - q' + q).toNat : ℤ) = y.2 - q' + q := Int.toNat_of_nonneg (by omega)
    refine ⟨(((y.1 : ℤ) - p' + p).toNat, ((y.2 : ℤ) - q' + q).toNat), ?_, ?_⟩
    · simp only [dotAt, Set.mem_ofPred_eq] at hy ⊢
      rw [f1, f2]
      rwa [show (y.1 : ℤ) - p' + p - p = y.1 - p' by ring, show (y.2 : ℤ) - q' + q - q = y.2 - q' by ring]
    · simp only [f1, f2]
      ext
      · simp only; omega
      · simp only; omega

end

end Discorpy
