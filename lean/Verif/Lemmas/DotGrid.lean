import Verif.Lemmas.Binary
import Verif.Lemmas.Dots
import Verif.Spec.Dots

/-! # Lemmas about grids of round dots -/

namespace Discorpy

open Spec

/-- A set of offsets that is mirror-symmetric about `e/2` in both directions and contains with each offset those nearer to the
middle in a row or column. -/
structure Round (e : ℤ) (S : ℤ → ℤ → Prop) : Prop where
  zero_le : 0 ≤ e
  le_one : e ≤ 1
  sym1 : ∀ u v, S u v → S (e - u) v
  sym2 : ∀ u v, S u v → S u (e - v)
  in1 : ∀ u v, S u v → 1 ≤ u → S (u - 1) v
  in2 : ∀ u v, S u v → 1 ≤ v → S u (v - 1)

theorem Round.swap {e : ℤ} {S : ℤ → ℤ → Prop} (h : Round e S) : Round e fun u v => S v u :=
  ⟨h.zero_le, h.le_one, fun u v => h.sym2 v u, fun u v => h.sym1 v u, fun u v => h.in2 v u, fun u v => h.in1 v u⟩

theorem Round.up1 {e : ℤ} {S : ℤ → ℤ → Prop} (h : Round e S) {u v : ℤ} (hs : S u v) (hu : u ≤ e - 1) : S (u + 1) v := by
  have := h.sym1 _ _ (h.in1 _ _ (h.sym1 _ _ hs) (by omega))
  rwa [show e - (e - u - 1) = u + 1 by ring] at this

theorem Round.up2 {e : ℤ} {S : ℤ → ℤ → Prop} (h : Round e S) {u v : ℤ} (hs : S u v) (hv : v ≤ e - 1) : S u (v + 1) :=
  h.swap.up1 hs hv

/-- Each offset other than `(0, 0)` has a neighbour nearer to `(0, 0)` in the set. -/
theorem Round.nearer {e : ℤ} {S : ℤ → ℤ → Prop} (h : Round e S) {u v : ℤ} (hs : S u v) (h0 : ¬ (u = 0 ∧ v = 0)) :
    ∃ u' v', S u' v' ∧ |u - u'| + |v - v'| = 1 ∧ u'.natAbs + v'.natAbs < u.natAbs + v.natAbs := by
  have := h.zero_le
  rcases lt_trichotomy u 0 with hu | hu | hu
  · exact ⟨u + 1, v, h.up1 hs (by omega), by simp, by omega⟩
  · rcases lt_trichotomy v 0 with hv | hv | hv
    · exact ⟨u, v + 1, h.up2 hs (by omega), by simp, by omega⟩
    · exact absurd ⟨hu, hv⟩ h0
    · exact ⟨u, v - 1, h.in2 _ _ hs (by omega), by simp, by omega⟩
  · exact ⟨u - 1, v, h.in1 _ _ hs (by omega), by simp, by omega⟩

/-- A set that contains one offset of `S` and the neighbours in `S` of its elements contains all of `S`. -/
theorem Round.all {e : ℤ} {S : ℤ → ℤ → Prop} (h : Round e S) {T : ℤ → ℤ → Prop}
    (hT : ∀ u v, T u v → ∀ u' v', S u' v' → |u - u'| + |v - v'| = 1 → T u' v') {u v : ℤ} (hs : S u v) (ht : T u v) :
    ∀ u' v', S u' v' → T u' v' := by
  have hc : S 0 0 ∧ T 0 0 := by
    obtain ⟨n, hn⟩ : ∃ n, n = u.natAbs + v.natAbs := ⟨_, rfl⟩
    induction n using Nat.strong_induction_on generalizing u v with
    | _ n ih =>
      by_cases h0 : u = 0 ∧ v = 0
      · obtain ⟨rfl, rfl⟩ := h0
        exact ⟨hs, ht⟩
      · obtain ⟨u', v', hs', ha, hlt⟩ := h.nearer hs h0
        exact ih _ (by omega) hs' (hT _ _ ht _ _ hs' ha) rfl
  intro u' v' hs'
  obtain ⟨n, hn⟩ : ∃ n, n = u'.natAbs + v'.natAbs := ⟨_, rfl⟩
  induction n using Nat.strong_induction_on generalizing u' v' with
  | _ n ih =>
    by_cases h0 : u' = 0 ∧ v' = 0
    · obtain ⟨rfl, rfl⟩ := h0
      exact hc.2
    · obtain ⟨a, b, hs'', ha, hlt⟩ := h.nearer hs' h0
      exact hT _ _ (ih _ (by omega) a b hs'' rfl) _ _ hs' (by rw [abs_sub_comm a, abs_sub_comm b]; exact ha)

/-- The plus signs inside a set of offsets. -/
def zPlus (S : ℤ → ℤ → Prop) (a b : ℤ) : Prop := S a b ∧ S (a - 1) b ∧ S (a + 1) b ∧ S a (b - 1) ∧ S a (b + 1)

/-- The union of the plus signs inside a set of offsets. -/
def zPluses (S : ℤ → ℤ → Prop) (u v : ℤ) : Prop := zPlus S u v ∨ zPlus S (u - 1) v ∨ zPlus S (u + 1) v ∨ zPlus S u (v - 1) ∨ zPlus S u (v + 1)

theorem zPluses_le {S : ℤ → ℤ → Prop} {u v : ℤ} (h : zPluses S u v) : S u v := by
  rcases h with h | h | h | h | h
  · exact h.1
  · have := h.2.2.1; rwa [show u - 1 + 1 = u by ring] at this
  · have := h.2.1; rwa [show u + 1 - 1 = u by ring] at this
  · have := h.2.2.2.2; rwa [show v - 1 + 1 = v by ring] at this
  · have := h.2.2.2.1; rwa [show v + 1 - 1 = v by ring] at this

/-- The centres of the plus signs inside a round set are a round set. -/
theorem Round.plusCentres {e : ℤ} {S : ℤ → ℤ → Prop} (h : Round e S) : Round e (zPlus S) := by
  have h0 := h.zero_le
  have h1 := h.le_one
  have s1 : ∀ u v, zPlus S u v → zPlus S (e - u) v := by
    rintro u v ⟨a, b, c, d, f⟩
    refine ⟨h.sym1 _ _ a, ?_, ?_, h.sym1 _ _ d, h.sym1 _ _ f⟩
    · have := h.sym1 _ _ c; rwa [show e - (u + 1) = e - u - 1 by ring] at this
    · have := h.sym1 _ _ b; rwa [show e - (u - 1) = e - u + 1 by ring] at this
  have s2 : ∀ u v, zPlus S u v → zPlus S u (e - v) := by
    rintro u v ⟨a, b, c, d, f⟩
    refine ⟨h.sym2 _ _ a, h.sym2 _ _ b, h.sym2 _ _ c, ?_, ?_⟩
    · have := h.sym2 _ _ f; rwa [show e - (v + 1) = e - v - 1 by ring] at this
    · have := h.sym2 _ _ d; rwa [show e - (v - 1) = e - v + 1 by ring] at this
  refine ⟨h0, h1, s1, s2, ?_, ?_⟩
  · rintro u v ⟨a, b, c, d, f⟩ hu
    refine ⟨b, ?_, by rwa [show u - 1 + 1 = u by ring], h.in1 _ _ d hu, h.in1 _ _ f hu⟩
    rcases eq_or_lt_of_le hu with rfl | hu'
    · have h2 := h.sym1 _ _ c
      rcases (by omega : e = 0 ∨ e = 1) with rfl | rfl
      · exact h.up1 h2 (by norm_num)
      · exact h2
    · exact h.in1 _ _ b (by omega)
  · rintro u v ⟨a, b, c, d, f⟩ hv
    refine ⟨d, h.in2 _ _ b hv, h.in2 _ _ c hv, ?_, by rwa [show v - 1 + 1 = v by ring]⟩
    rcases eq_or_lt_of_le hv with rfl | hv'
    · have h2 := h.sym2 _ _ f
      rcases (by omega : e = 0 ∨ e = 1) with rfl | rfl
      · exact h.up2 h2 (by norm_num)
      · exact h2
    · exact h.in2 _ _ d (by omega)

/-- The union of the plus signs inside a round set is a round set. -/
theorem Round.pluses {e : ℤ} {S : ℤ → ℤ → Prop} (h : Round e S) : Round e (zPluses S) := by
  have h0 := h.zero_le
  have hp := h.plusCentres
  refine ⟨h0, h.le_one, ?_, ?_, ?_, ?_⟩
  · rintro u v (a | a | a | a | a)
    · exact .inl (hp.sym1 _ _ a)
    · exact .inr (.inr (.inl (by have := hp.sym1 _ _ a; rwa [show e - (u - 1) = e - u + 1 by ring] at this)))
    · exact .inr (.inl (by have := hp.sym1 _ _ a; rwa [show e - (u + 1) = e - u - 1 by ring] at this))
    · exact .inr (.inr (.inr (.inl (hp.sym1 _ _ a))))
    · exact .inr (.inr (.inr (.inr (hp.sym1 _ _ a))))
  · rintro u v (a | a | a | a | a)
    · exact .inl (hp.sym2 _ _ a)
    · exact .inr (.inl (hp.sym2 _ _ a))
    · exact .inr (.inr (.inl (hp.sym2 _ _ a)))
    · exact .inr (.inr (.inr (.inr (by have := hp.sym2 _ _ a; rwa [show e - (v - 1) = e - v + 1 by ring] at this))))
    · exact .inr (.inr (.inr (.inl (by have := hp.sym2 _ _ a; rwa [show e - (v + 1) = e - v - 1 by ring] at this))))
  · rintro u v (a | a | a | a | a) hu
    · exact .inl (hp.in1 _ _ a hu)
    · exact .inl a
    · exact .inr (.inr (.inl (by have := hp.in1 _ _ a (by omega); rwa [show u + 1 - 1 = u - 1 + 1 by ring] at this)))
    · exact .inr (.inr (.inr (.inl (hp.in1 _ _ a hu))))
    · exact .inr (.inr (.inr (.inr (hp.in1 _ _ a hu))))
  · rintro u v (a | a | a | a | a) hv
    · exact .inl (hp.in2 _ _ a hv)
    · exact .inr (.inl (hp.in2 _ _ a hv))
    · exact .inr (.inr (.inl (hp.in2 _ _ a hv)))
    · exact .inl a
    · exact .inr (.inr (.inr (.inr (by have := hp.in2 _ _ a (by omega); rwa [show v + 1 - 1 = v - 1 + 1 by ring] at this))))

/-- The pixels of the dot around `(p, q)`. -/
def dotAt (S : ℤ → ℤ → Prop) (p q : ℤ) : Set (ℕ × ℕ) := {x | S (x.1 - p) (x.2 - q)}

/-- The pixels of the dots around the crossings of the rows `P` and the columns `Q`. -/
def gridSet (P Q : Set ℤ) (S : ℤ → ℤ → Prop) : Set (ℕ × ℕ) := {x | ∃ p ∈ P, ∃ q ∈ Q, x ∈ dotAt S p q}

/-- Positions of dots: apart and off the rim. -/
structure Spaced (n : ℕ) (e r : ℤ) (P : Set ℤ) : Prop where
  apart : ∀ p ∈ P, ∀ p' ∈ P, p < p' → 2 * r - e + 2 ≤ p' - p
  low : ∀ p ∈ P, 1 ≤ p + e - r
  high : ∀ p ∈ P, p + r + 2 ≤ n

/-- A grid of round dots that do not touch each other or the rim. -/
structure Grid (h w : ℕ) (e r : ℤ) (P Q : Set ℤ) (S : ℤ → ℤ → Prop) : Prop where
  round : Round e S
  le1 : ∀ u v, S u v → u ≤ r
  le2 : ∀ u v, S u v → v ≤ r
  rows : Spaced h e r P
  cols : Spaced w e r Q

theorem Grid.ge1 {h w : ℕ} {e r : ℤ} {P Q : Set ℤ} {S : ℤ → ℤ → Prop} (g : Grid h w e r P Q S) {u v : ℤ} (hs : S u v) : e - r ≤ u := by
  have := g.le1 _ _ (g.round.sym1 _ _ hs); omega

theorem Grid.ge2 {h w : ℕ} {e r : ℤ} {P Q : Set ℤ} {S : ℤ → ℤ → Prop} (g : Grid h w e r P Q S) {u v : ℤ} (hs : S u v) : e - r ≤ v := by
  have := g.le2 _ _ (g.round.sym2 _ _ hs); omega

theorem Grid.mono {h w : ℕ} {e r : ℤ} {P Q : Set ℤ} {S T : ℤ → ℤ → Prop} (g : Grid h w e r P Q S) (hT : Round e T)
    (hle : ∀ u v, T u v → S u v) : Grid h w e r P Q T :=
  ⟨hT, fun _ _ hs => g.le1 _ _ (hle _ _ hs), fun _ _ hs => g.le2 _ _ (hle _ _ hs), g.rows, g.cols⟩

theorem Spaced.same {n : ℕ} {e r : ℤ} {P : Set ℤ} (h : Spaced n e r P) {p p' y y' : ℤ} (hp : p ∈ P) (hp' : p' ∈ P)
    (h1 : e - r ≤ y - p) (h2 : y - p ≤ r) (h1' : e - r ≤ y' - p') (h2' : y' - p' ≤ r) (ht : |y - y'| ≤ 1) : p = p' := by
  rw [abs_le] at ht
  rcases lt_trichotomy p p' with hl | hl | hl
  · have := h.apart p hp p' hp' hl; omega
  · exact hl
  · have := h.apart p' hp' p hp hl; omega

theorem dotAt_zPlus {S : ℤ → ℤ → Prop} {p q : ℤ} {c : ℕ × ℕ} (h1 : 1 ≤ c.1) (h2 : 1 ≤ c.2) : zPlus S (c.1 - p) (c.2 - q) ↔ plus c ⊆ dotAt S p q := by
  obtain ⟨i, j⟩ := c
  simp only at h1 h2
  constructor
  · rintro ⟨a, b, c, d, f⟩ y (rfl | hy)
    · exact a
    · rw [edgeTouch_iff] at hy
      obtain ⟨i', j'⟩ := y
      unfold Adj4 at hy
      simp only [dotAt, Set.mem_ofPred_eq] at hy ⊢ b c d f
      rcases hy with ⟨e1, hy⟩ | ⟨e1, hy⟩
      · rcases hy with hy | hy
        · rw [show (i' : ℤ) - p = i - p by omega, show (j' : ℤ) - q = j - q + 1 by omega]; exact f
        · rw [show (i' : ℤ) - p = i - p by omega, show (j' : ℤ) - q = j - q - 1 by omega]; exact d
      · rcases hy with hy | hy
        · rw [show (i' : ℤ) - p = i - p + 1 by omega, show (j' : ℤ) - q = j - q by omega]; exact c
        · rw [show (i' : ℤ) - p = i - p - 1 by omega, show (j' : ℤ) - q = j - q by omega]; exact b
  · intro hs
    have key : ∀ i' j' : ℕ, Adj4 (i, j) (i', j') → S (i' - p) (j' - q) := fun i' j' ha => hs (Or.inr (edgeTouch_iff.2 ha))
    refine ⟨hs (Or.inl rfl), ?_, ?_, ?_, ?_⟩
    · have := key (i - 1) j (by unfold Adj4; omega)
      rwa [show ((i - 1 : ℕ) : ℤ) - p = i - p - 1 by omega] at this
    · have := key (i + 1) j (by unfold Adj4; omega)
      rwa [show ((i + 1 : ℕ) : ℤ) - p = i - p + 1 by omega] at this
    · have := key i (j - 1) (by unfold Adj4; omega)
      rwa [show ((j - 1 : ℕ) : ℤ) - q = j - q - 1 by omega] at this
    · have := key i (j + 1) (by unfold Adj4; omega)
      rwa [show ((j + 1 : ℕ) : ℤ) - q = j - q + 1 by omega] at this

section
variable {h w : ℕ} {e r : ℤ} {P Q : Set ℤ} {S : ℤ → ℤ → Prop} (g : Grid h w e r P Q S)
include g

/-- Touching pixels of dots belong to the same dot. -/
theorem Grid.same {p q p' q' : ℤ} {x y : ℕ × ℕ} (hp : p ∈ P) (hq : q ∈ Q) (hp' : p' ∈ P) (hq' : q' ∈ Q) (hx : x ∈ dotAt S p q)
    (hy : y ∈ dotAt S p' q') (h1 : |(x.1 : ℤ) - y.1| ≤ 1) (h2 : |(x.2 : ℤ) - y.2| ≤ 1) : p = p' ∧ q = q' :=
  ⟨g.rows.same hp hp' (g.ge1 hx) (g.le1 _ _ hx) (g.ge1 hy) (g.le1 _ _ hy) h1,
    g.cols.same hq hq' (g.ge2 hx) (g.le2 _ _ hx) (g.ge2 hy) (g.le2 _ _ hy) h2⟩

theorem Grid.inner {x : ℕ × ℕ} (hx : x ∈ gridSet P Q S) : 1 ≤ x.1 ∧ x.1 + 2 ≤ h ∧ 1 ≤ x.2 ∧ x.2 + 2 ≤ w := by
  obtain ⟨p, hp, q, hq, hx⟩ := hx
  have a1 := g.ge1 hx
  have a2 := g.le1 _ _ hx
  have a3 := g.ge2 hx
  have a4 := g.le2 _ _ hx
  have b1 := g.rows.low p hp
  have b2 := g.rows.high p hp
  have b3 := g.cols.low q hq
  have b4 := g.cols.high q hq
  omega

theorem Grid.frame : gridSet P Q S ⊆ Spec.frame h w := by
  intro x hx
  have := g.inner hx
  simp only [Spec.frame, Set.mem_ofPred_eq]
  omega

theorem Grid.not_rim {x : ℕ × ℕ} (hx : x ∈ gridSet P Q S) : x ∉ rim h w := by
  have := g.inner hx
  simp only [rim, Spec.frame, Set.mem_ofPred_eq]
  omega

theorem Grid.awayFromRim_eq : awayFromRim h w (gridSet P Q S) = gridSet P Q S := by
  ext x
  exact ⟨fun hx => hx.1, fun hx => ⟨hx, fun q hq hj => g.not_rim hj.mem hq⟩⟩


theorem Grid.pluses_eq : Spec.pluses (gridSet P Q S) = gridSet P Q (zPluses S) := by
  ext x
  constructor
  · rintro ⟨c, hxc, hc⟩
    have hcm : c ∈ gridSet P Q S := hc (Or.inl rfl)
    have hin := g.inner hcm
    obtain ⟨p, hp, q, hq, hcd⟩ := hcm
    have hsub : plus c ⊆ dotAt S p q := by
      intro y hy
      obtain ⟨p', hp', q', hq', hyd⟩ := hc hy
      have ht : |(c.1 : ℤ) - y.1| ≤ 1 ∧ |(c.2 : ℤ) - y.2| ≤ 1 := by
        rcases hy with rfl | hy
        · simp
        · unfold EdgeTouch at hy
          constructor
          · have := abs_nonneg ((c.2 : ℤ) - y.2); omega
          · have := abs_nonneg ((c.1 : ℤ) - y.1); omega
      obtain ⟨rfl, rfl⟩ := g.same hp hq hp' hq' hcd hyd ht.1 ht.2
      exact hyd
    have hz := (dotAt_zPlus hin.1 hin.2.2.1).2 hsub
    refine ⟨p, hp, q, hq, ?_⟩
    simp only [dotAt, Set.mem_ofPred_eq]
    rcases hxc with rfl | hxc
    · exact .inl hz
    · rw [edgeTouch_iff] at hxc
      unfold Adj4 at hxc
      rcases hxc with ⟨e1, e2 | e2⟩ | ⟨e1, e2 | e2⟩
      · refine .inr (.inr (.inr (.inl ?_)))
        rwa [show (x.1 : ℤ) - p = c.1 - p by omega, show (x.2 : ℤ) - q - 1 = c.2 - q by omega]
      · refine .inr (.inr (.inr (.inr ?_)))
        rwa [show (x.1 : ℤ) - p = c.1 - p by omega, show (x.2 : ℤ) - q + 1 = c.2 - q by omega]
      · refine .inr (.inl ?_)
        rwa [show (x.1 : ℤ) - p - 1 = c.1 - p by omega, show (x.2 : ℤ) - q = c.2 - q by omega]
      · refine .inr (.inr (.inl ?_))
        rwa [show (x.1 : ℤ) - p + 1 = c.1 - p by omega, show (x.2 : ℤ) - q = c.2 - q by omega]
  · rintro ⟨p, hp, q, hq, hx⟩
    have key : ∀ c : ℕ × ℕ, zPlus S (c.1 - p) (c.2 - q) → x ∈ plus c → x ∈ Spec.pluses (gridSet P Q S) := by
      intro c hz hxc
      have hin := g.inner ⟨p, hp, q, hq, hz.1⟩
      exact ⟨c, hxc, fun y hy => ⟨p, hp, q, hq, (dotAt_zPlus hin.1 hin.2.2.1).1 hz hy⟩⟩
    have hin := g.inner ⟨p, hp, q, hq, zPluses_le hx⟩
    obtain ⟨i, j⟩ := x
    simp only at hin
    rcases hx with hx | hx | hx | hx | hx
    · exact key (i, j) hx (Or.inl rfl)
    · refine key (i - 1, j) ?_ (Or.inr (edgeTouch_iff.2 (by unfold Adj4; omega)))
      rwa [show (((i - 1, j) : ℕ × ℕ).1 : ℤ) - p = (i : ℤ) - p - 1 by simp only; omega]
    · refine key (i + 1, j) ?_ (Or.inr (edgeTouch_iff.2 (by unfold Adj4; omega)))
      rwa [show (((i + 1, j) : ℕ × ℕ).1 : ℤ) - p = (i : ℤ) - p + 1 by simp only; omega]
    · refine key (i, j - 1) ?_ (Or.inr (edgeTouch_iff.2 (by unfold Adj4; omega)))
      rwa [show (((i, j - 1) : ℕ × ℕ).2 : ℤ) - q = (j : ℤ) - q - 1 by simp only; omega]
    · refine key (i, j + 1) ?_ (Or.inr (edgeTouch_iff.2 (by unfold Adj4; omega)))
      rwa [show (((i, j + 1) : ℕ × ℕ).2 : ℤ) - q = (j : ℤ) - q + 1 by simp only; omega]

/-- Rows that do not meet a dot. -/
theorem Grid.free_row {i : ℕ} (hi : ∀ p ∈ P, ¬ (e - r ≤ (i : ℤ) - p ∧ (i : ℤ) - p ≤ r)) (j : ℕ) : (i, j) ∉ gridSet P Q S := by
  rintro ⟨p, hp, q, hq, hx⟩
  exact hi p hp ⟨g.ge1 hx, g.le1 _ _ hx⟩

theorem Grid.free_col {j : ℕ} (hj : ∀ q ∈ Q, ¬ (e - r ≤ (j : ℤ) - q ∧ (j : ℤ) - q ≤ r)) (i : ℕ) : (i, j) ∉ gridSet P Q S := by
  rintro ⟨p, hp, q, hq, hx⟩
  exact hj q hq ⟨g.ge2 hx, g.le2 _ _ hx⟩

theorem Grid.withHoles_eq : withHoles h w (gridSet P Q S) = gridSet P Q S := by
  refine Set.Subset.antisymm ?_ (subset_withHoles g.frame)
  rintro ⟨i, j⟩ ⟨hf, hx⟩
  have hf' : i < h ∧ j < w := hf
  obtain ⟨hi, hj⟩ := hf'
  by_contra hn
  -- along a free row to the left
  have walkRow : ∀ i : ℕ, i < h → (∀ j, (i, j) ∉ gridSet P Q S) → ∀ j, j < w →
      Joined EdgeTouch (Spec.frame h w \ gridSet P Q S) (i, j) (i, 0) := by
    intro i hi hfree j
    induction j with
    | zero => exact fun hj => .self ⟨⟨hi, hj⟩, hfree _⟩
    | succ j ih =>
      intro hj
      exact .head ⟨⟨hi, hj⟩, hfree _⟩ (edgeTouch_iff.2 (by unfold Adj4; omega)) (ih (by omega))
  have walkCol : ∀ j : ℕ, j < w → (∀ i, (i, j) ∉ gridSet P Q S) → ∀ i, i < h →
      Joined EdgeTouch (Spec.frame h w \ gridSet P Q S) (i, j) (0, j) := by
    intro j hj hfree i
    induction i with
    | zero => exact fun hi => .self ⟨⟨hi, hj⟩, hfree _⟩
    | succ i ih =>
      intro hi
      exact .head ⟨⟨hi, hj⟩, hfree _⟩ (edgeTouch_iff.2 (by unfold Adj4; omega)) (ih (by omega))
  have rimRow : ∀ i : ℕ, i < h → ((i, 0) : ℕ × ℕ) ∈ rim h w := fun i hi => ⟨⟨hi, by simp only; omega⟩, by simp⟩
  have rimCol : ∀ j : ℕ, j < w → ((0, j) : ℕ × ℕ) ∈ rim h w := fun j hj => ⟨⟨by simp only; omega, hj⟩, by simp⟩
  by_cases hrow : ∀ p ∈ P, ¬ (e - r ≤ (i : ℤ) - p ∧ (i : ℤ) - p ≤ r)
  · exact hx _ (rimRow i hi) (walkRow i hi (g.free_row hrow) j hj)
  by_cases hcol : ∀ q ∈ Q, ¬ (e - r ≤ (j : ℤ) - q ∧ (j : ℤ) - q ≤ r)
  · exact hx _ (rimCol j hj) (walkCol j hj (g.free_col hcol) i hi)
  push Not at hrow hcol
  obtain ⟨p, hp, p1, p2⟩ := hrow
  obtain ⟨q, hq, q1, q2⟩ := hcol
  have b1 := g.rows.low p hp
  have b2 := g.rows.high p hp
  have h0 := g.round.zero_le
  have h1 := g.round.le_one
  -- in the column of `j` within the box of the dot, only pixels of this dot are lit
  have hbox : ∀ i' : ℕ, e - r ≤ (i' : ℤ) - p → (i' : ℤ) - p ≤ r → ¬ S (i' - p) (j - q) → (i', j) ∉ gridSet P Q S := by
    rintro i' a1 a2 hS ⟨p', hp', q', hq', hx'⟩
    obtain rfl := g.rows.same hp hp' a1 a2 (g.ge1 hx') (g.le1 _ _ hx') (by simp)
    obtain rfl := g.cols.same hq hq' q1 q2 (g.ge2 hx') (g.le2 _ _ hx') (by simp)
    exact hS hx'
  have hn' : ¬ S (i - p) (j - q) := fun hS => hn ⟨p, hp, q, hq, hS⟩
  have gapUp : ∀ j, ((p + r + 1).toNat, j) ∉ gridSet P Q S := by
    refine g.free_row fun p' hp' hc => ?_
    have e1 : ((p + r + 1).toNat : ℤ) = p + r + 1 := Int.toNat_of_nonneg (by omega)
    rw [e1] at hc
    have := g.rows.same (y := p + r) (y' := p + r + 1) hp hp' (by omega) (by omega) hc.1 hc.2 (by norm_num)
    omega
  have gapDown : ∀ j, ((p + e - r - 1).toNat, j) ∉ gridSet P Q S := by
    refine g.free_row fun p' hp' hc => ?_
    have e1 : ((p + e - r - 1).toNat : ℤ) = p + e - r - 1 := Int.toNat_of_nonneg (by omega)
    rw [e1] at hc
    have := g.rows.same (y := p + e - r) (y' := p + e - r - 1) hp hp' (by omega) (by omega) hc.1 hc.2 (by norm_num)
    omega
  rcases lt_or_ge ((i : ℤ) - p) 0 with hu | hu
  · -- towards smaller rows
    have walk : ∀ n : ℕ, ∀ i : ℕ, i < h → (i : ℤ) - (p + e - r - 1) = n → (i : ℤ) - p < 0 → ¬ S (i - p) (j - q) →
        Joined EdgeTouch (Spec.frame h w \ gridSet P Q S) (i, j) ((p + e - r - 1).toNat, 0) := by
      intro n
      induction n with
      | zero =>
        intro i hi hin _ _
        have : i = (p + e - r - 1).toNat := by omega
        rw [this]
        rw [this] at hi
        exact walkRow _ hi gapDown j hj
      | succ n ih =>
        intro i hi hin hu hS
        have hS' : ¬ S ((i - 1 : ℕ) - p) (j - q) := by
          intro hc
          have := g.round.up1 hc (by omega)
          rw [show ((i - 1 : ℕ) : ℤ) - p + 1 = i - p by omega] at this
          exact hS this
        exact .head ⟨⟨hi, hj⟩, hbox i (by omega) (by omega) hS⟩ (edgeTouch_iff.2 (by unfold Adj4; omega))
          (ih (i - 1) (by omega) (by omega) (by omega) hS')
    exact hx _ (rimRow _ (by omega)) (walk ((i : ℤ) - (p + e - r - 1)).toNat i hi (by omega) hu hn')
  · have walk : ∀ n : ℕ, ∀ i : ℕ, i < h → p + r + 1 - (i : ℤ) = n → 0 ≤ (i : ℤ) - p → ¬ S (i - p) (j - q) →
        Joined EdgeTouch (Spec.frame h w \ gridSet P Q S) (i, j) ((p + r + 1).toNat, 0) := by
      intro n
      induction n with
      | zero =>
        intro i hi hin _ _
        have : i = (p + r + 1).toNat := by omega
        rw [this]
        rw [this] at hi
        exact walkRow _ hi gapUp j hj
      | succ n ih =>
        intro i hi hin hu hS
        have hS' : ¬ S ((i + 1 : ℕ) - p) (j - q) := by
          intro hc
          have := g.round.in1 _ _ hc (by omega)
          rw [show ((i + 1 : ℕ) : ℤ) - p - 1 = i - p by omega] at this
          exact hS this
        exact .head ⟨⟨hi, hj⟩, hbox i (by omega) (by omega) hS⟩ (edgeTouch_iff.2 (by unfold Adj4; omega))
          (ih (i + 1) (by omega) (by omega) (by omega) hS')
    exact hx _ (rimRow _ (by omega)) (walk (p + r + 1 - (i : ℤ)).toNat i hi (by omega) hu hn')

/-- The dots of a grid of round dots after clearing the rim, opening and filling. -/
theorem Grid.dotMask_eq : dotMask h w (gridSet P Q S) = gridSet P Q (zPluses S) := by
  unfold dotMask
  rw [g.awayFromRim_eq, g.pluses_eq]
  exact (g.mono g.round.pluses fun _ _ => zPluses_le).withHoles_eq

/-- The dots of an image whose lit pixels are a grid. -/
theorem Grid.isDot_iff {m : Mat ℤ} (hm : ∀ x, Lit m x ↔ x ∈ gridSet P Q S) (hne : ∃ u v, S u v) (D : Set (ℕ × ℕ)) :
    IsDot m D ↔ ∃ p ∈ P, ∃ q ∈ Q, D = dotAt S p q := by
  have hcell : ∀ p ∈ P, ∀ q ∈ Q, IsDot m (dotAt S p q) := by
    intro p hp q hq
    have pix : ∀ {u v}, S u v → ∃ x : ℕ × ℕ, x ∈ dotAt S p q ∧ (x.1 : ℤ) = p + u ∧ (x.2 : ℤ) = q + v := by
      intro u v hs
      have a1 := g.ge1 hs
      have a3 := g.ge2 hs
      have b1 := g.rows.low p hp
      have b3 := g.cols.low q hq
      have e1 : ((p + u).toNat : ℤ) = p + u := Int.toNat_of_nonneg (by omega)
      have e2 : ((q + v).toNat : ℤ) = q + v := Int.toNat_of_nonneg (by omega)
      refine ⟨((p + u).toNat, (q + v).toNat), ?_, e1, e2⟩
      simp only [dotAt, Set.mem_ofPred_eq]
      rwa [e1, e2, show p + u - p = u by ring, show q + v - q = v by ring]
    refine ⟨?_, fun x hx => (hm x).2 ⟨p, hp, q, hq, hx⟩, ?_, ?_⟩
    · obtain ⟨u, v, hs⟩ := hne
      obtain ⟨x, hx, _⟩ := pix hs
      exact ⟨x, hx⟩
    · intro x hx y hy ht
      obtain ⟨p', hp', q', hq', hyd⟩ := (hm y).1 hy
      unfold ShareEdge at ht
      obtain ⟨rfl, rfl⟩ := g.same hp hq hp' hq' hx hyd (by have := abs_nonneg ((x.2 : ℤ) - y.2); omega)
        (by have := abs_nonneg ((x.1 : ℤ) - y.1); omega)
      exact hyd
    · intro E hE ⟨x, hx⟩ hc
      refine Set.Subset.antisymm hE fun y hy => ?_
      have := g.round.all (T := fun u v => ∃ z : ℕ × ℕ, z ∈ E ∧ (z.1 : ℤ) = p + u ∧ (z.2 : ℤ) = q + v) (by
        rintro u v ⟨z, hz, e1, e2⟩ u' v' hs' ha
        obtain ⟨z', hz', e1', e2'⟩ := pix hs'
        refine ⟨z', hc z hz z' ((hm z').2 ⟨p, hp, q, hq, hz'⟩) ?_, e1', e2'⟩
        unfold ShareEdge
        rw [e1, e2, e1', e2', show p + u - (p + u') = u - u' by ring, show q + v - (q + v') = v - v' by ring]
        exact ha) (hE hx) ⟨x, hx, by ring, by ring⟩ _ _ hy
      obtain ⟨z, hz, e1, e2⟩ := this
      have : z = y := by
        obtain ⟨z1, z2⟩ := z
        obtain ⟨y1, y2⟩ := y
        simp only [Prod.mk.injEq] at *
        omega
      rwa [← this]
  constructor
  · intro hD
    obtain ⟨x, hx⟩ := hD.nonempty
    obtain ⟨p, hp, q, hq, hxd⟩ := (hm x).1 (hD.lit x hx)
    refine ⟨p, hp, q, hq, ?_⟩
    rw [isDot_eq hD hx, isDot_eq (hcell p hp q hq) hxd]
  · rintro ⟨p, hp, q, hq, rfl⟩
    exact hcell p hp q hq

theorem Grid.finite {p q : ℤ} (hp : p ∈ P) (hq : q ∈ Q) : (dotAt S p q).Finite := by
  refine Set.Finite.subset (Finset.finite_toSet (Finset.range h ×ˢ Finset.range w)) fun x hx => ?_
  have := g.frame ⟨p, hp, q, hq, hx⟩
  simp only [Finset.coe_product, Finset.coe_range, Set.mem_prod, Set.mem_Iio]
  exact this

/-- The middle of a round dot. -/
theorem Grid.middle {p q : ℤ} (hp : p ∈ P) (hq : q ∈ Q) (hne : ∃ u v, S u v) :
    IsMiddle (dotAt S p q) ⟨(p : ℝ) + e / 2, (q : ℝ) + e / 2⟩ := by
  obtain ⟨F, hF⟩ := (g.finite hp hq).exists_finset_coe
  have hmem : ∀ x, x ∈ F ↔ S (x.1 - p) (x.2 - q) := fun x => by rw [← Finset.mem_coe, hF]; rfl
  have hlow : ∀ x ∈ F, (x.1 : ℤ) ≤ 2 * p + e ∧ (x.2 : ℤ) ≤ 2 * q + e := by
    intro x hx
    have hs := (hmem x).1 hx
    have a1 := g.le1 _ _ hs
    have a2 := g.le2 _ _ hs
    have b1 := g.rows.low p hp
    have b3 := g.cols.low q hq
    omega
  have s1 : ∑ x ∈ F, (x.1 : ℝ) = ∑ x ∈ F, ((2 * p + e : ℤ) - (x.1 : ℝ)) := by
    refine Finset.sum_nbij' (fun x => ((2 * p + e - x.1 : ℤ).toNat, x.2)) (fun x => ((2 * p + e - x.1 : ℤ).toNat, x.2)) ?_ ?_ ?_ ?_ ?_
    · intro x hx
      have hl := hlow x hx
      rw [hmem] at hx ⊢
      have := g.round.sym1 _ _ hx
      simp only
      rwa [Int.toNat_of_nonneg (by omega), show 2 * p + e - (x.1 : ℤ) - p = e - (x.1 - p) by ring]
    · intro x hx
      have hl := hlow x hx
      rw [hmem] at hx ⊢
      have := g.round.sym1 _ _ hx
      simp only
      rwa [Int.toNat_of_nonneg (by omega), show 2 * p + e - (x.1 : ℤ) - p = e - (x.1 - p) by ring]
    · intro x hx
      have hl := hlow x hx
      ext <;> simp only
      omega
    · intro x hx
      have hl := hlow x hx
      ext <;> simp only
      omega
    · intro x hx
      have hl := hlow x hx
      have : (((2 * p + e - x.1 : ℤ).toNat : ℤ) : ℝ) = ((2 * p + e - x.1 : ℤ) : ℝ) := by rw [Int.toNat_of_nonneg (by omega)]
      simp only
      rw [Int.cast_natCast] at this
      rw [this]
      push_cast
      ring
  have s2 : ∑ x ∈ F, (x.2 : ℝ) = ∑ x ∈ F, ((2 * q + e : ℤ) - (x.2 : ℝ)) := by
    refine Finset.sum_nbij' (fun x => (x.1, (2 * q + e - x.2 : ℤ).toNat)) (fun x => (x.1, (2 * q + e - x.2 : ℤ).toNat)) ?_ ?_ ?_ ?_ ?_
    · intro x hx
      have hl := hlow x hx
      rw [hmem] at hx ⊢
      have := g.round.sym2 _ _ hx
      simp only
      rwa [Int.toNat_of_nonneg (by omega), show 2 * q + e - (x.2 : ℤ) - q = e - (x.2 - q) by ring]
    · intro x hx
      have hl := hlow x hx
      rw [hmem] at hx ⊢
      have := g.round.sym2 _ _ hx
      simp only
      rwa [Int.toNat_of_nonneg (by omega), show 2 * q + e - (x.2 : ℤ) - q = e - (x.2 - q) by ring]
    · intro x hx
      have hl := hlow x hx
      ext <;> simp only
      omega
    · intro x hx
      have hl := hlow x hx
      ext <;> simp only
      omega
    · intro x hx
      have hl := hlow x hx
      have : (((2 * q + e - x.2 : ℤ).toNat : ℤ) : ℝ) = ((2 * q + e - x.2 : ℤ) : ℝ) := by rw [Int.toNat_of_nonneg (by omega)]
      simp only
      rw [Int.cast_natCast] at this
      rw [this]
      push_cast
      ring
  rw [Finset.sum_sub_distrib, Finset.sum_const, nsmul_eq_mul] at s1 s2
  push_cast at s1 s2
  refine ⟨F, ?_, hF, ?_, ?_⟩
  · obtain ⟨u, v, hs⟩ := hne
    have a1 := g.ge1 hs
    have a3 := g.ge2 hs
    have b1 := g.rows.low p hp
    have b3 := g.cols.low q hq
    refine ⟨((p + u).toNat, (q + v).toNat), (hmem _).2 ?_⟩
    simp only
    rwa [Int.toNat_of_nonneg (by omega), Int.toNat_of_nonneg (by omega), show p + u - p = u by ring, show q + v - q = v by ring]
  · simp only; linarith
  · simp only; linarith

end

theorem isMiddle_unique {D : Set (ℕ × ℕ)} {c c' : Pt} (h : IsMiddle D c) (h' : IsMiddle D c') : c = c' := by
  obtain ⟨F, hne, hF, hy, hx⟩ := h
  obtain ⟨F', hne', hF', hy', hx'⟩ := h'
  have : F = F' := by rw [← Finset.coe_inj, hF, hF']
  subst this
  have hc : (F.card : ℝ) ≠ 0 := by exact_mod_cast hne.card_pos.ne'
  have e1 : c.y = c'.y := mul_right_cancel₀ hc (hy.trans hy'.symm)
  have e2 : c.x = c'.x := mul_right_cancel₀ hc (hx.trans hx'.symm)
  cases c
  cases c'
  simp only at e1 e2
  rw [e1, e2]

/-- The middles of the dots of a grid. -/
theorem Grid.middles {h w : ℕ} {e r : ℤ} {P Q : Set ℤ} {S : ℤ → ℤ → Prop} (g : Grid h w e r P Q S) {m : Mat ℤ}
    (hm : ∀ x, Lit m x ↔ x ∈ gridSet P Q S) (hne : ∃ u v, S u v) {pts : List Pt} (hp : MiddlesOf m pts) :
    pts.Nodup ∧ ∀ c, c ∈ pts ↔ ∃ p ∈ P, ∃ q ∈ Q, c = ⟨(p : ℝ) + e / 2, (q : ℝ) + e / 2⟩ := by
  obtain ⟨dots, hsc, hdots, hf⟩ := hp
  have hnd := scanned_nodup hsc
  clear hsc
  have hd : ∀ D, D ∈ dots ↔ ∃ p ∈ P, ∃ q ∈ Q, D = dotAt S p q := fun D => (hdots D).trans (g.isDot_iff hm hne D)
  constructor
  · have key : ∀ D ∈ dots, ∀ D' ∈ dots, ∀ c, IsMiddle D c → IsMiddle D' c → D = D' := by
      intro D hD D' hD' c hc hc'
      obtain ⟨p, hp, q, hq, rfl⟩ := (hd D).1 hD
      obtain ⟨p', hp', q', hq', rfl⟩ := (hd D').1 hD'
      have h1 := isMiddle_unique hc (g.middle hp hq hne)
      have h2 := isMiddle_unique hc' (g.middle hp' hq' hne)
      rw [h1] at h2
      simp only [Pt.mk.injEq, add_left_inj, Int.cast_inj] at h2
      rw [h2.1, h2.2]
    clear hdots hd
    induction hf with
    | nil => exact .nil
    | @cons D c dots pts hDc hf ih =>
      rw [List.nodup_cons] at hnd ⊢
      refine ⟨fun hc => ?_, ih hnd.2 fun D hD D' hD' => key D (by simp [hD]) D' (by simp [hD'])⟩
      obtain ⟨D', hD', hm'⟩ : ∃ D' ∈ dots, IsMiddle D' c := by
        clear ih key hnd
        induction hf with
        | nil => cases hc
        | cons hab _ ih =>
          rcases List.mem_cons.1 hc with rfl | hc
          · exact ⟨_, by simp, hab⟩
          · obtain ⟨E, hE, h⟩ := ih hc
            exact ⟨E, by simp [hE], h⟩
      have := key D (by simp) D' (by simp [hD']) c hDc hm'
      rw [this] at hnd
      exact hnd.1 hD'
  · intro c
    have h1 : c ∈ pts → ∃ D ∈ dots, IsMiddle D c := by
      intro hc
      clear hdots hd hnd
      induction hf with
      | nil => cases hc
      | cons hab _ ih =>
        rcases List.mem_cons.1 hc with rfl | hc
        · exact ⟨_, by simp, hab⟩
        · obtain ⟨E, hE, h⟩ := ih hc
          exact ⟨E, by simp [hE], h⟩
    have h2 : ∀ D ∈ dots, ∃ c ∈ pts, IsMiddle D c := by
      intro D hD
      clear hdots hd hnd h1
      induction hf with
      | nil => cases hD
      | cons hab _ ih =>
        rcases List.mem_cons.1 hD with rfl | hD
        · exact ⟨_, by simp, hab⟩
        · obtain ⟨E, hE, h⟩ := ih hD
          exact ⟨E, by simp [hE], h⟩
    constructor
    · intro hc
      obtain ⟨D, hD, hm'⟩ := h1 hc
      obtain ⟨p, hp, q, hq, rfl⟩ := (hd D).1 hD
      exact ⟨p, hp, q, hq, isMiddle_unique hm' (g.middle hp hq hne)⟩
    · rintro ⟨p, hp, q, hq, rfl⟩
      obtain ⟨c, hc, hm'⟩ := h2 _ ((hd _).2 ⟨p, hp, q, hq, rfl⟩)
      rw [← isMiddle_unique hm' (g.middle hp hq hne)]
      exact hc

end Discorpy
