import Verif.Lemmas.DotGrid
import Verif.Spec.Pattern
import Mathlib.Tactic.Linarith

/-! # Lemmas about the median filter on grids of dots, and about the number of pixels of a grid -/

namespace Discorpy

open Spec

/-- At least three of four. -/
def Three (a b c d : Prop) : Prop := (a ∧ b ∧ c) ∨ (a ∧ b ∧ d) ∨ (a ∧ c ∧ d) ∨ (b ∧ c ∧ d)

theorem Three.imp {a b c d a' b' c' d' : Prop} (h : Three a b c d) (ha : a → a') (hb : b → b') (hc : c → c') (hd : d → d') :
    Three a' b' c' d' := by
  unfold Three at *; tauto

/-- Offsets kept by the median filter of size two. -/
def zMed (S : ℤ → ℤ → Prop) (u v : ℤ) : Prop := Three (S (u - 1) (v - 1)) (S (u - 1) v) (S u (v - 1)) (S u v)

theorem Round.med {S : ℤ → ℤ → Prop} (h : Round 0 S) : Round 1 (zMed S) := by
  have n1 : ∀ u v, S u v → S (-u) v := fun u v hs => by have := h.sym1 _ _ hs; rwa [zero_sub] at this
  have n2 : ∀ u v, S u v → S u (-v) := fun u v hs => by have := h.sym2 _ _ hs; rwa [zero_sub] at this
  have s1 : ∀ u v, zMed S u v → zMed S (1 - u) v := by
    intro u v hm
    have hm' := hm.imp (n1 _ _) (n1 _ _) (n1 _ _) (n1 _ _)
    unfold zMed
    rw [show 1 - u - 1 = -u by ring, show 1 - u = -(u - 1) by ring]
    unfold Three at *; tauto
  have s2 : ∀ u v, zMed S u v → zMed S u (1 - v) := by
    intro u v hm
    have hm' := hm.imp (n2 _ _) (n2 _ _) (n2 _ _) (n2 _ _)
    unfold zMed
    rw [show 1 - v - 1 = -v by ring, show 1 - v = -(v - 1) by ring]
    unfold Three at *; tauto
  refine ⟨by norm_num, le_refl _, s1, s2, ?_, ?_⟩
  · intro u v hm hu
    rcases eq_or_lt_of_le hu with rfl | hu
    · exact s1 1 v hm
    · exact hm.imp (fun a => h.in1 _ _ a (by omega)) (fun a => h.in1 _ _ a (by omega)) (fun a => h.in1 _ _ a (by omega))
        fun a => h.in1 _ _ a (by omega)
  · intro u v hm hv
    rcases eq_or_lt_of_le hv with rfl | hv
    · exact s2 u 1 hm
    · exact hm.imp (fun a => h.in2 _ _ a (by omega)) (fun a => h.in2 _ _ a (by omega)) (fun a => h.in2 _ _ a (by omega))
        fun a => h.in2 _ _ a (by omega)

theorem Grid.med {h w : ℕ} {r : ℤ} {P Q : Set ℤ} {S : ℤ → ℤ → Prop} (g : Grid h w 0 r P Q S) : Grid h w 1 r P Q (zMed S) := by
  refine ⟨g.round.med, fun u v hm => ?_, fun u v hm => ?_, ⟨fun p hp p' hp' hl => ?_, fun p hp => ?_, g.rows.high⟩,
    ⟨fun p hp p' hp' hl => ?_, fun p hp => ?_, g.cols.high⟩⟩
  · have : S u (v - 1) ∨ S u v := by unfold zMed Three at hm; tauto
    rcases this with hs | hs <;> exact g.le1 _ _ hs
  · have : S (u - 1) v ∨ S u v := by unfold zMed Three at hm; tauto
    rcases this with hs | hs <;> exact g.le2 _ _ hs
  · have := g.rows.apart p hp p' hp' hl; omega
  · have := g.rows.low p hp; omega
  · have := g.cols.apart p hp p' hp' hl; omega
  · have := g.cols.low p hp; omega

/-- The third smallest of four values zero or one. -/
theorem rank_binary {a b c d v : ℝ} (ha : a = 0 ∨ a = 1) (hb : b = 0 ∨ b = 1) (hc : c = 0 ∨ c = 1) (hd : d = 0 ∨ d = 1)
    (h : IsRank [a, b, c, d] 2 v) : (Three (a = 0) (b = 0) (c = 0) (d = 0) ∧ v = 0) ∨ (¬ Three (a = 0) (b = 0) (c = 0) (d = 0) ∧ v = 1) := by
  obtain ⟨hm, h1, h2⟩ := h
  have hv : v = 0 ∨ v = 1 := by
    simp only [List.mem_cons, List.not_mem_nil, or_false] at hm
    rcases hm with rfl | rfl | rfl | rfl <;> assumption
  unfold Three
  rcases hv with rfl | rfl <;> rcases ha with rfl | rfl <;> rcases hb with rfl | rfl <;> rcases hc with rfl | rfl <;> rcases hd with rfl | rfl <;>
    simp_all

/-- The image after the median filter. -/
theorem Grid.med_values {m : Mat ℝ} {r : ℤ} {P Q : Set ℤ} {S : ℤ → ℤ → Prop} (g : Grid m.height m.width 0 r P Q S)
    (hm : ∀ x ∈ Spec.frame m.height m.width, (x ∈ gridSet P Q S ∧ m.get x.1 x.2 = 0) ∨ (x ∉ gridSet P Q S ∧ m.get x.1 x.2 = 1))
    {f : ℕ → ℕ → ℝ} (hf : ∀ i < m.height, ∀ j < m.width,
      IsRank [|m.get (i - 1) (j - 1)|, |m.get (i - 1) j|, |m.get i (j - 1)|, |m.get i j|] 2 (f i j)) :
    ∀ x ∈ Spec.frame m.height m.width, (x ∈ gridSet P Q (zMed S) ∧ f x.1 x.2 = 0) ∨ (x ∉ gridSet P Q (zMed S) ∧ f x.1 x.2 = 1) := by
  rintro ⟨i, j⟩ ⟨hi, hj⟩
  simp only at hi hj
  have hv : ∀ x ∈ Spec.frame m.height m.width, |m.get x.1 x.2| = 0 ∨ |m.get x.1 x.2| = 1 := by
    intro x hx
    rcases hm x hx with ⟨_, e⟩ | ⟨_, e⟩ <;> rw [e] <;> simp
  have hz : ∀ x ∈ Spec.frame m.height m.width, |m.get x.1 x.2| = 0 ↔ x ∈ gridSet P Q S := by
    intro x hx
    rcases hm x hx with ⟨a, e⟩ | ⟨a, e⟩ <;> rw [e] <;> simp [a]
  have m1 : ((i - 1, j - 1) : ℕ × ℕ) ∈ Spec.frame m.height m.width := ⟨by simp only; omega, by simp only; omega⟩
  have m2 : ((i - 1, j) : ℕ × ℕ) ∈ Spec.frame m.height m.width := ⟨by simp only; omega, hj⟩
  have m3 : ((i, j - 1) : ℕ × ℕ) ∈ Spec.frame m.height m.width := ⟨hi, by simp only; omega⟩
  have m4 : ((i, j) : ℕ × ℕ) ∈ Spec.frame m.height m.width := ⟨hi, hj⟩
  have := rank_binary (hv _ m1) (hv _ m2) (hv _ m3) (hv _ m4) (hf i hi j hj)
  have e : Three (|m.get (i - 1) (j - 1)| = 0) (|m.get (i - 1) j| = 0) (|m.get i (j - 1)| = 0) (|m.get i j| = 0) ↔
      (i, j) ∈ gridSet P Q (zMed S) := by
    rw [show (|m.get (i - 1) (j - 1)| = 0) ↔ _ from hz _ m1, show (|m.get (i - 1) j| = 0) ↔ _ from hz _ m2,
      show (|m.get i (j - 1)| = 0) ↔ _ from hz _ m3, show (|m.get i j| = 0) ↔ _ from hz _ m4]
    constructor
    · intro ht
      have hpos : 1 ≤ i ∧ 1 ≤ j := by
        have h1 : (i, j - 1) ∈ gridSet P Q S ∨ (i, j) ∈ gridSet P Q S := by unfold Three at ht; tauto
        have h2 : (i - 1, j) ∈ gridSet P Q S ∨ (i, j) ∈ gridSet P Q S := by unfold Three at ht; tauto
        constructor
        · rcases h1 with hy | hy <;> exact (g.inner hy).1
        · rcases h2 with hy | hy <;> exact (g.inner hy).2.2.1
      -- all dark pixels of the block belong to one dot
      have hone : ∀ y z : ℕ × ℕ, y ∈ gridSet P Q S → z ∈ gridSet P Q S → |(y.1 : ℤ) - z.1| ≤ 1 → |(y.2 : ℤ) - z.2| ≤ 1 →
          ∀ p ∈ P, ∀ q ∈ Q, y ∈ dotAt S p q → z ∈ dotAt S p q := by
        rintro y z - ⟨p', hp', q', hq', hz'⟩ t1 t2 p hp q hq hy
        obtain ⟨rfl, rfl⟩ := g.same hp hq hp' hq' hy hz' t1 t2
        exact hz'
      have hfirst : ∃ y : ℕ × ℕ, y ∈ gridSet P Q S ∧ (i : ℤ) - 1 ≤ y.1 ∧ y.1 ≤ i ∧ (j : ℤ) - 1 ≤ y.2 ∧ y.2 ≤ j := by
        have : (i, j - 1) ∈ gridSet P Q S ∨ (i, j) ∈ gridSet P Q S := by unfold Three at ht; tauto
        rcases this with hy | hy
        · exact ⟨_, hy, by simp only; omega, by simp only; omega, by simp only; omega, by simp only; omega⟩
        · exact ⟨_, hy, by simp only; omega, by simp only; omega, by simp only; omega, by simp only; omega⟩
      obtain ⟨y, hy, y1, y2, y3, y4⟩ := hfirst
      obtain ⟨p, hp, q, hq, hyd⟩ := hy
      refine ⟨p, hp, q, hq, ?_⟩
      have hy' : y ∈ gridSet P Q S := ⟨p, hp, q, hq, hyd⟩
      have tr : ∀ z : ℕ × ℕ, z ∈ gridSet P Q S → (i : ℤ) - 1 ≤ z.1 → z.1 ≤ i → (j : ℤ) - 1 ≤ z.2 → z.2 ≤ j → z ∈ dotAt S p q := by
        intro z hz a1 a2 a3 a4
        exact hone y z hy' hz (by rw [abs_le]; omega) (by rw [abs_le]; omega) p hp q hq hyd
      refine ht.imp (fun hz => ?_) (fun hz => ?_) (fun hz => ?_) fun hz => ?_
      · have := tr _ hz (by simp only; omega) (by simp only; omega) (by simp only; omega) (by simp only; omega)
        simp only [dotAt, Set.mem_ofPred_eq] at this
        rwa [show ((i - 1 : ℕ) : ℤ) - p = i - p - 1 by omega, show ((j - 1 : ℕ) : ℤ) - q = j - q - 1 by omega] at this
      · have := tr _ hz (by simp only; omega) (by simp only; omega) (by simp only; omega) (by simp only; omega)
        simp only [dotAt, Set.mem_ofPred_eq] at this
        rwa [show ((i - 1 : ℕ) : ℤ) - p = i - p - 1 by omega] at this
      · have := tr _ hz (by simp only; omega) (by simp only; omega) (by simp only; omega) (by simp only; omega)
        simp only [dotAt, Set.mem_ofPred_eq] at this
        rwa [show ((j - 1 : ℕ) : ℤ) - q = j - q - 1 by omega] at this
      · exact tr _ hz (by simp only; omega) (by simp only; omega) (by simp only; omega) (by simp only; omega)
    · rintro ⟨p, hp, q, hq, hd⟩
      have hin := g.med.inner ⟨p, hp, q, hq, hd⟩
      simp only at hin
      refine Three.imp hd (fun hs => ⟨p, hp, q, hq, ?_⟩) (fun hs => ⟨p, hp, q, hq, ?_⟩) (fun hs => ⟨p, hp, q, hq, ?_⟩)
        fun hs => ⟨p, hp, q, hq, hs⟩
      · simp only [dotAt, Set.mem_ofPred_eq]
        rwa [show ((i - 1 : ℕ) : ℤ) - p = i - p - 1 by omega, show ((j - 1 : ℕ) : ℤ) - q = j - q - 1 by omega]
      · simp only [dotAt, Set.mem_ofPred_eq]
        rwa [show ((i - 1 : ℕ) : ℤ) - p = i - p - 1 by omega]
      · simp only [dotAt, Set.mem_ofPred_eq]
        rwa [show ((j - 1 : ℕ) : ℤ) - q = j - q - 1 by omega]
  rw [e] at this
  exact this

/-- The number of pixels of a grid. -/
theorem Grid.ncard_le {h w : ℕ} {e r : ℤ} {FP FQ : Finset ℤ} {S : ℤ → ℤ → Prop} (g : Grid h w e r (FP : Set ℤ) (FQ : Set ℤ) S) :
    (gridSet (FP : Set ℤ) (FQ : Set ℤ) S).ncard ≤ FP.card * (2 * r - e + 1).toNat * (FQ.card * (2 * r - e + 1).toNat) := by
  classical
  have hsub : gridSet (FP : Set ℤ) (FQ : Set ℤ) S ⊆
      ((((FP ×ˢ Finset.Icc (e - r) r) ×ˢ (FQ ×ˢ Finset.Icc (e - r) r)).image fun z => ((z.1.1 + z.1.2).toNat, (z.2.1 + z.2.2).toNat) :
        Finset (ℕ × ℕ)) : Set (ℕ × ℕ)) := by
    rintro ⟨i, j⟩ ⟨p, hp, q, hq, hx⟩
    rw [Finset.mem_coe, Finset.mem_image]
    refine ⟨((p, (i : ℤ) - p), (q, (j : ℤ) - q)), ?_, ?_⟩
    · simp only [Finset.mem_product, Finset.mem_Icc]
      exact ⟨⟨hp, g.ge1 hx, g.le1 _ _ hx⟩, hq, g.ge2 hx, g.le2 _ _ hx⟩
    · ext <;> simp
  calc (gridSet (FP : Set ℤ) (FQ : Set ℤ) S).ncard ≤ _ := Set.ncard_le_ncard hsub (Finset.finite_toSet _)
    _ = _ := Set.ncard_coe_finset _
    _ ≤ _ := Finset.card_image_le
    _ = _ := by
      rw [Finset.card_product, Finset.card_product, Finset.card_product, Int.card_Icc, show r + 1 - (e - r) = 2 * r - e + 1 by ring]

end Discorpy
