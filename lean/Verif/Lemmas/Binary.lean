import Verif.Model.Binary
import Verif.Spec.Binary
import Verif.Lemmas.Dots
import Verif.Lemmas.DotDist
import Verif.Lemmas.Array
import Verif.Lemmas.Except
import Mathlib.Tactic.Linarith

/-! # Helper lemmas: foreground, objects, openings and holes -/

namespace Discorpy

open Spec

/-! ## Sets of pixels -/

theorem edgeTouch_iff {p q : ℕ × ℕ} : EdgeTouch p q ↔ Adj4 p q := by
  unfold EdgeTouch Adj4
  constructor
  · intro h
    rcases abs_cases ((p.1 : ℤ) - q.1) with ⟨h1, _⟩ | ⟨h1, _⟩ <;> rcases abs_cases ((p.2 : ℤ) - q.2) with ⟨h2, _⟩ | ⟨h2, _⟩ <;> omega
  · intro h
    rcases abs_cases ((p.1 : ℤ) - q.1) with ⟨h1, _⟩ | ⟨h1, _⟩ <;> rcases abs_cases ((p.2 : ℤ) - q.2) with ⟨h2, _⟩ | ⟨h2, _⟩ <;> omega

theorem cornerTouch_iff {p q : ℕ × ℕ} : CornerTouch p q ↔ Adj8 p q ∧ p ≠ q := by
  obtain ⟨a, b⟩ := p
  obtain ⟨c, d⟩ := q
  unfold CornerTouch Adj8
  simp only [ne_eq, Prod.mk.injEq]
  constructor
  · intro h
    rcases abs_cases ((a : ℤ) - c) with ⟨h1, _⟩ | ⟨h1, _⟩ <;> rcases abs_cases ((b : ℤ) - d) with ⟨h2, _⟩ | ⟨h2, _⟩ <;> omega
  · intro h
    rcases abs_cases ((a : ℤ) - c) with ⟨h1, _⟩ | ⟨h1, _⟩ <;> rcases abs_cases ((b : ℤ) - d) with ⟨h2, _⟩ | ⟨h2, _⟩ <;> omega

theorem EdgeTouch.symm {p q : ℕ × ℕ} (h : EdgeTouch p q) : EdgeTouch q p := by
  rw [edgeTouch_iff] at h ⊢; exact Adj4.symm h

theorem joined_iff {touch : ℕ × ℕ → ℕ × ℕ → Prop} {A : Set (ℕ × ℕ)} {p q : ℕ × ℕ} :
    Joined touch A p q ↔ p ∈ A ∧ Relation.ReflTransGen (fun a b => touch a b ∧ b ∈ A) p q := by
  constructor
  · rintro ⟨hp, h⟩
    refine ⟨hp, h {x | Relation.ReflTransGen (fun a b => touch a b ∧ b ∈ A) p x} .refl ?_⟩
    intro a ha b hb hab
    exact Relation.ReflTransGen.tail ha ⟨hab, hb⟩
  · rintro ⟨hp, h⟩
    refine ⟨hp, fun D hD hc => ?_⟩
    induction h with
    | refl => exact hD
    | tail _ hab ih => exact hc _ ih _ hab.2 hab.1

theorem Spec.Joined.mem {touch : ℕ × ℕ → ℕ × ℕ → Prop} {A : Set (ℕ × ℕ)} {p q : ℕ × ℕ} (h : Joined touch A p q) : q ∈ A :=
  h.2 A h.1 fun _ _ _ hb _ => hb

theorem Spec.Joined.self {touch : ℕ × ℕ → ℕ × ℕ → Prop} {A : Set (ℕ × ℕ)} {p : ℕ × ℕ} (h : p ∈ A) : Joined touch A p p :=
  ⟨h, fun _ hp _ => hp⟩

theorem Spec.Joined.head {touch : ℕ × ℕ → ℕ × ℕ → Prop} {A : Set (ℕ × ℕ)} {p q r : ℕ × ℕ} (hp : p ∈ A) (ht : touch p q)
    (h : Joined touch A q r) : Joined touch A p r :=
  ⟨hp, fun D hD hc => h.2 D (hc p hD q h.1 ht) hc⟩

theorem rim_not_mem_awayFromRim {h w : ℕ} {A : Set (ℕ × ℕ)} {p : ℕ × ℕ} (hp : p ∈ rim h w) : p ∉ awayFromRim h w A :=
  fun hA => hA.2 p hp (.self hA.1)

theorem pluses_subset (A : Set (ℕ × ℕ)) : pluses A ⊆ A := fun _ ⟨_, hp, hc⟩ => hc hp

theorem plus_subset_pluses {A : Set (ℕ × ℕ)} {c : ℕ × ℕ} (h : plus c ⊆ A) : plus c ⊆ pluses A := fun _ hp => ⟨c, hp, h⟩

theorem subset_withHoles {h w : ℕ} {A : Set (ℕ × ℕ)} (hA : A ⊆ frame h w) : A ⊆ withHoles h w A :=
  fun _ hp => ⟨hA hp, fun _ _ hj => hj.1.2 hp⟩

theorem rim_not_mem_withHoles {h w : ℕ} {A : Set (ℕ × ℕ)} {p : ℕ × ℕ} (hp : p ∈ rim h w) (hA : p ∉ A) : p ∉ withHoles h w A :=
  fun hw => hw.2 p hp (.self ⟨hp.1, hA⟩)

theorem rim_not_mem_dotMask {h w : ℕ} {A : Set (ℕ × ℕ)} {p : ℕ × ℕ} (hp : p ∈ rim h w) : p ∉ dotMask h w A :=
  rim_not_mem_withHoles hp fun hc => rim_not_mem_awayFromRim hp (pluses_subset _ hc)

theorem dotMask_frame {h w : ℕ} {A : Set (ℕ × ℕ)} {p : ℕ × ℕ} (hp : p ∈ dotMask h w A) : p ∈ frame h w := hp.1

/-- The neighbours of a pixel off the rim are in the image. -/
theorem plus_frame {h w : ℕ} {p q : ℕ × ℕ} (hp : p ∈ frame h w) (hr : p ∉ rim h w) (hq : q ∈ plus p) : q ∈ frame h w := by
  rcases hq with rfl | hq
  · exact hp
  · rw [edgeTouch_iff] at hq
    unfold Adj4 at hq
    simp only [frame, rim, Set.mem_ofPred_eq, not_and_or] at hp hr ⊢
    omega

theorem dotMask_plus {h w : ℕ} {A : Set (ℕ × ℕ)} (hA : A ⊆ frame h w) {p : ℕ × ℕ} (hp : p ∈ dotMask h w A) :
    ∃ c, p ∈ plus c ∧ plus c ⊆ dotMask h w A := by
  have hC : pluses (awayFromRim h w A) ⊆ frame h w := fun q hq => hA (pluses_subset _ hq).1
  by_cases h1 : p ∈ pluses (awayFromRim h w A)
  · obtain ⟨c, hc, hs⟩ := h1
    exact ⟨c, hc, (plus_subset_pluses hs).trans (subset_withHoles hC)⟩
  · refine ⟨p, Or.inl rfl, fun q hq => ⟨plus_frame hp.1 (fun hr => rim_not_mem_dotMask hr hp) hq, fun r hr hj => ?_⟩⟩
    rcases hq with rfl | hq
    · exact hp.2 r hr hj
    · exact hp.2 r hr (.head ⟨hp.1, h1⟩ hq hj)

/-- From every pixel outside of the dots one can walk to the rim without touching them. -/
theorem dotMask_outside {h w : ℕ} {A : Set (ℕ × ℕ)} (hA : A ⊆ frame h w) {p : ℕ × ℕ} (hp : p ∈ frame h w) (hd : p ∉ dotMask h w A) :
    ∃ q ∈ rim h w, Joined EdgeTouch (frame h w \ dotMask h w A) p q := by
  have hd' : ∃ q ∈ rim h w, Joined EdgeTouch (frame h w \ pluses (awayFromRim h w A)) p q := by
    by_contra hc
    push Not at hc
    exact hd ⟨hp, hc⟩
  obtain ⟨q, hq, hj⟩ := hd'
  refine ⟨q, hq, ?_⟩
  rw [joined_iff] at hj ⊢
  refine ⟨⟨hp, hd⟩, ?_⟩
  have key : ∀ x, Relation.ReflTransGen (fun a b => EdgeTouch a b ∧ b ∈ frame h w \ pluses (awayFromRim h w A)) x q →
      Relation.ReflTransGen (fun a b => EdgeTouch a b ∧ b ∈ frame h w \ dotMask h w A) x q := by
    intro x hx
    induction hx using Relation.ReflTransGen.head_induction_on with
    | refl => exact .refl
    | head hab hbc ih =>
      refine Relation.ReflTransGen.head ⟨hab.1, hab.2.1, fun hb => ?_⟩ ih
      exact hb.2 q hq (joined_iff.2 ⟨hab.2, hbc⟩)
  exact key p hj.2

/-- The dots of dots are the dots. -/
theorem dotMask_idem {h w : ℕ} {A : Set (ℕ × ℕ)} (hA : A ⊆ frame h w) : dotMask h w (dotMask h w A) = dotMask h w A := by
  have h1 : awayFromRim h w (dotMask h w A) = dotMask h w A := by
    ext p
    exact ⟨fun hp => hp.1, fun hp => ⟨hp, fun q hq hj => rim_not_mem_dotMask hq hj.mem⟩⟩
  have h2 : pluses (dotMask h w A) = dotMask h w A :=
    Set.Subset.antisymm (pluses_subset _) fun p hp => dotMask_plus hA hp
  rw [show dotMask h w (dotMask h w A) = withHoles h w (pluses (awayFromRim h w (dotMask h w A))) from rfl, h1, h2]
  apply Set.Subset.antisymm
  · intro p hp
    by_contra hc
    obtain ⟨q, hq, hj⟩ := dotMask_outside hA hp.1 hc
    exact hp.2 q hq hj
  · exact subset_withHoles fun p hp => hp.1

/-! ## The model -/

/-- The image is the indicator of the set. -/
def Indicates (m : Mat ℝ) (A : Set (ℕ × ℕ)) : Prop :=
  ∀ p : ℕ × ℕ, p ∈ frame m.height m.width → (p ∈ A ∧ m.get p.1 p.2 = 1 ∨ p ∉ A ∧ m.get p.1 p.2 = 0)

theorem Indicates.one {m : Mat ℝ} {A : Set (ℕ × ℕ)} (h : Indicates m A) {p : ℕ × ℕ} (hp : p ∈ frame m.height m.width) :
    m.get p.1 p.2 = 1 ↔ p ∈ A := by
  rcases h p hp with ⟨h1, h2⟩ | ⟨h1, h2⟩ <;> simp [h1, h2]

theorem Indicates.zero {m : Mat ℝ} {A : Set (ℕ × ℕ)} (h : Indicates m A) {p : ℕ × ℕ} (hp : p ∈ frame m.height m.width) :
    m.get p.1 p.2 = 0 ↔ p ∉ A := by
  rcases h p hp with ⟨h1, h2⟩ | ⟨h1, h2⟩ <;> simp [h1, h2]

theorem rim_iff {α : Type} {m : Mat α} {p : ℕ × ℕ} : p ∈ rim m.height m.width ↔ InFrame m p ∧ OnBorder m p := by
  simp only [rim, frame, InFrame, OnBorder, Set.mem_ofPred_eq]
  omega

theorem sameObject_iff {m : Mat ℝ} {A : Set (ℕ × ℕ)} (h : Indicates m A) (hA : A ⊆ frame m.height m.width) {p q : ℕ × ℕ}
    (hp : p ∈ A) : SameObject m p q ↔ Joined CornerTouch A p q := by
  rw [joined_iff]
  unfold SameObject
  constructor
  · intro hs
    have key : q ∈ A ∧ Relation.ReflTransGen (fun a b => CornerTouch a b ∧ b ∈ A) p q := by
      induction hs with
      | refl => exact ⟨hp, .refl⟩
      | tail _ hab ih =>
        obtain ⟨hb, h8, e⟩ := hab
        rename_i b c _
        have hbA : c ∈ A := by rw [← h.one hb, ← e]; exact (h.one (hA ih.1)).2 ih.1
        refine ⟨hbA, ?_⟩
        by_cases hbc : b = c
        · rw [← hbc]; exact ih.2
        · exact ih.2.tail ⟨cornerTouch_iff.2 ⟨h8, hbc⟩, hbA⟩
    exact ⟨hp, key.2⟩
  · rintro ⟨_, hs⟩
    have key : q ∈ A ∧ Relation.ReflTransGen (fun a b => InFrame m b ∧ Adj8 a b ∧ m.get a.1 a.2 = m.get b.1 b.2) p q := by
      induction hs with
      | refl => exact ⟨hp, .refl⟩
      | tail _ hab ih =>
        refine ⟨hab.2, ih.2.tail ⟨hA hab.2, (cornerTouch_iff.1 hab.1).1, ?_⟩⟩
        rw [(h.one (hA ih.1)).2 ih.1, (h.one (hA hab.2)).2 hab.2]
    exact key.2

theorem clearBorder_indicates {m : Mat ℝ} {A : Set (ℕ × ℕ)} (h : Indicates m A) (hA : A ⊆ frame m.height m.width)
    (h0 : m.height ≠ 0) (h1 : m.width ≠ 0) :
    ∃ b, clearBorder m = .ok b ∧ b.height = m.height ∧ b.width = m.width ∧ Indicates b (awayFromRim m.height m.width A) := by
  unfold clearBorder
  rw [if_neg (by simp [h0, h1])]
  refine ⟨_, rfl, rfl, rfl, fun p hp => ?_⟩
  simp only at hp ⊢
  by_cases hpA : p ∈ A
  · by_cases hb : ∃ q ∈ rim m.height m.width, Joined CornerTouch A p q
    · obtain ⟨q, hq, hj⟩ := hb
      right
      refine ⟨fun hc => hc.2 q hq hj, ?_⟩
      rw [if_pos ⟨q, (rim_iff.1 hq).1, (rim_iff.1 hq).2, (sameObject_iff h hA hpA).2 hj⟩]
    · left
      refine ⟨⟨hpA, fun q hq hj => hb ⟨q, hq, hj⟩⟩, ?_⟩
      rw [if_neg, (h.one hp).2 hpA]
      rintro ⟨q, hq1, hq2, hs⟩
      exact hb ⟨q, rim_iff.2 ⟨hq1, hq2⟩, (sameObject_iff h hA hpA).1 hs⟩
  · right
    refine ⟨fun hc => hpA hc.1, ?_⟩
    rw [(h.zero hp).2 hpA]
    split_ifs <;> rfl

theorem erode_indicates {m : Mat ℝ} {A : Set (ℕ × ℕ)} (h : Indicates m A) (hA : A ⊆ frame m.height m.width)
    (hr : ∀ p ∈ rim m.height m.width, p ∉ A) : Indicates (erodeCross m) {c | plus c ⊆ A} := by
  rintro ⟨i, j⟩ hp
  simp only [erodeCross, frame, Set.mem_ofPred_eq] at hp ⊢
  obtain ⟨hi, hj⟩ := hp
  have f0 : (i, j) ∈ frame m.height m.width := ⟨hi, hj⟩
  have f1 : (i - 1, j) ∈ frame m.height m.width := ⟨by simp only; omega, hj⟩
  have f2 : (min (i + 1) (m.height - 1), j) ∈ frame m.height m.width := ⟨by simp only; omega, hj⟩
  have f3 : (i, j - 1) ∈ frame m.height m.width := ⟨hi, by simp only; omega⟩
  have f4 : (i, min (j + 1) (m.width - 1)) ∈ frame m.height m.width := ⟨hi, by simp only; omega⟩
  have bound : ∀ p ∈ frame m.height m.width, 0 ≤ m.get p.1 p.2 ∧ m.get p.1 p.2 ≤ 1 := by
    intro p hp
    rcases h p hp with ⟨_, e⟩ | ⟨_, e⟩ <;> rw [e] <;> norm_num
  by_cases hs : plus (i, j) ⊆ A
  · left
    refine ⟨hs, ?_⟩
    have hin : (i, j) ∉ rim m.height m.width := fun hc => hr _ hc (hs (Or.inl rfl))
    have hn : i ≠ 0 ∧ j ≠ 0 ∧ i + 1 ≠ m.height ∧ j + 1 ≠ m.width := by
      simp only [rim, frame, Set.mem_ofPred_eq, not_and_or] at hin
      omega
    have g : ∀ q : ℕ × ℕ, q ∈ frame m.height m.width → (q = (i, j) ∨ EdgeTouch (i, j) q) → m.get q.1 q.2 = 1 := fun q hq hqq =>
      (h.one hq).2 (hs hqq)
    have e0 := g (i, j) f0 (Or.inl rfl)
    have e1 := g _ f1 (Or.inr (by rw [edgeTouch_iff]; unfold Adj4; simp only [true_and]; omega))
    have e2 := g _ f2 (Or.inr (by rw [edgeTouch_iff]; unfold Adj4; simp only [true_and]; omega))
    have e3 := g _ f3 (Or.inr (by rw [edgeTouch_iff]; unfold Adj4; simp only [true_and]; omega))
    have e4 := g _ f4 (Or.inr (by rw [edgeTouch_iff]; unfold Adj4; simp only [true_and]; omega))
    simp only at e0 e1 e2 e3 e4
    rw [e0, e1, e2, e3, e4]
    simp
  · right
    refine ⟨hs, ?_⟩
    rw [Set.not_subset] at hs
    obtain ⟨q, hq, hqA⟩ := hs
    have low : ∀ x y z u v : ℝ, 0 ≤ x → 0 ≤ y → 0 ≤ z → 0 ≤ u → 0 ≤ v → (x = 0 ∨ y = 0 ∨ z = 0 ∨ u = 0 ∨ v = 0) →
        min x (min (min y z) (min u v)) = 0 := by
      intro x y z u v hx hy hz hu hv hor
      apply le_antisymm
      · rcases hor with e | e | e | e | e <;> rw [← e] <;> simp
      · exact le_min hx (le_min (le_min hy hz) (le_min hu hv))
    apply low _ _ _ _ _ (bound _ f0).1 (bound _ f1).1 (bound _ f2).1 (bound _ f3).1 (bound _ f4).1
    by_cases hrim : (i, j) ∈ rim m.height m.width
    · exact Or.inl ((h.zero f0).2 (hr _ hrim))
    · have hn : i ≠ 0 ∧ j ≠ 0 ∧ i + 1 ≠ m.height ∧ j + 1 ≠ m.width := by
        simp only [rim, frame, Set.mem_ofPred_eq, not_and_or] at hrim
        omega
      rcases hq with rfl | hq
      · exact Or.inl ((h.zero f0).2 hqA)
      · rw [edgeTouch_iff] at hq
        obtain ⟨k, l⟩ := q
        unfold Adj4 at hq
        simp only at hq
        rcases hq with ⟨e, e' | e'⟩ | ⟨e, e' | e'⟩
        · have : (i, min (j + 1) (m.width - 1)) = (k, l) := by ext <;> simp only <;> omega
          rw [← this] at hqA
          exact Or.inr (Or.inr (Or.inr (Or.inr ((h.zero f4).2 hqA))))
        · have : (i, j - 1) = (k, l) := by ext <;> simp only <;> omega
          rw [← this] at hqA
          exact Or.inr (Or.inr (Or.inr (Or.inl ((h.zero f3).2 hqA))))
        · have : (min (i + 1) (m.height - 1), j) = (k, l) := by ext <;> simp only <;> omega
          rw [← this] at hqA
          exact Or.inr (Or.inr (Or.inl ((h.zero f2).2 hqA)))
        · have : (i - 1, j) = (k, l) := by ext <;> simp only <;> omega
          rw [← this] at hqA
          exact Or.inr (Or.inl ((h.zero f1).2 hqA))

theorem dilate_indicates {m : Mat ℝ} {A : Set (ℕ × ℕ)} (h : Indicates m A) :
    Indicates (dilateCross m) {p ∈ frame m.height m.width | ∃ c ∈ A, c ∈ frame m.height m.width ∧ p ∈ plus c} := by
  rintro ⟨i, j⟩ hp
  have hp' := hp
  simp only [dilateCross, frame, Set.mem_ofPred_eq] at hp ⊢
  obtain ⟨hi, hj⟩ := hp
  have f0 : (i, j) ∈ frame m.height m.width := ⟨hi, hj⟩
  have f1 : (i - 1, j) ∈ frame m.height m.width := ⟨by simp only; omega, hj⟩
  have f2 : (min (i + 1) (m.height - 1), j) ∈ frame m.height m.width := ⟨by simp only; omega, hj⟩
  have f3 : (i, j - 1) ∈ frame m.height m.width := ⟨hi, by simp only; omega⟩
  have f4 : (i, min (j + 1) (m.width - 1)) ∈ frame m.height m.width := ⟨hi, by simp only; omega⟩
  have bound : ∀ p ∈ frame m.height m.width, m.get p.1 p.2 ≤ 1 := by
    intro p hp
    rcases h p hp with ⟨_, e⟩ | ⟨_, e⟩ <;> rw [e] <;> norm_num
  by_cases hs : ∃ c ∈ A, c ∈ frame m.height m.width ∧ (i, j) ∈ plus c
  · left
    refine ⟨⟨⟨hi, hj⟩, hs⟩, ?_⟩
    obtain ⟨c, hcA, hcf, hc⟩ := hs
    have e1 := (h.one hcf).2 hcA
    have up : ∀ x y z u v : ℝ, x ≤ 1 → y ≤ 1 → z ≤ 1 → u ≤ 1 → v ≤ 1 → (x = 1 ∨ y = 1 ∨ z = 1 ∨ u = 1 ∨ v = 1) →
        max x (max (max y z) (max u v)) = 1 := by
      intro x y z u v hx hy hz hu hv hor
      apply le_antisymm
      · exact max_le hx (max_le (max_le hy hz) (max_le hu hv))
      · rcases hor with e | e | e | e | e <;> rw [← e] <;> simp
    apply up _ _ _ _ _ (bound _ f0) (bound _ f1) (bound _ f2) (bound _ f3) (bound _ f4)
    rcases hc with e | hc
    · rw [← e] at e1
      exact Or.inl e1
    · rw [edgeTouch_iff] at hc
      obtain ⟨k, l⟩ := c
      unfold Adj4 at hc
      obtain ⟨hk, hl⟩ := hcf
      simp only at hc e1 hk hl
      rcases hc with ⟨e, e' | e'⟩ | ⟨e, e' | e'⟩
      · refine Or.inr (Or.inr (Or.inr (Or.inl ?_)))
        rw [← e1]; congr 1 <;> omega
      · refine Or.inr (Or.inr (Or.inr (Or.inr ?_)))
        rw [← e1]; congr 1 <;> omega
      · refine Or.inr (Or.inl ?_)
        rw [← e1]; congr 1 <;> omega
      · refine Or.inr (Or.inr (Or.inl ?_))
        rw [← e1]; congr 1 <;> omega
  · right
    refine ⟨fun hc => hs hc.2, ?_⟩
    have g : ∀ q : ℕ × ℕ, q ∈ frame m.height m.width → (i, j) ∈ plus q → m.get q.1 q.2 = 0 := fun q hq hqq =>
      (h.zero hq).2 fun hqA => hs ⟨q, hqA, hq, hqq⟩
    have tr : ∀ q : ℕ × ℕ, ((i, j) = q ∨ Adj4 q (i, j)) → (i, j) ∈ plus q := fun q hq => hq.imp id edgeTouch_iff.2
    have e0 := g _ f0 (Or.inl rfl)
    have e1 := g _ f1 (tr _ (by unfold Adj4; simp only [Prod.mk.injEq, true_and, and_true]; omega))
    have e2 := g _ f2 (tr _ (by unfold Adj4; simp only [Prod.mk.injEq, true_and, and_true]; omega))
    have e3 := g _ f3 (tr _ (by unfold Adj4; simp only [Prod.mk.injEq, true_and, and_true]; omega))
    have e4 := g _ f4 (tr _ (by unfold Adj4; simp only [Prod.mk.injEq, true_and, and_true]; omega))
    simp only at e0 e1 e2 e3 e4
    rw [e0, e1, e2, e3, e4]
    simp

theorem opening_indicates {m : Mat ℝ} {A : Set (ℕ × ℕ)} (h : Indicates m A) (hA : A ⊆ frame m.height m.width)
    (hr : ∀ p ∈ rim m.height m.width, p ∉ A) : Indicates (openingCross m) (pluses A) := by
  have := dilate_indicates (erode_indicates h hA hr)
  have e : {p ∈ frame (erodeCross m).height (erodeCross m).width | ∃ c ∈ {c | plus c ⊆ A},
      c ∈ frame (erodeCross m).height (erodeCross m).width ∧ p ∈ plus c} = pluses A := by
    ext p
    constructor
    · rintro ⟨_, c, hc, _, hp⟩; exact ⟨c, hp, hc⟩
    · rintro ⟨c, hp, hc⟩
      exact ⟨hA (hc hp), c, hc, hA (hc (Or.inl rfl)), hp⟩
  rw [e] at this
  exact this

theorem fillHoles_indicates {m : Mat ℝ} {A : Set (ℕ × ℕ)} (h : Indicates m A) (p : ℕ × ℕ) (hp : p ∈ frame m.height m.width) :
    p ∈ withHoles m.height m.width A ∧ (fillHoles m).get p.1 p.2 = 1 ∨ p ∉ withHoles m.height m.width A ∧ (fillHoles m).get p.1 p.2 = 0 := by
  have hd : ∀ q, IsDark m q ↔ q ∈ frame m.height m.width \ A := by
    intro q
    constructor
    · rintro ⟨h1, h2⟩; exact ⟨h1, (h.zero h1).1 h2⟩
    · rintro ⟨h1, h2⟩; exact ⟨h1, (h.zero h1).2 h2⟩
  have hj : ∀ q, (IsDark m p ∧ Relation.ReflTransGen (fun a b => Adj4 a b ∧ IsDark m b) p q) ↔
      Joined EdgeTouch (frame m.height m.width \ A) p q := by
    intro q
    rw [joined_iff, hd]
    simp only [hd, edgeTouch_iff]
  unfold fillHoles
  simp only
  by_cases hex : ∃ q, OnBorder m q ∧ IsDark m (p.1, p.2) ∧ Relation.ReflTransGen (fun a b => Adj4 a b ∧ IsDark m b) (p.1, p.2) q
  · right
    rw [if_pos hex]
    obtain ⟨q, hq, hh⟩ := hex
    have := (hj q).1 hh
    exact ⟨fun hc => hc.2 q (rim_iff.2 ⟨this.mem.1, hq⟩) this, rfl⟩
  · left
    rw [if_neg hex]
    exact ⟨⟨hp, fun q hq hc => hex ⟨q, (rim_iff.1 hq).2, (hj q).2 hc⟩⟩, rfl⟩

end Discorpy
