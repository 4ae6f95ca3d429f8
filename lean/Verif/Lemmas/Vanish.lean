import Verif.Lemmas.Ideal
import Verif.Lemmas.Median
import Verif.Lemmas.RadialFit
import Verif.Lemmas.Projective
import Verif.Lemmas.PerspFit
import Verif.Lemmas.Grid
import Verif.Spec.Vanish

/-! # Helper lemmas: representative lines, vanishing points -/

namespace Discorpy

open Spec

theorem mem_opensUp {coefs : List Para} {q : Para} : q ∈ opensUp coefs ↔ q ∈ coefs ∧ 0 < q.a := by
  simp [opensUp]

theorem mem_opensDown {coefs : List Para} {q : Para} : q ∈ opensDown coefs ↔ q ∈ coefs ∧ q.a < 0 := by
  simp [opensDown]

theorem isMedian_of_npMedian {α : Type} {f : α → ℝ} {l : List α} {v : ℝ} (h : npMedian (l.map f) = .ok v) : IsMedian f l v := by
  obtain ⟨_, h1, h2⟩ := npMedian_halves h
  rw [List.filter_map, List.length_map, List.length_map] at h1 h2
  constructor
  · convert h1 using 4
    ext x; simp
  · convert h2 using 4
    ext x; simp

/-- First and last element of a list sorted by curvature. -/
theorem sorted_ends {l : List Para} (hs : l.Pairwise fun a b => a.a ≤ b.a) (hne : l ≠ []) :
    ∃ f ∈ l, ∃ g ∈ l, l.head? = some f ∧ l.getLast? = some g ∧ (∀ q ∈ l, f.a ≤ q.a) ∧ ∀ q ∈ l, q.a ≤ g.a := by
  refine ⟨l.head hne, List.head_mem hne, l.getLast hne, List.getLast_mem hne, List.head?_eq_some_head hne,
    List.getLast?_eq_some_getLast hne, ?_, ?_⟩
  · intro q hq
    obtain ⟨i, hi, rfl⟩ := List.getElem_of_mem hq
    rw [List.head_eq_getElem]
    rcases Nat.eq_zero_or_pos i with h | h
    · subst h; exact le_rfl
    · exact List.pairwise_iff_getElem.1 hs 0 i _ hi h
  · intro q hq
    obtain ⟨i, hi, rfl⟩ := List.getElem_of_mem hq
    rw [List.getLast_eq_getElem]
    rcases Nat.lt_or_ge i (l.length - 1) with h | h
    · exact List.pairwise_iff_getElem.1 hs i _ hi _ h
    · have : i = l.length - 1 := by omega
      subst this; exact le_rfl

/-- A non-empty group whose curvatures have one sign has a representative line. -/
theorem representativeLine_ok {argsort : List ℝ → List ℕ} (ha : ArgsortSpec argsort) (method : RepMethod) {group : List Para}
    (hne : group ≠ []) (hs : (∀ q ∈ group, 0 < q.a) ∨ ∀ q ∈ group, q.a < 0) :
    ∃ l, representativeLine argsort method group = .ok l ∧ IsRepresentative group l method := by
  have hlen : (group.length : ℝ) ≠ 0 := by simpa using hne
  have hp := ha.fancy_perm group Para.a
  have hso := ha.fancy_sorted group Para.a
  have hne' : fancyIndex group (argsort (group.map Para.a)) ≠ [] := by
    intro h; rw [h] at hp; exact hne hp.symm.eq_nil
  obtain ⟨f, hf, g, hg, ef, eg, lf, lg⟩ := sorted_ends hso hne'
  have hf' := hp.mem_iff.1 hf
  have hg' := hp.mem_iff.1 hg
  have lf' : ∀ q ∈ group, f.a ≤ q.a := fun q hq => lf q (hp.mem_iff.2 hq)
  have lg' : ∀ q ∈ group, q.a ≤ g.a := fun q hq => lg q (hp.mem_iff.2 hq)
  cases method with
  | median =>
    obtain ⟨b, eb⟩ := npMedian_ok (l := group.map Para.b) (by simpa using hne)
    obtain ⟨c, ec⟩ := npMedian_ok (l := group.map Para.c) (by simpa using hne)
    refine ⟨⟨b, c⟩, ?_, isMedian_of_npMedian eb, isMedian_of_npMedian ec⟩
    simp only [representativeLine, eb, ec, ok_bind]
  | mean =>
    refine ⟨⟨(group.map Para.b).sum / group.length, (group.map Para.c).sum / group.length⟩, ?_, ?_, ?_⟩
    · simp only [representativeLine]
      rw [npMean_ok (by simpa using hne), npMean_ok (by simpa using hne)]
      simp only [ok_bind, List.length_map]
    · field_simp
    · field_simp
  | max =>
    simp only [representativeLine, extremeLine, ef, eg]
    rcases hs with hs | hs
    · rw [if_pos (hs f hf')]
      refine ⟨_, rfl, g, hg', rfl, fun r hr => ?_⟩
      rw [abs_of_pos (hs r hr), abs_of_pos (hs g hg')]
      exact lg' r hr
    · rw [if_neg (not_lt.2 (hs f hf').le)]
      refine ⟨_, rfl, f, hf', rfl, fun r hr => ?_⟩
      rw [abs_of_neg (hs r hr), abs_of_neg (hs f hf')]
      exact neg_le_neg (lf' r hr)
  | min =>
    simp only [representativeLine, extremeLine, ef, eg]
    rcases hs with hs | hs
    · rw [if_pos (hs f hf')]
      refine ⟨_, rfl, f, hf', rfl, fun r hr => ?_⟩
      rw [abs_of_pos (hs r hr), abs_of_pos (hs f hf')]
      exact lf' r hr
    · rw [if_neg (not_lt.2 (hs f hf').le)]
      refine ⟨_, rfl, g, hg', rfl, fun r hr => ?_⟩
      rw [abs_of_neg (hs r hr), abs_of_neg (hs g hg')]
      exact neg_le_neg (lg' r hr)

theorem representativeLine_nil {argsort : List ℝ → List ℕ} (ha : ArgsortSpec argsort) (method : RepMethod) :
    representativeLine argsort method [] = .error (match method with | .max | .min => .indexError | _ => .nonFinite) := by
  have e : fancyIndex ([] : List Para) (argsort (([] : List Para).map Para.a)) = [] := (ha.fancy_perm [] Para.a).eq_nil
  cases method
  · rfl
  · simp only [representativeLine, e]; rfl
  · simp only [representativeLine, e]; rfl
  · simp only [representativeLine, List.map_nil, npMean, if_true]; rfl

/-- Slopes that are all zero are represented by zero, intercepts of one sign by that sign. -/
theorem representative_sign {group : List Para} {l : Lin} {method : RepMethod} (h : IsRepresentative group l method)
    (hne : group ≠ []) (hb : ∀ q ∈ group, q.b = 0) {s : ℝ} (hc : ∀ q ∈ group, 0 < s * q.c) : l.a = 0 ∧ 0 < s * l.b := by
  have hlen : 0 < (group.length : ℝ) := by exact_mod_cast List.length_pos_iff.2 hne
  have pos : 0 < group.length := List.length_pos_iff.2 hne
  cases method with
  | mean =>
    obtain ⟨h1, h2⟩ := h
    rw [List.sum_eq_zero (by simpa using hb)] at h1
    refine ⟨(mul_eq_zero.1 h1).resolve_right hlen.ne', ?_⟩
    have : 0 < (group.map fun q => s * q.c).sum := by
      obtain ⟨q, hq⟩ := List.exists_mem_of_ne_nil _ hne
      exact List.sum_pos _ (by simpa using hc) (by simpa using hne)
    rw [List.sum_map_mul_left] at this
    rw [← h2] at this
    have e : s * (l.b * group.length) = (s * l.b) * group.length := by ring
    rw [e] at this
    exact (pos_iff_pos_of_mul_pos this).2 hlen
  | median =>
    obtain ⟨⟨h1, h2⟩, h3, h4⟩ := h
    have nonempty : ∀ p : Para → Bool, group.length ≤ 2 * (group.filter p).length → ∃ q ∈ group, p q = true := by
      intro p hp
      obtain ⟨q, hq⟩ := List.exists_mem_of_ne_nil (group.filter p) (by
        intro h; rw [h] at hp; simp only [List.length_nil] at hp; omega)
      exact ⟨q, List.mem_filter.1 hq⟩
    obtain ⟨q1, m1, p1⟩ := nonempty _ h1
    obtain ⟨q2, m2, p2⟩ := nonempty _ h2
    obtain ⟨q3, m3, p3⟩ := nonempty _ h3
    obtain ⟨q4, m4, p4⟩ := nonempty _ h4
    rw [decide_eq_true_eq] at p1 p2 p3 p4
    rw [hb q1 m1] at p1
    rw [hb q2 m2] at p2
    refine ⟨le_antisymm p2 p1, ?_⟩
    rcases lt_trichotomy s 0 with h | h | h
    · have := hc q4 m4; nlinarith
    · have := hc q4 m4; rw [h] at this; simp at this
    · have := hc q3 m3; nlinarith
  | max => obtain ⟨q, hq, rfl, _⟩ := h; exact ⟨hb q hq, hc q hq⟩
  | min => obtain ⟨q, hq, rfl, _⟩ := h; exact ⟨hb q hq, hc q hq⟩

end Discorpy
