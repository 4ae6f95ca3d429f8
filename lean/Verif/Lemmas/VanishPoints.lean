import Verif.Lemmas.Vanish

/-! # Helper lemmas: parabolas with two common points -/

namespace Discorpy

open Spec

/-- The value of a parabola. -/
noncomputable def paraAt (q : Para) (t : ℝ) : ℝ := q.a * t ^ 2 + q.b * t + q.c

/-- Two different parabolas through two common points cross there and only there. -/
theorem crossSame_common {roots : RootsFn} (hr : RootsSpec roots) {q1 q2 : Para} {px py qx qy : ℝ} (hpq : px ≠ qx)
    (h1 : py = paraAt q1 px) (h2 : qy = paraAt q1 qx) (h3 : py = paraAt q2 px) (h4 : qy = paraAt q2 qx) (ha : q1.a ≠ q2.a) :
    ∃ r, crossSame roots q1 q2 = .ok r ∧ (r = [(px, py), (qx, qy)] ∨ r = [(qx, qy), (px, py)]) := by
  unfold paraAt at *
  have hl : q1.a - q2.a ≠ 0 := sub_ne_zero.2 ha
  have d1 : (q1.a - q2.a) * px ^ 2 + (q1.b - q2.b) * px + (q1.c - q2.c) = 0 := by linarith
  have d2 : (q1.a - q2.a) * qx ^ 2 + (q1.b - q2.b) * qx + (q1.c - q2.c) = 0 := by linarith
  have eb : q1.b - q2.b = -(q1.a - q2.a) * (px + qx) := by
    have : (px - qx) * (q1.b - q2.b + (q1.a - q2.a) * (px + qx)) = 0 := by linear_combination d1 - d2
    have := (mul_eq_zero.1 this).resolve_left (sub_ne_zero.2 hpq)
    linarith
  have ec : q1.c - q2.c = (q1.a - q2.a) * (px * qx) := by rw [eb] at d1; linear_combination d1
  obtain ⟨r, s, e, hrs⟩ := hr.real (q1.a - q2.a) (q1.b - q2.b) (q1.c - q2.c) hl (by
    rw [eb, ec]
    nlinarith [sq_nonneg ((q1.a - q2.a) * (px - qx))])
  have z1 : px = r ∨ px = s := by
    have := hrs px
    rw [d1] at this
    rcases mul_eq_zero.1 this.symm with h | h
    · rcases mul_eq_zero.1 h with h | h
      · exact absurd h hl
      · left; linarith
    · right; linarith
  have z2 : qx = r ∨ qx = s := by
    have := hrs qx
    rw [d2] at this
    rcases mul_eq_zero.1 this.symm with h | h
    · rcases mul_eq_zero.1 h with h | h
      · exact absurd h hl
      · left; linarith
    · right; linarith
  unfold crossSame
  rw [e]
  rcases z1 with z1 | z1 <;> rcases z2 with z2 | z2
  · exact absurd (z1.trans z2.symm) hpq
  · subst z1 z2; exact ⟨_, rfl, .inl (by rw [h1, h4])⟩
  · subst z1 z2; exact ⟨_, rfl, .inr (by rw [h2, h3])⟩
  · exact absurd (z1.trans z2.symm) hpq

theorem pairs_flatten {P Q : ℝ × ℝ} : ∀ {r : List (List (ℝ × ℝ))}, (∀ x ∈ r, x = [P, Q] ∨ x = [Q, P]) →
    r.flatten.length = 2 * r.length ∧ (∀ z ∈ r.flatten, z = P ∨ z = Q) ∧ (r ≠ [] → P ∈ r.flatten ∧ Q ∈ r.flatten)
  | [], _ => by simp
  | x :: r, h => by
    obtain ⟨h1, h2, _⟩ := pairs_flatten (r := r) fun y hy => h y (List.mem_cons_of_mem _ hy)
    rcases h x (List.mem_cons_self) with e | e <;> subst e <;>
      · refine ⟨by simp [h1]; omega, ?_, by simp⟩
        intro z hz
        simp only [List.flatten_cons, List.mem_append, List.mem_cons, List.not_mem_nil, or_false] at hz
        rcases hz with (h | h) | h
        · simp [h]
        · simp [h]
        · exact h2 z h

/-- All crossings of parabolas through two common points. -/
theorem mapM_common {α : Type} {l : List α} {f : α → Except PyErr (List (ℝ × ℝ))} {P Q : ℝ × ℝ}
    (h : ∀ x ∈ l, ∃ r, f x = .ok r ∧ (r = [P, Q] ∨ r = [Q, P])) :
    ∃ r, l.mapM f = .ok r ∧ r.flatten.length = 2 * l.length ∧ (∀ z ∈ r.flatten, z = P ∨ z = Q) ∧
      (l ≠ [] → P ∈ r.flatten ∧ Q ∈ r.flatten) := by
  obtain ⟨r, e⟩ := exists_mapM_ok (f := f) (l := l) fun x hx => (h x hx).imp fun _ => And.left
  have hf := mapM_ok_iff.1 e
  have hall : ∀ y ∈ r, y = [P, Q] ∨ y = [Q, P] := by
    intro y hy
    obtain ⟨i, hi, rfl⟩ := List.getElem_of_mem hy
    have hi' : i < l.length := by rw [hf.length_eq]; exact hi
    have := List.forall₂_iff_get.1 hf
    have h2 := this.2 i hi' hi
    obtain ⟨r', e', h'⟩ := h l[i] (List.getElem_mem hi')
    rw [List.get_eq_getElem, List.get_eq_getElem, e'] at h2
    cases h2
    exact h'
  obtain ⟨h1, h2, h3⟩ := pairs_flatten hall
  refine ⟨r, e, by rw [h1, hf.length_eq], h2, fun hne => h3 ?_⟩
  intro hn
  have := hf.length_eq
  rw [hn] at this
  exact hne (List.length_eq_zero_iff.1 this)

theorem oppositeCrossings_common {roots : RootsFn} (hr : RootsSpec roots) {argsort : List ℝ → List ℕ} (ha : ArgsortSpec argsort)
    {coefs : List Para} {px py qx qy : ℝ} (hpq : px ≠ qx) (hp : ∀ q ∈ coefs, py = paraAt q px) (hq : ∀ q ∈ coefs, qy = paraAt q qx) :
    ∃ pts, oppositeCrossings roots argsort coefs = .ok pts ∧
      pts.length = 2 * min (opensUp coefs).length (opensDown coefs).length ∧ (∀ z ∈ pts, z = (px, py) ∨ z = (qx, qy)) ∧
      (pts ≠ [] → (px, py) ∈ pts ∧ (qx, qy) ∈ pts) := by
  have pu := ha.fancy_perm (opensUp coefs) fun q => |q.a|
  have pd := ha.fancy_perm (opensDown coefs) fun q => |q.a|
  obtain ⟨r, e, h1, h2, h3⟩ := mapM_common (P := (px, py)) (Q := (qx, qy))
    (l := List.zip (sortByCurvature argsort (opensUp coefs)) (sortByCurvature argsort (opensDown coefs)))
    (f := fun z => crossSame roots z.1 z.2) (by
      rintro ⟨u, d⟩ hz
      have hu := mem_opensUp.1 (pu.mem_iff.1 (List.of_mem_zip hz).1)
      have hd := mem_opensDown.1 (pd.mem_iff.1 (List.of_mem_zip hz).2)
      exact crossSame_common hr hpq (hp u hu.1) (hq u hu.1) (hp d hd.1) (hq d hd.1) (by simp only; linarith [hu.2, hd.2]))
  refine ⟨r.flatten, ?_, ?_, h2, ?_⟩
  · unfold oppositeCrossings
    simp only
    rw [e]; rfl
  · rw [h1, List.length_zip]
    unfold sortByCurvature
    rw [pu.length_eq, pd.length_eq]
  · intro hne
    apply h3
    intro hn
    rw [hn] at h1
    exact hne (List.length_eq_zero_iff.1 (by simpa using h1))

theorem flattestCrossings_common {roots : RootsFn} (hr : RootsSpec roots)
    {coefs : List Para} (hne : coefs ≠ []) (hd : (coefs.map Para.a).Nodup) {px py qx qy : ℝ} (hpq : px ≠ qx)
    (hp : ∀ q ∈ coefs, py = paraAt q px) (hq : ∀ q ∈ coefs, qy = paraAt q qx) :
    ∃ pts, flattestCrossings roots coefs = .ok pts ∧
      pts.length = 2 * (coefs.length - 1) ∧ (∀ z ∈ pts, z = (px, py) ∨ z = (qx, qy)) ∧
      (pts ≠ [] → (px, py) ∈ pts ∧ (qx, qy) ∈ pts) := by
  obtain ⟨k, ek, hk, _⟩ := npArgmin_ok (l := coefs.map fun q => |q.a|) (by simpa using hne)
  rw [List.length_map] at hk
  obtain ⟨r, e, h1, h2, h3⟩ := mapM_common (P := (px, py)) (Q := (qx, qy)) (l := coefs.eraseIdx k)
    (f := fun q => crossSame roots q coefs[k]) (by
      intro q hq'
      have hm : q ∈ coefs := (List.eraseIdx_sublist coefs k).mem hq'
      refine crossSame_common hr hpq (hp q hm) (hq q hm) (hp _ (List.getElem_mem hk)) (hq _ (List.getElem_mem hk)) ?_
      obtain ⟨i, hi, hik, rfl⟩ := List.mem_eraseIdx_iff_getElem.1 hq'
      intro hEq
      have := hd.getElem_inj_iff (i := i) (j := k) (hi := by simpa using hi) (hj := by simpa using hk)
      simp only [List.getElem_map] at this
      exact hik (this.1 hEq))
  refine ⟨r.flatten, ?_, ?_, h2, ?_⟩
  · unfold flattestCrossings
    rw [ek]
    simp only [ok_bind]
    rw [npGet_of_lt hk]
    simp only [ok_bind]
    rw [e]; rfl
  · rw [h1, List.length_eraseIdx, if_pos hk]
  · intro hne
    apply h3
    intro hn
    rw [hn] at h1
    exact hne (List.length_eq_zero_iff.1 (by simpa using h1))

end Discorpy
