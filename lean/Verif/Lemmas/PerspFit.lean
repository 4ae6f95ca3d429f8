import Verif.Lemmas.Projective
import Verif.Model.Perspective

/-! # Helper lemmas: the linear system of `calc_perspective_coefficients` -/

namespace Discorpy

open Spec Matrix

/-- The two linear equations of a correspondence. -/
def SolvesAt (H : Matrix (Fin 3) (Fin 3) ℝ) (p q : Pt) : Prop :=
  (H *ᵥ homog p) 0 = (H *ᵥ homog p) 2 * q.x ∧ (H *ᵥ homog p) 1 = (H *ᵥ homog p) 2 * q.y

theorem isImage_iff_solvesAt (H : Matrix (Fin 3) (Fin 3) ℝ) (p q : Pt) :
    IsImage H p q ↔ FiniteAt H p ∧ SolvesAt H p q := by
  rw [isImage_iff]; rfl

noncomputable def rowX (s t : Pt) : List ℝ := [s.x, s.y, 1, 0, 0, 0, -t.x * s.x, -t.x * s.y]
noncomputable def rowY (s t : Pt) : List ℝ := [0, 0, 0, s.x, s.y, 1, -t.y * s.x, -t.y * s.y]

theorem solvesAt_iff (c : Fin 8 → ℝ) (p q : Pt) :
    SolvesAt (coefMatrix c) p q ↔
      rowDot (rowX p q) (List.ofFn c) = q.x ∧ rowDot (rowY p q) (List.ofFn c) = q.y := by
  have h0 : (coefMatrix c *ᵥ homog p) 0 = c 0 * p.x + c 1 * p.y + c 2 := by
    simp [coefMatrix, homog, Matrix.mulVec, dotProduct, Fin.sum_univ_three]
  have h1 : (coefMatrix c *ᵥ homog p) 1 = c 3 * p.x + c 4 * p.y + c 5 := by
    simp [coefMatrix, homog, Matrix.mulVec, dotProduct, Fin.sum_univ_three]
  have h2 : (coefMatrix c *ᵥ homog p) 2 = c 6 * p.x + c 7 * p.y + 1 := by
    simp [coefMatrix, homog, Matrix.mulVec, dotProduct, Fin.sum_univ_three]
  have e1 : rowDot (rowX p q) (List.ofFn c) = p.x * c 0 + p.y * c 1 + c 2 - q.x * p.x * c 6 - q.x * p.y * c 7 := by
    rw [rowDot_ofFn (n := 8) _ rfl]
    simp [rowX, Fin.sum_univ_succ]
    ring
  have e2 : rowDot (rowY p q) (List.ofFn c) = p.x * c 3 + p.y * c 4 + c 5 - q.y * p.x * c 6 - q.y * p.y * c 7 := by
    rw [rowDot_ofFn (n := 8) _ rfl]
    simp [rowY, Fin.sum_univ_succ]
    ring
  unfold SolvesAt
  rw [h0, h1, h2, e1, e2]
  constructor <;> rintro ⟨a, b⟩ <;> constructor <;> linarith

theorem system_zip (s t : List Pt) (h : t.length ≤ s.length) :
    ((s.zip t).flatMap fun p => perspectiveRows p.1 p.2).zip (perspectiveRhs t) =
      (s.zip t).flatMap fun p => [(rowX p.1 p.2, p.2.x), (rowY p.1 p.2, p.2.y)] := by
  induction t generalizing s with
  | nil => simp [perspectiveRhs]
  | cons q t ih =>
    match s with
    | [] => simp at h
    | p :: s =>
      have := ih s (by simpa using h)
      simp [perspectiveRhs, perspectiveRows, rowX, rowY] at this ⊢
      exact this

theorem system_length (s t : List Pt) :
    ((s.zip t).flatMap fun p => perspectiveRows p.1 p.2).length = 2 * min s.length t.length := by
  simp [perspectiveRows, List.length_flatMap, mul_comm]

theorem system_rows (s t : List Pt) : ∀ r ∈ (s.zip t).flatMap fun p => perspectiveRows p.1 p.2, r.length = 8 := by
  intro r hr
  obtain ⟨p, _, hp⟩ := List.mem_flatMap.1 hr
  simp [perspectiveRows] at hp
  rcases hp with rfl | rfl <;> rfl

theorem system_solved (s t : List Pt) (h : t.length ≤ s.length) (c : Fin 8 → ℝ) :
    (∀ q ∈ ((s.zip t).flatMap fun p => perspectiveRows p.1 p.2).zip (perspectiveRhs t),
      rowDot q.1 (List.ofFn c) = q.2) ↔ ∀ p ∈ s.zip t, SolvesAt (coefMatrix c) p.1 p.2 := by
  rw [system_zip s t h]
  constructor
  · intro hs p hp
    rw [solvesAt_iff]
    exact ⟨hs (rowX p.1 p.2, p.2.x) (List.mem_flatMap.2 ⟨p, hp, by simp⟩),
      hs (rowY p.1 p.2, p.2.y) (List.mem_flatMap.2 ⟨p, hp, by simp⟩)⟩
  · intro hs q hq
    obtain ⟨p, hp, hq⟩ := List.mem_flatMap.1 hq
    have := (solvesAt_iff c p.1 p.2).1 (hs p hp)
    simp at hq
    rcases hq with rfl | rfl
    · exact this.1
    · exact this.2

theorem rhs_length (t : List Pt) : (perspectiveRhs t).length = 2 * t.length := by
  simp [perspectiveRhs, List.length_flatMap, mul_comm]

theorem exists_ofFn {n : ℕ} (l : List ℝ) (h : l.length = n) : ∃ c : Fin n → ℝ, l = List.ofFn c := by
  subst h
  exact ⟨fun i => l[i], by simp⟩

/-- The fitted coefficients solve all equations if some coefficients do. -/
theorem calcPerspectiveCoefs_solves {lstsq : LstsqFn} (h : LstsqSpec lstsq) (s t : List Pt) (hs : s ≠ []) (ht : t ≠ [])
    (hl : t.length ≤ s.length) (c0 : Fin 8 → ℝ) (hc : ∀ p ∈ s.zip t, SolvesAt (coefMatrix c0) p.1 p.2) :
    ∃ c : Fin 8 → ℝ, calcPerspectiveCoefs lstsq s t "forward" = .ok (List.ofFn c) ∧
      ∀ p ∈ s.zip t, SolvesAt (coefMatrix c) p.1 p.2 := by
  set A := (s.zip t).flatMap fun p => perspectiveRows p.1 p.2 with hA
  have hlen : A.length = (perspectiveRhs t).length := by
    rw [hA, system_length, rhs_length, min_eq_right hl]
  have hne : A ≠ [] := by
    intro h0
    rw [h0, rhs_length] at hlen
    simp at hlen
    exact ht hlen
  have hrow := system_rows s t
  obtain ⟨c, ec⟩ := exists_ofFn _ (h.length A (perspectiveRhs t) 8 hne hlen hrow)
  refine ⟨c, ?_, ?_⟩
  · unfold calcPerspectiveCoefs
    simp only [if_true, hs, ht, or_self, if_false]
    rw [← hA, if_neg (by simpa using hlen), ec]
  · rw [← system_solved s t hl, ← ec]
    exact h.solves hne hlen hrow (by simp) ((system_solved s t hl c0).2 hc)

end Discorpy
