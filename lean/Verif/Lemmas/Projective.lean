import Verif.Spec.Projective
import Verif.Lemmas.Lines
import Mathlib.Tactic.LinearCombination
import Mathlib.LinearAlgebra.Matrix.NonsingularInverse

/-! # Helper lemmas: projective maps -/

namespace Discorpy

open Spec Matrix

/-- The dot computed by the code from eight coefficients. -/
noncomputable def projPt (c : Fin 8 → ℝ) (p : Pt) : Pt where
  x := (c 0 * p.x + c 1 * p.y + c 2) / (c 6 * p.x + c 7 * p.y + 1)
  y := (c 3 * p.x + c 4 * p.y + c 5) / (c 6 * p.x + c 7 * p.y + 1)

theorem finite_iff (c : Fin 8 → ℝ) (p : Pt) : FiniteAt (coefMatrix c) p ↔ c 6 * p.x + c 7 * p.y + 1 ≠ 0 := by
  unfold FiniteAt coefMatrix homog
  simp [Matrix.mulVec, dotProduct, Fin.sum_univ_three]

theorem isImage_iff (H : Matrix (Fin 3) (Fin 3) ℝ) (p q : Pt) :
    IsImage H p q ↔ (H *ᵥ homog p) 2 ≠ 0 ∧ (H *ᵥ homog p) 0 = (H *ᵥ homog p) 2 * q.x ∧
      (H *ᵥ homog p) 1 = (H *ᵥ homog p) 2 * q.y := by
  constructor
  · rintro ⟨w, hw, h⟩
    have h0 := congrFun h 0
    have h1 := congrFun h 1
    have h2 := congrFun h 2
    simp [homog] at h0 h1 h2
    simp only [homog]
    rw [h2, h0, h1]; exact ⟨hw, rfl, rfl⟩
  · rintro ⟨h2, h0, h1⟩
    refine ⟨_, h2, ?_⟩
    ext i
    fin_cases i
    · simpa [homog] using h0
    · simpa [homog] using h1
    · simp [homog]

theorem isImage_coef_iff (c : Fin 8 → ℝ) (p q : Pt) :
    IsImage (coefMatrix c) p q ↔ c 6 * p.x + c 7 * p.y + 1 ≠ 0 ∧
      c 0 * p.x + c 1 * p.y + c 2 = (c 6 * p.x + c 7 * p.y + 1) * q.x ∧
      c 3 * p.x + c 4 * p.y + c 5 = (c 6 * p.x + c 7 * p.y + 1) * q.y := by
  rw [isImage_iff]
  simp [coefMatrix, homog, Matrix.mulVec, dotProduct, Fin.sum_univ_three]

theorem Spec.IsImage.unique {H : Matrix (Fin 3) (Fin 3) ℝ} {p q q' : Pt} (h : IsImage H p q) (h' : IsImage H p q') : q = q' := by
  obtain ⟨w, a, b⟩ := (isImage_iff _ _ _).1 h
  obtain ⟨_, a', b'⟩ := (isImage_iff _ _ _).1 h'
  rw [a] at a'; rw [b] at b'
  have e1 := mul_left_cancel₀ w a'
  have e2 := mul_left_cancel₀ w b'
  cases q; cases q'; simp_all

theorem isImage_projPt {c : Fin 8 → ℝ} {p : Pt} (h : FiniteAt (coefMatrix c) p) : IsImage (coefMatrix c) p (projPt c p) := by
  rw [isImage_iff]
  refine ⟨h, ?_, ?_⟩
  all_goals
    rw [finite_iff] at h
    simp [coefMatrix, homog, Matrix.mulVec, dotProduct, Fin.sum_univ_three, projPt]
    rw [mul_div_cancel₀ _ h]

theorem Spec.IsImage.comp {A B : Matrix (Fin 3) (Fin 3) ℝ} {p q r : Pt} (h : IsImage B p q) (h' : IsImage A q r) :
    IsImage (A * B) p r := by
  obtain ⟨w, hw, e⟩ := h
  obtain ⟨v, hv, e'⟩ := h'
  refine ⟨w * v, mul_ne_zero hw hv, ?_⟩
  rw [← Matrix.mulVec_mulVec, e, Matrix.mulVec_smul, e', smul_smul]

theorem isImage_smul {H : Matrix (Fin 3) (Fin 3) ℝ} {k : ℝ} (hk : k ≠ 0) (p q : Pt) :
    IsImage (k • H) p q ↔ IsImage H p q := by
  constructor
  · rintro ⟨w, hw, e⟩
    refine ⟨k⁻¹ * w, mul_ne_zero (inv_ne_zero hk) hw, ?_⟩
    rw [← smul_smul, ← e, Matrix.smul_mulVec, smul_smul, inv_mul_cancel₀ hk, one_smul]
  · rintro ⟨w, hw, e⟩
    refine ⟨k * w, mul_ne_zero hk hw, ?_⟩
    rw [Matrix.smul_mulVec, e, smul_smul]

theorem isImage_one (p : Pt) : IsImage 1 p p := ⟨1, one_ne_zero, by simp⟩

theorem coefMatrix_normCoefs {H : Matrix (Fin 3) (Fin 3) ℝ} (h : H 2 2 ≠ 0) :
    coefMatrix (normCoefs H) = (H 2 2)⁻¹ • H := by
  ext i j
  fin_cases i <;> fin_cases j <;> simp [coefMatrix, normCoefs, h, div_eq_inv_mul]

theorem correctPerspectiveLine_eq (c : Fin 8 → ℝ) (lines : List (List Pt)) (h : [] ∉ lines) :
    correctPerspectiveLine lines (List.ofFn c) = .ok (lines.map fun l => l.map (projPt c)) := by
  have h' : lines.any List.isEmpty = false := by
    rw [List.any_eq_false]
    intro l hl he
    rw [List.isEmpty_iff] at he
    exact h (he ▸ hl)
  simp only [correctPerspectiveLine, List.ofFn_succ, List.ofFn_zero, h']
  rfl

theorem collinear3_iff_det (p q r : Pt) :
    Collinear3 p q r ↔ (Matrix.of ![homog p, homog q, homog r]).det = 0 := by
  unfold Collinear3 homog
  rw [Matrix.det_fin_three]
  simp
  constructor <;> intro h <;> linear_combination h

end Discorpy
