import Verif.Lemmas.PerspFit

/-! # Helper lemmas: four points in general position determine a projective map -/

namespace Discorpy

open Spec Matrix

/-- A matrix having three independent eigenvectors and a fourth one off all their planes is a multiple of the identity. -/
theorem eigen_four (M : Matrix (Fin 3) (Fin 3) ℝ) (v : Fin 3 → Fin 3 → ℝ) (w : Fin 3 → ℝ) (mu : Fin 3 → ℝ) (nu : ℝ)
    (hdet : (Matrix.of v)ᵀ.det ≠ 0) (hv : ∀ i, M *ᵥ v i = mu i • v i) (hw : M *ᵥ w = nu • w)
    (hgen : ∀ i, (((Matrix.of v)ᵀ)⁻¹ *ᵥ w) i ≠ 0) : M = nu • 1 := by
  set P := (Matrix.of v)ᵀ with hP
  have hu : IsUnit P.det := isUnit_iff_ne_zero.2 hdet
  have hMP : M * P = P * Matrix.diagonal mu := by
    ext i j
    have := congrFun (hv j) i
    rw [Matrix.mul_diagonal]
    simp [Matrix.mulVec, dotProduct, Matrix.mul_apply, hP] at this ⊢
    rw [this]; ring
  set a := P⁻¹ *ᵥ w with ha
  have hw' : P *ᵥ a = w := by rw [ha, Matrix.mulVec_mulVec, Matrix.mul_nonsing_inv _ hu, Matrix.one_mulVec]
  have h1 : P *ᵥ (Matrix.diagonal mu *ᵥ a) = P *ᵥ (nu • a) := by
    rw [Matrix.mulVec_mulVec, ← hMP, ← Matrix.mulVec_mulVec, hw', hw, Matrix.mulVec_smul, hw']
  have h2 : Matrix.diagonal mu *ᵥ a = nu • a := by
    have := congrArg (fun z => P⁻¹ *ᵥ z) h1
    simpa only [Matrix.mulVec_mulVec, ← Matrix.mul_assoc, Matrix.nonsing_inv_mul _ hu, Matrix.one_mul,
      Matrix.one_mulVec] using this
  have hmu : ∀ i, mu i = nu := by
    intro i
    have := congrFun h2 i
    rw [Matrix.mulVec_diagonal] at this
    exact mul_right_cancel₀ (hgen i) this
  have hd : Matrix.diagonal mu = nu • (1 : Matrix (Fin 3) (Fin 3) ℝ) := by
    rw [show mu = fun _ => nu from funext hmu, Matrix.smul_one_eq_diagonal]
  rw [hd] at hMP
  have := congrArg (fun z => z * P⁻¹) hMP
  simpa [Matrix.mul_assoc, Matrix.mul_nonsing_inv _ hu] using this

/-- No three of the four dots are collinear. -/
theorem four_gen (p : Fin 3 → Pt) (q : Pt) (h : ¬ Collinear3 (p 0) (p 1) (p 2)) (h0 : ¬ Collinear3 q (p 1) (p 2))
    (h1 : ¬ Collinear3 (p 0) q (p 2)) (h2 : ¬ Collinear3 (p 0) (p 1) q) :
    (Matrix.of fun i => homog (p i))ᵀ.det ≠ 0 ∧
      ∀ i, (((Matrix.of fun i => homog (p i))ᵀ)⁻¹ *ᵥ homog q) i ≠ 0 := by
  set P := (Matrix.of fun i => homog (p i))ᵀ with hP
  have hdet : P.det ≠ 0 := by
    rw [collinear3_iff_det] at h
    intro h'
    apply h
    rw [hP, Matrix.det_transpose] at h'
    rw [← h']
    congr 1
    ext i j
    fin_cases i <;> rfl
  refine ⟨hdet, ?_⟩
  have hu : IsUnit P.det := isUnit_iff_ne_zero.2 hdet
  have hc : P⁻¹ *ᵥ homog q = P.det⁻¹ • Matrix.cramer P (homog q) := by
    have e := Matrix.mulVec_cramer P (homog q)
    have : P⁻¹ *ᵥ (P *ᵥ Matrix.cramer P (homog q)) = P⁻¹ *ᵥ (P.det • homog q) := by rw [e]
    rw [Matrix.mulVec_mulVec, Matrix.nonsing_inv_mul _ hu, Matrix.one_mulVec, Matrix.mulVec_smul] at this
    rw [this, smul_smul, inv_mul_cancel₀ hdet, one_smul]
  intro i
  rw [hc, Pi.smul_apply, smul_eq_mul]
  apply mul_ne_zero (inv_ne_zero hdet)
  rw [Matrix.cramer_apply]
  rw [collinear3_iff_det] at h0 h1 h2
  intro h'
  rw [hP, Matrix.det_fin_three] at h'
  rw [Matrix.det_fin_three] at h0 h1 h2
  fin_cases i
  · apply h0
    simp [Matrix.updateCol_apply] at h' ⊢
    linear_combination h'
  · apply h1
    simp [Matrix.updateCol_apply] at h' ⊢
    linear_combination h'
  · apply h2
    simp [Matrix.updateCol_apply] at h' ⊢
    linear_combination h'

/-- Two coefficient vectors that solve the equations of four correspondences, sources in general position and targets of
an invertible map, are equal. -/
theorem coefs_unique (c c0 : Fin 8 → ℝ) (p q : Fin 4 → Pt) (hdet : (coefMatrix c0).det ≠ 0)
    (hgen : ∀ i j k : Fin 4, i ≠ j → j ≠ k → i ≠ k → ¬ Collinear3 (p i) (p j) (p k))
    (h0 : ∀ i, IsImage (coefMatrix c0) (p i) (q i)) (h : ∀ i, SolvesAt (coefMatrix c) (p i) (q i)) : c = c0 := by
  have hu : IsUnit (coefMatrix c0).det := isUnit_iff_ne_zero.2 hdet
  -- `c0⁻¹ c` has the sources as eigenvectors
  have key : ∀ i, ∃ k : ℝ, ((coefMatrix c0)⁻¹ * coefMatrix c) *ᵥ homog (p i) = k • homog (p i) := by
    intro i
    obtain ⟨w, hw, e⟩ := h0 i
    obtain ⟨d, e1⟩ : ∃ d : ℝ, coefMatrix c *ᵥ homog (p i) = d • homog (q i) := by
      refine ⟨(coefMatrix c *ᵥ homog (p i)) 2, ?_⟩
      ext j
      fin_cases j
      · simpa [homog] using (h i).1
      · simpa [homog] using (h i).2
      · simp [homog]
    refine ⟨d * w⁻¹, ?_⟩
    have e2 : homog (q i) = w⁻¹ • (coefMatrix c0 *ᵥ homog (p i)) := by
      rw [e, smul_smul, inv_mul_cancel₀ hw, one_smul]
    rw [← Matrix.mulVec_mulVec, e1, Matrix.mulVec_smul, e2, Matrix.mulVec_smul, Matrix.mulVec_mulVec,
      Matrix.nonsing_inv_mul _ hu, Matrix.one_mulVec, smul_smul]
  choose k hk using key
  obtain ⟨g1, g2⟩ := four_gen (fun i => p (Fin.castSucc i)) (p 3)
    (hgen _ _ _ (by decide) (by decide) (by decide)) (hgen _ _ _ (by decide) (by decide) (by decide))
    (hgen _ _ _ (by decide) (by decide) (by decide)) (hgen _ _ _ (by decide) (by decide) (by decide))
  have hM := eigen_four ((coefMatrix c0)⁻¹ * coefMatrix c) (fun i => homog (p (Fin.castSucc i))) (homog (p 3))
    (fun i => k (Fin.castSucc i)) (k 3) g1 (fun i => hk _) (hk 3) g2
  have hM' : coefMatrix c = k 3 • coefMatrix c0 := by
    have := congrArg (fun z => coefMatrix c0 * z) hM
    simpa [← Matrix.mul_assoc, Matrix.mul_nonsing_inv _ hu] using this
  have hk1 : k 3 = 1 := by
    have := congrFun (congrFun hM' 2) 2
    simpa [coefMatrix] using this.symm
  rw [hk1, one_smul] at hM'
  ext i
  fin_cases i
  · simpa [coefMatrix] using congrFun (congrFun hM' 0) 0
  · simpa [coefMatrix] using congrFun (congrFun hM' 0) 1
  · simpa [coefMatrix] using congrFun (congrFun hM' 0) 2
  · simpa [coefMatrix] using congrFun (congrFun hM' 1) 0
  · simpa [coefMatrix] using congrFun (congrFun hM' 1) 1
  · simpa [coefMatrix] using congrFun (congrFun hM' 1) 2
  · simpa [coefMatrix] using congrFun (congrFun hM' 2) 0
  · simpa [coefMatrix] using congrFun (congrFun hM' 2) 1

end Discorpy
