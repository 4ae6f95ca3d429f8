import Verif.Lemmas.FourPoints
import Verif.Spec.FourPoints

/-! # Helper lemmas: the projective map of four points -/

namespace Discorpy

open Spec Matrix

theorem genPos_four {p : Fin 4 → Pt} (h : GeneralPosition p) :
    (Matrix.of fun i : Fin 3 => homog (p (Fin.castSucc i)))ᵀ.det ≠ 0 ∧
      ∀ i, (((Matrix.of fun i : Fin 3 => homog (p (Fin.castSucc i)))ᵀ)⁻¹ *ᵥ homog (p 3)) i ≠ 0 :=
  four_gen (fun i => p (Fin.castSucc i)) (p 3)
    (h _ _ _ (by decide) (by decide) (by decide)) (h _ _ _ (by decide) (by decide) (by decide))
    (h _ _ _ (by decide) (by decide) (by decide)) (h _ _ _ (by decide) (by decide) (by decide))

/-- Four points in general position can be moved to any four others. -/
theorem exists_homography {p q : Fin 4 → Pt} (hp : GeneralPosition p) (hq : GeneralPosition q) :
    ∃ H : Matrix (Fin 3) (Fin 3) ℝ, H.det ≠ 0 ∧ ∀ i, IsImage H (p i) (q i) := by
  obtain ⟨dp, gp⟩ := genPos_four hp
  obtain ⟨dq, gq⟩ := genPos_four hq
  set P := (Matrix.of fun i : Fin 3 => homog (p (Fin.castSucc i)))ᵀ with hP
  set Q := (Matrix.of fun i : Fin 3 => homog (q (Fin.castSucc i)))ᵀ with hQ
  have up : IsUnit P.det := isUnit_iff_ne_zero.2 dp
  have uq : IsUnit Q.det := isUnit_iff_ne_zero.2 dq
  set a := P⁻¹ *ᵥ homog (p 3) with ha
  set b := Q⁻¹ *ᵥ homog (q 3) with hb
  have col : ∀ (R : Fin 4 → Pt) (i : Fin 3), (Matrix.of fun i : Fin 3 => homog (R (Fin.castSucc i)))ᵀ *ᵥ Pi.single i 1 = homog (R (Fin.castSucc i)) := by
    intro R i
    rw [Matrix.mulVec_single_one]
    rfl
  refine ⟨Q * Matrix.diagonal (fun i => b i / a i) * P⁻¹, ?_, ?_⟩
  · rw [Matrix.det_mul, Matrix.det_mul, Matrix.det_diagonal, Matrix.det_nonsing_inv, Ring.inverse_eq_inv']
    refine mul_ne_zero (mul_ne_zero dq ?_) (inv_ne_zero dp)
    exact Finset.prod_ne_zero_iff.2 fun i _ => div_ne_zero (gq i) (gp i)
  · have three : ∀ i : Fin 3, IsImage (Q * Matrix.diagonal (fun i => b i / a i) * P⁻¹) (p (Fin.castSucc i)) (q (Fin.castSucc i)) := by
      intro i
      refine ⟨b i / a i, div_ne_zero (gq i) (gp i), ?_⟩
      have e : P⁻¹ *ᵥ homog (p (Fin.castSucc i)) = Pi.single i 1 := by
        rw [← col p i, Matrix.mulVec_mulVec, ← hP, Matrix.nonsing_inv_mul _ up, Matrix.one_mulVec]
      rw [← Matrix.mulVec_mulVec, e, ← Matrix.mulVec_mulVec, ← col q i, ← hQ, ← Matrix.mulVec_smul]
      congr 1
      ext j
      rw [Matrix.mulVec_diagonal]
      by_cases hj : j = i
      · subst hj; simp
      · simp [hj]
    have four : IsImage (Q * Matrix.diagonal (fun i => b i / a i) * P⁻¹) (p 3) (q 3) := by
      refine ⟨1, one_ne_zero, ?_⟩
      rw [one_smul, ← Matrix.mulVec_mulVec, ← ha, ← Matrix.mulVec_mulVec]
      have e : Matrix.diagonal (fun i => b i / a i) *ᵥ a = b := by
        ext i
        rw [Matrix.mulVec_diagonal, div_mul_cancel₀ _ (gp i)]
      rw [e, hb, Matrix.mulVec_mulVec, Matrix.mul_nonsing_inv _ uq, Matrix.one_mulVec]
    intro i
    have : i = Fin.castSucc 0 ∨ i = Fin.castSucc 1 ∨ i = Fin.castSucc 2 ∨ i = 3 := by fin_cases i <;> simp
    rcases this with h | h | h | h <;> rw [h]
    · exact three 0
    · exact three 1
    · exact three 2
    · exact four

/-- The map is determined up to a factor. -/
theorem homography_unique {A B : Matrix (Fin 3) (Fin 3) ℝ} {p q : Fin 4 → Pt} (hdet : A.det ≠ 0) (hp : GeneralPosition p)
    (hA : ∀ i, IsImage A (p i) (q i)) (hB : ∀ i, SolvesAt B (p i) (q i)) : ∃ k : ℝ, B = k • A := by
  have hu : IsUnit A.det := isUnit_iff_ne_zero.2 hdet
  have key : ∀ i, ∃ k : ℝ, (A⁻¹ * B) *ᵥ homog (p i) = k • homog (p i) := by
    intro i
    obtain ⟨w, hw, e⟩ := hA i
    obtain ⟨d, e1⟩ : ∃ d : ℝ, B *ᵥ homog (p i) = d • homog (q i) := by
      refine ⟨(B *ᵥ homog (p i)) 2, ?_⟩
      ext j
      fin_cases j
      · simpa [homog] using (hB i).1
      · simpa [homog] using (hB i).2
      · simp [homog]
    refine ⟨d * w⁻¹, ?_⟩
    have e2 : homog (q i) = w⁻¹ • (A *ᵥ homog (p i)) := by
      rw [e, smul_smul, inv_mul_cancel₀ hw, one_smul]
    rw [← Matrix.mulVec_mulVec, e1, Matrix.mulVec_smul, e2, Matrix.mulVec_smul, Matrix.mulVec_mulVec,
      Matrix.nonsing_inv_mul _ hu, Matrix.one_mulVec, smul_smul]
  choose k hk using key
  obtain ⟨g1, g2⟩ := genPos_four hp
  have hM := eigen_four (A⁻¹ * B) (fun i => homog (p (Fin.castSucc i))) (homog (p 3))
    (fun i => k (Fin.castSucc i)) (k 3) g1 (fun i => hk _) (hk 3) g2
  refine ⟨k 3, ?_⟩
  have := congrArg (fun z => A * z) hM
  simpa [← Matrix.mul_assoc, Matrix.mul_nonsing_inv _ hu] using this

theorem finiteAt_zero (H : Matrix (Fin 3) (Fin 3) ℝ) : FiniteAt H ⟨0, 0⟩ ↔ H 2 2 ≠ 0 := by
  unfold FiniteAt homog
  simp [Matrix.mulVec, dotProduct, Fin.sum_univ_three]

theorem isImage_normCoefs {H : Matrix (Fin 3) (Fin 3) ℝ} (h : H 2 2 ≠ 0) (p q : Pt) :
    IsImage (coefMatrix (normCoefs H)) p q ↔ IsImage H p q := by
  rw [coefMatrix_normCoefs h, isImage_smul (inv_ne_zero h)]

theorem det_normCoefs {H : Matrix (Fin 3) (Fin 3) ℝ} (h : H 2 2 ≠ 0) (hd : H.det ≠ 0) : (coefMatrix (normCoefs H)).det ≠ 0 := by
  rw [coefMatrix_normCoefs h, Matrix.det_smul]
  exact mul_ne_zero (pow_ne_zero _ (inv_ne_zero h)) hd

/-- An invertible projective map is one-to-one. -/
theorem isImage_inj {H : Matrix (Fin 3) (Fin 3) ℝ} (hd : H.det ≠ 0) {p p' q : Pt} (h : IsImage H p q) (h' : IsImage H p' q) : p = p' := by
  obtain ⟨w, hw, e⟩ := h
  obtain ⟨v, hv, e'⟩ := h'
  have hu : IsUnit H.det := isUnit_iff_ne_zero.2 hd
  have e1 : H *ᵥ (v • homog p) = H *ᵥ (w • homog p') := by
    rw [Matrix.mulVec_smul, Matrix.mulVec_smul, e, e', smul_smul, smul_smul, mul_comm]
  have e2 : v • homog p = w • homog p' := by
    have := congrArg (fun z => H⁻¹ *ᵥ z) e1
    simpa only [Matrix.mulVec_mulVec, Matrix.nonsing_inv_mul _ hu, Matrix.one_mulVec] using this
  have h0 := congrFun e2 0
  have h1 := congrFun e2 1
  have h2 := congrFun e2 2
  simp [homog] at h0 h1 h2
  subst h2
  cases p; cases p'
  simp [hv] at h0 h1
  simp [h0, h1]

/-- The sign of the denominators: the corners of a parallelogram go to the corners of a convex quadrilateral with denominators of one sign. -/
theorem weights_sign {H : Matrix (Fin 3) (Fin 3) ℝ} {p1 p2 p3 p4 q1 q2 q3 q4 : Pt} {w1 w2 w3 w4 : ℝ}
    (hc : DiagonalsCross p1 p2 p3 p4) (hx : q2.x - q1.x = q4.x - q3.x) (hy : q2.y - q1.y = q4.y - q3.y)
    (e1 : H *ᵥ homog q1 = w1 • homog p1) (e2 : H *ᵥ homog q2 = w2 • homog p2) (e3 : H *ᵥ homog q3 = w3 • homog p3)
    (e4 : H *ᵥ homog q4 = w4 • homog p4) :
    ∃ k l m : ℝ, 0 < l ∧ l < 1 ∧ 0 < m ∧ m < 1 ∧ w1 = k * l ∧ w4 = k * (1 - l) ∧ w2 = k * m ∧ w3 = k * (1 - m) := by
  obtain ⟨hcol, l, m, l0, l1, m0, m1, ex, ey⟩ := hc
  have hsum : homog q1 + homog q4 = homog q2 + homog q3 := by
    ext i
    fin_cases i
    · simp [homog]; linarith
    · simp [homog]; linarith
    · simp [homog]
  have hv : w1 • homog p1 + w4 • homog p4 = w2 • homog p2 + w3 • homog p3 := by
    rw [← e1, ← e2, ← e3, ← e4, ← Matrix.mulVec_add, ← Matrix.mulVec_add, hsum]
  have a0 := congrFun hv 0
  have a1 := congrFun hv 1
  have a2 := congrFun hv 2
  simp [homog] at a0 a1 a2
  unfold Collinear3 at hcol
  have hD : (p4.x - p1.x) * (p2.y - p1.y) - (p4.y - p1.y) * (p2.x - p1.x) ≠ 0 := sub_ne_zero.2 hcol
  set D := (p4.x - p1.x) * (p2.y - p1.y) - (p4.y - p1.y) * (p2.x - p1.x)
  -- with `k = w2 + w3`, the vector `(w1 - k l) P1 + (w4 - k (1-l)) P4 - (w2 - k m) P2 - (w3 - k (1-m)) P3` vanishes
  have m1' : (1 - m) ≠ 0 := by linarith
  -- barycentric coordinates of `p3` over `p1`, `p2`, `p4`
  have x3 : (1 - m) * p3.x = l * p1.x + (1 - l) * p4.x - m * p2.x := by linarith
  have y3 : (1 - m) * p3.y = l * p1.y + (1 - l) * p4.y - m * p2.y := by linarith
  set k := w3 / (1 - m) with hk
  have ew3 : w3 = k * (1 - m) := by rw [hk, div_mul_cancel₀ _ m1']
  have b0 : (w1 - k * l) * p1.x + (w4 - k * (1 - l)) * p4.x = (w2 - k * m) * p2.x := by
    rw [ew3] at a0
    linear_combination a0 + k * x3
  have b1 : (w1 - k * l) * p1.y + (w4 - k * (1 - l)) * p4.y = (w2 - k * m) * p2.y := by
    rw [ew3] at a1
    linear_combination a1 + k * y3
  have b2 : (w1 - k * l) + (w4 - k * (1 - l)) = w2 - k * m := by
    rw [ew3] at a2
    linear_combination a2
  have c4 : (w4 - k * (1 - l)) * D = 0 := by
    simp only [D]
    linear_combination (p2.y - p1.y) * (b0 - p1.x * b2) - (p2.x - p1.x) * (b1 - p1.y * b2)
  have c4' := (mul_eq_zero.1 c4).resolve_right hD
  have c2 : (w2 - k * m) * D = 0 := by
    simp only [D]
    linear_combination (p4.y - p1.y) * (b0 - p1.x * b2) - (p4.x - p1.x) * (b1 - p1.y * b2)
  have c2' := (mul_eq_zero.1 c2).resolve_right hD
  exact ⟨k, l, m, l0, l1, m0, m1, by linarith, by linarith, by linarith, ew3⟩

end Discorpy
