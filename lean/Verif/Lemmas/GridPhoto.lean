import Verif.Lemmas.FourPointScript
import Verif.Lemmas.Grid
import Verif.Lemmas.Lines
import Verif.Lemmas.Spacing
import Verif.Spec.GridPhoto
import Verif.Spec.Spacing

/-! # Helper lemmas: photographs of grids -/

namespace Discorpy

open Spec Matrix

/-- Projective maps keep collinear points collinear, invertible ones also the converse. -/
theorem collinear_images {M : Matrix (Fin 3) (Fin 3) ℝ} (hM : M.det ≠ 0) {P Q R p q r : Pt} (hP : IsImage M P p) (hQ : IsImage M Q q)
    (hR : IsImage M R r) : Collinear3 p q r ↔ Collinear3 P Q R := by
  obtain ⟨a, na, ea⟩ := hP
  obtain ⟨b, nb, eb⟩ := hQ
  obtain ⟨c, nc, ec⟩ := hR
  rw [collinear3_iff_det, collinear3_iff_det]
  have h1 : (Matrix.of ![M *ᵥ homog P, M *ᵥ homog Q, M *ᵥ homog R]).det = M.det * (Matrix.of ![homog P, homog Q, homog R]).det := by
    rw [Matrix.det_fin_three, Matrix.det_fin_three, Matrix.det_fin_three]
    simp [Matrix.mulVec, dotProduct, Fin.sum_univ_three]
    ring
  have h2 : (Matrix.of ![a • homog p, b • homog q, c • homog r]).det = a * b * c * (Matrix.of ![homog p, homog q, homog r]).det := by
    rw [Matrix.det_fin_three, Matrix.det_fin_three]
    simp
    ring
  rw [ea, eb, ec, h2] at h1
  constructor
  · intro h
    rw [h, mul_zero] at h1
    exact (mul_eq_zero.1 h1.symm).resolve_left hM
  · intro h
    rw [h, mul_zero] at h1
    exact (mul_eq_zero.1 h1).resolve_left (mul_ne_zero (mul_ne_zero na nb) nc)

theorem exists_image {M : Matrix (Fin 3) (Fin 3) ℝ} {P : Pt} (h : FiniteAt M P) : ∃ p, IsImage M P p :=
  ⟨⟨(M *ᵥ homog P) 1 / (M *ᵥ homog P) 2, (M *ᵥ homog P) 0 / (M *ᵥ homog P) 2⟩,
    (isImage_iff _ _ _).2 ⟨h, (mul_div_cancel₀ _ h).symm, (mul_div_cancel₀ _ h).symm⟩⟩

/-- The affine map of the coordinates `(b, a)` to the points of a grid. -/
noncomputable def gridMatrix (o w u : Pt) : Matrix (Fin 3) (Fin 3) ℝ := !![u.x, w.x, o.x; u.y, w.y, o.y; 0, 0, 1]

theorem gridMatrix_mulVec (o w u : Pt) (a b : ℝ) : gridMatrix o w u *ᵥ ![b, a, 1] = homog (gridPoint o w u a b) := by
  ext i
  fin_cases i
  · simp [gridMatrix, homog, gridPoint, Matrix.mulVec, dotProduct, Fin.sum_univ_three]; ring
  · simp [gridMatrix, homog, gridPoint, Matrix.mulVec, dotProduct, Fin.sum_univ_three]; ring
  · simp [gridMatrix, homog, gridPoint, Matrix.mulVec, dotProduct, Fin.sum_univ_three]

theorem gridMatrix_det (o w u : Pt) : (gridMatrix o w u).det = u.x * w.y - w.x * u.y := by
  rw [Matrix.det_fin_three]
  simp [gridMatrix]

theorem gridPoint_surj {o w u : Pt} (h : w.x * u.y ≠ w.y * u.x) (P : Pt) : ∃ a b, gridPoint o w u a b = P := by
  have hd : w.x * u.y - w.y * u.x ≠ 0 := sub_ne_zero.2 h
  refine ⟨((P.x - o.x) * u.y - (P.y - o.y) * u.x) / (w.x * u.y - w.y * u.x), (w.x * (P.y - o.y) - w.y * (P.x - o.x)) / (w.x * u.y - w.y * u.x), ?_⟩
  set D := w.x * u.y - w.y * u.x with hD
  unfold gridPoint
  rcases P with ⟨y, x⟩
  congr 1
  · field_simp; rw [hD]; ring
  · field_simp; rw [hD]; ring

theorem gridPoint_inj {o w u : Pt} (h : w.x * u.y ≠ w.y * u.x) {a b a' b' : ℝ} (e : gridPoint o w u a b = gridPoint o w u a' b') :
    a = a' ∧ b = b' := by
  have hd : w.x * u.y - w.y * u.x ≠ 0 := sub_ne_zero.2 h
  unfold gridPoint at e
  have e1 : o.y + a * w.y + b * u.y = o.y + a' * w.y + b' * u.y := congrArg Pt.y e
  have e2 : o.x + a * w.x + b * u.x = o.x + a' * w.x + b' * u.x := congrArg Pt.x e
  constructor
  · apply sub_eq_zero.1
    apply (mul_eq_zero.1 (?_ : (a - a') * (w.x * u.y - w.y * u.x) = 0)).resolve_right hd
    linear_combination u.y * e2 - u.x * e1
  · apply sub_eq_zero.1
    apply (mul_eq_zero.1 (?_ : (b - b') * (w.x * u.y - w.y * u.x) = 0)).resolve_right hd
    linear_combination w.x * e1 - w.y * e2

/-- The camera from the plane with another grid. -/
noncomputable def regrid (M : Matrix (Fin 3) (Fin 3) ℝ) (o w u o' w' u' : Pt) : Matrix (Fin 3) (Fin 3) ℝ :=
  M * gridMatrix o w u * (gridMatrix o' w' u')⁻¹

theorem regrid_mulVec (M : Matrix (Fin 3) (Fin 3) ℝ) (o w u : Pt) {o' w' u' : Pt} (h : w'.x * u'.y ≠ w'.y * u'.x) (a b : ℝ) :
    regrid M o w u o' w' u' *ᵥ homog (gridPoint o' w' u' a b) = M *ᵥ homog (gridPoint o w u a b) := by
  have hu : IsUnit (gridMatrix o' w' u').det := by
    rw [gridMatrix_det, isUnit_iff_ne_zero]
    intro h0
    exact h (by linarith)
  rw [← gridMatrix_mulVec, ← gridMatrix_mulVec, regrid, Matrix.mulVec_mulVec, Matrix.mul_assoc, Matrix.nonsing_inv_mul _ hu, Matrix.mul_one,
    Matrix.mulVec_mulVec]

theorem regrid_det {M : Matrix (Fin 3) (Fin 3) ℝ} {o w u o' w' u' : Pt} (hM : M.det ≠ 0) (h : w.x * u.y ≠ w.y * u.x)
    (h' : w'.x * u'.y ≠ w'.y * u'.x) : (regrid M o w u o' w' u').det ≠ 0 := by
  rw [regrid, Matrix.det_mul, Matrix.det_mul, Matrix.det_nonsing_inv, Ring.inverse_eq_inv', gridMatrix_det, gridMatrix_det]
  refine mul_ne_zero (mul_ne_zero hM ?_) (inv_ne_zero ?_)
  · intro h0; exact h (by linarith)
  · intro h0; exact h' (by linarith)

theorem regrid_image (M : Matrix (Fin 3) (Fin 3) ℝ) (o w u : Pt) {o' w' u' : Pt} (h : w'.x * u'.y ≠ w'.y * u'.x) (a b : ℝ) (q : Pt) :
    IsImage (regrid M o w u o' w' u') (gridPoint o' w' u' a b) q ↔ IsImage M (gridPoint o w u a b) q := by
  unfold IsImage
  rw [regrid_mulVec M o w u h]

/-- The map of the photograph to another grid. -/
noncomputable def ungrid (M : Matrix (Fin 3) (Fin 3) ℝ) (o w u o' w' u' : Pt) : Matrix (Fin 3) (Fin 3) ℝ :=
  gridMatrix o' w' u' * (gridMatrix o w u)⁻¹ * M⁻¹

theorem gridMatrix_unit {o w u : Pt} (h : w.x * u.y ≠ w.y * u.x) : IsUnit (gridMatrix o w u).det := by
  rw [gridMatrix_det, isUnit_iff_ne_zero]
  intro h0
  exact h (by linarith)

theorem ungrid_image {M : Matrix (Fin 3) (Fin 3) ℝ} (hM : M.det ≠ 0) {o w u : Pt} (h : w.x * u.y ≠ w.y * u.x) (o' w' u' : Pt) {a b : ℝ} {q : Pt}
    (hq : IsImage M (gridPoint o w u a b) q) : IsImage (ungrid M o w u o' w' u') q (gridPoint o' w' u' a b) := by
  obtain ⟨k, hk, e⟩ := hq
  refine ⟨k⁻¹, inv_ne_zero hk, ?_⟩
  have e1 : homog q = k⁻¹ • (M *ᵥ homog (gridPoint o w u a b)) := by rw [e, smul_smul, inv_mul_cancel₀ hk, one_smul]
  rw [e1, Matrix.mulVec_smul, ← gridMatrix_mulVec, ungrid, Matrix.mulVec_mulVec, Matrix.mulVec_mulVec,
    Matrix.mul_assoc _ M⁻¹, Matrix.nonsing_inv_mul _ (isUnit_iff_ne_zero.2 hM), Matrix.mul_one, Matrix.mul_assoc,
    Matrix.nonsing_inv_mul _ (gridMatrix_unit h), Matrix.mul_one, gridMatrix_mulVec]

theorem ungrid_det {M : Matrix (Fin 3) (Fin 3) ℝ} {o w u o' w' u' : Pt} (hM : M.det ≠ 0) (h : w.x * u.y ≠ w.y * u.x)
    (h' : w'.x * u'.y ≠ w'.y * u'.x) : (ungrid M o w u o' w' u').det ≠ 0 := by
  rw [ungrid, Matrix.det_mul, Matrix.det_mul, Matrix.det_nonsing_inv, Matrix.det_nonsing_inv, Ring.inverse_eq_inv']
  exact mul_ne_zero (mul_ne_zero (gridMatrix_unit h').ne_zero (inv_ne_zero (gridMatrix_unit h).ne_zero)) (inv_ne_zero hM)

theorem ungrid_corner {M : Matrix (Fin 3) (Fin 3) ℝ} {o w u : Pt} (h : w.x * u.y ≠ w.y * u.x) (o' w' u' : Pt) :
    (ungrid M o w u o' w' u') 2 2 = M⁻¹ 2 2 := by
  have row : ∀ (X : Matrix (Fin 3) (Fin 3) ℝ) (o w u : Pt) (j : Fin 3), (gridMatrix o w u * X) 2 j = X 2 j := by
    intro X o w u j
    rw [Matrix.mul_apply, Fin.sum_univ_three]
    simp [gridMatrix]
  have inv : ∀ j, (gridMatrix o w u)⁻¹ 2 j = (1 : Matrix (Fin 3) (Fin 3) ℝ) 2 j := by
    intro j
    rw [← row (gridMatrix o w u)⁻¹ o w u j, Matrix.mul_nonsing_inv _ (gridMatrix_unit h)]
  rw [ungrid, Matrix.mul_assoc, row, Matrix.mul_apply, Fin.sum_univ_three, inv, inv, inv]
  simp

/-- Four neighbouring points of a grid. -/
theorem gridPoint_genPos {o w u : Pt} (h : w.x * u.y ≠ w.y * u.x) :
    GeneralPosition ![gridPoint o w u 0 0, gridPoint o w u 0 1, gridPoint o w u 1 0, gridPoint o w u 1 1] := by
  apply genPos_of
  all_goals
    unfold Collinear3 gridPoint
    intro hc
    apply h
    simp only at hc
  · linear_combination -hc
  · linear_combination -hc
  · linear_combination hc
  · linear_combination hc

/-- A line through two dots with different `x` is determined. -/
theorem horLine_unique {a b a' b' : ℝ} {p q : Pt} (hpq : p.x ≠ q.x) (h1 : onHorLine a b p) (h2 : onHorLine a b q) (h3 : onHorLine a' b' p)
    (h4 : onHorLine a' b' q) : a = a' ∧ b = b' := by
  unfold onHorLine at *
  have : (a - a') * (p.x - q.x) = 0 := by linear_combination h3 - h4 - h1 + h2
  have ha : a = a' := sub_eq_zero.1 ((mul_eq_zero.1 this).resolve_right (sub_ne_zero.2 hpq))
  subst ha
  exact ⟨rfl, by linarith⟩

theorem verLine_unique {a b a' b' : ℝ} {p q : Pt} (hpq : p.y ≠ q.y) (h1 : onVerLine a b p) (h2 : onVerLine a b q) (h3 : onVerLine a' b' p)
    (h4 : onVerLine a' b' q) : a = a' ∧ b = b' := by
  unfold onVerLine at *
  have : (a - a') * (p.y - q.y) = 0 := by linear_combination h3 - h4 - h1 + h2
  have ha : a = a' := sub_eq_zero.1 ((mul_eq_zero.1 this).resolve_right (sub_ne_zero.2 hpq))
  subst ha
  exact ⟨rfl, by linarith⟩

/-- The fitted line of a photographed row contains the images of all points of the row. -/
theorem photo_row {M : Matrix (Fin 3) (Fin 3) ℝ} (hM : M.det ≠ 0) {o w u : Pt} {i : ℝ} {l : List Pt}
    (hl : ∀ p ∈ l, ∃ t : ℝ, IsImage M (gridPoint o w u i t) p) (h2 : ∃ p ∈ l, ∃ q ∈ l, p.x ≠ q.x) {a b : ℝ} (h : IsLsqHorLine l a b) :
    (∀ p ∈ l, onHorLine a b p) ∧ ∀ t q, IsImage M (gridPoint o w u i t) q → onHorLine a b q := by
  obtain ⟨p, hp, q, hq, hpq⟩ := h2
  obtain ⟨tp, ep⟩ := hl p hp
  obtain ⟨tq, eq⟩ := hl q hq
  have hd : q.x - p.x ≠ 0 := sub_ne_zero.2 hpq.symm
  have on0 : ∀ t r, IsImage M (gridPoint o w u i t) r → onHorLine ((q.y - p.y) / (q.x - p.x)) (p.y - (q.y - p.y) / (q.x - p.x) * p.x) r := by
    intro t r hr
    have hc : Collinear3 p q r := (collinear_images hM ep eq hr).2 (by unfold Collinear3 gridPoint; ring)
    unfold Collinear3 at hc
    unfold onHorLine
    field_simp
    linear_combination hc
  have on1 := lsqHor_exact (a0 := (q.y - p.y) / (q.x - p.x)) (b0 := p.y - (q.y - p.y) / (q.x - p.x) * p.x) h (fun r hr => by
    obtain ⟨t, e⟩ := hl r hr
    exact on0 t r e)
  obtain ⟨rfl, rfl⟩ := horLine_unique hpq (on1 p hp) (on1 q hq) (on0 tp p ep) (on0 tq q eq)
  exact ⟨on1, on0⟩

theorem photo_col {M : Matrix (Fin 3) (Fin 3) ℝ} (hM : M.det ≠ 0) {o w u : Pt} {j : ℝ} {l : List Pt}
    (hl : ∀ p ∈ l, ∃ t : ℝ, IsImage M (gridPoint o w u t j) p) (h2 : ∃ p ∈ l, ∃ q ∈ l, p.y ≠ q.y) {a b : ℝ} (h : IsLsqVerLine l a b) :
    (∀ p ∈ l, onVerLine a b p) ∧ ∀ t q, IsImage M (gridPoint o w u t j) q → onVerLine a b q := by
  obtain ⟨p, hp, q, hq, hpq⟩ := h2
  obtain ⟨tp, ep⟩ := hl p hp
  obtain ⟨tq, eq⟩ := hl q hq
  have hd : q.y - p.y ≠ 0 := sub_ne_zero.2 hpq.symm
  have on0 : ∀ t r, IsImage M (gridPoint o w u t j) r → onVerLine ((q.x - p.x) / (q.y - p.y)) (p.x - (q.x - p.x) / (q.y - p.y) * p.y) r := by
    intro t r hr
    have hc : Collinear3 p q r := (collinear_images hM ep eq hr).2 (by unfold Collinear3 gridPoint; ring)
    unfold Collinear3 at hc
    unfold onVerLine
    field_simp
    linear_combination -hc
  have on1 := lsqVer_exact (a0 := (q.x - p.x) / (q.y - p.y)) (b0 := p.x - (q.x - p.x) / (q.y - p.y) * p.y) h (fun r hr => by
    obtain ⟨t, e⟩ := hl r hr
    exact on0 t r e)
  obtain ⟨rfl, rfl⟩ := verLine_unique hpq (on1 p hp) (on1 q hq) (on0 tp p ep) (on0 tq q eq)
  exact ⟨on1, on0⟩

/-- A photographed row is never parallel to a photographed column it crosses. -/
theorem photo_not_parallel {M : Matrix (Fin 3) (Fin 3) ℝ} (hM : M.det ≠ 0) {o w u : Pt} (hs : w.x * u.y ≠ w.y * u.x) {i j : ℝ} {l m : List Pt}
    (hf : FiniteAt M (gridPoint o w u i j))
    (hl : ∀ p ∈ l, ∃ t : ℝ, IsImage M (gridPoint o w u i t) p) (hl2 : ∃ p ∈ l, ∃ q ∈ l, p.x ≠ q.x)
    (hm : ∀ p ∈ m, ∃ t : ℝ, IsImage M (gridPoint o w u t j) p) (hm2 : ∃ p ∈ m, ∃ q ∈ m, p.y ≠ q.y)
    {a b a' b' : ℝ} (h : IsLsqHorLine l a b) (h' : IsLsqVerLine m a' b') : a * a' ≠ 1 := by
  intro haa
  obtain ⟨s, es⟩ := exists_image hf
  have r1 := photo_row hM hl hl2 h
  have c1 := photo_col hM hm hm2 h'
  have s1 := r1.2 j s es
  have s2 := c1.2 i s es
  obtain ⟨p, hp, p', hp', hpp⟩ := hl2
  obtain ⟨q, hq, q', hq', hqq⟩ := hm2
  -- a dot of the column away from the row
  obtain ⟨q, hq, t, et, hti⟩ : ∃ q ∈ m, ∃ t : ℝ, IsImage M (gridPoint o w u t j) q ∧ t ≠ i := by
    obtain ⟨t, et⟩ := hm q hq
    obtain ⟨t', et'⟩ := hm q' hq'
    by_cases h1 : t = i
    · refine ⟨q', hq', t', et', ?_⟩
      rintro rfl
      subst h1
      exact hqq (congrArg Pt.y (et.unique et'))
    · exact ⟨q, hq, t, et, h1⟩
  obtain ⟨tp, ep⟩ := hl p hp
  obtain ⟨tp', ep'⟩ := hl p' hp'
  have htt : tp ≠ tp' := by
    rintro rfl
    exact hpp (congrArg Pt.x (ep.unique ep'))
  have o1 := r1.1 p hp
  have o2 := r1.1 p' hp'
  have o3 := c1.1 q hq
  unfold onHorLine at o1 o2 s1
  unfold onVerLine at o3 s2
  have o4 : q.y = a * q.x + b := by
    linear_combination s1 + a * s2 - a * o3 + (s.y - q.y) * haa
  have hc : Collinear3 p p' q := by
    unfold Collinear3
    rw [o1, o2, o4]; ring
  have hC := (collinear_images hM ep ep' et).1 hc
  unfold Collinear3 gridPoint at hC
  simp only at hC
  have : (tp' - tp) * (t - i) * (w.x * u.y - w.y * u.x) = 0 := by linear_combination -hC
  rcases mul_eq_zero.1 this with h | h
  · rcases mul_eq_zero.1 h with h | h
    · exact htt (sub_eq_zero.1 h).symm
    · exact hti (sub_eq_zero.1 h)
  · exact hs (sub_eq_zero.1 h)

/-- Neighbours are in strictly increasing order. -/
def StepUp (l : List ℝ) : Prop := ∀ i, i + 1 < l.length → l.getD i 0 < l.getD (i + 1) 0

theorem stepUp_central {l : List ℝ} (h : StepUp l) (pos n : ℕ) : StepUp (central l pos n) := by
  intro i hi
  unfold central at hi ⊢
  rw [List.length_drop, List.length_take] at hi
  have get : ∀ k : ℕ, k < min (pos + n + 1) l.length - (pos - n) → ((l.take (pos + n + 1)).drop (pos - n)).getD k 0 = l.getD (pos - n + k) 0 := by
    intro k hk
    rw [List.getD_eq_getElem?_getD, List.getElem?_drop, List.getElem?_take, if_pos (by omega), List.getD_eq_getElem?_getD]
  rw [get i (by omega), get (i + 1) (by omega)]
  exact h _ (by omega)

theorem gaps_pos {l : List ℝ} (h : StepUp l) : ∀ g ∈ gaps l, 0 < g := by
  intro g hg
  obtain ⟨i, hi, rfl⟩ := List.mem_map.1 hg
  rw [List.mem_range] at hi
  exact abs_pos.2 (sub_ne_zero.2 (h i (by omega)).ne')

/-- The sign of the distance chosen by the option. -/
noncomputable def scaleFactor : ScaleOpt → ℝ
  | .float k => k
  | _ => 1

theorem spacing_pos {l : List ℝ} (hl : 2 ≤ l.length) (h : StepUp l) {d : ℝ} {scale : ScaleOpt} (hs : IsSpacing l d scale) :
    ∃ m > 0, d = scaleFactor scale * m := by
  have hg := gaps_pos h
  have hlen : (gaps l).length = l.length - 1 := by simp [gaps]
  have hpos' : 0 < (gaps l).length := by omega
  have hpos : (0 : ℝ) < (gaps l).length := by exact_mod_cast hpos'
  have hmean : ∀ m : ℝ, m * (gaps l).length = (gaps l).sum → 0 < m := by
    intro m hm
    have : 0 < (gaps l).sum := List.sum_pos _ hg (List.ne_nil_of_length_pos hpos')
    rw [← hm] at this
    exact (pos_iff_pos_of_mul_pos this).2 hpos
  cases scale with
  | max => exact ⟨d, hg d hs.1, by simp [scaleFactor]⟩
  | min => exact ⟨d, hg d hs.1, by simp [scaleFactor]⟩
  | median =>
    obtain ⟨h1, h2⟩ := hs
    have n1 : 0 < ((gaps l).filter fun x => decide (id x ≤ d)).length := by omega
    obtain ⟨x, hx⟩ := List.exists_mem_of_length_pos n1
    rw [List.mem_filter, decide_eq_true_iff] at hx
    exact ⟨d, (hg x hx.1).trans_le hx.2, by simp [scaleFactor]⟩
  | mean => exact ⟨d, hmean d hs, by simp [scaleFactor]⟩
  | float s =>
    obtain ⟨m, hm, rfl⟩ := hs
    exact ⟨m, hmean m hm, rfl⟩

theorem stepUp_lt {l : List ℝ} (h : StepUp l) {i j : ℕ} (hij : i < j) (hj : j < l.length) : l.getD i 0 < l.getD j 0 := by
  induction j with
  | zero => omega
  | succ j ih =>
    rcases Nat.lt_succ_iff_lt_or_eq.1 hij with h1 | rfl
    · exact (ih h1 (by omega)).trans (h j hj)
    · exact h i hj

/-- The best common distance of increasing intercepts is positive. -/
theorem optSpacing_pos {l : List ℝ} (hl : 2 ≤ l.length) (h : StepUp l) {pos : ℕ} (hp : pos < l.length) {d : ℝ}
    (hd : ∀ x, spacingError l pos d ≤ spacingError l pos x) : 0 < d := by
  set S0 := ((List.range l.length).map fun i : ℕ => (l.getD pos 0 - l.getD i 0) ^ 2).sum with h0
  set S1 := ((List.range l.length).map fun i : ℕ => ((i : ℝ) - pos) * (l.getD i 0 - l.getD pos 0)).sum with h1
  set S2 := ((List.range l.length).map fun i : ℕ => ((i : ℝ) - pos) ^ 2).sum with h2
  have expand : ∀ x, spacingError l pos x = S0 - 2 * S1 * x + S2 * x ^ 2 := by
    intro x
    rw [h0, h1, h2]
    unfold spacingError
    induction List.range l.length with
    | nil => simp
    | cons i L ih => simp only [List.map_cons, List.sum_cons, ih]; ring
  have term : ∀ i < l.length, 0 ≤ ((i : ℝ) - pos) * (l.getD i 0 - l.getD pos 0) ∧ (i ≠ pos → 0 < ((i : ℝ) - pos) * (l.getD i 0 - l.getD pos 0)) := by
    intro i hi
    rcases lt_trichotomy i pos with hlt | rfl | hgt
    · have e1 : (i : ℝ) - pos < 0 := by rw [sub_neg]; exact_mod_cast hlt
      have e2 : l.getD i 0 - l.getD pos 0 < 0 := sub_neg.2 (stepUp_lt h hlt hp)
      exact ⟨(mul_pos_of_neg_of_neg e1 e2).le, fun _ => mul_pos_of_neg_of_neg e1 e2⟩
    · simp
    · have e1 : 0 < (i : ℝ) - pos := by rw [sub_pos]; exact_mod_cast hgt
      have e2 : 0 < l.getD i 0 - l.getD pos 0 := sub_pos.2 (stepUp_lt h hgt hi)
      exact ⟨(mul_pos e1 e2).le, fun _ => mul_pos e1 e2⟩
  have p1 : 0 < S1 := by
    obtain ⟨k, hk, hkp⟩ : ∃ k < l.length, k ≠ pos := by
      by_cases hp0 : pos = 0
      · exact ⟨1, by omega, by omega⟩
      · exact ⟨0, by omega, by omega⟩
    refine lt_of_lt_of_le ((term k hk).2 hkp) (List.single_le_sum ?_ _ (List.mem_map.2 ⟨k, List.mem_range.2 hk, rfl⟩))
    intro x hx
    obtain ⟨i, hi, rfl⟩ := List.mem_map.1 hx
    exact (term i (List.mem_range.1 hi)).1
  have p2 : 0 ≤ S2 := by
    apply List.sum_nonneg
    intro x hx
    obtain ⟨i, hi, rfl⟩ := List.mem_map.1 hx
    exact sq_nonneg _
  by_contra hneg
  push Not at hneg
  have e := hd (S1 / (S2 + 1))
  rw [expand, expand] at e
  set x := S1 / (S2 + 1) with hx
  have hx0 : 0 < x := by positivity
  have e1 : S1 = x * (S2 + 1) := by rw [hx]; field_simp
  nlinarith [mul_nonneg p2 (sq_nonneg d), mul_pos hx0 hx0, mul_nonneg p2 (sq_nonneg x), mul_nonneg p1.le (neg_nonneg.2 hneg)]

theorem commonSpacing_ne {equalDist : Bool} {scale : ScaleOpt} {eh ev dh dv mh mv : ℝ} (hf : ∀ k, scale = .float k → k ≠ 0)
    (hmh : 0 < mh) (hmv : 0 < mv) (h1 : eh = scaleFactor scale * mh) (h2 : ev = scaleFactor scale * mv)
    (hc : (dh, dv) = commonSpacing equalDist eh ev scale) : dh ≠ 0 ∧ dv ≠ 0 := by
  have fne : scaleFactor scale ≠ 0 := by
    cases scale with
    | float k => exact hf k rfl
    | _ => simp [scaleFactor]
  have hsum : (eh + ev) / 2 ≠ 0 := by
    rw [h1, h2, ← mul_add]
    exact div_ne_zero (mul_ne_zero fne (by positivity)) two_ne_zero
  have n1 : eh ≠ 0 := by rw [h1]; exact mul_ne_zero fne hmh.ne'
  have n2 : ev ≠ 0 := by rw [h2]; exact mul_ne_zero fne hmv.ne'
  cases equalDist with
  | false =>
    have : (dh, dv) = (eh, ev) := by cases scale <;> simpa [commonSpacing] using hc
    cases this
    exact ⟨n1, n2⟩
  | true =>
    cases scale with
    | max =>
      have : max eh ev ≠ 0 := by rcases max_choice eh ev with h | h <;> rw [h] <;> assumption
      simp only [commonSpacing, if_true] at hc
      cases hc
      exact ⟨this, this⟩
    | min =>
      have : min eh ev ≠ 0 := by rcases min_choice eh ev with h | h <;> rw [h] <;> assumption
      simp only [commonSpacing, if_true] at hc
      cases hc
      exact ⟨this, this⟩
    | median => simp only [commonSpacing, if_true] at hc; cases hc; exact ⟨hsum, hsum⟩
    | mean => simp only [commonSpacing, if_true] at hc; cases hc; exact ⟨hsum, hsum⟩
    | float k => simp only [commonSpacing, if_true] at hc; cases hc; exact ⟨hsum, hsum⟩

end Discorpy
