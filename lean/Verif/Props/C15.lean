import Verif.Lemmas.Projective
import Verif.Lemmas.Image

/-! # C15, C16: perspective correction of points and images -/

namespace Discorpy

open Spec Matrix

/-- **C15** (the map). Given 8 coefficients and non-empty lines, `correct_perspective_line` returns as many lines with as
many dots, and every dot is the image of the input dot under the projective map of the coefficient matrix. -/
theorem C15_line_is_projective (c : Fin 8 → ℝ) (lines : List (List Pt)) (hne : ∀ l ∈ lines, l ≠ [])
    (hden : ∀ l ∈ lines, ∀ p ∈ l, FiniteAt (coefMatrix c) p) :
    ∃ out, correctPerspectiveLine lines (List.ofFn c) = .ok out ∧
      List.Forall₂ (List.Forall₂ (IsImage (coefMatrix c))) lines out := by
  refine ⟨_, correctPerspectiveLine_eq c lines (fun h => hne _ h rfl), ?_⟩
  rw [List.forall₂_map_right_iff, List.forall₂_same]
  intro l hl
  rw [List.forall₂_map_right_iff, List.forall₂_same]
  exact fun p hp => isImage_projPt (hden l hl p hp)

/-- **C15** (collinearity). Images of collinear dots under a projective map are collinear. -/
theorem C15_collinear (H : Matrix (Fin 3) (Fin 3) ℝ) (p q r p' q' r' : Pt) (hp : IsImage H p p') (hq : IsImage H q q')
    (hr : IsImage H r r') (hc : Collinear3 p q r) : Collinear3 p' q' r' := by
  rw [collinear3_iff_det] at hc ⊢
  obtain ⟨a, ha, ea⟩ := hp
  obtain ⟨b, hb, eb⟩ := hq
  obtain ⟨d, hd, ed⟩ := hr
  have e : Matrix.of ![homog p, homog q, homog r] * Hᵀ = Matrix.diagonal ![a, b, d] * Matrix.of ![homog p', homog q', homog r'] := by
    ext i j
    have hrow : ∀ v : Fin 3 → ℝ, (H *ᵥ v) j = ∑ k, v k * Hᵀ k j := by
      intro v; simp [Matrix.mulVec, dotProduct, mul_comm]
    rw [Matrix.diagonal_mul, Matrix.mul_apply]
    fin_cases i
    · simpa using (hrow (homog p)).symm.trans (congrFun ea j)
    · simpa using (hrow (homog q)).symm.trans (congrFun eb j)
    · simpa using (hrow (homog r)).symm.trans (congrFun ed j)
  have := congrArg Matrix.det e
  rw [Matrix.det_mul, Matrix.det_mul, hc, zero_mul, Matrix.det_diagonal, Fin.prod_univ_three] at this
  simp at this
  simpa [ha, hb, hd] using this

/-- **C15** (collinearity, on the API): three dots of a line that are collinear stay collinear. -/
theorem C15_line_keeps_collinear (c : Fin 8 → ℝ) (lines : List (List Pt)) (hne : ∀ l ∈ lines, l ≠ [])
    (hden : ∀ l ∈ lines, ∀ p ∈ l, FiniteAt (coefMatrix c) p)
    (hcol : ∀ l ∈ lines, ∀ p ∈ l, ∀ q ∈ l, ∀ r ∈ l, Collinear3 p q r) :
    ∃ out, correctPerspectiveLine lines (List.ofFn c) = .ok out ∧
      ∀ l ∈ out, ∀ p ∈ l, ∀ q ∈ l, ∀ r ∈ l, Collinear3 p q r := by
  refine ⟨_, correctPerspectiveLine_eq c lines (fun h => hne _ h rfl), ?_⟩
  intro l hl p hp q hq r hr
  obtain ⟨l0, hl0, rfl⟩ := List.mem_map.1 hl
  obtain ⟨p0, hp0, rfl⟩ := List.mem_map.1 hp
  obtain ⟨q0, hq0, rfl⟩ := List.mem_map.1 hq
  obtain ⟨r0, hr0, rfl⟩ := List.mem_map.1 hr
  exact C15_collinear _ _ _ _ _ _ _ (isImage_projPt (hden _ hl0 _ hp0)) (isImage_projPt (hden _ hl0 _ hq0))
    (isImage_projPt (hden _ hl0 _ hr0)) (hcol _ hl0 _ hp0 _ hq0 _ hr0)

/-- **C15** (composition). Applying `b` then `a` is applying the normalised product matrix. -/
theorem C15_compose (a b : Fin 8 → ℝ) (lines mid : List (List Pt)) (hne : ∀ l ∈ lines, l ≠ [])
    (h22 : (coefMatrix a * coefMatrix b) 2 2 ≠ 0)
    (hmid : correctPerspectiveLine lines (List.ofFn b) = .ok mid)
    (hb : ∀ l ∈ lines, ∀ p ∈ l, FiniteAt (coefMatrix b) p)
    (ha : ∀ l ∈ mid, ∀ p ∈ l, FiniteAt (coefMatrix a) p) :
    correctPerspectiveLine mid (List.ofFn a) =
      correctPerspectiveLine lines (List.ofFn (normCoefs (coefMatrix a * coefMatrix b))) := by
  have h0 : [] ∉ lines := fun h => hne _ h rfl
  rw [correctPerspectiveLine_eq b lines h0] at hmid
  cases hmid
  rw [correctPerspectiveLine_eq _ _ h0, correctPerspectiveLine_eq]
  · congr 1
    rw [List.map_map]
    apply List.map_congr_left
    intro l hl
    simp only [Function.comp, List.map_map]
    apply List.map_congr_left
    intro p hp
    have i1 := isImage_projPt (hb l hl p hp)
    have i2 := isImage_projPt (ha _ (List.mem_map.2 ⟨l, hl, rfl⟩) _ (List.mem_map.2 ⟨p, hp, rfl⟩))
    have i3 := i1.comp i2
    rw [← isImage_smul (inv_ne_zero h22), ← coefMatrix_normCoefs h22] at i3
    exact i3.unique (isImage_projPt ((isImage_iff _ _ _).1 i3).1)
  · intro h
    obtain ⟨l, hl, e⟩ := List.mem_map.1 h
    exact hne l hl (by simpa using e)

/-- **C15** (inverse). If the matrices are inverse up to a factor, applying both gives the lines back. -/
theorem C15_inverse (a b : Fin 8 → ℝ) (k : ℝ) (hk : k ≠ 0) (hab : coefMatrix a * coefMatrix b = k • (1 : Matrix (Fin 3) (Fin 3) ℝ))
    (lines mid : List (List Pt)) (hne : ∀ l ∈ lines, l ≠ [])
    (hmid : correctPerspectiveLine lines (List.ofFn b) = .ok mid)
    (hb : ∀ l ∈ lines, ∀ p ∈ l, FiniteAt (coefMatrix b) p) :
    correctPerspectiveLine mid (List.ofFn a) = .ok lines := by
  have h0 : [] ∉ lines := fun h => hne _ h rfl
  rw [correctPerspectiveLine_eq b lines h0] at hmid
  cases hmid
  rw [correctPerspectiveLine_eq]
  · congr 1
    rw [List.map_map]
    conv_rhs => rw [← List.map_id lines]
    apply List.map_congr_left
    intro l hl
    simp only [Function.comp, List.map_map, id]
    conv_rhs => rw [← List.map_id l]
    apply List.map_congr_left
    intro p hp
    obtain ⟨w, hw, e⟩ := isImage_projPt (hb l hl p hp)
    -- `a` sends the image of `p` back to `p`
    have i2 : IsImage (coefMatrix a) (projPt b p) p := by
      refine ⟨w⁻¹ * k, mul_ne_zero (inv_ne_zero hw) hk, ?_⟩
      have e' : homog (projPt b p) = w⁻¹ • (coefMatrix b *ᵥ homog p) := by
        rw [e, smul_smul, inv_mul_cancel₀ hw, one_smul]
      rw [e', Matrix.mulVec_smul, Matrix.mulVec_mulVec, hab, Matrix.smul_mulVec, Matrix.one_mulVec, smul_smul]
    exact (isImage_projPt ((isImage_iff _ _ _).1 i2).1).unique i2
  · intro h
    obtain ⟨l, hl, e⟩ := List.mem_map.1 h
    exact hne l hl (by simpa using e)

/-- **C15** (errors). Anything but eight coefficients raises `ValueError`; an empty line raises `IndexError`. -/
theorem C15_errors (lines : List (List Pt)) (coef : List ℝ) :
    (coef.length ≠ 8 → correctPerspectiveLine lines coef = .error .valueError) ∧
    (coef.length = 8 → [] ∈ lines → correctPerspectiveLine lines coef = .error .indexError) := by
  constructor
  · intro h
    unfold correctPerspectiveLine
    split
    · simp at h
    · rfl
  · intro h he
    match coef, h with
    | [_, _, _, _, _, _, _, _], _ =>
      have : lines.any List.isEmpty = true := List.any_eq_true.2 ⟨[], he, rfl⟩
      simp only [correctPerspectiveLine, this, if_true]

/-- Non-vacuity: a genuinely projective map (`c7 = 1`) and its inverse, on three collinear dots. -/
example : coefMatrix ![1, 0, 0, 0, 1, 0, -1, 0] * coefMatrix ![1, 0, 0, 0, 1, 0, 1, 0] = (1 : ℝ) • 1 ∧
    (∀ p ∈ [(⟨0, 0⟩ : Pt), ⟨1, 1⟩, ⟨2, 2⟩], FiniteAt (coefMatrix ![1, 0, 0, 0, 1, 0, 1, 0]) p) ∧
    Collinear3 ⟨0, 0⟩ ⟨1, 1⟩ ⟨2, 2⟩ := by
  refine ⟨?_, ?_, ?_⟩
  · ext i j
    fin_cases i <;> fin_cases j <;> simp [coefMatrix, Matrix.mul_apply, Fin.sum_univ_three]
  · intro p hp
    rw [finite_iff]
    simp at hp
    rcases hp with rfl | rfl | rfl
    · simp
    · simp
    · simp; norm_num
  · unfold Collinear3; norm_num

/-- **C16.** Pixel `(i, j)` of `correct_perspective_image` is the bilinear interpolation of the image at the (rounded)
clipped image of `(x = j, y = i)` under the projective map of the coefficients — the map of `C15`. -/
theorem C16_image_samples_map (B : Boundary) (rnd : ℝ → ℝ) (hr : CoordRounding rnd) (m : Mat ℝ) (c : Fin 8 → ℝ)
    (hh : m.height ≤ 2 ^ 24) (hw : m.width ≤ 2 ^ 24)
    (hden : ∀ i < m.height, ∀ j < m.width, FiniteAt (coefMatrix c) ⟨(i : ℝ), (j : ℝ)⟩) :
    ∃ out, correctPerspectiveImage (linearInterp B) rnd m (List.ofFn c) none = .ok out ∧
      out.height = m.height ∧ out.width = m.width ∧
      ∀ i < m.height, ∀ j < m.width, ∀ q, IsImage (coefMatrix c) ⟨(i : ℝ), (j : ℝ)⟩ q →
        out.get i j = bilinear m (rnd (clampTo ((m.height : ℝ) - 1) q.y)) (rnd (clampTo ((m.width : ℝ) - 1) q.x)) := by
  have e : generatePerspectiveMap rnd m (List.ofFn c) = .ok fun i j =>
      ⟨rnd (clip (projPt c ⟨(i : ℝ), (j : ℝ)⟩).y 0 ((m.height : ℝ) - 1)), rnd (clip (projPt c ⟨(i : ℝ), (j : ℝ)⟩).x 0 ((m.width : ℝ) - 1))⟩ := by
    simp only [generatePerspectiveMap, List.ofFn_succ, List.ofFn_zero]
    rfl
  refine ⟨⟨m.height, m.width, fun i j => linearInterp B m (rnd (clip (projPt c ⟨(i : ℝ), (j : ℝ)⟩).y 0 ((m.height : ℝ) - 1)))
    (rnd (clip (projPt c ⟨(i : ℝ), (j : ℝ)⟩).x 0 ((m.width : ℝ) - 1)))⟩,
    by rw [correctPerspectiveImage, if_neg (by simp), e]; rfl, rfl, rfl, ?_⟩
  intro i hi j hj q hq
  rw [← (isImage_projPt (hden i hi j hj)).unique hq]
  have hf := inFrame_rnd hr (inFrame_clip (m := m) (by omega) (by omega) (projPt c ⟨(i : ℝ), (j : ℝ)⟩).y
    (projPt c ⟨(i : ℝ), (j : ℝ)⟩).x) (by omega) (by omega) hh hw
  simp only
  rw [linearInterp_eq B _ hf]
  have hc : ∀ (n : ℕ) (y : ℝ), 0 < n → clip y 0 ((n : ℝ) - 1) = clampTo ((n : ℝ) - 1) y := by
    intro n y hn
    unfold clip clampTo
    have : (1 : ℝ) ≤ n := by exact_mod_cast hn
    rcases le_total y 0 with h | h <;> rcases le_total y ((n : ℝ) - 1) with h' | h' <;>
      simp [h, h'] <;> linarith
  rw [hc _ _ (by omega), hc _ _ (by omega)]

/-- **C16** (precomputed map): passing the map generated for the image gives the same result as `None`. -/
theorem C16_map_index (S : Sampler) (rnd : ℝ → ℝ) (m : Mat ℝ) (c : List ℝ) (idx : ℕ → ℕ → Pt)
    (h : generatePerspectiveMap rnd m c = .ok idx) :
    correctPerspectiveImage S rnd m c (some idx) = correctPerspectiveImage S rnd m c none := by
  unfold correctPerspectiveImage
  simp only [h]

/-- **C16** (any precomputed map): the given map is used as it is, whatever the coefficients. -/
theorem C16_given_map (B : Boundary) (rnd : ℝ → ℝ) (m : Mat ℝ) (c : List ℝ) (hc : c.length = 8) (idx : ℕ → ℕ → Pt)
    (hin : ∀ i < m.height, ∀ j < m.width, InFrame m (idx i j).y (idx i j).x) :
    ∃ out, correctPerspectiveImage (linearInterp B) rnd m c (some idx) = .ok out ∧ out.height = m.height ∧ out.width = m.width ∧
      ∀ i < m.height, ∀ j < m.width, out.get i j = bilinear m (idx i j).y (idx i j).x := by
  refine ⟨⟨m.height, m.width, fun i j => linearInterp B m (idx i j).y (idx i j).x⟩, ?_, rfl, rfl, ?_⟩
  · rw [correctPerspectiveImage, if_neg (by simpa using hc)]
    rfl
  · intro i hi j hj
    exact linearInterp_eq B _ (hin i hi j hj)

/-- **C16** (identity): identity coefficients return the image. -/
theorem C16_identity (B : Boundary) (rnd : ℝ → ℝ) (hr : CoordRounding rnd) (m : Mat ℝ)
    (hh : m.height ≤ 2 ^ 24) (hw : m.width ≤ 2 ^ 24) :
    ∃ out, correctPerspectiveImage (linearInterp B) rnd m [1, 0, 0, 0, 1, 0, 0, 0] none = .ok out ∧ SameImage out m := by
  have el : ([1, 0, 0, 0, 1, 0, 0, 0] : List ℝ) = List.ofFn ![1, 0, 0, 0, 1, 0, 0, 0] := by simp [List.ofFn_succ]
  have e1 : coefMatrix ![1, 0, 0, 0, 1, 0, 0, 0] = 1 := by
    ext i j
    fin_cases i <;> fin_cases j <;> simp [coefMatrix]
  have hi1 : ∀ p, IsImage (coefMatrix ![1, 0, 0, 0, 1, 0, 0, 0]) p p := by rw [e1]; exact isImage_one
  obtain ⟨out, h, h1, h2, h3⟩ := C16_image_samples_map B rnd hr m ![1, 0, 0, 0, 1, 0, 0, 0] hh hw
    (fun i _ j _ => ((isImage_iff _ _ _).1 (hi1 _)).1)
  refine ⟨out, by rw [el, h], h1, h2, ?_⟩
  intro i hi j hj
  rw [h1] at hi
  rw [h2] at hj
  rw [h3 i hi j hj _ (hi1 _)]
  have hc : ∀ n k : ℕ, k < n → n ≤ 2 ^ 24 → rnd (clampTo ((n : ℝ) - 1) (k : ℝ)) = k := by
    intro n k hk hn
    have h1 : (k : ℝ) + 1 ≤ n := by exact_mod_cast hk
    have : clampTo ((n : ℝ) - 1) (k : ℝ) = k := by
      unfold clampTo
      rw [min_eq_right (by linarith), max_eq_right (Nat.cast_nonneg k)]
    rw [this, hr.natCast (by omega)]
  simp only
  rw [hc _ _ hi hh, hc _ _ hj hw, bilinear_node]

/-- **C16** (errors): anything but eight coefficients raises `ValueError`, with or without a precomputed map. -/
theorem C16_errors (S : Sampler) (rnd : ℝ → ℝ) (m : Mat ℝ) (c : List ℝ) (idx : Option (ℕ → ℕ → Pt)) (h : c.length ≠ 8) :
    correctPerspectiveImage S rnd m c idx = .error .valueError := by
  rw [correctPerspectiveImage, if_pos h]

/-- Non-vacuity: a projective (non-affine) map with no vanishing denominator on a 2×2 image. -/
example : ∀ i < 2, ∀ j < 2, FiniteAt (coefMatrix ![1, 0, 0, 0, 1, 0, 1, 1]) ⟨((i : ℕ) : ℝ), ((j : ℕ) : ℝ)⟩ := by
  intro i _ j _
  rw [finite_iff]
  have h1 : (0 : ℝ) ≤ i := Nat.cast_nonneg i
  have h2 : (0 : ℝ) ≤ j := Nat.cast_nonneg j
  simp
  linarith

/-- The map `(x, y) ↦ (x, y) / (1 + x)` at points with `x ≥ 0`. -/
theorem finite_shear (p : Pt) (h : 0 ≤ p.x) : FiniteAt (coefMatrix ![1, 0, 0, 0, 1, 0, 1, 0]) p := by
  rw [finite_iff]
  simp
  linarith

theorem shear_finite : ∀ l ∈ [[(⟨0, 0⟩ : Pt), ⟨1, 1⟩, ⟨2, 2⟩]], ∀ p ∈ l, FiniteAt (coefMatrix ![1, 0, 0, 0, 1, 0, 1, 0]) p := by
  intro l hl p hp
  rw [List.mem_singleton.1 hl] at hp
  refine finite_shear p ?_
  simp at hp
  rcases hp with rfl | rfl | rfl <;> norm_num

example : ∃ out, correctPerspectiveLine [[⟨0, 0⟩, ⟨1, 1⟩, ⟨2, 2⟩]] (List.ofFn ![1, 0, 0, 0, 1, 0, 1, 0]) = .ok out ∧
    ∀ l ∈ out, ∀ p ∈ l, ∀ q ∈ l, ∀ r ∈ l, Collinear3 p q r :=
  C15_line_keeps_collinear ![1, 0, 0, 0, 1, 0, 1, 0] [[⟨0, 0⟩, ⟨1, 1⟩, ⟨2, 2⟩]] (by simp)
    shear_finite
    (by simp [Collinear3])

/-- There and back again, by `(x, y) ↦ (x, y) / (1 + x)` and `(x, y) ↦ (x, y) / (1 - x)`; also as one composed map. -/
example : ∃ mid, correctPerspectiveLine [[⟨0, 0⟩, ⟨1, 1⟩, ⟨2, 2⟩]] (List.ofFn ![1, 0, 0, 0, 1, 0, 1, 0]) = .ok mid ∧
    correctPerspectiveLine mid (List.ofFn ![1, 0, 0, 0, 1, 0, -1, 0]) = .ok [[⟨0, 0⟩, ⟨1, 1⟩, ⟨2, 2⟩]] ∧
    correctPerspectiveLine mid (List.ofFn ![2, 0, 0, 0, 1, 0, 3, 0]) =
      correctPerspectiveLine [[⟨0, 0⟩, ⟨1, 1⟩, ⟨2, 2⟩]] (List.ofFn (normCoefs (coefMatrix ![2, 0, 0, 0, 1, 0, 3, 0] * coefMatrix ![1, 0, 0, 0, 1, 0, 1, 0]))) := by
  have hfin := shear_finite
  obtain ⟨mid, e, hf⟩ := C15_line_is_projective ![1, 0, 0, 0, 1, 0, 1, 0] [[⟨0, 0⟩, ⟨1, 1⟩, ⟨2, 2⟩]] (by simp) hfin
  refine ⟨mid, e, C15_inverse ![1, 0, 0, 0, 1, 0, -1, 0] ![1, 0, 0, 0, 1, 0, 1, 0] 1 one_ne_zero ?_ _ mid (by simp) e hfin,
    C15_compose ![2, 0, 0, 0, 1, 0, 3, 0] ![1, 0, 0, 0, 1, 0, 1, 0] _ mid (by simp) ?_ e hfin ?_⟩
  · ext i j
    fin_cases i <;> fin_cases j <;> simp [coefMatrix, Matrix.mul_apply, Fin.sum_univ_three]
  · simp [coefMatrix, Matrix.mul_apply, Fin.sum_univ_three]
  · rcases hf with _ | ⟨h1, _ | _⟩
    rename_i l'
    rcases h1 with _ | ⟨p1, _ | ⟨p2, _ | ⟨p3, _ | _⟩⟩⟩
    rw [isImage_coef_iff] at p1 p2 p3
    simp at p1 p2 p3
    intro l hl p hp
    rw [List.mem_singleton.1 hl] at hp
    rw [finite_iff]
    simp at hp ⊢
    rcases hp with rfl | rfl | rfl
    · rw [← p1.1]; norm_num
    · have := p2.1; intro h; linarith
    · have := p3.2.1; intro h; linarith

/-- Three points on a line and their images. -/
example : Collinear3 ⟨0, 0⟩ ⟨1 / 2, 1 / 2⟩ ⟨2 / 3, 2 / 3⟩ :=
  C15_collinear (coefMatrix ![1, 0, 0, 0, 1, 0, 1, 0]) ⟨0, 0⟩ ⟨1, 1⟩ ⟨2, 2⟩ _ _ _ (by rw [isImage_coef_iff]; simp; try norm_num) (by rw [isImage_coef_iff]; simp; try norm_num)
    (by rw [isImage_coef_iff]; simp; try norm_num) (by unfold Collinear3; norm_num)

/-- Images of 2 × 2 pixels: the map `(x, y) / (1 + x)`, its table of coordinates, and a table given by the caller. -/
example (B : Boundary) := C16_image_samples_map B id coordRounding_id ⟨2, 2, fun i j => (3 * i + j : ℕ)⟩ ![1, 0, 0, 0, 1, 0, 1, 0] (by norm_num) (by norm_num)
  fun i _ j _ => finite_shear _ (Nat.cast_nonneg j)

example (S : Sampler) := C16_map_index S id ⟨2, 2, fun i j => (3 * i + j : ℕ)⟩ [1, 0, 0, 0, 1, 0, 1, 0] _ rfl

example (B : Boundary) := C16_given_map B id ⟨2, 2, fun i j => (3 * i + j : ℕ)⟩ [1, 0, 0, 0, 1, 0, 1, 0] rfl (fun _ _ => ⟨1 / 2, 1 / 3⟩) (by
  intro i _ j _
  simp only [InFrame]
  norm_num)

example (B : Boundary) := C16_identity B id coordRounding_id ⟨2, 2, fun i j => (3 * i + j : ℕ)⟩ (by norm_num) (by norm_num)

example (S : Sampler) := C16_errors S id ⟨2, 2, fun i j => (3 * i + j : ℕ)⟩ [1, 0, 0] none (by simp)

end Discorpy
