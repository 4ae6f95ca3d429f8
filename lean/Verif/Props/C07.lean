import Verif.Lemmas.Point
import Mathlib.Analysis.Calculus.Deriv.Pow
import Mathlib.Analysis.Calculus.Deriv.Add
import Mathlib.Analysis.Calculus.Deriv.Mul

/-! # C07–C10: geometry of the point mapping -/

namespace Discorpy

open Spec

/-- The point returned by `find_point_to_point` for a `(y, x)` point. -/
noncomputable def mappedPoint (p c : Pt) (coefs : List ℝ) : Pt :=
  let r := findPointToPoint p.y p.x c.x c.y coefs "yx"
  ⟨r.1, r.2⟩

theorem mappedPoint_eq (p c : Pt) (coefs : List ℝ) : mappedPoint p c coefs = radialMap c coefs p := by
  unfold mappedPoint
  rw [findPointToPoint_eq]
  simp

/-- **C07** (centre): the centre is fixed. -/
theorem C07_center_fixed (c : Pt) (coefs : List ℝ) : mappedPoint c c coefs = c := by
  rw [mappedPoint_eq]; unfold radialMap; ext <;> simp

/-- **C07** (ray): the displacement from the centre is a multiple of the original one and the multiple depends only on the
distance to the centre; it is the polynomial value there. -/
theorem C07_along_ray (c : Pt) (coefs : List ℝ) :
    ∃ F : ℝ → ℝ, (∀ r, F r = ∑ i : Fin coefs.length, coefs[i] * r ^ (i : ℕ)) ∧
      ∀ p, (mappedPoint p c coefs).x - c.x = F (ptDist p c) * (p.x - c.x) ∧
           (mappedPoint p c coefs).y - c.y = F (ptDist p c) * (p.y - c.y) := by
  refine ⟨radial coefs, fun r => rfl, fun p => ?_⟩
  rw [mappedPoint_eq]; unfold radialMap
  constructor <;> ring

/-- **C07** (rotation): mapping commutes with every rotation about the centre. -/
theorem C07_rotation (c p : Pt) (coefs : List ℝ) (t : ℝ) :
    mappedPoint (rotateAbout c t p) c coefs = rotateAbout c t (mappedPoint p c coefs) := by
  have hd : ptDist (rotateAbout c t p) c = ptDist p c := by
    unfold ptDist rotateAbout
    congr 1
    have h := Real.sin_sq_add_cos_sq t
    ring_nf
    linear_combination ((p.x - c.x) ^ 2 + (p.y - c.y) ^ 2) * h
  rw [mappedPoint_eq, mappedPoint_eq]
  unfold radialMap
  rw [hd]
  unfold rotateAbout
  ext <;> simp only <;> ring

/-- **C07** (translation): shifting point and centre shifts the result. -/
theorem C07_translation (c p : Pt) (coefs : List ℝ) (dx dy : ℝ) :
    mappedPoint ⟨p.y + dy, p.x + dx⟩ ⟨c.y + dy, c.x + dx⟩ coefs =
      ⟨(mappedPoint p c coefs).y + dy, (mappedPoint p c coefs).x + dx⟩ := by
  rw [mappedPoint_eq, mappedPoint_eq]
  unfold radialMap ptDist
  ext <;> simp only [add_sub_add_right_eq_sub] <;> ring

/-- **C07** (order option): `"xy"` and every other order string return the same two numbers, swapped. -/
theorem C07_order (row col xc yc : ℝ) (coefs : List ℝ) (order : String) (h : order ≠ "xy") :
    findPointToPoint row col xc yc coefs order = (findPointToPoint row col xc yc coefs "xy").swap := by
  simp [findPointToPoint, h]

example := C07_order 4 3 0 0 [1, 1] "yx" (by decide)

/-- Non-trivial instance: with `F(r) = 1 + r` about `(0,0)`, the point `(y,x) = (4,3)` (radius 5) goes to `(24, 18)`. -/
example : mappedPoint ⟨4, 3⟩ ⟨0, 0⟩ [1, 1] = ⟨24, 18⟩ := by
  have h5 : √(25 : ℝ) = 5 := by
    rw [show (25 : ℝ) = 5 ^ 2 by norm_num, Real.sqrt_sq (by norm_num)]
  rw [mappedPoint_eq]
  unfold radialMap ptDist
  rw [← polySum_eq_radial]
  ext <;> norm_num [polySum_cons, h5]

/-- **C08** (float lines): same numbers of lines and dots; dot `j` of line `i` is `find_point_to_point` of the input dot. -/
theorem C08_line_forward_eq_point_map (lines : List (List Pt)) (xc yc : ℝ) (coefs : List ℝ) :
    let out := unwarpLineForward id lines xc yc coefs
    out.map List.length = lines.map List.length ∧
    ∀ (i j : ℕ) (l l' : List Pt) (p : Pt), lines[i]? = some l → out[i]? = some l' → l[j]? = some p →
      ∃ q : Pt, l'[j]? = some q ∧ findPointToPoint p.y p.x xc yc coefs "xy" = (q.x, q.y) ∧
        findPointToPoint p.y p.x xc yc coefs "yx" = (q.y, q.x) := by
  intro out
  have e : out = lines.map fun line => line.map fun p => radialMap ⟨yc, xc⟩ coefs p := by
    simp only [out, unwarpLineForward_eq, id]
  rw [e]
  constructor
  · simp [Function.comp_def]
  · intro i j l l' p hl hl' hp
    simp only [List.getElem?_map, hl, Option.map_some, Option.some.injEq] at hl'
    subst hl'
    refine ⟨radialMap ⟨yc, xc⟩ coefs p, by simp [List.getElem?_map, hp], ?_, ?_⟩
    · rw [findPointToPoint_eq]; simp
    · rw [findPointToPoint_eq]; simp

/-- **C08** (integer lines): the buffer copies the integer dtype, so each coordinate of the float result is truncated. -/
theorem C08_line_forward_int_truncates (lines : List (List Pt)) (xc yc : ℝ) (coefs : List ℝ) :
    unwarpLineForward (fun v => (truncInt v : ℝ)) lines xc yc coefs =
      (unwarpLineForward id lines xc yc coefs).map fun l => l.map fun q => ⟨truncInt q.y, truncInt q.x⟩ := by
  simp only [unwarpLineForward_eq, List.map_map, id, Function.comp_def]

/-- The truncation is visible: `F = 3/2` sends the integer dot `(y,x) = (1, 3)` to `(3/2, 9/2)`, stored as `(1, 4)`. -/
example : unwarpLineForward (fun v => (truncInt v : ℝ)) [[⟨1, 3⟩]] 0 0 [3 / 2] = [[⟨1, 4⟩]] := by
  simp only [unwarpLineForward_eq, List.map_cons, List.map_nil, radialMap, ← polySum_eq_radial, polySum_cons,
    polySum_nil]
  have h1 : truncInt (0 + (3 / 2 + √((3 - 0) ^ 2 + (1 - 0) ^ 2) * 0) * (1 - 0)) = 1 := by
    unfold truncInt; norm_num [Int.floor_eq_iff]
  have h2 : truncInt (0 + (3 / 2 + √((3 - 0) ^ 2 + (1 - 0) ^ 2) * 0) * (3 - 0)) = 4 := by
    unfold truncInt; norm_num [Int.floor_eq_iff]
  unfold ptDist
  simp only
  rw [h1, h2]
  norm_num

/-- **C09.** If `F(r)·B(F(r)·r) = 1` and `F(r) > 0` at the radius `r` of the point, mapping with `F` and then with `B`
about the same centre gives the point back. -/
theorem C09_forward_backward_inverse (c p : Pt) (F B : List ℝ)
    (hpos : 0 < radial F (ptDist p c))
    (hinv : radial F (ptDist p c) * radial B (radial F (ptDist p c) * ptDist p c) = 1) :
    mappedPoint (mappedPoint p c F) c B = p := by
  rw [mappedPoint_eq, mappedPoint_eq]
  have hd := ptDist_scale c p hpos.le
  unfold radialMap
  rw [hd]
  generalize ptDist p c = r at *
  ext <;> simp only
  · linear_combination (p.y - c.y) * hinv
  · linear_combination (p.x - c.x) * hinv

/-- Non-vacuity: the linear scalings `F = 2`, `B = 1/2` are inverse at every radius. -/
example (p c : Pt) : mappedPoint (mappedPoint p c [2]) c [1 / 2] = p := by
  apply C09_forward_backward_inverse <;> simp [radial]

/-- The squared misfit of the radius `r` for a dot at distance `d` from the centre: the backward model brings `r` to `r·B(r)`. -/
noncomputable def misfit (coefs : List ℝ) (d r : ℝ) : ℝ := (d - r * radial coefs r) ^ 2

theorem unwarpLineBackward_eq (minimize : (ℝ → ℝ) → ℝ → ℝ) (store : ℝ → ℝ) (lines : List (List Pt)) (c : Pt) (coefs : List ℝ) :
    unwarpLineBackward minimize store lines c.x c.y coefs = lines.map fun l => l.map fun p =>
      let factor := if ptDist p c ≠ 0 then minimize (misfit coefs (ptDist p c)) (ptDist p c) / ptDist p c else 0
      ⟨store (c.y + factor * (p.y - c.y)), store (c.x + factor * (p.x - c.x))⟩ := by
  unfold unwarpLineBackward
  refine List.map_congr_left fun l _ => List.map_congr_left fun p _ => ?_
  have er : √((p.x - c.x) * (p.x - c.x) + (p.y - c.y) * (p.y - c.y)) = ptDist p c := by
    unfold ptDist; congr 1; ring
  have ef : (fun ru => funcDiff ru (ptDist p c) coefs) = misfit coefs (ptDist p c) := by
    funext r
    unfold funcDiff misfit
    rw [polySum_eq_radial]
  simp only [er, ef]

/-- **C10 (error).** For float lines: if the radius found for a dot is not negative, the backward model brings the unwarped dot back to a
point whose distance from the dot is the root of the squared misfit of that radius. The result has one dot for each dot of the
lines. -/
theorem C10_error (minimize : (ℝ → ℝ) → ℝ → ℝ) (lines : List (List Pt)) (c : Pt) (coefs : List ℝ)
    (hopt : ∀ l ∈ lines, ∀ p ∈ l, 0 ≤ minimize (misfit coefs (ptDist p c)) (ptDist p c)) :
    List.Forall₂ (List.Forall₂ fun p q => p ≠ c →
        ptDist (mappedPoint q c coefs) p = √(misfit coefs (ptDist p c) (minimize (misfit coefs (ptDist p c)) (ptDist p c))))
      lines (unwarpLineBackward minimize id lines c.x c.y coefs) := by
  rw [unwarpLineBackward_eq, List.forall₂_map_right_iff, List.forall₂_same]
  intro l hl
  rw [List.forall₂_map_right_iff, List.forall₂_same]
  intro p hp hne
  have h0 := hopt l hl p hp
  simp only [id]
  rw [mappedPoint_eq]
  set ru := minimize (misfit coefs (ptDist p c)) (ptDist p c)
  have hr : ptDist p c ≠ 0 := by
    intro hr
    unfold ptDist at hr
    rw [Real.sqrt_eq_zero (by positivity)] at hr
    exact hne (by ext <;> nlinarith [sq_nonneg (p.x - c.x), sq_nonneg (p.y - c.y)])
  rw [if_pos hr]
  have hrpos : 0 < ptDist p c := lt_of_le_of_ne (Real.sqrt_nonneg _) (Ne.symm hr)
  have hd := ptDist_scale c p (k := ru / ptDist p c) (by positivity)
  rw [div_mul_cancel₀ _ hr] at hd
  unfold radialMap misfit
  simp only
  rw [hd]
  have hsq : (p.x - c.x) ^ 2 + (p.y - c.y) ^ 2 = ptDist p c ^ 2 := by
    unfold ptDist
    rw [Real.sq_sqrt (by positivity)]
  have hdist : ∀ a b : Pt, ptDist a b = √((a.x - b.x) ^ 2 + (a.y - b.y) ^ 2) := fun _ _ => rfl
  rw [hdist ⟨_, _⟩ p]
  congr 1
  simp only [add_sub_cancel_left]
  have e : ∀ t : ℝ, (c.x + radial coefs ru * (ru / t * (p.x - c.x)) - p.x) ^ 2 + (c.y + radial coefs ru * (ru / t * (p.y - c.y)) - p.y) ^ 2 =
      (radial coefs ru * (ru / t) - 1) ^ 2 * ((p.x - c.x) ^ 2 + (p.y - c.y) ^ 2) := fun t => by ring
  rw [e, hsq]
  field_simp
  ring

/-- A minimizer that does not find the minimum, but a radius. -/
example := C10_error (fun _ d => d / 2) [[⟨0, 1⟩, ⟨2, 3⟩]] ⟨1, 1⟩ [1, 1 / 10] fun _ _ p _ => div_nonneg (Real.sqrt_nonneg _) (by norm_num)

/-- Points of lines that are carried back onto themselves. -/
theorem inverts_of_misfit {minimize : (ℝ → ℝ) → ℝ → ℝ} {lines : List (List Pt)} {c : Pt} {coefs : List ℝ}
    (hopt : ∀ l ∈ lines, ∀ p ∈ l, 0 ≤ minimize (misfit coefs (ptDist p c)) (ptDist p c) ∧
      misfit coefs (ptDist p c) (minimize (misfit coefs (ptDist p c)) (ptDist p c)) = 0) :
    (unwarpLineBackward minimize id lines c.x c.y coefs).map (fun l => l.map fun q => mappedPoint q c coefs) = lines := by
  have h := C10_error minimize lines c coefs fun l hl p hp => (hopt l hl p hp).1
  have hc : ∀ q : Pt, ∀ p : Pt, ptDist q p = 0 → q = p := by
    intro q p h
    unfold ptDist at h
    rw [Real.sqrt_eq_zero (by positivity)] at h
    ext <;> nlinarith [sq_nonneg (q.x - p.x), sq_nonneg (q.y - p.y)]
  rw [unwarpLineBackward_eq] at h ⊢
  rw [List.forall₂_map_right_iff, List.forall₂_same] at h
  rw [List.map_map]
  conv_rhs => rw [← List.map_id lines]
  refine List.map_congr_left fun l hl => ?_
  have h1 := h l hl
  rw [List.forall₂_map_right_iff, List.forall₂_same] at h1
  simp only [Function.comp, List.map_map, id_eq]
  conv_rhs => rw [← List.map_id l]
  refine List.map_congr_left fun p hp => ?_
  simp only [Function.comp, id_eq]
  by_cases hpc : p = c
  · subst hpc
    have : ptDist p p = 0 := by unfold ptDist; simp
    simp only [this, ne_eq, not_true, if_false, zero_mul, add_zero]
    rw [mappedPoint_eq]; unfold radialMap; ext <;> simp
  · refine hc _ _ ?_
    have h2 := h1 p hp hpc
    rw [(hopt l hl p hp).2, Real.sqrt_zero] at h2
    exact h2

/-- **C10.** For float lines whose dots the backward model can reach: if the optimiser returns a radius that is not negative and has the
least squared misfit among all such radii, the unwarped dots are mapped by the backward model exactly onto the input dots. -/
theorem C10_line_backward_inverts (minimize : (ℝ → ℝ) → ℝ → ℝ) (lines : List (List Pt)) (c : Pt) (coefs : List ℝ)
    (hreach : ∀ l ∈ lines, ∀ p ∈ l, ∃ r, 0 ≤ r ∧ ptDist p c = r * radial coefs r)
    (hopt : ∀ l ∈ lines, ∀ p ∈ l, 0 ≤ minimize (misfit coefs (ptDist p c)) (ptDist p c) ∧
      ∀ r, 0 ≤ r → misfit coefs (ptDist p c) (minimize (misfit coefs (ptDist p c)) (ptDist p c)) ≤ misfit coefs (ptDist p c) r) :
    (unwarpLineBackward minimize id lines c.x c.y coefs).map (fun l => l.map fun q => mappedPoint q c coefs) = lines := by
  refine inverts_of_misfit fun l hl p hp => ⟨(hopt l hl p hp).1, ?_⟩
  obtain ⟨r, h0, hr⟩ := hreach l hl p hp
  refine le_antisymm (((hopt l hl p hp).2 r h0).trans_eq ?_) (sq_nonneg _)
  unfold misfit
  rw [hr]
  simp

/-- **C10 (local search).** It is enough that the optimiser stops where the derivative of the squared misfit is 0, at a radius that is not
negative and where `r·B(r)` is not stationary: no other stationary points can trap it. -/
theorem C10_stationary (minimize : (ℝ → ℝ) → ℝ → ℝ) (lines : List (List Pt)) (c : Pt) (coefs : List ℝ)
    (hopt : ∀ l ∈ lines, ∀ p ∈ l, 0 ≤ minimize (misfit coefs (ptDist p c)) (ptDist p c) ∧
      deriv (misfit coefs (ptDist p c)) (minimize (misfit coefs (ptDist p c)) (ptDist p c)) = 0 ∧
      deriv (fun r => r * radial coefs r) (minimize (misfit coefs (ptDist p c)) (ptDist p c)) ≠ 0) :
    (unwarpLineBackward minimize id lines c.x c.y coefs).map (fun l => l.map fun q => mappedPoint q c coefs) = lines := by
  refine inverts_of_misfit fun l hl p hp => ?_
  obtain ⟨h0, h1, h2⟩ := hopt l hl p hp
  refine ⟨h0, ?_⟩
  set ru := minimize (misfit coefs (ptDist p c)) (ptDist p c)
  have hg := (differentiableAt_of_deriv_ne_zero h2).hasDerivAt
  have hm : HasDerivAt (misfit coefs (ptDist p c)) (2 * (ptDist p c - ru * radial coefs ru) * -deriv (fun r => r * radial coefs r) ru) ru := by
    have h3 := (hg.const_sub (ptDist p c)).pow 2
    have e : misfit coefs (ptDist p c) = (fun x => ptDist p c - x * radial coefs x) ^ 2 := by
      funext r; simp [misfit]
    rw [e]
    refine h3.congr_deriv ?_
    simp
  rw [hm.deriv] at h1
  have h3 : ptDist p c - ru * radial coefs ru = 0 := by
    rcases mul_eq_zero.1 h1 with h | h
    · linarith
    · exact absurd (neg_eq_zero.1 h) h2
  unfold misfit
  rw [h3]
  simp

/-- **C10** (centre): whatever the optimiser returns, a dot at the centre stays there. -/
theorem C10_center_stays (minimize : (ℝ → ℝ) → ℝ → ℝ) (c : Pt) (coefs : List ℝ) :
    unwarpLineBackward minimize id [[c]] c.x c.y coefs = [[c]] := by
  simp [unwarpLineBackward]

/-- **C10 (mirrored dots).** A negative radius, which is no worse for the optimiser if the model is even, mirrors the dot at the centre:
for the identity model and an optimiser that returns `-d` the dot `(0, 1)` becomes `(0, -1)`. -/
theorem C10_negative : unwarpLineBackward (fun _ d => -d) id [[⟨0, 1⟩]] 0 0 [1] = [[⟨0, -1⟩]] := by
  simp [unwarpLineBackward]

/-- Non-vacuity: for `B(r) = 1 + r` every dot can be reached, and an optimiser that returns an exact root meets the conditions. -/
example (lines : List (List Pt)) (c : Pt) :
    (unwarpLineBackward (fun _ rd => (-1 + √(1 + 4 * rd)) / 2) id lines c.x c.y [1, 1]).map
      (fun l => l.map fun q => mappedPoint q c [1, 1]) = lines := by
  have key : ∀ d : ℝ, 0 ≤ d → 0 ≤ (-1 + √(1 + 4 * d)) / 2 ∧ d = (-1 + √(1 + 4 * d)) / 2 * radial [1, 1] ((-1 + √(1 + 4 * d)) / 2) := by
    intro d h0
    have h1 : 1 ≤ √(1 + 4 * d) := by
      rw [Real.one_le_sqrt]; linarith
    have h2 := Real.sq_sqrt (by linarith : 0 ≤ 1 + 4 * d)
    refine ⟨by linarith, ?_⟩
    rw [← polySum_eq_radial]
    simp only [polySum_cons, polySum_nil]
    nlinarith
  apply C10_line_backward_inverts
  · exact fun l _ p _ => ⟨_, key _ (Real.sqrt_nonneg _)⟩
  · refine fun l _ p _ => ⟨(key _ (Real.sqrt_nonneg _)).1, fun r _ => ?_⟩
    have h := (key (ptDist p c) (Real.sqrt_nonneg _)).2
    have hz : misfit [1, 1] (ptDist p c) ((-1 + √(1 + 4 * ptDist p c)) / 2) = 0 := by
      unfold misfit
      rw [sub_eq_zero.2 h]
      simp
    rw [hz]
    exact sq_nonneg _

/-- The conditions of the local search, for the model `B(r) = 2`. -/
example (lines : List (List Pt)) (c : Pt) :
    (unwarpLineBackward (fun _ d => d / 2) id lines c.x c.y [2]).map (fun l => l.map fun q => mappedPoint q c [2]) = lines := by
  have hr : ∀ r, radial [2] r = 2 := fun r => by rw [← polySum_eq_radial]; simp [polySum_cons, polySum_nil]
  have hg : ∀ r : ℝ, HasDerivAt (fun r => r * radial [2] r) 2 r := fun r => by
    simp only [hr]
    simpa using (hasDerivAt_id r).mul_const 2
  refine C10_stationary _ lines c [2] fun l _ p _ => ⟨div_nonneg (Real.sqrt_nonneg _) (by norm_num), ?_, by rw [(hg _).deriv]; norm_num⟩
  have e : misfit [2] (ptDist p c) = (fun r => ptDist p c - r * radial [2] r) ^ 2 := by
    funext r; simp [misfit]
  rw [e, (((hg (ptDist p c / 2)).const_sub (ptDist p c)).pow 2).deriv]
  simp [hr]

end Discorpy
