import Verif.Lemmas.Image
import Verif.Props.C01

/-! # C05, C06: unwarping is a convex combination of pixels and linear in the image -/

namespace Discorpy

open Spec

/-- **C05** (image). Shape is kept, every pixel is a convex combination of input pixels, and the boundary mode does not
matter. The coordinates are rounded by any `float32`-like rounding. -/
theorem C05_image_convex (B B' : Boundary) (rnd : ℝ → ℝ) (hr : CoordRounding rnd) (m : Mat ℝ) (xc yc : ℝ)
    (coefs : List ℝ) (hh : m.height ≤ 2 ^ 24) (hw : m.width ≤ 2 ^ 24) :
    let out := unwarpImageBackward (linearInterp B) rnd m xc yc coefs
    out.height = m.height ∧ out.width = m.width ∧
      ∀ i < m.height, ∀ j < m.width,
        out.get i j ∈ convexHull ℝ (pixelValues m) ∧
        out.get i j = (unwarpImageBackward (linearInterp B') rnd m xc yc coefs).get i j := by
  refine ⟨rfl, rfl, fun i hi j hj => ?_⟩
  have hf := fun y x => inFrame_rnd hr (inFrame_clip (m := m) (by omega) (by omega) y x) (by omega) (by omega) hh hw
  simp only [unwarpImageBackward]
  rw [linearInterp_eq B _ (hf _ _), linearInterp_eq B' _ (hf _ _)]
  exact ⟨bilinear_mem_convexHull (hf _ _), rfl⟩

/-- A strong distortion of a 2 × 2 image. -/
example (B B' : Boundary) := C05_image_convex B B' id coordRounding_id ⟨2, 2, fun i j => (2 * i + j : ℕ)⟩ 0 0 [1, -7, 100] (by norm_num) (by norm_num)

/-- **C05** (range form): no output value below the smallest or above the largest input value. -/
theorem C05_image_range (B : Boundary) (rnd : ℝ → ℝ) (hr : CoordRounding rnd) (m : Mat ℝ) (xc yc : ℝ)
    (coefs : List ℝ) (hh : m.height ≤ 2 ^ 24) (hw : m.width ≤ 2 ^ 24) (lo hi : ℝ)
    (hb : ∀ i < m.height, ∀ j < m.width, lo ≤ m.get i j ∧ m.get i j ≤ hi) :
    ∀ i < m.height, ∀ j < m.width,
      lo ≤ (unwarpImageBackward (linearInterp B) rnd m xc yc coefs).get i j ∧
      (unwarpImageBackward (linearInterp B) rnd m xc yc coefs).get i j ≤ hi := by
  intro i hi' j hj
  have h := ((C05_image_convex B B rnd hr m xc yc coefs hh hw).2.2 i hi' j hj).1
  have hsub : convexHull ℝ (pixelValues m) ⊆ Set.Icc lo hi :=
    convexHull_min (by rintro v ⟨i, hi, j, hj, rfl⟩; exact hb i hi j hj) (convex_Icc lo hi)
  exact hsub h

/-- **C05** (slice): row `i` of an unwarped slice is made of convex combinations of the pixels of projection `i`. -/
theorem C05_slice_convex (B : Boundary) (d h w : ℕ) (get : List ℕ → ℝ) (xc yc : ℝ) (coefs : List ℝ) (hne : coefs ≠ []) (k : ℕ)
    (hk : k < h) (hh : h ≤ 32767) (hw : 0 < w) (hw' : w ≤ 2 ^ 24) :
    ∃ out, unwarpSliceBackward B ⟨[d, h, w], get⟩ xc yc coefs k = .ok out ∧ out.height = d ∧ out.width = w ∧
      ∀ i < d, ∀ j < w, out.get i j ∈ convexHull ℝ (pixelValues ⟨h, w, fun y x => get [i, y, x]⟩) := by
  obtain ⟨out, e, h1, h2, h3⟩ := C01_slice_eq_image_row B B d h w get xc yc coefs hne k hk hh hw
  refine ⟨out, e, h1, h2, fun i hi j hj => ?_⟩
  rw [h3 i hi j hj]
  exact ((C05_image_convex B B id coordRounding_id ⟨h, w, fun y x => get [i, y, x]⟩ xc yc coefs
    (by simpa using by omega) (by simpa using hw')).2.2 k hk j hj).1

/-- Row 1 of a stack of two projections under a strong distortion. -/
example (B : Boundary) := C05_slice_convex B 2 3 2 (fun l => (l.sum : ℝ)) 0 0 [1, -7, 100] (by simp) 1 (by norm_num) (by norm_num) (by norm_num) (by norm_num)

/-- **C05** (perspective): the same for `correct_perspective_image` with any 8 coefficients whose denominator does not
vanish at a pixel (there NumPy could produce `nan`, which is outside the model). -/
theorem C05_perspective_convex (B B' : Boundary) (rnd : ℝ → ℝ) (hr : CoordRounding rnd) (m : Mat ℝ)
    (c : List ℝ) (hc : c.length = 8) (hh : m.height ≤ 2 ^ 24) (hw : m.width ≤ 2 ^ 24)
    (_hden : ∀ i < m.height, ∀ j < m.width, c[6] * (j : ℝ) + c[7] * (i : ℝ) + 1 ≠ 0) :
    ∃ out out', correctPerspectiveImage (linearInterp B) rnd m c none = .ok out ∧
      correctPerspectiveImage (linearInterp B') rnd m c none = .ok out' ∧
      out.height = m.height ∧ out.width = m.width ∧
      ∀ i < m.height, ∀ j < m.width,
        out.get i j ∈ convexHull ℝ (pixelValues m) ∧ out.get i j = out'.get i j := by
  match c, hc with
  | [c1, c2, c3, c4, c5, c6, c7, c8], _ =>
    refine ⟨_, _, rfl, rfl, rfl, rfl, fun i hi j hj => ?_⟩
    have hf := fun y x =>
      inFrame_rnd hr (inFrame_clip (m := m) (by omega) (by omega) y x) (by omega) (by omega) hh hw
    simp only
    rw [linearInterp_eq B _ (hf _ _), linearInterp_eq B' _ (hf _ _)]
    exact ⟨bilinear_mem_convexHull (hf _ _), rfl⟩

/-- A perspective correction whose denominator `1 + x/10 + y/10` is positive. -/
example (B B' : Boundary) := C05_perspective_convex B B' id coordRounding_id ⟨2, 2, fun i j => (2 * i + j : ℕ)⟩ [1, 0, 3, 0, 2, 5, 1 / 10, 1 / 10] rfl
  (by norm_num) (by norm_num) (by
    intro i _ j _
    simp only [List.getElem_cons_succ, List.getElem_cons_zero]
    positivity)

/-- Non-vacuity: a 2×2 image with values in `[0, 3]` under a strong model stays in `[0, 3]`. -/
example (B : Boundary) : ∀ i < 2, ∀ j < 2,
    (unwarpImageBackward (linearInterp B) id ⟨2, 2, fun i j => (2 * i + j : ℕ)⟩ 0 0 [1, -7, 100]).get i j ≤ 3 := by
  intro i hi j hj
  refine (C05_image_range B id coordRounding_id ⟨2, 2, fun i j => (2 * i + j : ℕ)⟩ 0 0 [1, -7, 100]
    (by norm_num) (by norm_num) 0 3 ?_ i hi j hj).2
  intro i hi j hj
  simp only at hi hj
  refine ⟨by positivity, ?_⟩
  have h : 2 * i + j ≤ 3 := by omega
  show ((2 * i + j : ℕ) : ℝ) ≤ 3
  exact_mod_cast h

/-- **C06.** `unwarp_image_backward` (linear interpolation) is linear in the image. -/
theorem C06_unwarp_linear (B : Boundary) (rnd : ℝ → ℝ) (hr : CoordRounding rnd) (m m' : Mat ℝ)
    (hsh : m.height = m'.height) (hsw : m.width = m'.width) (hh : m.height ≤ 2 ^ 24)
    (hw : m.width ≤ 2 ^ 24) (xc yc a b : ℝ) (coefs : List ℝ) :
    ∀ i < m.height, ∀ j < m.width,
      (unwarpImageBackward (linearInterp B) rnd ⟨m.height, m.width, fun i j => a * m.get i j + b * m'.get i j⟩
        xc yc coefs).get i j =
      a * (unwarpImageBackward (linearInterp B) rnd m xc yc coefs).get i j +
      b * (unwarpImageBackward (linearInterp B) rnd m' xc yc coefs).get i j := by
  intro i hi j hj
  have hf := fun (M : Mat ℝ) (e1 : M.height = m.height) (e2 : M.width = m.width) y x =>
    inFrame_rnd hr (inFrame_clip (m := M) (by omega) (by omega) y x) (by omega) (by omega)
      (by omega) (by omega)
  simp only [unwarpImageBackward]
  rw [linearInterp_eq B _ (hf m rfl rfl _ _), linearInterp_eq B _ (hf m' hsh.symm hsw.symm _ _), ← hsh, ← hsw,
    linearInterp_eq B ⟨m.height, m.width, fun i j => a * m.get i j + b * m'.get i j⟩
      (hf ⟨m.height, m.width, fun i j => a * m.get i j + b * m'.get i j⟩ rfl rfl _ _)]
  exact bilinear_linear m m' hsh hsw a b _ _

/-- Non-vacuity: two different 2×2 images. -/
example (B : Boundary) : (unwarpImageBackward (linearInterp B) id
      ⟨2, 2, fun i j => 3 * ((i : ℝ)) + 5 * (j : ℝ)⟩ 1 1 [1, 2]).get 1 0 =
    3 * (unwarpImageBackward (linearInterp B) id ⟨2, 2, fun i _ => (i : ℝ)⟩ 1 1 [1, 2]).get 1 0 +
    5 * (unwarpImageBackward (linearInterp B) id ⟨2, 2, fun _ j => (j : ℝ)⟩ 1 1 [1, 2]).get 1 0 :=
  C06_unwarp_linear B id coordRounding_id ⟨2, 2, fun i _ => (i : ℝ)⟩ ⟨2, 2, fun _ j => (j : ℝ)⟩ rfl rfl
    (by norm_num) (by norm_num) 1 1 3 5 [1, 2] 1 (by norm_num) 0 (by norm_num)

end Discorpy
