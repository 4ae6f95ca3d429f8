import Verif.Props.C01
import Verif.Lemmas.Point

/-! # C04: the identity model changes nothing -/

namespace Discorpy

open Spec

/-- An interpolation method that reproduces the samples at the pixel positions (linear and every other spline order of
`map_coordinates` do). -/
def InterpolatesNodes (S : Sampler) : Prop :=
  ∀ (m : Mat ℝ) (i j : ℕ), i < m.height → j < m.width → S m i j = m.get i j

/-- Linear interpolation is such a method, for every boundary mode. -/
theorem linearInterp_interpolates (B : Boundary) : InterpolatesNodes (linearInterp B) := by
  intro m i j hi hj
  have h1 : (i : ℝ) + 1 ≤ m.height := by exact_mod_cast hi
  have h2 : (j : ℝ) + 1 ≤ m.width := by exact_mod_cast hj
  rw [linearInterp_eq B m ⟨by positivity, by linarith, by positivity, by linarith⟩, bilinear_node]

/-- **C04** (image, backward). -/
theorem C04_image_backward (S : Sampler) (hS : InterpolatesNodes S) (rnd : ℝ → ℝ) (hr : CoordRounding rnd)
    (m : Mat ℝ) (hh : m.height ≤ 2 ^ 24) (hw : m.width ≤ 2 ^ 24) (xc yc : ℝ) (n : ℕ) :
    SameImage (unwarpImageBackward S rnd m xc yc (1 :: List.replicate n 0)) m := by
  refine ⟨rfl, rfl, fun i hi j hj => ?_⟩
  simp only [unwarpImageBackward] at hi hj
  have h1 : (i : ℝ) + 1 ≤ m.height := by exact_mod_cast hi
  have h2 : (j : ℝ) + 1 ≤ m.width := by exact_mod_cast hj
  simp only [unwarpImageBackward, polySum_one, one_mul, add_sub_cancel]
  rw [clip_of_mem (by positivity) (by linarith), clip_of_mem (by positivity) (by linarith),
    hr.natCast (by omega), hr.natCast (by omega)]
  exact hS m i j hi hj

/-- **C04** (image, forward). -/
theorem C04_image_forward (m : Mat ℝ) (xc yc : ℝ) (n : ℕ) (hh : 0 < m.height) (hw : 0 < m.width) :
    ∃ out, unwarpImageForward m xc yc (1 :: List.replicate n 0) = .ok out ∧ SameImage out m := by
  have hidx : ∀ p : ℕ × ℕ, p.1 < m.height → p.2 < m.width →
      forwardIndex m.height m.width xc yc (1 :: List.replicate n 0) p = ((p.1 : ℤ), (p.2 : ℤ)) := by
    intro p hp1 hp2
    have h1 : (p.1 : ℝ) + 1 ≤ m.height := by exact_mod_cast hp1
    have h2 : (p.2 : ℝ) + 1 ≤ m.width := by exact_mod_cast hp2
    rw [forwardIndex_eq_iff hh hw]
    unfold LandsAt clampTo
    rw [radialMap_one]
    simp only
    rw [min_eq_right (by linarith), min_eq_right (by linarith), max_eq_right (by positivity),
      max_eq_right (by positivity)]
    constructor <;> left <;> simp
  obtain ⟨out, e, h1, h2, h3⟩ := foldlM_setItem (forwardIndex m.height m.width xc yc (1 :: List.replicate n 0))
    (fun p => m.get p.1 p.2) (pixels m.height m.width)
    { height := m.height, width := m.width, get := fun _ _ => (0 : ℝ) }
    (fun p _ => forwardIndex_mem hh hw xc yc _ p)
  refine ⟨out, e, h1, h2, fun i hi j hj => ?_⟩
  rw [h1] at hi; rw [h2] at hj
  simp only at hi hj
  rw [h3, reverse_find?_eq_some (pixels_sorted m.height m.width) (a := (i, j)) (mem_pixels.2 ⟨hi, hj⟩)]
  · simp [hidx (i, j) hi hj]
  · intro b hb hlt
    rw [mem_pixels] at hb
    simp only [hidx b hb.1 hb.2, decide_eq_false_iff_not, Prod.mk.injEq, Nat.cast_inj]
    rintro ⟨e1, e2⟩
    unfold RowMajorLT at hlt
    simp only at hlt
    omega

/-- A 3 × 2 image and an arbitrary centre. -/
example := C04_image_forward ⟨3, 2, fun i j => (5 * i + j : ℕ)⟩ (7 / 3) (-1 / 2) 2 (by norm_num) (by norm_num)

/-- **C04** (slice): the slice at index `k` is row `k` of every projection. -/
theorem C04_slice (B : Boundary) (d h w : ℕ) (get : List ℕ → ℝ) (xc yc : ℝ) (n k : ℕ) (hk : k < h)
    (hh : h ≤ 32767) (hw : 0 < w) (hw' : w ≤ 2 ^ 24) :
    ∃ out, unwarpSliceBackward B ⟨[d, h, w], get⟩ xc yc (1 :: List.replicate n 0) k = .ok out ∧
      out.height = d ∧ out.width = w ∧ ∀ i < d, ∀ j < w, out.get i j = get [i, k, j] := by
  obtain ⟨out, e, h1, h2, h3⟩ := C01_slice_eq_image_row B B d h w get xc yc (1 :: List.replicate n 0) (by simp) k hk hh hw
  refine ⟨out, e, h1, h2, fun i hi j hj => ?_⟩
  rw [h3 i hi j hj]
  exact (C04_image_backward _ (linearInterp_interpolates B) id coordRounding_id
    ⟨h, w, fun y x => get [i, y, x]⟩ (by simpa using by omega) (by simpa using hw') xc yc n).2.2 k hk j hj

/-- Row 1 of a stack of two projections. -/
example (B : Boundary) := C04_slice B 2 3 2 (fun l => (l.sum : ℝ)) (1 / 2) (3 / 2) 3 1 (by norm_num) (by norm_num) (by norm_num) (by norm_num)

/-- **C04** (lines of float dots). -/
theorem C04_line_forward (lines : List (List Pt)) (xc yc : ℝ) (n : ℕ) :
    unwarpLineForward id lines xc yc (1 :: List.replicate n 0) = lines := by
  rw [unwarpLineForward_eq]
  simp [radialMap_one]

/-- **C04** (lines of integer dots are unchanged as well). -/
theorem C04_line_forward_int (lines : List (List Pt)) (xc yc : ℝ) (n : ℕ)
    (hint : ∀ l ∈ lines, ∀ p ∈ l, ∃ a b : ℤ, p = ⟨a, b⟩) :
    unwarpLineForward (fun v => (truncInt v : ℝ)) lines xc yc (1 :: List.replicate n 0) = lines := by
  rw [unwarpLineForward_eq]
  simp only [radialMap_one]
  conv_rhs => rw [← List.map_id lines]
  apply List.map_congr_left
  intro l hl
  conv_rhs => rw [id, ← List.map_id l]
  apply List.map_congr_left
  intro p hp
  obtain ⟨a, b, rfl⟩ := hint l hl p hp
  have ht : ∀ n : ℤ, truncInt (n : ℝ) = n := by intro n; unfold truncInt; split <;> simp
  simp [ht]

/-- Two dots with integer coordinates. -/
example := C04_line_forward_int [[⟨1, 3⟩, ⟨-2, 5⟩]] (1 / 2) (1 / 3) 2 (by
  intro l hl p hp
  rw [List.mem_singleton.1 hl] at hp
  rcases List.mem_pair.1 hp with rfl | rfl
  · exact ⟨1, 3, by norm_num⟩
  · exact ⟨-2, 5, by norm_num⟩)

/-- **C04** (points). -/
theorem C04_point (row col xc yc : ℝ) (n : ℕ) :
    findPointToPoint row col xc yc (1 :: List.replicate n 0) "xy" = (col, row) := by
  rw [findPointToPoint_eq, radialMap_one]; rfl

/-- **C04** (grey image through the colour function, no padding). -/
theorem C04_color_gray (lstsq : List (List ℝ) → List ℝ → List ℝ) (S : Sampler) (hS : InterpolatesNodes S)
    (rnd : ℝ → ℝ) (hr : CoordRounding rnd) (fill : Mat ℝ → ℕ → ℕ → ℝ) (m : Mat ℝ)
    (hh : m.height ≤ 2 ^ 24) (hw : m.width ≤ 2 ^ 24) (xc yc : ℝ) (n : ℕ) :
    ∃ out, unwarpColorImageBackward lstsq S rnd fill (.gray m) xc yc (1 :: List.replicate n 0) (.bool false)
      = .ok (.gray out) ∧ SameImage out m := by
  refine ⟨_, rfl, ?_, ?_, ?_⟩
  · simp [unwarpPadded, padMat]
  · simp [unwarpPadded, padMat]
  · intro i hi j hj
    simp only [unwarpPadded, padMat, Int.toNat_zero, zero_add, add_zero] at hi hj
    have h1 : (i : ℝ) + 1 ≤ m.height := by exact_mod_cast hi
    have h2 : (j : ℝ) + 1 ≤ m.width := by exact_mod_cast hj
    simp only [unwarpPadded, polySum_one, one_mul, add_sub_cancel]
    rw [clip_of_mem (by positivity) (by simp [padMat]; linarith),
      clip_of_mem (by positivity) (by simp [padMat]; linarith), hr.natCast (by omega), hr.natCast (by omega),
      hS _ i j (by simp [padMat, hi]) (by simp [padMat, hj])]
    simp [padMat, hi, hj]

/-- A grey image with linear interpolation. -/
example (B : Boundary) (lstsq : List (List ℝ) → List ℝ → List ℝ) (fill : Mat ℝ → ℕ → ℕ → ℝ) :=
  C04_color_gray lstsq _ (linearInterp_interpolates B) id coordRounding_id fill ⟨3, 2, fun i j => (5 * i + j : ℕ)⟩ (by norm_num) (by norm_num) 1 1 4

/-- **C04** (colour image, no padding). -/
theorem C04_color (lstsq : List (List ℝ) → List ℝ → List ℝ) (S : Sampler) (hS : InterpolatesNodes S)
    (rnd : ℝ → ℝ) (hr : CoordRounding rnd) (fill : Mat ℝ → ℕ → ℕ → ℝ) (h w k : ℕ) (get : ℕ → ℕ → ℕ → ℝ)
    (hh : h ≤ 2 ^ 24) (hw : w ≤ 2 ^ 24) (xc yc : ℝ) (n : ℕ) :
    ∃ get', unwarpColorImageBackward lstsq S rnd fill (.color h w k get) xc yc (1 :: List.replicate n 0)
      (.bool false) = .ok (.color h w k get') ∧ ∀ i < h, ∀ j < w, ∀ c < k, get' i j c = get i j c := by
  refine ⟨fun i j c => (unwarpPadded S rnd fill (channel h w get c) ⟨0, 0, 0, 0⟩ xc yc
    (1 :: List.replicate n 0)).get i j, ?_, ?_⟩
  · simp [unwarpColorImageBackward, calcPad, Bind.bind, Except.bind]
  · intro i hi j hj c _
    obtain ⟨out, e, hs⟩ := C04_color_gray lstsq S hS rnd hr fill (channel h w get c) hh hw xc yc n
    have e' : unwarpPadded S rnd fill (channel h w get c) ⟨0, 0, 0, 0⟩ xc yc (1 :: List.replicate n 0) = out := by
      simpa [unwarpColorImageBackward, calcPad, Bind.bind, Except.bind] using e
    simp only [e']
    exact hs.2.2 i (by rw [hs.1]; exact hi) j (by rw [hs.2.1]; exact hj)

/-- An image with three channels. -/
example (B : Boundary) (lstsq : List (List ℝ) → List ℝ → List ℝ) (fill : Mat ℝ → ℕ → ℕ → ℝ) :=
  C04_color lstsq _ (linearInterp_interpolates B) id coordRounding_id fill 3 2 3 (fun i j c => (5 * i + j + 7 * c : ℕ)) (by norm_num) (by norm_num) 1 1 4

/-- Non-vacuity: a non-constant 3×2 image, non-integer centre, three coefficients. -/
example (B : Boundary) : (unwarpImageBackward (linearInterp B) id ⟨3, 2, fun i j => (5 * i + j : ℕ)⟩
    (7 / 3) (-1 / 2) [1, 0, 0]).get 2 1 = 11 := by
  have := (C04_image_backward _ (linearInterp_interpolates B) id coordRounding_id
    ⟨3, 2, fun i j => (5 * i + j : ℕ)⟩ (by norm_num) (by norm_num) (7 / 3) (-1 / 2) 2).2.2 2
    (by norm_num [unwarpImageBackward]) 1 (by norm_num [unwarpImageBackward])
  simp only [List.replicate] at this
  rw [this]; norm_num

end Discorpy
