import Verif.Lemmas.Image

/-! # C01: one unwarped sinogram row equals the row of the unwarped image -/

namespace Discorpy

open Spec

/-- **C01.** For every stack of shape `(d, h, w)` with `0 < w`, `h ≤ 32767`, every centre, non-empty coefficient list and row
`k < h`, `unwarp_slice_backward` succeeds and row `i` of its result is row `k` of `unwarp_image_backward`
(default linear interpolation) of projection `i`. -/
theorem C01_slice_eq_image_row (B B' : Boundary) (d h w : ℕ) (get : List ℕ → ℝ) (xc yc : ℝ)
    (coefs : List ℝ) (hne : coefs ≠ []) (k : ℕ) (hk : k < h) (hh : h ≤ 32767) (hw : 0 < w) :
    ∃ out, unwarpSliceBackward B ⟨[d, h, w], get⟩ xc yc coefs k = .ok out ∧
      out.height = d ∧ out.width = w ∧
      ∀ i < d, ∀ j < w, out.get i j =
        (unwarpImageBackward (linearInterp B') id ⟨h, w, fun y x => get [i, y, x]⟩ xc yc coefs).get k j := by
  have hh1 : (1 : ℝ) ≤ h := by exact_mod_cast (by omega : 1 ≤ h)
  have hw1 : (1 : ℝ) ≤ w := by exact_mod_cast hw
  let yd := fun j : ℕ => clip (yc + polySum coefs (√(((j : ℝ) - xc) ^ 2 + ((k : ℝ) - yc) ^ 2)) * ((k : ℝ) - yc)) 0
    ((h : ℝ) - 1)
  obtain ⟨mn, e1, ⟨j1, hj1, r1⟩, b1⟩ := exists_min_map_range hw yd
  obtain ⟨mx, e2, ⟨j2, hj2, r2⟩, b2⟩ := exists_max_map_range hw yd
  simp only [unwarpSliceBackward, hne, if_false, Int.cast_natCast]
  simp only [yd] at e1 e2
  rw [e1, e2]
  refine ⟨_, rfl, rfl, rfl, ?_⟩
  intro i _ j hj
  simp only [unwarpImageBackward, id]
  rw [linearInterp_eq B' _ (inFrame_clip (by simpa using by omega) (by simpa using hw) _ _)]
  exact linearInterp_crop B (NdArr.proj ⟨[d, h, w], get⟩ h w i) (by simpa [NdArr.proj] using hh)
    (by rw [r1]; exact clip_ge (by linarith)) (b1 j hj) (b2 j hj) (by rw [r2]; exact clip_le)
    (clip_ge (by linarith)) clip_le

/-- Non-vacuity: a 2×3×2 stack with non-constant data and a non-trivial model meets the hypotheses. -/
example (B : Boundary) : ∃ out, unwarpSliceBackward B
    ⟨[2, 3, 2], fun l => (l.sum : ℝ)⟩ (1/2) (3/2) [1, 1/10] (1 : ℕ) = .ok out ∧ out.height = 2 :=
  let ⟨o, h, h', _⟩ := C01_slice_eq_image_row B B 2 3 2 (fun l => (l.sum : ℝ)) (1/2) (3/2) [1, 1/10] (by simp) 1
    (by norm_num) (by norm_num) (by norm_num)
  ⟨o, h, h'⟩

/-- **C01, no coefficients.** Without coefficients (where the image functions return a constant image) the slice of a stack
with at least one projection is a `ValueError`, whatever the index. -/
theorem C01_no_coefs (B : Boundary) (d h w : ℕ) (get : List ℕ → ℝ) (xc yc : ℝ) (k : ℤ) :
    unwarpSliceBackward B ⟨[d, h, w], get⟩ xc yc [] k = (if d = 0 then .ok ⟨0, w, fun _ _ => 0⟩ else .error .valueError) := by
  simp [unwarpSliceBackward]

/-- **C01, limits.** The height bound is needed: for every height between 32769 and 65535 (one column, one projection,
identity model) the last row index overflows `np.int16`; whatever (pixel-local) boundary treatment is used, there is
data for which the slice differs from the image row. -/
theorem C01_int16_overflow (B B' : Boundary) (hB : LocalBoundary B) (h : ℕ) (h1 : 32769 ≤ h) (h2 : h ≤ 65535) :
    ∃ get : List ℕ → ℝ, ∃ out,
      unwarpSliceBackward B ⟨[1, h, 1], get⟩ 0 0 [1] ((h - 1 : ℕ) : ℤ) = .ok out ∧
      out.get 0 0 ≠
        (unwarpImageBackward (linearInterp B') id ⟨h, 1, fun y x => get [0, y, x]⟩ 0 0 [1]).get (h - 1) 0 := by
  have hr : ((h - 1 : ℕ) : ℝ) = (h : ℝ) - 1 := by rw [Nat.cast_sub (by omega)]; simp
  have hge : (32769 : ℝ) ≤ h := by exact_mod_cast h1
  have hcl : clip ((h : ℝ) - 1) 0 ((h : ℝ) - 1) = (h : ℝ) - 1 := clip_of_mem (by linarith) le_rfl
  have hc0 : clip (0 : ℝ) 0 (((1 : ℕ) : ℝ) - 1) = 0 := clip_of_mem le_rfl (by norm_num)
  have hp : ∀ r, polySum [1] r = 1 := fun r => by simp [polySum_cons]
  have hfl : ⌊(h : ℝ) - 1⌋ = (h : ℤ) - 1 := by rw [← hr, Int.floor_natCast]; omega
  have hce : ⌈(h : ℝ) - 1⌉ = (h : ℤ) - 1 := by rw [← hr, Int.ceil_natCast]; omega
  have t1 : toInt16 ((h : ℤ) - 1) = (h : ℤ) - 1 - 65536 := by
    unfold toInt16; rw [Int.bmod_def]; split <;> omega
  have t2 : toInt16 ((h : ℤ) - 1 - 65536 + 1) = (h : ℤ) - 65536 := by
    unfold toInt16; rw [Int.bmod_def]; split <;> omega
  have hok : ∀ get : List ℕ → ℝ, ∃ out,
      unwarpSliceBackward B ⟨[1, h, 1], get⟩ 0 0 [1] ((h - 1 : ℕ) : ℤ) = .ok out ∧
      out.get 0 0 = linearInterp B ((NdArr.proj ⟨[1, h, 1], get⟩ h 1 0).rows ((h : ℤ) - 1 - 65536) ((h : ℤ) - 65536))
        65536 0 := by
    intro get
    have e1 : ((List.range 1).map fun j : ℕ => clip (0 + polySum [1]
        (√(((j : ℝ) - 0) ^ 2 + ((((h - 1 : ℕ) : ℤ) : ℝ) - 0) ^ 2)) * ((((h - 1 : ℕ) : ℤ) : ℝ) - 0)) 0 ((h : ℝ) - 1))
          = [(h : ℝ) - 1] := by
      simp [hp, hr, hcl]
    simp only [unwarpSliceBackward, List.cons_ne_nil, if_false]
    rw [e1, show [(h : ℝ) - 1].min? = some ((h : ℝ) - 1) from rfl,
      show [(h : ℝ) - 1].max? = some ((h : ℝ) - 1) from rfl]
    refine ⟨_, rfl, ?_⟩
    simp only [hfl, hce, t1, t2, hp, one_mul, Int.cast_natCast, hr, sub_zero, zero_add, hcl]
    congr 1
    · push_cast; ring
    · simpa using hc0
  have himg : ∀ get : List ℕ → ℝ,
      (unwarpImageBackward (linearInterp B') id ⟨h, 1, fun y x => get [0, y, x]⟩ 0 0 [1]).get (h - 1) 0
        = get [0, h - 1, 0] := by
    intro get
    simp only [unwarpImageBackward, id]
    rw [linearInterp_eq B' _ (inFrame_clip (by simpa using by omega) (by norm_num) _ _)]
    have := bilinear_node (m := ⟨h, 1, fun y x => get [0, y, x]⟩) (h - 1) 0
    simp only at this
    rw [← this]
    simp only [hp, one_mul, hr, sub_zero, zero_add, hcl]
    simp [clip]
  let g1 : List ℕ → ℝ := fun _ => 0
  let g2 : List ℕ → ℝ := fun l => if l = [0, h - 1, 0] then 1 else 0
  have sa : sliceBound h ((h : ℤ) - 1 - 65536) = 2 * h - 65537 := by
    unfold sliceBound; rw [if_pos (by omega)]; omega
  have sb : sliceBound h ((h : ℤ) - 65536) = 2 * h - 65536 := by
    unfold sliceBound; rw [if_pos (by omega)]; omega
  have hs : SameImage ((NdArr.proj ⟨[1, h, 1], g1⟩ h 1 0).rows ((h : ℤ) - 1 - 65536) ((h : ℤ) - 65536))
      ((NdArr.proj ⟨[1, h, 1], g2⟩ h 1 0).rows ((h : ℤ) - 1 - 65536) ((h : ℤ) - 65536)) := by
    refine ⟨rfl, rfl, ?_⟩
    intro i hi j hj
    simp only [Mat.rows, NdArr.proj, sa, sb] at hi hj ⊢
    have : ¬ (i + (2 * h - 65537) = h - 1) := by omega
    simp [g1, g2, this]
  have hout : ∀ get : List ℕ → ℝ, linearInterp B
      ((NdArr.proj ⟨[1, h, 1], get⟩ h 1 0).rows ((h : ℤ) - 1 - 65536) ((h : ℤ) - 65536)) 65536 0 =
      B.far ((NdArr.proj ⟨[1, h, 1], get⟩ h 1 0).rows ((h : ℤ) - 1 - 65536) ((h : ℤ) - 65536)) 65536 0 := by
    intro get
    have e : (2 * h - 65536 - (2 * h - 65537) : ℕ) = 1 := by omega
    unfold linearInterp
    rw [if_neg]
    simp only [Mat.rows, NdArr.proj, sa, sb, e]
    norm_num
  by_contra hcon
  push Not at hcon
  obtain ⟨o1, k1, v1⟩ := hok g1
  obtain ⟨o2, k2, v2⟩ := hok g2
  have a1 := hcon g1 o1 k1
  have a2 := hcon g2 o2 k2
  rw [himg, v1, hout, (hB _ _ hs).2] at a1
  rw [himg, v2, hout] at a2
  rw [a1] at a2
  simp [g1, g2] at a2

/-- A detector with 40000 rows, and edges read as zero. -/
example := C01_int16_overflow ⟨fun _ _ _ => 0, fun _ _ _ => 0⟩ ⟨fun _ _ _ => 0, fun _ _ _ => 0⟩ (fun _ _ _ => ⟨rfl, rfl⟩) 40000 (by norm_num) (by norm_num)

end Discorpy
