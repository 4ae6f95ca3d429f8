import Verif.Props.C51
import Verif.Spec.Image

/-! # C52 — padded colour unwarping agrees with plain unwarping -/

namespace Discorpy
open Spec

/-- **C52 (channels).** Each channel of a colour image is treated exactly like a grey image. -/
theorem C52_channels (lstsq : List (List ℝ) → List ℝ → List ℝ) (S : Sampler) (rnd : ℝ → ℝ) (fill : Mat ℝ → ℕ → ℕ → ℝ)
    (h w n : ℕ) (get : ℕ → ℕ → ℕ → ℝ) (xc yc : ℝ) (fact : List ℝ) (pad : PadArg) :
    (∃ e, unwarpColorImageBackward lstsq S rnd fill (.color h w n get) xc yc fact pad = .error e ∧
      ∀ c, unwarpColorImageBackward lstsq S rnd fill (.gray (channel h w get c)) xc yc fact pad = .error e) ∨
    (∃ h' w' get', unwarpColorImageBackward lstsq S rnd fill (.color h w n get) xc yc fact pad = .ok (.color h' w' n get') ∧
      ∀ c, unwarpColorImageBackward lstsq S rnd fill (.gray (channel h w get c)) xc yc fact pad =
        .ok (.gray (channel h' w' get' c))) := by
  unfold unwarpColorImageBackward
  simp only [channel]
  cases calcPad lstsq pad h w xc yc fact with
  | error e => left; exact ⟨e, rfl, fun c => rfl⟩
  | ok p =>
    simp only [ok_bind]
    by_cases hp : p.t < 0 ∨ p.b < 0 ∨ p.l < 0 ∨ p.r < 0
    · left; refine ⟨.valueError, by rw [if_pos hp], fun c => by rw [if_pos hp]⟩
    · right; refine ⟨_, _, _, by rw [if_neg hp], fun c => by rw [if_neg hp]; rfl⟩

/-- **C52 (no padding).** Without padding the result for a 2D image is the one of `unwarp_image_backward`, for every
interpolation that looks only at the pixels of the image. -/
theorem C52_no_pad (lstsq : List (List ℝ) → List ℝ → List ℝ) (S : Sampler) (hS : ∀ m m', SameImage m m' → S m = S m')
    (rnd : ℝ → ℝ) (fill : Mat ℝ → ℕ → ℕ → ℝ) (m : Mat ℝ) (xc yc : ℝ) (fact : List ℝ) :
    ∃ out, unwarpColorImageBackward lstsq S rnd fill (.gray m) xc yc fact (.bool false) = .ok (.gray out) ∧
      SameImage out (unwarpImageBackward S rnd m xc yc fact) := by
  refine ⟨unwarpPadded S rnd fill m ⟨0, 0, 0, 0⟩ xc yc fact, rfl, ?_, ?_, fun i hi j hj => ?_⟩
  · simp [unwarpPadded, unwarpImageBackward, padMat]
  · simp [unwarpPadded, unwarpImageBackward, padMat]
  · have hsame : SameImage (padMat fill m 0 0 0 0) m := by
      refine ⟨by simp [padMat], by simp [padMat], fun a ha b hb => ?_⟩
      simp only [padMat, zero_add, add_zero] at ha hb
      simp [padMat, ha, hb]
    have e1 : (padMat fill m 0 0 0 0).height = m.height := hsame.1
    have e2 : (padMat fill m 0 0 0 0).width = m.width := hsame.2.1
    simp only [unwarpPadded, unwarpImageBackward, Int.toNat_zero, Int.cast_zero, add_zero, hS _ _ hsame, e1, e2]

example (lstsq : List (List ℝ) → List ℝ → List ℝ) (fill : Mat ℝ → ℕ → ℕ → ℝ) := C52_no_pad lstsq (fun m _ _ => if 0 < m.height ∧ 0 < m.width then m.get 0 0 else 0) (by
  rintro m m' ⟨h1, h2, h3⟩
  funext y x
  by_cases h : 0 < m.height ∧ 0 < m.width
  · simp only [← h1, ← h2, h, and_self, if_true, h3 0 h.1 0 h.2]
  · simp only [← h1, ← h2, h, if_false]) id fill ⟨3, 3, fun i j => i + 2 * j⟩ 1 1 [1]

/-- Interpolation in the padded image at a shifted coordinate. -/
theorem bilinear_pad (fill : Mat ℝ → ℕ → ℕ → ℝ) (m : Mat ℝ) (t b l r : ℕ) {y x : ℝ} (h : InFrame m y x) :
    bilinear (padMat fill m t b l r) (y + t) (x + l) = bilinear m y x := by
  obtain ⟨hy0, hy1, hx0, hx1⟩ := h
  have ly : (⌊y⌋₊ : ℝ) ≤ y := Nat.floor_le hy0
  have lx : (⌊x⌋₊ : ℝ) ≤ x := Nat.floor_le hx0
  have fy : ⌊y + t⌋₊ = ⌊y⌋₊ + t := Nat.floor_add_natCast hy0 t
  have fx : ⌊x + l⌋₊ = ⌊x⌋₊ + l := Nat.floor_add_natCast hx0 l
  unfold bilinear
  simp only [fy, fx]
  generalize ⌊y⌋₊ = p at *
  generalize ⌊x⌋₊ = q at *
  have hp : p < m.height := by
    have : (p : ℝ) < m.height := by linarith
    exact_mod_cast this
  have hq : q < m.width := by
    have : (q : ℝ) < m.width := by linarith
    exact_mod_cast this
  have ey : y + t - ((p + t : ℕ) : ℝ) = y - p := by push_cast; ring
  have ex : x + l - ((q + l : ℕ) : ℝ) = x - q := by push_cast; ring
  rw [ey, ex]
  have get_in : ∀ a c : ℕ, a < m.height → c < m.width → (padMat fill m t b l r).get (a + t) (c + l) = m.get a c := by
    intro a c ha hc
    simp only [padMat]
    rw [if_pos ⟨by omega, by omega, by omega, by omega⟩, Nat.add_sub_cancel, Nat.add_sub_cancel]
  -- the upper neighbour is inside the original image or has weight 0
  have ny : (p + 1 < m.height ∧ min (p + t + 1) ((padMat fill m t b l r).height - 1) = (p + 1) + t ∧
      min (p + 1) (m.height - 1) = p + 1) ∨ y - p = 0 := by
    by_cases h1 : p + 1 < m.height
    · left; refine ⟨h1, ?_, by omega⟩; simp only [padMat]; omega
    · right
      have : (m.height : ℝ) = p + 1 := by exact_mod_cast (show m.height = p + 1 by omega)
      linarith
  have nx : (q + 1 < m.width ∧ min (q + l + 1) ((padMat fill m t b l r).width - 1) = (q + 1) + l ∧
      min (q + 1) (m.width - 1) = q + 1) ∨ x - q = 0 := by
    by_cases h1 : q + 1 < m.width
    · left; refine ⟨h1, ?_, by omega⟩; simp only [padMat]; omega
    · right
      have : (m.width : ℝ) = q + 1 := by exact_mod_cast (show m.width = q + 1 by omega)
      linarith
  rw [get_in p q hp hq]
  rcases ny with ⟨y1, y2, y3⟩ | y1 <;> rcases nx with ⟨x1, x2, x3⟩ | x1
  · rw [y2, y3, x2, x3, get_in p _ hp x1, get_in _ q y1 hq, get_in _ _ y1 x1]
  · rw [y2, y3, x1, get_in _ q y1 hq]; ring
  · rw [x2, x3, y1, get_in p _ hp x1]; ring
  · rw [x1, y1]; ring

/-- **C52 (padding shifts).** With linear interpolation (and exact coordinates) the pixel (top + i, left + j) of the padded
result equals pixel (i, j) of the unpadded result of `unwarp_image_backward`, for every pixel which the model maps into the
original image — whatever the padding mode and the interpolation's boundary mode. -/
theorem C52_padded (lstsq : List (List ℝ) → List ℝ → List ℝ) (B : Boundary) (fill : Mat ℝ → ℕ → ℕ → ℝ) (m : Mat ℝ) (xc yc : ℝ)
    (fact : List ℝ) (pad : PadArg) (p : Pads) (hp : calcPad lstsq pad m.height m.width xc yc fact = .ok p)
    (h0 : 0 ≤ p.t ∧ 0 ≤ p.b ∧ 0 ≤ p.l ∧ 0 ≤ p.r) :
    ∃ out, unwarpColorImageBackward lstsq (linearInterp B) id fill (.gray m) xc yc fact pad = .ok (.gray out) ∧
      ∀ i j : ℕ, InFrame m (radialMap ⟨yc, xc⟩ fact ⟨i, j⟩).y (radialMap ⟨yc, xc⟩ fact ⟨i, j⟩).x →
        out.get (p.t.toNat + i) (p.l.toNat + j) = (unwarpImageBackward (linearInterp B) id m xc yc fact).get i j := by
  refine ⟨unwarpPadded (linearInterp B) id fill m p xc yc fact, ?_, fun i j hin => ?_⟩
  · unfold unwarpColorImageBackward
    simp only
    rw [hp, ok_bind, if_neg (by omega)]
  · obtain ⟨t, ht⟩ := Int.eq_ofNat_of_zero_le h0.1
    obtain ⟨b, hb⟩ := Int.eq_ofNat_of_zero_le h0.2.1
    obtain ⟨l, hl⟩ := Int.eq_ofNat_of_zero_le h0.2.2.1
    obtain ⟨r, hr⟩ := Int.eq_ofNat_of_zero_le h0.2.2.2
    have hY : yc + polySum fact √(((j : ℝ) - xc) ^ 2 + ((i : ℝ) - yc) ^ 2) * ((i : ℝ) - yc) = (radialMap ⟨yc, xc⟩ fact ⟨i, j⟩).y := by
      rw [polySum_eq_radial]; rfl
    have hX : xc + polySum fact √(((j : ℝ) - xc) ^ 2 + ((i : ℝ) - yc) ^ 2) * ((j : ℝ) - xc) = (radialMap ⟨yc, xc⟩ fact ⟨i, j⟩).x := by
      rw [polySum_eq_radial]; rfl
    unfold unwarpPadded unwarpImageBackward
    simp only [ht, hb, hl, hr, Int.toNat_natCast, Int.cast_natCast, id]
    rw [show (((l + j : ℕ) : ℝ) - (xc + l)) = j - xc by push_cast; ring, show (((t + i : ℕ) : ℝ) - (yc + t)) = i - yc by push_cast; ring,
      show ∀ f : ℝ, xc + l + f * ((j : ℝ) - xc) = (xc + f * (j - xc)) + l from fun f => by ring,
      show ∀ f : ℝ, yc + t + f * ((i : ℝ) - yc) = (yc + f * (i - yc)) + t from fun f => by ring, hX, hY]
    have hh : ((padMat fill m t b l r).height : ℝ) = t + m.height + b := by simp only [padMat]; push_cast; ring
    have hw : ((padMat fill m t b l r).width : ℝ) = l + m.width + r := by simp only [padMat]; push_cast; ring
    have hb0 : (0 : ℝ) ≤ b := by positivity
    have hr0 : (0 : ℝ) ≤ r := by positivity
    have ht0 : (0 : ℝ) ≤ t := by positivity
    have hl0 : (0 : ℝ) ≤ l := by positivity
    obtain ⟨i1, i2, i3, i4⟩ := id hin
    rw [clip_of_mem (by linarith) (by linarith), clip_of_mem (by linarith) (by linarith), clip_of_mem i1 i2, clip_of_mem i3 i4,
      linearInterp_eq B m hin, linearInterp_eq B _ ⟨by linarith, by linarith, by linarith, by linarith⟩, bilinear_pad fill m t b l r hin]

/-- The hypotheses can be met: with the identity model every pixel is mapped into the image. -/
example (lstsq : List (List ℝ) → List ℝ → List ℝ) (B : Boundary) (fill : Mat ℝ → ℕ → ℕ → ℝ) : ∃ out,
    unwarpColorImageBackward lstsq (linearInterp B) id fill (.gray ⟨3, 3, fun i j => i + 2 * j⟩) 1 1 [1] (.int 2) = .ok (.gray out) ∧
      out.get (2 + 1) (2 + 2) = (unwarpImageBackward (linearInterp B) id ⟨3, 3, fun i j => i + 2 * j⟩ 1 1 [1]).get 1 2 := by
  obtain ⟨out, h, hp⟩ := C52_padded lstsq B fill ⟨3, 3, fun i j => i + 2 * j⟩ 1 1 [1] (.int 2) ⟨2, 2, 2, 2⟩ rfl (by norm_num)
  exact ⟨out, h, hp 1 2 (by norm_num [InFrame, radialMap, radial])⟩

end Discorpy
