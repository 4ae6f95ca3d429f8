import Verif.Props.C24
import Verif.Lemmas.Point
import Verif.Lemmas.Except
import Verif.Lemmas.Num

/-! # C51 — pad widths -/

namespace Discorpy
open Spec

/-- Height and width of an image. -/
def Img.size : Img → ℕ × ℕ
  | .gray m => (m.height, m.width)
  | .color h w _ _ => (h, w)

theorem unwarpColor_of_pads {lstsq : List (List ℝ) → List ℝ → List ℝ} {S : Sampler} {rnd : ℝ → ℝ} {fill : Mat ℝ → ℕ → ℕ → ℝ} {img : Img}
    {xc yc : ℝ} {fact : List ℝ} {pad : PadArg} {p : Pads} (hp : calcPad lstsq pad img.size.1 img.size.2 xc yc fact = .ok p)
    (h0 : 0 ≤ p.t ∧ 0 ≤ p.b ∧ 0 ≤ p.l ∧ 0 ≤ p.r) :
    ∃ out, unwarpColorImageBackward lstsq S rnd fill img xc yc fact pad = .ok out ∧
      (out.size.1 : ℤ) = img.size.1 + p.t + p.b ∧ (out.size.2 : ℤ) = img.size.2 + p.l + p.r := by
  unfold unwarpColorImageBackward
  cases img with
  | gray m =>
    simp only [Img.size] at hp ⊢
    rw [hp, ok_bind, if_neg (by omega)]
    refine ⟨_, rfl, ?_, ?_⟩ <;> simp only [unwarpPadded, padMat] <;> omega
  | color h w n get =>
    simp only [Img.size] at hp ⊢
    rw [hp, ok_bind, if_neg (by omega)]
    refine ⟨_, rfl, ?_, ?_⟩ <;> simp only <;> omega

theorem unwarpColor_error {lstsq : List (List ℝ) → List ℝ → List ℝ} {S : Sampler} {rnd : ℝ → ℝ} {fill : Mat ℝ → ℕ → ℕ → ℝ} {img : Img}
    {xc yc : ℝ} {fact : List ℝ} {pad : PadArg} {e : PyErr} (hp : calcPad lstsq pad img.size.1 img.size.2 xc yc fact = .error e) :
    unwarpColorImageBackward lstsq S rnd fill img xc yc fact pad = .error e := by
  unfold unwarpColorImageBackward
  cases img <;> (simp only [Img.size] at hp ⊢; rw [hp]; rfl)

theorem unwarpColor_negative {lstsq : List (List ℝ) → List ℝ → List ℝ} {S : Sampler} {rnd : ℝ → ℝ} {fill : Mat ℝ → ℕ → ℕ → ℝ} {img : Img}
    {xc yc : ℝ} {fact : List ℝ} {pad : PadArg} {p : Pads} (hp : calcPad lstsq pad img.size.1 img.size.2 xc yc fact = .ok p)
    (h0 : p.t < 0 ∨ p.b < 0 ∨ p.l < 0 ∨ p.r < 0) :
    unwarpColorImageBackward lstsq S rnd fill img xc yc fact pad = .error .valueError := by
  unfold unwarpColorImageBackward
  cases img <;> (simp only [Img.size] at hp ⊢; rw [hp, ok_bind, if_pos h0])

section
variable (lstsq : List (List ℝ) → List ℝ → List ℝ) (S : Sampler) (rnd : ℝ → ℝ) (fill : Mat ℝ → ℕ → ℕ → ℝ) (img : Img) (xc yc : ℝ)
  (fact : List ℝ)

/-- **C51 (False).** `pad=False` keeps the size. -/
theorem C51_false : ∃ out, unwarpColorImageBackward lstsq S rnd fill img xc yc fact (.bool false) = .ok out ∧ out.size = img.size := by
  obtain ⟨out, h, h1, h2⟩ := unwarpColor_of_pads (lstsq := lstsq) (S := S) (rnd := rnd) (fill := fill) (img := img) (xc := xc) (yc := yc)
    (fact := fact) (pad := .bool false) (p := ⟨0, 0, 0, 0⟩) rfl (by norm_num)
  exact ⟨out, h, Prod.ext (by simp only at h1; omega) (by simp only at h2; omega)⟩

/-- **C51 (integer).** An integer pads all sides equally; a negative one raises `ValueError`. -/
theorem C51_int (n : ℤ) :
    (0 ≤ n → ∃ out, unwarpColorImageBackward lstsq S rnd fill img xc yc fact (.int n) = .ok out ∧
      (out.size.1 : ℤ) = img.size.1 + 2 * n ∧ (out.size.2 : ℤ) = img.size.2 + 2 * n) ∧
    (n < 0 → unwarpColorImageBackward lstsq S rnd fill img xc yc fact (.int n) = .error .valueError) := by
  refine ⟨fun hn => ?_, fun hn => unwarpColor_negative (p := ⟨n, n, n, n⟩) rfl (Or.inl hn)⟩
  obtain ⟨out, h, h1, h2⟩ := unwarpColor_of_pads (lstsq := lstsq) (S := S) (rnd := rnd) (fill := fill) (img := img) (xc := xc) (yc := yc)
    (fact := fact) (pad := .int n) (p := ⟨n, n, n, n⟩) rfl ⟨hn, hn, hn, hn⟩
  exact ⟨out, h, by simp only at h1; omega, by simp only at h2; omega⟩

/-- **C51 (sequence).** A sequence of four numbers means (top, bottom, left, right); negative entries and any other length
raise `ValueError`. -/
theorem C51_seq (l : List ℤ) :
    (∀ t b le r : ℤ, l = [t, b, le, r] → 0 ≤ t → 0 ≤ b → 0 ≤ le → 0 ≤ r →
      ∃ out, unwarpColorImageBackward lstsq S rnd fill img xc yc fact (.seq l) = .ok out ∧
        (out.size.1 : ℤ) = img.size.1 + t + b ∧ (out.size.2 : ℤ) = img.size.2 + le + r) ∧
    ((l.length ≠ 4 ∨ ∃ x ∈ l, x < 0) → unwarpColorImageBackward lstsq S rnd fill img xc yc fact (.seq l) = .error .valueError) := by
  refine ⟨?_, fun h => ?_⟩
  · rintro t b le r rfl ht hb hl hr
    exact unwarpColor_of_pads (p := ⟨t, b, le, r⟩) rfl ⟨ht, hb, hl, hr⟩
  · by_cases h4 : l.length = 4
    · match l, h4 with
      | [t, b, le, r], _ =>
        refine unwarpColor_negative (p := ⟨t, b, le, r⟩) rfl ?_
        rcases h with h | ⟨x, hx, hx0⟩
        · simp at h
        · simp only [List.mem_cons, List.not_mem_nil, or_false] at hx
          rcases hx with rfl | rfl | rfl | rfl <;> simp [hx0]
    · apply unwarpColor_error
      unfold calcPad
      split <;> first | rfl | (simp_all)

/-- **C51 (other types).** Anything else raises `ValueError`. -/
theorem C51_other : unwarpColorImageBackward lstsq S rnd fill img xc yc fact .other = .error .valueError := unwarpColor_error rfl

end

/-- The truncated overshoot. -/
theorem overshoot {v : ℝ} : (if 0 < v then truncInt v else 0) = max 0 ⌊v⌋ := by
  split_ifs with h
  · unfold truncInt
    rw [if_pos h.le, max_eq_right (Int.floor_nonneg.2 h.le)]
  · rw [max_eq_left]
    exact Int.floor_nonpos (not_lt.1 h)

theorem padRefPoints_eq (h w : ℕ) (xc yc : ℝ) :
    padRefPoints h w xc yc = grid40 (fun i => i * h / 39 - yc) fun j => j * w / 39 - xc := grid40_eq _ _

/-- **C51 (True).** With `pad=True` the corners of the image are moved by the forward model which
`transform_coef_backward_and_forward` fits to the 40 × 40 grid from one corner of
the image to the opposite one (relative to the centre), and each side is padded by the integer part of the
larger overshoot of its two corners over the frame [0, height] × [0, width] (0 if there is none). A failing fit is passed
on. -/
theorem C51_true (lstsq : List (List ℝ) → List ℝ → List ℝ) (S : Sampler) (rnd : ℝ → ℝ) (fill : Mat ℝ → ℕ → ℕ → ℝ) (img : Img)
    (xc yc : ℝ) (fact : List ℝ) :
    (∀ e, transformCoef lstsq fact "backward" (some (grid40 (fun i => i * img.size.1 / 39 - yc) fun j => j * img.size.2 / 39 - xc)) = .error e →
      unwarpColorImageBackward lstsq S rnd fill img xc yc fact (.bool true) = .error e) ∧
    (∀ g, transformCoef lstsq fact "backward" (some (grid40 (fun i => i * img.size.1 / 39 - yc) fun j => j * img.size.2 / 39 - xc)) = .ok g →
      ∃ out t b l r, unwarpColorImageBackward lstsq S rnd fill img xc yc fact (.bool true) = .ok out ∧
        (out.size.1 : ℤ) = img.size.1 + t + b ∧ (out.size.2 : ℤ) = img.size.2 + l + r ∧
        let u := fun y x : ℝ => radialMap ⟨yc, xc⟩ g ⟨y, x⟩
        let h : ℝ := img.size.1
        let w : ℝ := img.size.2
        l = max 0 ⌊-min (u 0 0).x (u (h - 1) 0).x⌋ ∧ r = max 0 ⌊max (u 0 (w - 1)).x (u (h - 1) (w - 1)).x - w⌋ ∧
        t = max 0 ⌊-min (u 0 0).y (u 0 (w - 1)).y⌋ ∧ b = max 0 ⌊max (u (h - 1) 0).y (u (h - 1) (w - 1)).y - h⌋) := by
  rw [← padRefPoints_eq]
  constructor
  · intro e he
    apply unwarpColor_error
    unfold calcPad
    simp only
    rw [he]
    rfl
  · intro g hg
    have hc : ∃ p, calcPad lstsq (.bool true) img.size.1 img.size.2 xc yc fact = .ok p ∧
        p.l = max 0 ⌊-min (radialMap ⟨yc, xc⟩ g ⟨0, 0⟩).x (radialMap ⟨yc, xc⟩ g ⟨img.size.1 - 1, 0⟩).x⌋ ∧
        p.r = max 0 ⌊max (radialMap ⟨yc, xc⟩ g ⟨0, img.size.2 - 1⟩).x (radialMap ⟨yc, xc⟩ g ⟨img.size.1 - 1, img.size.2 - 1⟩).x - img.size.2⌋ ∧
        p.t = max 0 ⌊-min (radialMap ⟨yc, xc⟩ g ⟨0, 0⟩).y (radialMap ⟨yc, xc⟩ g ⟨0, img.size.2 - 1⟩).y⌋ ∧
        p.b = max 0 ⌊max (radialMap ⟨yc, xc⟩ g ⟨img.size.1 - 1, 0⟩).y (radialMap ⟨yc, xc⟩ g ⟨img.size.1 - 1, img.size.2 - 1⟩).y - img.size.1⌋ := by
      unfold calcPad
      simp only
      rw [hg, ok_bind]
      simp only [findPointToPoint_eq, if_true]
      refine ⟨_, rfl, ?_, ?_, ?_, ?_⟩ <;> simp only <;> rw [← overshoot]
      · simp only [Left.neg_pos_iff]
      · simp only [sub_pos, gt_iff_lt]
      · simp only [Left.neg_pos_iff]
      · simp only [sub_pos, gt_iff_lt]
    obtain ⟨p, hp, h1, h2, h3, h4⟩ := hc
    obtain ⟨out, h, hs1, hs2⟩ := unwarpColor_of_pads (S := S) (rnd := rnd) (fill := fill) hp
      ⟨h3 ▸ le_max_left _ _, h4 ▸ le_max_left _ _, h1 ▸ le_max_left _ _, h2 ▸ le_max_left _ _⟩
    exact ⟨out, p.t, p.b, p.l, p.r, h, hs1, hs2, h1, h2, h3, h4⟩

/-- **C51 (corners are kept).** These pad widths bring each undistorted corner to less than one pixel outside the padded frame
on its sides, and are minimal with that property: one pixel less would not do unless the width is 0. -/
theorem C51_corners {u v s : ℝ} {l r : ℤ} (hl : l = max 0 ⌊-min u v⌋) (hr : r = max 0 ⌊max u v - s⌋) :
    (0 ≤ l ∧ -(l : ℝ) - 1 < u ∧ -(l : ℝ) - 1 < v ∧ (l ≠ 0 → u ≤ -l ∨ v ≤ -l)) ∧
    (0 ≤ r ∧ u < s + r + 1 ∧ v < s + r + 1 ∧ (r ≠ 0 → s + r ≤ u ∨ s + r ≤ v)) := by
  constructor
  · have h1 : -min u v < l + 1 := by
      have := Int.lt_floor_add_one (-min u v)
      have h2 : (⌊-min u v⌋ : ℝ) ≤ l := by exact_mod_cast hl ▸ le_max_right _ _
      linarith
    refine ⟨hl ▸ le_max_left _ _, by linarith [min_le_left u v], by linarith [min_le_right u v], fun h0 => ?_⟩
    have : l = ⌊-min u v⌋ := by omega
    have h3 := Int.floor_le (-min u v)
    rw [← this] at h3
    rcases min_choice u v with h | h <;> rw [h] at h3
    · left; linarith
    · right; linarith
  · have h1 : max u v - s < r + 1 := by
      have := Int.lt_floor_add_one (max u v - s)
      have h2 : (⌊max u v - s⌋ : ℝ) ≤ r := by exact_mod_cast hr ▸ le_max_right _ _
      linarith
    refine ⟨hr ▸ le_max_left _ _, by linarith [le_max_left u v], by linarith [le_max_right u v], fun h0 => ?_⟩
    have : r = ⌊max u v - s⌋ := by omega
    have h3 := Int.floor_le (max u v - s)
    rw [← this] at h3
    rcases max_choice u v with h | h <;> rw [h] at h3
    · left; linarith
    · right; linarith

example := C51_corners (u := -4.5) (v := 3) (s := 10) (l := 4) (r := 0)
  (by rw [show -min (-4.5 : ℝ) 3 = 4.5 by norm_num, show ⌊(4.5 : ℝ)⌋ = 4 by rw [Int.floor_eq_iff]; norm_num]; rfl)
  (by rw [show max (-4.5 : ℝ) 3 - 10 = -7 by norm_num, show ⌊(-7 : ℝ)⌋ = -7 by rw [Int.floor_eq_iff]; norm_num]; rfl)

/-- A 4-sequence in action. -/
example (S : Sampler) (rnd : ℝ → ℝ) (fill : Mat ℝ → ℕ → ℕ → ℝ) : ∃ out,
    unwarpColorImageBackward refLstsq S rnd fill (.gray ⟨10, 10, fun _ _ => 0⟩) 4.5 4.5 [0.5] (.seq [1, 2, 3, 4]) = .ok out ∧
      (out.size.1 : ℤ) = 13 ∧ (out.size.2 : ℤ) = 17 := by
  obtain ⟨out, h, h1, h2⟩ := (C51_seq refLstsq S rnd fill (.gray ⟨10, 10, fun _ _ => 0⟩) 4.5 4.5 [0.5] [1, 2, 3, 4]).1 1 2 3 4 rfl
    (by norm_num) (by norm_num) (by norm_num) (by norm_num)
  exact ⟨out, h, h1, h2⟩

/-- The fit of the forward model can succeed: for the model `F = 1/2` about the centre of a 10 × 10 image the corners move to
-4.5 and 13.5, so that `pad=True` adds 4 pixels before and 3 pixels behind. -/
example (S : Sampler) (rnd : ℝ → ℝ) (fill : Mat ℝ → ℕ → ℕ → ℝ) : ∃ out,
    unwarpColorImageBackward refLstsq S rnd fill (.gray ⟨10, 10, fun _ _ => 0⟩) 4.5 4.5 [1 / 2] (.bool true) = .ok out ∧
      (out.size.1 : ℤ) = 17 ∧ (out.size.2 : ℤ) = 17 := by
  have hr : ∀ k r : ℝ, radial [k] r = k := by intro k r; simp [radial]
  have hlen : (grid40 (fun i => i * (10 : ℕ) / 39 - 4.5) fun j => j * (10 : ℕ) / 39 - 4.5).length = 1600 := by simp [grid40]
  obtain ⟨p, hp⟩ := List.exists_mem_of_length_pos (l := grid40 (fun i => i * (10 : ℕ) / 39 - 4.5) fun j => j * (10 : ℕ) / 39 - 4.5) (by omega)
  obtain ⟨g, e, hg, h⟩ := C24_exact refLstsq refLstsq_spec [1 / 2] "backward" (grid40 (fun i => i * (10 : ℕ) / 39 - 4.5) fun j => j * (10 : ℕ) / 39 - 4.5) (by rw [hlen]; simp)
    ⟨p, hp, by rw [hr]; norm_num⟩ [2] rfl (by intro p _ _; rw [hr, hr]; norm_num)
  obtain ⟨c, rfl⟩ : ∃ c, g = [c] := List.length_eq_one_iff.1 hg
  have hc : c = 2 := by
    have := h p hp (by rw [hr]; norm_num)
    rw [hr, hr] at this
    linarith
  subst hc
  obtain ⟨out, t, b, l, r, h1, h2, h3, h4, h5, h6, h7⟩ := (C51_true refLstsq S rnd fill (.gray ⟨10, 10, fun _ _ => 0⟩) 4.5 4.5 [1 / 2]).2 [2] e
  norm_num [Img.size, radialMap, hr] at h4 h5 h6 h7
  refine ⟨out, h1, ?_, ?_⟩
  · rw [h2, h6, h7]; norm_num [Img.size]
  · rw [h3, h4, h5]; norm_num [Img.size]

end Discorpy
