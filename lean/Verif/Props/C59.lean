import Verif.Spec.ImageIO
import Verif.Lemmas.ImageIO

/-! # C59 — 8-bit export keeps the ordering and uses the full range -/

namespace Discorpy

open Spec

/-- **C59 (scaling).** An image that is not constant, saved to a file that is not `.tif` or `.tiff`, is stored with integers 0, …, 255:
the least pixel becomes 0, the greatest 255, the order is kept, and each stored level is the scaled pixel up to less than one level. For
signed integers the differences of pixels must fit the type. -/
theorem C59_scaled (castOut : ℝ → ℝ) (suffix : PyStr) (t : PixelType) (img : Img) (lo hi : ℝ) (ht : t ≠ .uint8)
    (hsuf : suffix ≠ ".tif".toList ∧ suffix ≠ ".tiff".toList) (hpix : ∀ x ∈ img.pixels, PixelOf t x) (hext : Extremes img.pixels lo hi)
    (hne : lo < hi) (hfit : DifferencesFit t lo hi) :
    ∃ f : ℝ → ℝ, saveImageData castOut suffix t img = .ok (img.map f) ∧
      (∀ x ∈ img.pixels, ∃ n : ℕ, n ≤ 255 ∧ f x = n ∧ (n : ℝ) ≤ 255 * (x - lo) / (hi - lo) ∧ 255 * (x - lo) / (hi - lo) < n + 1) ∧
      (∀ x ∈ img.pixels, ∀ y ∈ img.pixels, x ≤ y → f x ≤ f y) ∧ f lo = 0 ∧ f hi = 255 := by
  obtain ⟨hmin, hmax⟩ := npMin_extremes hext
  have htb : t ≠ .bool := by rintro rfl; exact hfit
  have hd : 0 < hi - lo := by linarith
  obtain ⟨hlo, hhi, hbd⟩ := hext
  refine ⟨fun x => toUint8 castOut .float (255 * pixelSub t x lo / pixelSub t hi lo), ?_, ?_⟩
  · unfold saveImageData
    rw [if_pos (by simpa using hsuf), if_pos ht, hmin, ok_bind, hmax, ok_bind, if_pos hne.ne', if_neg htb]
  · have key : ∀ x ∈ img.pixels, toUint8 castOut .float (255 * pixelSub t x lo / pixelSub t hi lo) = (⌊255 * (x - lo) / (hi - lo)⌋ : ℤ) ∧
        0 ≤ 255 * (x - lo) / (hi - lo) ∧ 255 * (x - lo) / (hi - lo) ≤ 255 := by
      intro x hx
      obtain ⟨h1, h2⟩ := hbd x hx
      rw [pixelSub_eq (hpix x hx) (hpix lo hlo) hfit h1 h2, pixelSub_eq (hpix hi hhi) (hpix lo hlo) hfit hne.le le_rfl]
      have h3 : 0 ≤ 255 * (x - lo) / (hi - lo) := by apply div_nonneg <;> linarith
      have h4 : 255 * (x - lo) / (hi - lo) ≤ 255 := by rw [div_le_iff₀ hd]; linarith
      refine ⟨?_, h3, h4⟩
      unfold toUint8
      simp only
      rw [if_pos ⟨h3, by linarith⟩]
    refine ⟨?_, ?_, ?_, ?_⟩
    · intro x hx
      obtain ⟨h1, h2, h3⟩ := key x hx
      refine ⟨⌊255 * (x - lo) / (hi - lo)⌋.toNat, ?_, ?_, ?_, ?_⟩
      · have : ⌊255 * (x - lo) / (hi - lo)⌋ ≤ 255 := by
          have := Int.floor_le_floor h3
          simpa using this
        omega
      · simp only
        rw [h1]
        have := Int.toNat_of_nonneg (Int.floor_nonneg.2 h2)
        exact_mod_cast this.symm
      · have := Int.toNat_of_nonneg (Int.floor_nonneg.2 h2)
        have h4 := Int.floor_le (255 * (x - lo) / (hi - lo))
        have h5 : ((⌊255 * (x - lo) / (hi - lo)⌋.toNat : ℕ) : ℝ) = ((⌊255 * (x - lo) / (hi - lo)⌋ : ℤ) : ℝ) := by exact_mod_cast this
        rw [h5]; exact h4
      · have := Int.toNat_of_nonneg (Int.floor_nonneg.2 h2)
        have h4 := Int.lt_floor_add_one (255 * (x - lo) / (hi - lo))
        have h5 : ((⌊255 * (x - lo) / (hi - lo)⌋.toNat : ℕ) : ℝ) = ((⌊255 * (x - lo) / (hi - lo)⌋ : ℤ) : ℝ) := by exact_mod_cast this
        rw [h5]; exact h4
    · intro x hx y hy hxy
      simp only
      rw [(key x hx).1, (key y hy).1]
      have : 255 * (x - lo) / (hi - lo) ≤ 255 * (y - lo) / (hi - lo) := by gcongr
      exact_mod_cast Int.floor_le_floor this
    · simp only
      rw [(key lo hlo).1]; simp
    · simp only
      rw [(key hi hhi).1, mul_div_assoc, div_self hd.ne']; norm_num

/-- **C59 (constant images).** A constant float image with a value in [0, 256) is stored with that value cut off; integers are taken
modulo 256. -/
theorem C59_constant (castOut : ℝ → ℝ) (suffix : PyStr) (t : PixelType) (img : Img) (c : ℝ) (ht : t ≠ .uint8)
    (hsuf : suffix ≠ ".tif".toList ∧ suffix ≠ ".tiff".toList) (hext : Extremes img.pixels c c) :
    ∃ f : ℝ → ℝ, saveImageData castOut suffix t img = .ok (img.map f) ∧ (0 ≤ c → c < 256 → f c = ⌊c⌋) ∧
      (t ≠ .float → f c = ((⌊c⌋ % 256 : ℤ) : ℝ)) := by
  obtain ⟨hmin, hmax⟩ := npMin_extremes hext
  refine ⟨toUint8 castOut t, ?_, ?_, ?_⟩
  · unfold saveImageData
    rw [if_pos (by simpa using hsuf), if_pos ht, hmin, ok_bind, hmax, ok_bind, if_neg (by simp)]
  · intro h1 h2
    have h3 : ⌊c⌋ % 256 = ⌊c⌋ := by
      refine Int.emod_eq_of_lt (Int.floor_nonneg.2 h1) ?_
      have := Int.floor_lt.2 (show c < ((256 : ℤ) : ℝ) by exact_mod_cast h2)
      omega
    cases t <;> simp only [toUint8, h3]
    rw [if_pos ⟨h1, h2⟩]
  · intro h
    cases t <;> simp_all [toUint8]

/-- **C59 (unchanged).** Images of 8-bit integers are stored unchanged, and grey images are stored unchanged in `.tif` and `.tiff`
files. -/
theorem C59_unchanged (castOut : ℝ → ℝ) (suffix : PyStr) (img : Img) (m : Mat ℝ) (t : PixelType) :
    (suffix ≠ ".tif".toList ∧ suffix ≠ ".tiff".toList → saveImageData castOut suffix .uint8 img = .ok img) ∧
    (suffix = ".tif".toList ∨ suffix = ".tiff".toList → saveImageData castOut suffix t (.gray m) = .ok (.gray m)) := by
  constructor
  · intro h
    unfold saveImageData
    rw [if_pos (by simpa using h), if_neg (by simp)]
  · intro h
    unfold saveImageData
    rw [if_neg (not_not.2 h)]

/-- **C59 (errors).** A mask of booleans that is not constant cannot be saved to an 8-bit file (NumPy does not subtract booleans); an
image without pixels raises a ValueError. -/
theorem C59_errors (castOut : ℝ → ℝ) (suffix : PyStr) (img : Img) (t : PixelType) (ht : t ≠ .uint8)
    (hsuf : suffix ≠ ".tif".toList ∧ suffix ≠ ".tiff".toList) :
    (Extremes img.pixels 0 1 → saveImageData castOut suffix .bool img = .error .typeError) ∧
    (img.pixels = [] → saveImageData castOut suffix t img = .error .valueError) := by
  constructor
  · intro h
    obtain ⟨hmin, hmax⟩ := npMin_extremes h
    unfold saveImageData
    rw [if_pos (by simpa using hsuf), if_pos (by simp), hmin, ok_bind, hmax, ok_bind, if_pos (by norm_num), if_pos rfl]
  · intro h
    unfold saveImageData
    rw [if_pos (by simpa using hsuf), if_pos ht, h]
    rfl

/-- **C59 (capital letters).** The test for TIFF files distinguishes capital letters: a float image saved to `a.TIF` is reduced to 8
bits. -/
theorem C59_capitals (castOut : ℝ → ℝ) : suffixOf "a.TIF".toList = ".TIF".toList ∧
    ∃ m : Mat ℝ, saveImageData castOut ".TIF".toList .float (.gray m) ≠ .ok (.gray m) := by
  refine ⟨by decide, ⟨1, 2, fun _ j => j⟩, ?_⟩
  have hp : Img.pixels (.gray ⟨1, 2, fun _ j => (j : ℝ)⟩) = [0, 1] := by
    simp [Img.pixels, List.range_succ]
  have hext : Extremes (Img.pixels (.gray ⟨1, 2, fun _ j => (j : ℝ)⟩)) 0 1 := by
    rw [hp]; refine ⟨by simp, by simp, ?_⟩
    intro x hx; simp at hx; rcases hx with rfl | rfl <;> norm_num
  obtain ⟨f, h1, -, -, -, h4⟩ := C59_scaled castOut ".TIF".toList .float _ 0 1 (by simp) (by decide) (fun x _ => trivial) hext (by norm_num) trivial
  rw [h1]
  intro h
  have h5 := Except.ok.inj h
  have h6 : f ((1 : ℕ) : ℝ) = ((1 : ℕ) : ℝ) := by
    simp only [Img.map, Img.gray.injEq, Mat.mk.injEq, true_and] at h5
    exact congrFun (congrFun h5 0) 1
  rw [Nat.cast_one, h4] at h6
  norm_num at h6

/-- The 8-bit conversion of floats out of range on common processors: cut off and take modulo 256. -/
noncomputable def wrapCast (x : ℝ) : ℝ := ((truncInt x % 256 : ℤ) : ℝ)

/-- **C59 (overflow).** Without the assumption on signed integers the claim fails: in a 16-bit image with the pixels -20000, -10000,
0, 20000 the differences overflow, and -10000 is stored as a brighter level than 0. -/
theorem C59_int16_overflow : ∃ (m : Mat ℝ) (f : ℝ → ℝ), Img.pixels (.gray m) = [-20000, -10000, 0, 20000] ∧
    saveImageData wrapCast ".png".toList (.int 16) (.gray m) = .ok (Img.map f (.gray m)) ∧ f (-10000) = 157 ∧ f 0 = 57 := by
  have hp : Img.pixels (.gray ⟨1, 4, fun _ j => if j = 0 then -20000 else if j = 1 then -10000 else if j = 2 then 0 else 20000⟩) =
      [-20000, -10000, 0, 20000] := by
    simp [Img.pixels, List.range_succ]
  have hext : Extremes [(-20000 : ℝ), -10000, 0, 20000] (-20000) 20000 := by
    refine ⟨by simp, by simp, ?_⟩
    intro x hx; simp at hx; rcases hx with rfl | rfl | rfl | rfl <;> norm_num
  obtain ⟨hmin, hmax⟩ := npMin_extremes hext
  have s1 : pixelSub (.int 16) (20000) (-20000) = -25536 := by
    unfold pixelSub; simp only
    rw [show (20000 : ℝ) - -20000 = ((40000 : ℤ) : ℝ) by norm_num, Int.floor_intCast]
    norm_num [Int.bmod]
  have s2 : pixelSub (.int 16) (-10000) (-20000) = 10000 := by
    unfold pixelSub; simp only
    rw [show (-10000 : ℝ) - -20000 = ((10000 : ℤ) : ℝ) by norm_num, Int.floor_intCast]
    norm_num [Int.bmod]
  have s3 : pixelSub (.int 16) 0 (-20000) = 20000 := by
    unfold pixelSub; simp only
    rw [show (0 : ℝ) - -20000 = ((20000 : ℤ) : ℝ) by norm_num, Int.floor_intCast]
    norm_num [Int.bmod]
  refine ⟨_, fun x => toUint8 wrapCast .float (255 * pixelSub (.int 16) x (-20000) / pixelSub (.int 16) 20000 (-20000)), hp, ?_, ?_, ?_⟩
  · unfold saveImageData
    rw [if_pos (by decide), if_pos (by simp), hp, hmin, ok_bind, hmax, ok_bind, if_pos (by norm_num), if_neg (by simp)]
  · simp only
    rw [s1, s2]
    unfold toUint8 wrapCast truncInt
    simp only
    rw [if_neg (by norm_num), if_neg (by norm_num)]
    have : ⌈(255 * 10000 / -25536 : ℝ)⌉ = -99 := by rw [Int.ceil_eq_iff]; norm_num
    rw [this]; norm_num
  · simp only
    rw [s1, s3]
    unfold toUint8 wrapCast truncInt
    simp only
    rw [if_neg (by norm_num), if_neg (by norm_num)]
    have : ⌈(255 * 20000 / -25536 : ℝ)⌉ = -199 := by rw [Int.ceil_eq_iff]; norm_num
    rw [this]; norm_num

/-- The hypotheses of `C59_scaled` are met by a 16-bit image with the pixels -100 and 1000. -/
example : ∃ img : Img, (∀ x ∈ img.pixels, PixelOf (.int 16) x) ∧ Extremes img.pixels (-100) 1000 ∧ DifferencesFit (.int 16) (-100) 1000 := by
  have hp : Img.pixels (.gray ⟨1, 2, fun _ j => if j = 0 then -100 else 1000⟩) = [-100, 1000] := by
    simp [Img.pixels, List.range_succ]
  refine ⟨.gray ⟨1, 2, fun _ j => if j = 0 then -100 else 1000⟩, ?_, ?_, ?_⟩
  · rw [hp]; intro x hx; simp at hx
    rcases hx with rfl | rfl
    · exact ⟨-100, by norm_num, by norm_num, by norm_num⟩
    · exact ⟨1000, by norm_num, by norm_num, by norm_num⟩
  · rw [hp]; refine ⟨by simp, by simp, ?_⟩
    intro x hx; simp at hx; rcases hx with rfl | rfl <;> norm_num
  · refine ⟨by norm_num, by norm_num⟩

example (castOut : ℝ → ℝ) := C59_constant castOut ".png".toList .float (.gray ⟨1, 2, fun _ _ => 7 / 2⟩) (7 / 2) (by simp) (by decide) (by
  simp [Extremes, Img.pixels, List.range_succ])

example (castOut : ℝ → ℝ) := C59_errors castOut ".png".toList (.gray ⟨1, 2, fun _ j => j⟩) .float (by simp) (by decide)

end Discorpy
