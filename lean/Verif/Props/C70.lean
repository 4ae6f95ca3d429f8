import Verif.Spec.ImageIO
import Verif.Lemmas.ImageIO

/-! # C70 — averaging of colour images -/

namespace Discorpy

open Spec

/-- **C70 (channel mean).** A colour image with fewer channels than rows and columns is loaded, and saved to a `.tif` file, as the image of
the same size with the mean of the channels at each pixel. -/
theorem C70_channels (castOut : ℝ → ℝ) (suffix : PyStr) (hsuf : suffix = ".tif".toList ∨ suffix = ".tiff".toList) (t : PixelType) (h w c : ℕ)
    (get : ℕ → ℕ → ℕ → ℝ) (hc : 0 < c) (hh : c < h) (hw : c < w) :
    loadImageData (.color h w c get) true = .ok (.gray ⟨h, w, channelMean c get⟩) ∧
    saveImageData castOut suffix t (.color h w c get) = .ok (.gray ⟨h, w, channelMean c get⟩) := by
  have hm : meanLeastAxis h w c get = .ok ⟨h, w, channelMean c get⟩ := by
    unfold meanLeastAxis
    rw [if_neg (by omega), if_neg (by omega), if_neg (by omega)]
    congr 2
  constructor
  · unfold loadImageData
    simp only [if_true, hm, ok_bind]
  · unfold saveImageData
    rw [if_neg (not_not.2 hsuf)]
    simp only [hm, ok_bind]

example (castOut : ℝ → ℝ) := C70_channels castOut ".tif".toList (.inl rfl) .float 4 5 3 (fun i j k => i + j + k) (by norm_num) (by norm_num) (by norm_num)

/-- **C70 (no average).** Without `average` a colour image is loaded as it is; a grey image always is. -/
theorem C70_unchanged (m : Mat ℝ) (h w c : ℕ) (get : ℕ → ℕ → ℕ → ℝ) (average : Bool) :
    loadImageData (.color h w c get) false = .ok (.color h w c get) ∧ loadImageData (.gray m) average = .ok (.gray m) :=
  ⟨rfl, rfl⟩

/-- **C70 (round trip).** A grey image saved to a `.tif` file is loaded unchanged. -/
theorem C70_roundtrip (castOut : ℝ → ℝ) (suffix : PyStr) (hsuf : suffix = ".tif".toList ∨ suffix = ".tiff".toList) (t : PixelType) (m : Mat ℝ)
    (average : Bool) : (do loadImageData (← saveImageData castOut suffix t (.gray m)) average) = .ok (.gray m) := by
  unfold saveImageData
  rw [if_neg (not_not.2 hsuf)]
  rfl

example (castOut : ℝ → ℝ) := C70_roundtrip castOut ".tif".toList (.inl rfl) .float ⟨2, 2, fun i j => i + 2 * j⟩ true

/-- **C70 (few rows).** With at most as many rows as channels and columns the rows are averaged, and the loaded image has the channels as its
columns: a crop of 3 rows of an RGB image is not loaded as an image with 3 rows. -/
theorem C70_few_rows (h w c : ℕ) (get : ℕ → ℕ → ℕ → ℝ) (h0 : 0 < h) (hw : h ≤ w) (hc : h ≤ c) :
    ∃ m, loadImageData (.color h w c get) true = .ok (.gray m) ∧ m.height = w ∧ m.width = c ∧
      ∀ j k, m.get j k = (∑ i ∈ Finset.range h, get i j k) / h := by
  have hm : meanLeastAxis h w c get = .ok ⟨w, c, fun j k => ((List.range h).map fun i => get i j k).sum / h⟩ := by
    unfold meanLeastAxis
    rw [if_neg (by omega), if_pos ⟨hw, hc⟩]
  refine ⟨⟨w, c, fun j k => ((List.range h).map fun i => get i j k).sum / h⟩, (by unfold loadImageData; simp only [if_true, hm, ok_bind]),
    rfl, rfl, fun j k => ?_⟩
  simp only
  rw [sum_map_range]

/-- **C70 (few columns).** With at most as many columns as channels, and fewer columns than rows, the columns are averaged. -/
theorem C70_few_columns (h w c : ℕ) (get : ℕ → ℕ → ℕ → ℝ) (h0 : 0 < w) (hw : w < h) (hc : w ≤ c) :
    ∃ m, loadImageData (.color h w c get) true = .ok (.gray m) ∧ m.height = h ∧ m.width = c ∧
      ∀ i k, m.get i k = (∑ j ∈ Finset.range w, get i j k) / w := by
  have hm : meanLeastAxis h w c get = .ok ⟨h, c, fun i k => ((List.range w).map fun j => get i j k).sum / w⟩ := by
    unfold meanLeastAxis
    rw [if_neg (by omega), if_neg (by omega), if_pos hc]
  refine ⟨⟨h, c, fun i k => ((List.range w).map fun j => get i j k).sum / w⟩, (by unfold loadImageData; simp only [if_true, hm, ok_bind]),
    rfl, rfl, fun j k => ?_⟩
  simp only
  rw [sum_map_range]

example := C70_few_columns 5 3 3 (fun i j k => i + j + k) (by norm_num) (by norm_num) (by norm_num)

/-- An RGB image of 4 × 5 pixels meets the hypotheses; one of 3 × 5 pixels is loaded as 5 × 3. -/
example : (0 < 3 ∧ 3 < 4 ∧ 3 < 5) ∧ ∃ m, loadImageData (.color 3 5 3 fun i j k => i + j + k) true = .ok (.gray m) ∧ m.height = 5 ∧ m.width = 3 := by
  obtain ⟨m, h1, h2, h3, -⟩ := C70_few_rows 3 5 3 (fun i j k => i + j + k) (by norm_num) (by norm_num) (by norm_num)
  exact ⟨by norm_num, m, h1, h2, h3⟩

end Discorpy
