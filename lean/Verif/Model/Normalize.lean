import Verif.Model.Binary
import Mathlib.Analysis.SpecialFunctions.Complex.Log

/-!
# Model of `discorpy/prep/preprocessing.py`, correction of the background

SciPy's `median_filter`, `fft2` and `ifft2` are modelled exactly, over the real and complex numbers. `np.pad` is given by the index
that replaces an index outside the axis, which covers all padding modes that repeat existing pixels. Results with `nan` or infinite
values are the error `nonFinite`.
-/

namespace Discorpy

/-- `mean_val * mat / mat_bck` with the mean value of the background — prep/preprocessing.py:66-73 and 151-158. The arrays of NumPy
do not raise `ZeroDivisionError`, hence the `except` branch is never reached: a background with a zero gives values that are not
finite. -/
noncomputable def divideBackground (m bck : Mat ℝ) : Except PyErr (Mat ℝ) := do
  let mean ← npMean bck.flat
  if (bck.flat.any fun b => decide (b = 0)) = true then .error .nonFinite
  else pure ⟨m.height, m.width, fun i j => mean * m.get i j / bck.get i j⟩

/-- `normalization` — prep/preprocessing.py:50-73, for `size >= 1`. (For an array without entries Python returns an array without
entries, the model an error.) -/
noncomputable def normalization (m : Mat ℝ) (size : ℕ) : Except PyErr (Mat ℝ) :=
  divideBackground m (medianFilter m size size)

/-- `_make_window` — prep/preprocessing.py:76-99. -/
noncomputable def makeWindow (h w : ℕ) (sigma : ℝ) (i j : ℕ) : ℝ :=
  let xcenter := ((w : ℝ) - 1) / 2
  let ycenter := ((h : ℝ) - 1) / 2
  let y := -ycenter + i
  let x := -xcenter + j
  let num := 2 * sigma * sigma
  Real.exp (-(x * x / num + y * y / num))

/-- `scipy.fftpack.fft2`. -/
noncomputable def fft2 (h w : ℕ) (f : ℕ → ℕ → ℂ) (u v : ℕ) : ℂ :=
  ∑ y ∈ Finset.range h, ∑ x ∈ Finset.range w,
    f y x * Complex.exp (-(2 * Real.pi * Complex.I * ((u : ℂ) * y / h + (v : ℂ) * x / w)))

/-- `scipy.fftpack.ifft2`. -/
noncomputable def ifft2 (h w : ℕ) (f : ℕ → ℕ → ℂ) (y x : ℕ) : ℂ :=
  (∑ u ∈ Finset.range h, ∑ v ∈ Finset.range w,
    f u v * Complex.exp (2 * Real.pi * Complex.I * ((u : ℂ) * y / h + (v : ℂ) * x / w))) / ((h : ℂ) * w)

/-- The filter applied to the padded image: `ifft2(fft2(mat * matsign) * window) * matsign` — prep/preprocessing.py:120-127. -/
noncomputable def fftFilter (h w : ℕ) (sigma : ℝ) (f : ℕ → ℕ → ℂ) (y x : ℕ) : ℂ :=
  ifft2 h w (fun u v => fft2 h w (fun y x => f y x * (-1) ^ (x + y)) u v * (makeWindow h w sigma u v : ℝ)) y x * (-1) ^ (x + y)

/-- The index that replaces `k` in `np.pad(..., mode="reflect")` of an axis of length `n` (`d c b | a b c d | c b a`). -/
def padReflect (n : ℕ) (k : ℤ) : ℕ :=
  let r := (k % (2 * n - 2 : ℕ)).toNat
  if r < n then r else 2 * n - 2 - r

/-- `_apply_fft_filter` — prep/preprocessing.py:102-128. Arrays without entries are rejected by `np.pad` or `fft2`; with `sigma = 0`
the window is zero or `nan`, in both cases the normalization is not finite. -/
noncomputable def applyFftFilter (padIdx : ℕ → ℤ → ℕ) (m : Mat ℝ) (sigma : ℝ) (pad : ℕ) : Except PyErr (Mat ℝ) :=
  if m.height = 0 ∨ m.width = 0 then .error .valueError
  else if sigma = 0 then .error .nonFinite
  else
    let padded : ℕ → ℕ → ℂ := fun y x => (m.get (padIdx m.height ((y : ℤ) - pad)) (padIdx m.width ((x : ℤ) - pad)) : ℝ)
    let out := fftFilter (m.height + 2 * pad) (m.width + 2 * pad) sigma padded
    pure ⟨m.height, m.width, fun i j => (out (i + pad) (j + pad)).re⟩

/-- `normalization_fft` — prep/preprocessing.py:131-158. -/
noncomputable def normalizationFft (padIdx : ℕ → ℤ → ℕ) (m : Mat ℝ) (sigma : ℝ) (pad : ℕ) : Except PyErr (Mat ℝ) := do
  let bck ← applyFftFilter padIdx m sigma pad
  divideBackground m bck

end Discorpy
