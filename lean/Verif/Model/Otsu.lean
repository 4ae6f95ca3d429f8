import Verif.Model.Binary

/-!
# Model: Otsu's threshold

`skimage.filters.threshold_otsu(image, nbins)`, which `binarization` calls (prep/preprocessing.py, line 242). It is modelled by the
steps of its code, over the reals.
-/

namespace Discorpy

/-- `np.cumsum(a)`. -/
noncomputable def npCumsum (l : List ℝ) : List ℝ := (List.range l.length).map fun k => (l.take (k + 1)).sum

/-- The end of `threshold_otsu`: the first centre of a bin with the largest variance between the two classes. -/
noncomputable def otsuOfHistogram (counts centers : List ℝ) : Except PyErr ℝ := do
  let weight1 := npCumsum counts
  let weight2 := (npCumsum counts.reverse).reverse
  let prod := List.zipWith (fun a b => a * b) counts centers
  let mean1 ← (List.zip (npCumsum prod) weight1).mapM fun p => finDiv p.1 p.2
  let mean2 ← (List.zip (npCumsum prod.reverse) weight2.reverse).mapM fun p => finDiv p.1 p.2
  let variance := List.zipWith (fun w m => w.1 * w.2 * (m.1 - m.2) ^ 2) (List.zip weight1.dropLast weight2.tail)
    (List.zip mean1.dropLast mean2.reverse.tail)
  let idx ← npArgmax variance
  npGet centers idx

/-- The bin of a value in `np.histogram(a, bins=n)`: bins of equal width from the least to the largest value; the largest value is in
the last bin. -/
noncomputable def binIndex (lo hi : ℝ) (n : ℕ) (x : ℝ) : ℕ := min ⌊(x - lo) / (hi - lo) * n⌋₊ (n - 1)

/-- The edges of the bins. -/
noncomputable def binEdge (lo hi : ℝ) (n k : ℕ) : ℝ := lo + (hi - lo) * k / n

/-- `np.histogram` and the centres of the bins, for images of floats. -/
noncomputable def floatHistogram (xs : List ℝ) (lo hi : ℝ) (n : ℕ) : List ℝ × List ℝ :=
  ((List.range n).map fun k => ((xs.countP fun x => binIndex lo hi n x = k : ℕ) : ℝ),
    (List.range n).map fun k => (binEdge lo hi n k + binEdge lo hi n (k + 1)) / 2)

/-- The histogram for images of integers: one bin for each integer from the least to the largest value, whatever `nbins` is. -/
noncomputable def intHistogram (xs : List ℝ) (lo hi : ℝ) : List ℝ × List ℝ :=
  ((List.range (⌊hi - lo⌋₊ + 1)).map fun k => ((xs.countP fun x => ⌊x - lo⌋₊ = k : ℕ) : ℝ),
    (List.range (⌊hi - lo⌋₊ + 1)).map fun k : ℕ => lo + (k : ℝ))

/-- `threshold_otsu(image, nbins)`; an image with a single value gives this value. -/
noncomputable def thresholdOtsu (integer : Bool) (nbins : ℕ) (m : Mat ℝ) : Except PyErr ℝ :=
  match m.flat with
  | [] => .error .indexError
  | x :: r =>
    open Classical in
    if ∀ y ∈ r, y = x then .ok x
    else do
      let lo ← npMin (x :: r)
      let hi ← npMax (x :: r)
      let h := if integer then intHistogram (x :: r) lo hi else floatHistogram (x :: r) lo hi nbins
      otsuOfHistogram h.1 h.2

end Discorpy
