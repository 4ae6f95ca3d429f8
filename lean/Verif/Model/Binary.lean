import Verif.Model.Dots

/-!
# Model of `discorpy/prep/preprocessing.py`, from an image to dots

SciPy's `median_filter` (mode "reflect"), scikit-image's `clear_border` and `opening` with the five-pixel cross, and SciPy's
`binary_fill_holes` are modelled pixel by pixel; `threshold_otsu` is a parameter here
(see Model/Otsu.lean for its model).
-/

namespace Discorpy

/-- The index that replaces `k` when an axis of length `n` is continued by `mode="reflect"` (`d c b a | a b c d | d c b a`). -/
def reflectIdx (n : ℕ) (k : ℤ) : ℕ :=
  let r := (k % (2 * n : ℕ)).toNat
  if r < n then r else 2 * n - 1 - r

/-- The values in the window of `ndi.median_filter(mat, (h, w))` at a pixel. -/
def medianWindow (m : Mat ℝ) (h w i j : ℕ) : List ℝ :=
  (pixels h w).map fun p =>
    m.get (reflectIdx m.height ((i : ℤ) + p.1 - (h / 2 : ℕ))) (reflectIdx m.width ((j : ℤ) + p.2 - (w / 2 : ℕ)))

/-- `ndi.median_filter(mat, (h, w))`: the value of rank `h * w // 2` in the window. -/
noncomputable def medianFilter (m : Mat ℝ) (h w : ℕ) : Mat ℝ :=
  ⟨m.height, m.width, fun i j => ((medianWindow m h w i j).mergeSort fun a b => decide (a ≤ b)).getD (h * w / 2) 0⟩

/-- A position inside the array. -/
def InFrame {α : Type} (m : Mat α) (p : Pix) : Prop := p.1 < m.height ∧ p.2 < m.width

/-- A position in the first or last row or column. -/
def OnBorder {α : Type} (m : Mat α) (p : Pix) : Prop := p.1 = 0 ∨ p.1 + 1 = m.height ∨ p.2 = 0 ∨ p.2 + 1 = m.width

/-- Neighbours including the diagonal ones (and the pixel itself). -/
def Adj8 (p q : Pix) : Prop := p.1 ≤ q.1 + 1 ∧ q.1 ≤ p.1 + 1 ∧ p.2 ≤ q.2 + 1 ∧ q.2 ≤ p.2 + 1

/-- The two pixels get the same label from `skimage.measure.label` (full connectivity, components of equal values). -/
def SameObject (m : Mat ℝ) (p q : Pix) : Prop :=
  Relation.ReflTransGen (fun a b => InFrame m b ∧ Adj8 a b ∧ m.get a.1 a.2 = m.get b.1 b.2) p q

open Classical in
/-- `skimage.segmentation.clear_border`: components that reach the border are set to zero; an array without entries is a
`ValueError`. (skimage converts the array to integers before labelling it; here the values themselves are compared, which is the
same for arrays of integers, in particular for the binary arrays the functions are documented for.) -/
noncomputable def clearBorder (m : Mat ℝ) : Except PyErr (Mat ℝ) :=
  if m.height = 0 ∨ m.width = 0 then .error .valueError
  else .ok { m with get := fun i j => if ∃ q, InFrame m q ∧ OnBorder m q ∧ SameObject m (i, j) q then 0 else m.get i j }

/-- Erosion with `morph.disk(1)`: minimum over the pixel and its four direct neighbours; outside of the array a border pixel is
repeated. -/
noncomputable def erodeCross (m : Mat ℝ) : Mat ℝ :=
  { m with get := fun i j => min (m.get i j) (min (min (m.get (i - 1) j) (m.get (min (i + 1) (m.height - 1)) j))
      (min (m.get i (j - 1)) (m.get i (min (j + 1) (m.width - 1))))) }

/-- Dilation with `morph.disk(1)`: maximum over the same five pixels. -/
noncomputable def dilateCross (m : Mat ℝ) : Mat ℝ :=
  { m with get := fun i j => max (m.get i j) (max (max (m.get (i - 1) j) (m.get (min (i + 1) (m.height - 1)) j))
      (max (m.get i (j - 1)) (m.get i (min (j + 1) (m.width - 1))))) }

/-- `morph.opening(mat, morph.disk(1))`. -/
noncomputable def openingCross (m : Mat ℝ) : Mat ℝ := dilateCross (erodeCross m)

/-- A pixel of the image with value zero. -/
def IsDark (m : Mat ℝ) (p : Pix) : Prop := InFrame m p ∧ m.get p.1 p.2 = 0

open Classical in
/-- `np.int16(ndi.binary_fill_holes(mat))`: only the zero pixels that are connected to the border by zero pixels stay zero. -/
noncomputable def fillHoles (m : Mat ℝ) : Mat ℤ :=
  ⟨m.height, m.width, fun i j =>
    if ∃ q, OnBorder m q ∧ IsDark m (i, j) ∧ Relation.ReflTransGen (fun a b => Adj4 a b ∧ IsDark m b) (i, j) q then 0 else 1⟩

/-- The pixels above the threshold, `np.asarray(mat > thres, dtype=np.float32)`. -/
noncomputable def aboveMat (m : Mat ℝ) (t : ℝ) : Mat ℝ := { m with get := fun i j => if m.get i j > t then 1 else 0 }

/-- The threshold of `binarization` — prep/preprocessing.py:240-241. -/
noncomputable def chooseThreshold (otsu : Mat ℝ → Except PyErr ℝ) (m : Mat ℝ) (ratio : ℝ) : Option ℝ → Except PyErr ℝ
  | some t => .ok t
  | none => otsu (selectRoi m ratio false)

/-- `binarization` — prep/preprocessing.py:216-248. -/
noncomputable def binarization (otsu : Mat ℝ → Except PyErr ℝ) (m : Mat ℝ) (ratio : ℝ) (thres : Option ℝ) (denoise : Bool) :
    Except PyErr (Mat ℤ) := do
  let m := if denoise then medianFilter { m with get := fun i j => |m.get i j| } 2 2 else m
  let t ← chooseThreshold otsu m ratio thres
  let b ← invertDotsContrast (aboveMat m t)
  let b ← clearBorder b
  .ok (fillHoles (openingCross b))

/-- An integer array as a float array (`np.float32(mat)` of an int16 array; the values are exact). -/
def realMat (b : Mat ℤ) : Mat ℝ := ⟨b.height, b.width, fun i j => (b.get i j : ℝ)⟩

/-- One entry of `center_of_mass(mat, labels, index)` for a float array. -/
noncomputable def centerOfMassReal (m : Mat ℝ) (ps : List Pix) : Except PyErr Pt :=
  let w : ℝ := (ps.map fun p => m.get p.1 p.2).sum
  if w = 0 then .error .nonFinite
  else .ok ⟨(ps.map fun p => m.get p.1 p.2 * p.1).sum / w, (ps.map fun p => m.get p.1 p.2 * p.2).sum / w⟩

/-- `get_points_dot_pattern` — prep/preprocessing.py:966-997. -/
noncomputable def getPointsDotPattern (otsu : Mat ℝ → Except PyErr ℝ) (m : Mat ℝ) (binarize : Bool) (ratio : ℝ)
    (thres : Option ℝ) : Except PyErr (List Pt) :=
  if binarize then do
    let b ← binarization otsu m ratio thres true
    (dotReps b).mapM fun p => centerOfMass b (dotPixels b p)
  else do
    let hi ← npMax m.flat
    let lo ← npMin m.flat
    if hi ≠ 1 ∨ lo ≠ 0 then .error .valueError
    else (dotReps (int16Mat m)).mapM fun p => centerOfMassReal m (dotPixels (int16Mat m) p)

/-- The region of interest without the objects at its border, `np.int16(clear_border(_select_roi(mat, ratio)))` —
prep/preprocessing.py:293-294, 478, 529. -/
noncomputable def innerMask (m : Mat ℝ) (ratio : ℝ) : Except PyErr (Mat ℤ) := do
  let c ← clearBorder (selectRoi m ratio false)
  .ok (int16Mat c)

/-- The medians of the sizes and of the distances — prep/preprocessing.py:295-305. Distances: `np.sort(…)[1]`, an `IndexError`
for a single dot. -/
noncomputable def sizeDistanceOf (mat : Mat ℤ) : Except PyErr (ℝ × ℝ) := do
  let listSum := (dotReps mat).map fun p => ((dotPixels mat p).map fun q => (mat.get q.1 q.2 : ℝ)).sum
  let dotSize ← npMedian listSum
  let cents ← dotCentres mat
  let dists ← cents.mapM fun dot => npGet (sortedDists cents dot) 1
  let dotDist ← npMedian dists
  .ok (dotSize, dotDist)

/-- `calc_size_distance` — prep/preprocessing.py:274-305. -/
noncomputable def calcSizeDistance (m : Mat ℝ) (ratio : ℝ) : Except PyErr (ℝ × ℝ) := do
  let mat ← innerMask m ratio
  sizeDistanceOf mat

end Discorpy
