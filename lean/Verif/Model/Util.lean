import Verif.Model.Transform

/-!
# Model of `discorpy/util/utility.py`: point mapping, padding, colour unwarping
-/

namespace Discorpy

/-- `find_point_to_point` — util/utility.py:192-230. `points = (row, column)`; any order string other than `"xy"` gives
`(y, x)`. -/
noncomputable def findPointToPoint (row col : ℝ) (xcenter ycenter : ℝ) (fact : List ℝ) (order : String) :
    ℝ × ℝ :=
  let xi := col - xcenter
  let yi := row - ycenter
  let ri := √(xi * xi + yi * yi)
  let factor := polySum fact ri
  let xo := xcenter + factor * xi
  let yo := ycenter + factor * yi
  if order = "xy" then (xo, yo) else (yo, xo)

/-- The values the `pad` argument can take: `bool`, `int`, `tuple`/`list` of ints, anything else. -/
inductive PadArg
  | bool (b : Bool)
  | int (n : ℤ)
  | seq (l : List ℤ)
  | other

/-- Pad widths `(top, bottom, left, right)`. -/
structure Pads where
  t : ℤ
  b : ℤ
  l : ℤ
  r : ℤ

/-- `ref_points` of `_calc_pad` — util/utility.py:240-242 (`np.linspace(0, n, 40)`). -/
noncomputable def padRefPoints (height width : ℕ) (xcenter ycenter : ℝ) : List Pt :=
  (List.range 40).flatMap fun i : ℕ => (List.range 40).map fun j : ℕ =>
    { y := (i : ℝ) * height / 39 - ycenter, x := (j : ℝ) * width / 39 - xcenter }

/-- `_calc_pad` — util/utility.py:233-275. -/
noncomputable def calcPad (lstsq : List (List ℝ) → List ℝ → List ℝ) (pad : PadArg) (height width : ℕ)
    (xcenter ycenter : ℝ) (fact : List ℝ) : Except PyErr Pads :=
  match pad with
  | .bool false => .ok ⟨0, 0, 0, 0⟩
  | .bool true => do
    let tf ← transformCoef lstsq fact "backward" (some (padRefPoints height width xcenter ycenter))
    let tl := findPointToPoint 0 0 xcenter ycenter tf "xy"
    let tr := findPointToPoint 0 ((width : ℝ) - 1) xcenter ycenter tf "xy"
    let br := findPointToPoint ((height : ℝ) - 1) ((width : ℝ) - 1) xcenter ycenter tf "xy"
    let bl := findPointToPoint ((height : ℝ) - 1) 0 xcenter ycenter tf "xy"
    let lVal := min tl.1 bl.1
    let lPad := if lVal < 0 then truncInt (-lVal) else 0
    let rVal := max tr.1 br.1
    let rPad := if rVal > width then truncInt (rVal - width) else 0
    let tVal := min tl.2 tr.2
    let tPad := if tVal < 0 then truncInt (-tVal) else 0
    let bVal := max bl.2 br.2
    let bPad := if bVal > height then truncInt (bVal - height) else 0
    .ok ⟨tPad, bPad, lPad, rPad⟩
  | .int n => .ok ⟨n, n, n, n⟩
  | .seq [t, b, l, r] => .ok ⟨t, b, l, r⟩
  | .seq _ => .error .valueError
  | .other => .error .valueError

/-- A 2D or a colour (3D, channels last) image. -/
inductive Img
  | gray (m : Mat ℝ)
  | color (height width channels : ℕ) (get : ℕ → ℕ → ℕ → ℝ)

/-- `np.pad(mat, [(t, b), (l, r)], mode=pad_mode)` for one channel; `fill m` gives the value of the new pixels (any
padding mode). -/
noncomputable def padMat (fill : Mat ℝ → ℕ → ℕ → ℝ) (m : Mat ℝ) (t b l r : ℕ) : Mat ℝ where
  height := t + m.height + b
  width := l + m.width + r
  get i j :=
    if t ≤ i ∧ i < t + m.height ∧ l ≤ j ∧ j < l + m.width then m.get (i - t) (j - l) else fill m i j

/-- Channel `c` of a colour image. -/
def channel (height width : ℕ) (get : ℕ → ℕ → ℕ → ℝ) (c : ℕ) : Mat ℝ := ⟨height, width, fun i j => get i j c⟩

/-- Unwarping of one padded channel — util/utility.py:320-334, 338-340. -/
noncomputable def unwarpPadded (S : Sampler) (rnd : ℝ → ℝ) (fill : Mat ℝ → ℕ → ℕ → ℝ) (m : Mat ℝ)
    (p : Pads) (xcenter ycenter : ℝ) (fact : List ℝ) : Mat ℝ :=
  let mp := padMat fill m p.t.toNat p.b.toNat p.l.toNat p.r.toNat
  let xc := xcenter + (p.l : ℝ)
  let yc := ycenter + (p.t : ℝ)
  { height := mp.height
    width := mp.width
    get := fun i j =>
      let xu := (j : ℝ) - xc
      let yu := (i : ℝ) - yc
      let ru := √(xu ^ 2 + yu ^ 2)
      let f := polySum fact ru
      let xd := rnd (clip (xc + f * xu) 0 ((mp.width : ℝ) - 1))
      let yd := rnd (clip (yc + f * yu) 0 ((mp.height : ℝ) - 1))
      S mp yd xd }

/-- `unwarp_color_image_backward` — util/utility.py:278-342. `np.pad` raises `ValueError` on a negative width; the padding
value may depend on the channel. (`np.asarray` of an empty channel list followed by `moveaxis` also fails; 0-channel images
are excluded by the theorems.) -/
noncomputable def unwarpColorImageBackward (lstsq : List (List ℝ) → List ℝ → List ℝ) (S : Sampler)
    (rnd : ℝ → ℝ) (fill : Mat ℝ → ℕ → ℕ → ℝ) (img : Img) (xcenter ycenter : ℝ) (fact : List ℝ)
    (pad : PadArg) : Except PyErr Img := do
  let (height, width) := match img with
    | .gray m => (m.height, m.width)
    | .color h w _ _ => (h, w)
  let p ← calcPad lstsq pad height width xcenter ycenter fact
  if p.t < 0 ∨ p.b < 0 ∨ p.l < 0 ∨ p.r < 0 then .error .valueError
  else match img with
    | .gray m => .ok (.gray (unwarpPadded S rnd fill m p xcenter ycenter fact))
    | .color h w n get =>
      .ok (.color (p.t.toNat + h + p.b.toNat) (p.l.toNat + w + p.r.toNat) n fun i j c =>
        (unwarpPadded S rnd fill (channel h w get c) p xcenter ycenter fact).get i j)

end Discorpy
