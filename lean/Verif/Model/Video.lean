import Verif.Model.Util
import Verif.Py.Loop

/-!
# Model of `unwarp_image_backward_cv2` and `unwarp_video_cv2` (`discorpy/util/utility.py`)

OpenCV is assumed to be installed (otherwise both functions raise `ValueError`). `cv2.remap` is an arbitrary `Sampler`, applied
per channel. The camera is a schedule: `reads k` is the result of the `k`-th call of `cam_obj.read()` (`none` if it fails),
`keys k` the key code `cv2.waitKey` returns after the `k`-th displayed frame (both counted from 0).
-/

namespace Discorpy

/-- What can be observed of the function. -/
inductive VideoEvent
  | shown (img : Img)
  | released
  | windowsClosed

/-- `mapping_cv2(mat, xd_mat, yd_mat)` for one channel — util/utility.py:345-377, with the coordinate matrices of 422-434 and
482-492: output shape `height × width` of the coordinate matrices, whatever the shape of `m`. -/
noncomputable def remapMat (S : Sampler) (rnd : ℝ → ℝ) (height width : ℕ) (xc yc : ℝ) (fact : List ℝ) (m : Mat ℝ) : Mat ℝ where
  height := height
  width := width
  get i j :=
    let xu := (j : ℝ) - xc
    let yu := (i : ℝ) - yc
    let f := polySum fact √(xu ^ 2 + yu ^ 2)
    S m (rnd (clip (yc + f * yu) 0 ((height : ℝ) - 1))) (rnd (clip (xc + f * xu) 0 ((width : ℝ) - 1)))

/-- `mapping_cv2` for grey and colour images. -/
noncomputable def remapImg (S : Sampler) (rnd : ℝ → ℝ) (height width : ℕ) (xc yc : ℝ) (fact : List ℝ) : Img → Img
  | .gray m => .gray (remapMat S rnd height width xc yc fact m)
  | .color h w n get => .color height width n fun i j c =>
      (remapMat S rnd height width xc yc fact (channel h w get c)).get i j

/-- `np.pad(img, pad_width, mode=pad_mode)` for non-negative widths. -/
noncomputable def padImg (fill : Mat ℝ → ℕ → ℕ → ℝ) (t b l r : ℕ) : Img → Img
  | .gray m => .gray (padMat fill m t b l r)
  | .color h w n get => .color (t + h + b) (l + w + r) n fun i j c => (padMat fill (channel h w get c) t b l r).get i j

/-- `mat.shape[:2]`. -/
def Img.dims : Img → ℕ × ℕ
  | .gray m => (m.height, m.width)
  | .color h w _ _ => (h, w)

/-- `len(mat.shape)`. -/
def Img.ndim : Img → ℕ
  | .gray _ => 2
  | .color _ _ _ _ => 3

/-- `unwarp_image_backward_cv2` — util/utility.py:380-436. A negative pad width raises `ValueError` in `np.pad`. -/
noncomputable def unwarpImageBackwardCv2 (lstsq : List (List ℝ) → List ℝ → List ℝ) (S : Sampler) (rnd : ℝ → ℝ)
    (fill : Mat ℝ → ℕ → ℕ → ℝ) (img : Img) (xcenter ycenter : ℝ) (fact : List ℝ) (pad : PadArg) : Except PyErr Img := do
  let p ← calcPad lstsq pad img.dims.1 img.dims.2 xcenter ycenter fact
  if p.t < 0 ∨ p.b < 0 ∨ p.l < 0 ∨ p.r < 0 then .error .valueError
  else
    let mp := padImg fill p.t.toNat p.b.toNat p.l.toNat p.r.toNat img
    .ok (remapImg S rnd mp.dims.1 mp.dims.2 (xcenter + p.l) (ycenter + p.t) fact mp)

/-- `(pad is False) or (pad == 0)` — util/utility.py:504. -/
def padOff : PadArg → Bool
  | .bool b => !b
  | .int n => n == 0
  | _ => false

/-- The body of the loop up to `cv2.imshow` — util/utility.py:504-510. `first` is the frame read before the loop: if that
read failed, `pad_width` is unbound (`NameError`). `pad_width` has as many pairs as `first` has axes; it cannot be applied to
a frame with another number of axes, and negative widths are rejected (`ValueError`). -/
noncomputable def videoFrame (S : Sampler) (rnd : ℝ → ℝ) (fill : Mat ℝ → ℕ → ℕ → ℝ) (height width : ℕ) (p : Pads) (xc yc : ℝ)
    (fact : List ℝ) (pad : PadArg) (first : Option Img) (frame : Img) : Except PyErr Img :=
  if padOff pad then .ok (remapImg S rnd height width xc yc fact frame)
  else match first with
    | none => .error .nameError
    | some f0 =>
      if frame.ndim ≠ f0.ndim ∨ p.t < 0 ∨ p.b < 0 ∨ p.l < 0 ∨ p.r < 0 then .error .valueError
      else .ok (remapImg S rnd height width xc yc fact (padImg fill p.t.toNat p.b.toNat p.l.toNat p.r.toNat frame))

/-- One turn of the loop — util/utility.py:501-514. State: number of calls of `read` so far, events so far. The loop ends with
the events and the exception raised, if any. -/
def videoStep (frameFn : Img → Except PyErr Img) (reads : ℕ → Option Img) (keys : ℕ → ℤ) (s : ℕ × List VideoEvent) :
    Except PyErr ((ℕ × List VideoEvent) ⊕ (List VideoEvent × Option PyErr)) :=
  match reads s.1 with
  | none => .ok (.inl (s.1 + 1, s.2))
  | some frame =>
    match frameFn frame with
    | .error e => .ok (.inr (s.2, some e))
    | .ok u =>
      if keys s.2.length = 27 then .ok (.inr (s.2 ++ [.shown u, .released, .windowsClosed], none))
      else .ok (.inl (s.1 + 1, s.2 ++ [.shown u]))

/-- `unwarp_video_cv2` — util/utility.py:439-514. The result is the list of observable events and the exception raised in the
loop; an error of `_calc_pad` occurs before anything else. -/
noncomputable def unwarpVideo (lstsq : List (List ℝ) → List ℝ → List ℝ) (S : Sampler) (rnd : ℝ → ℝ) (fill : Mat ℝ → ℕ → ℕ → ℝ)
    (camHeight camWidth : ℕ) (reads : ℕ → Option Img) (keys : ℕ → ℤ) (xcenter ycenter : ℝ) (fact : List ℝ) (pad : PadArg) :
    Except PyErr (List VideoEvent × Option PyErr) := do
  let p ← calcPad lstsq pad camHeight camWidth xcenter ycenter fact
  let width := (camWidth + p.l + p.r).toNat
  let height := (camHeight + p.t + p.b).toNat
  whileLoop (videoStep (videoFrame S rnd fill height width p (xcenter + p.l) (ycenter + p.t) fact pad (reads 0)) reads keys) (1, [])

end Discorpy
