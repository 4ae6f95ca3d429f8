import Verif.Model.Video
import Verif.Lemmas.Loop

/-! # C53 — video unwarping -/

namespace Discorpy

/-- The frames successfully read in the calls number 1, …, n of `read` (call number 0 is made before the loop). -/
def framesRead (reads : ℕ → Option Img) (n : ℕ) : List Img := (List.range n).filterMap fun k => reads (k + 1)

theorem framesRead_succ_none {reads : ℕ → Option Img} {n : ℕ} (h : reads (n + 1) = none) : framesRead reads (n + 1) = framesRead reads n := by
  unfold framesRead; rw [List.range_succ, List.filterMap_append]; simp [h]

theorem framesRead_succ_some {reads : ℕ → Option Img} {n : ℕ} {f : Img} (h : reads (n + 1) = some f) :
    framesRead reads (n + 1) = framesRead reads n ++ [f] := by
  unfold framesRead; rw [List.range_succ, List.filterMap_append]; simp [h]

/-- **C53 (running).** As long as ESC has not been pressed, after n further calls of `read` exactly the frames read
successfully in these calls have been shown, each once, in order and unwarped, and nothing else has happened. The frame of the
very first call is never shown. -/
theorem C53_running (F : Img → Except PyErr Img) (reads : ℕ → Option Img) (keys : ℕ → ℤ) (g : Img → Img) (n : ℕ)
    (hF : ∀ f ∈ framesRead reads n, F f = .ok (g f)) (hk : ∀ k < (framesRead reads n).length, keys k ≠ 27) :
    stateAfter (videoStep F reads keys) n (1, []) = some (n + 1, (framesRead reads n).map fun f => VideoEvent.shown (g f)) := by
  induction n with
  | zero => rfl
  | succ n ih =>
    cases hr : reads (n + 1) with
    | none =>
      rw [framesRead_succ_none hr] at hF hk ⊢
      rw [stateAfter, ih hF hk]
      simp only [videoStep, hr]
    | some f =>
      rw [framesRead_succ_some hr] at hF hk ⊢
      rw [stateAfter, ih (fun f hf => hF f (by simp [hf])) (fun k hk' => hk k (by simp; omega))]
      simp only [videoStep, hr, hF f (by simp), List.length_map]
      rw [if_neg (hk _ (by simp))]
      simp

/-- **C53 (ESC).** If ESC is pressed for the first time after the frame read in call n + 1, then all frames read successfully in
the calls 1, …, n + 1 are shown once and in order, then the camera is released and the windows are closed, and the function
returns. -/
theorem C53_esc (F : Img → Except PyErr Img) (reads : ℕ → Option Img) (keys : ℕ → ℤ) (g : Img → Img) (n : ℕ) (f : Img)
    (hF : ∀ f ∈ framesRead reads (n + 1), F f = .ok (g f)) (hf : reads (n + 1) = some f)
    (hk : ∀ k < (framesRead reads n).length, keys k ≠ 27) (hesc : keys (framesRead reads n).length = 27) :
    whileLoop (videoStep F reads keys) (1, []) =
      .ok ((framesRead reads (n + 1)).map (fun f => VideoEvent.shown (g f)) ++ [.released, .windowsClosed], none) := by
  rw [framesRead_succ_some hf] at hF ⊢
  rw [stateAfter_whileLoop (C53_running F reads keys g n (fun f hf => hF f (by simp [hf])) hk), whileLoop_unfold]
  simp only [videoStep, hf, hF f (by simp), List.length_map, if_pos hesc]
  simp

/-- **C53 (no end without ESC).** If ESC is never pressed while a frame is shown, the function never returns; the camera is
never released. In particular this is so if all reads fail from some point on, as at the end of a video file. -/
theorem C53_never (F : Img → Except PyErr Img) (reads : ℕ → Option Img) (keys : ℕ → ℤ) (g : Img → Img)
    (hF : ∀ n, ∀ f ∈ framesRead reads n, F f = .ok (g f)) (hk : ∀ n, ∀ k < (framesRead reads n).length, keys k ≠ 27) :
    whileLoop (videoStep F reads keys) (1, []) = .error .diverges :=
  whileLoop_diverges fun n => ⟨_, C53_running F reads keys g n (hF n) (hk n)⟩

/-- **C53 (release).** If the function returns, the camera has been released once, after the last shown frame; if it raises an
exception in the loop, the camera has not been released. -/
theorem C53_release (F : Img → Except PyErr Img) (reads : ℕ → Option Img) (keys : ℕ → ℤ) {evs : List VideoEvent} {o : Option PyErr}
    (h : whileLoop (videoStep F reads keys) (1, []) = .ok (evs, o)) :
    (o = none ∧ ∃ imgs : List Img, evs = imgs.map .shown ++ [.released, .windowsClosed]) ∨
    (o ≠ none ∧ ∃ imgs : List Img, evs = imgs.map .shown) := by
  refine whileLoop_inv (fun s => ∃ imgs : List Img, s.2 = imgs.map .shown)
    (fun r => (r.2 = none ∧ ∃ imgs : List Img, r.1 = imgs.map .shown ++ [.released, .windowsClosed]) ∨
      (r.2 ≠ none ∧ ∃ imgs : List Img, r.1 = imgs.map .shown)) ?_ ?_ ⟨[], rfl⟩ h
  · rintro ⟨k, es⟩ s' ⟨imgs, hs⟩ hst
    simp only at hs
    subst hs
    unfold videoStep at hst
    split at hst
    · cases hst; exact ⟨imgs, rfl⟩
    · split at hst
      · cases hst
      · rename_i u _
        split at hst
        · cases hst
        · cases hst; exact ⟨imgs ++ [u], by simp⟩
  · rintro ⟨k, es⟩ r ⟨imgs, hs⟩ hst
    simp only at hs
    subst hs
    unfold videoStep at hst
    split at hst
    · cases hst
    · split at hst
      · cases hst; exact Or.inr ⟨by simp, imgs, rfl⟩
      · rename_i u _
        split at hst
        · cases hst; exact Or.inl ⟨rfl, imgs ++ [u], by simp⟩
        · cases hst

/-- **C53 (the whole function, no padding).** With `pad=False` or `pad=0` the loop above is run with the plain unwarping, and no
exception is possible. -/
theorem C53_no_pad (lstsq : List (List ℝ) → List ℝ → List ℝ) (S : Sampler) (rnd : ℝ → ℝ) (fill : Mat ℝ → ℕ → ℕ → ℝ)
    (h w : ℕ) (reads : ℕ → Option Img) (keys : ℕ → ℤ) (xc yc : ℝ) (fact : List ℝ) (pad : PadArg)
    (hpad : pad = .bool false ∨ pad = .int 0) :
    unwarpVideo lstsq S rnd fill h w reads keys xc yc fact pad =
      whileLoop (videoStep (fun f => .ok (remapImg S rnd h w xc yc fact f)) reads keys) (1, []) := by
  unfold unwarpVideo
  rcases hpad with rfl | rfl <;>
  · simp only [calcPad, ok_bind, add_zero, Int.cast_zero, Int.toNat_natCast]
    rfl

theorem padOff_eq_false {pad : PadArg} (h : ¬ (pad = .bool false ∨ pad = .int 0)) : padOff pad = false := by
  cases pad with
  | bool b => cases b <;> simp_all [padOff]
  | int n => simpa [padOff] using h
  | seq l => rfl
  | other => rfl

/-- **C53 (the whole function, padding).** With padding on, a first read that succeeded, and frames of the reported size and of
the same kind as the first frame, the loop is run with the function `unwarp_image_backward_cv2`. -/
theorem C53_pad (lstsq : List (List ℝ) → List ℝ → List ℝ) (S : Sampler) (rnd : ℝ → ℝ) (fill : Mat ℝ → ℕ → ℕ → ℝ)
    (h w : ℕ) (xc yc : ℝ) (fact : List ℝ) (pad : PadArg) (p : Pads) (hpad : ¬ (pad = .bool false ∨ pad = .int 0))
    (hp : calcPad lstsq pad h w xc yc fact = .ok p) (f0 f : Img) (hd : f.dims = (h, w)) (hn : f.ndim = f0.ndim) :
    videoFrame S rnd fill (h + p.t + p.b).toNat (w + p.l + p.r).toNat p (xc + p.l) (yc + p.t) fact pad (some f0) f =
      unwarpImageBackwardCv2 lstsq S rnd fill f xc yc fact pad := by
  unfold videoFrame unwarpImageBackwardCv2
  rw [hd, hp, ok_bind]
  simp only [padOff_eq_false hpad, hn, ne_eq, not_true, false_or, Bool.false_eq_true, if_false]
  by_cases h0 : p.t < 0 ∨ p.b < 0 ∨ p.l < 0 ∨ p.r < 0
  · rw [if_pos h0, if_pos h0]
  · rw [if_neg h0, if_neg h0]
    have e1 : (padImg fill p.t.toNat p.b.toNat p.l.toNat p.r.toNat f).dims.1 = (h + p.t + p.b).toNat := by
      cases f <;> (simp only [Img.dims, Prod.mk.injEq] at hd; simp only [padImg, Img.dims, padMat]; omega)
    have e2 : (padImg fill p.t.toNat p.b.toNat p.l.toNat p.r.toNat f).dims.2 = (w + p.l + p.r).toNat := by
      cases f <;> (simp only [Img.dims, Prod.mk.injEq] at hd; simp only [padImg, Img.dims, padMat]; omega)
    rw [e1, e2]

/-- **C53 (the whole function, padding).** If the first read succeeds and all frames have the reported size and the kind of the
first frame, then the function shows the results of `unwarp_image_backward_cv2` for the frames. -/
theorem C53_pad_whole (lstsq : List (List ℝ) → List ℝ → List ℝ) (S : Sampler) (rnd : ℝ → ℝ) (fill : Mat ℝ → ℕ → ℕ → ℝ)
    (h w : ℕ) (reads : ℕ → Option Img) (keys : ℕ → ℤ) (xc yc : ℝ) (fact : List ℝ) (pad : PadArg) (p : Pads)
    (hpad : ¬ (pad = .bool false ∨ pad = .int 0)) (hp : calcPad lstsq pad h w xc yc fact = .ok p) (f0 : Img) (h0 : reads 0 = some f0)
    (hf : ∀ n f, reads n = some f → f.dims = (h, w) ∧ f.ndim = f0.ndim) :
    unwarpVideo lstsq S rnd fill h w reads keys xc yc fact pad =
      whileLoop (videoStep (fun f => unwarpImageBackwardCv2 lstsq S rnd fill f xc yc fact pad) reads keys) (1, []) := by
  unfold unwarpVideo
  rw [hp, ok_bind]
  simp only
  congr 1
  funext s
  unfold videoStep
  cases hr : reads s.1 with
  | none => rfl
  | some f =>
    obtain ⟨hd, hn⟩ := hf _ f hr
    simp only
    rw [h0, C53_pad lstsq S rnd fill h w xc yc fact pad p hpad hp f0 f hd hn]

/-- **C53 (failing first read).** If the very first read fails and padding is on, the next successful read crashes with a
`NameError` before anything is shown, and the camera is not released. -/
theorem C53_first_read_fails (lstsq : List (List ℝ) → List ℝ → List ℝ) (S : Sampler) (rnd : ℝ → ℝ) (fill : Mat ℝ → ℕ → ℕ → ℝ)
    (h w : ℕ) (reads : ℕ → Option Img) (keys : ℕ → ℤ) (xc yc : ℝ) (fact : List ℝ) (pad : PadArg) (p : Pads)
    (hpad : ¬ (pad = .bool false ∨ pad = .int 0)) (hp : calcPad lstsq pad h w xc yc fact = .ok p) (h0 : reads 0 = none)
    (hsome : ∃ n f, reads n = some f) :
    unwarpVideo lstsq S rnd fill h w reads keys xc yc fact pad = .ok ([], some .nameError) := by
  classical
  have hex : ∃ n, (reads n).isSome := by
    obtain ⟨n, f, hf⟩ := hsome
    exact ⟨n, by rw [hf]; rfl⟩
  have hmin := fun m => Nat.find_min hex (m := m)
  have hfind := Nat.find_spec hex
  generalize Nat.find hex = N at hmin hfind
  obtain ⟨n, rfl⟩ : ∃ n, N = n + 1 := by
    cases N with
    | zero => rw [h0] at hfind; cases hfind
    | succ n => exact ⟨n, rfl⟩
  obtain ⟨f, hf⟩ := Option.isSome_iff_exists.1 hfind
  have hnil : framesRead reads n = [] := by
    unfold framesRead
    rw [List.filterMap_eq_nil_iff]
    intro k hk
    have := hmin (k + 1) (by have := List.mem_range.1 hk; omega)
    simpa using this
  unfold unwarpVideo
  rw [hp, ok_bind]
  simp only
  rw [stateAfter_whileLoop (C53_running _ reads keys id n (by rw [hnil]; simp) (by rw [hnil]; simp)), whileLoop_unfold]
  simp only [videoStep, hf, hnil, List.map_nil, videoFrame, padOff_eq_false hpad, h0, Bool.false_eq_true, if_false]

/-- The hypotheses can be met: a video of three frames where one read fails and ESC is pressed at the second displayed frame … -/
example (S : Sampler) (a b c : Img) : ∃ r, unwarpVideo (fun _ _ => []) S id (fun _ _ _ => 0) 4 4
    (fun k => if k = 0 then some a else if k = 1 then some b else if k = 3 then some c else none)
    (fun k => if k = 1 then 27 else -1) 0 0 [1] (.bool false) = .ok r ∧ r.2 = none ∧ r.1.length = 4 := by
  rw [C53_no_pad _ _ _ _ _ _ _ _ _ _ _ _ (Or.inl rfl)]
  refine ⟨_, C53_esc _ _ _ (remapImg S id 4 4 0 0 [1]) 2 c (fun f _ => rfl) (by simp) ?_ ?_, rfl, ?_⟩ <;>
    simp [framesRead, List.range_succ]

/-- … and one that never ends: a single frame and no key. -/
example (S : Sampler) (a b : Img) : unwarpVideo (fun _ _ => []) S id (fun _ _ _ => 0) 4 4
    (fun k => if k = 0 then some a else if k = 1 then some b else none) (fun _ => -1) 0 0 [1] (.bool false) = .error .diverges := by
  rw [C53_no_pad _ _ _ _ _ _ _ _ _ _ _ _ (Or.inl rfl)]
  exact C53_never _ _ _ (remapImg S id 4 4 0 0 [1]) (fun _ f _ => rfl) (fun _ _ _ => by norm_num)

/-- Two frames and a failed read, no key. -/
example (S : Sampler) (a b : Img) := C53_running (fun f => .ok (remapImg S id 4 4 0 0 [1] f)) (fun k => if k = 1 then some a else if k = 3 then some b else none)
  (fun _ => -1) (remapImg S id 4 4 0 0 [1]) 3 (fun _ _ => rfl) (by simp)

/-- A video of one more frame, at which ESC is pressed: the camera is released. -/
example (g : Img → Img) (a : Img) : ∃ evs, whileLoop (videoStep (fun f => .ok (g f)) (fun k => if k = 1 then some a else none) (fun _ => 27)) (1, []) = .ok (evs, none) ∧
    ∃ imgs : List Img, evs = imgs.map .shown ++ [.released, .windowsClosed] := by
  have h := C53_esc (fun f => .ok (g f)) (fun k => if k = 1 then some a else none) (fun _ => 27) g 0 a (fun _ _ => rfl) (by simp) (by simp [framesRead]) (by simp)
  exact ⟨_, h, ((C53_release _ _ _ h).resolve_right fun h => h.1 rfl).2⟩

/-- Frames of 2 × 2 pixels with one pixel on each side. -/
example (lstsq : List (List ℝ) → List ℝ → List ℝ) (S : Sampler) (rnd : ℝ → ℝ) (fill : Mat ℝ → ℕ → ℕ → ℝ) :=
  C53_pad lstsq S rnd fill 2 2 0 0 [1] (.int 1) ⟨1, 1, 1, 1⟩ (by simp) rfl (.gray ⟨2, 2, fun _ _ => 0⟩) (.gray ⟨2, 2, fun i j => (i + j : ℕ)⟩) rfl rfl

example (lstsq : List (List ℝ) → List ℝ → List ℝ) (S : Sampler) (rnd : ℝ → ℝ) (fill : Mat ℝ → ℕ → ℕ → ℝ) (keys : ℕ → ℤ) :=
  C53_pad_whole lstsq S rnd fill 2 2 (fun k => some (.gray ⟨2, 2, fun i j => (i + j + k : ℕ)⟩)) keys 0 0 [1] (.int 1) ⟨1, 1, 1, 1⟩ (by simp) rfl _ rfl
    (by intro n f h; cases h; exact ⟨rfl, rfl⟩)

example (lstsq : List (List ℝ) → List ℝ → List ℝ) (S : Sampler) (rnd : ℝ → ℝ) (fill : Mat ℝ → ℕ → ℕ → ℝ) (keys : ℕ → ℤ) :=
  C53_first_read_fails lstsq S rnd fill 2 2 (fun k => if k = 0 then none else some (.gray ⟨2, 2, fun i j => (i + j + k : ℕ)⟩)) keys 0 0 [1] (.int 1) ⟨1, 1, 1, 1⟩ (by simp) rfl rfl
    ⟨1, _, rfl⟩

end Discorpy
