import Verif.Lemmas.Point

/-! # C11: forward image unwarping only copies pixels, inside the frame -/

namespace Discorpy

open Spec

/-- **C11.** For every non-empty image `unwarp_image_forward` succeeds (no index is out of bounds), keeps the shape, and
an output pixel is `0` if no source pixel lands on it, otherwise the value of the last pixel in row-major order that lands
on it. -/
theorem C11_forward_scatter (m : Mat ℝ) (xc yc : ℝ) (coefs : List ℝ) (hh : 0 < m.height) (hw : 0 < m.width) :
    ∃ out, unwarpImageForward m xc yc coefs = .ok out ∧ out.height = m.height ∧ out.width = m.width ∧
      ∀ q : ℕ × ℕ, q.1 < m.height → q.2 < m.width →
        ((∀ p : ℕ × ℕ, p.1 < m.height → p.2 < m.width → ¬ LandsAt m.height m.width ⟨yc, xc⟩ coefs p q) →
          out.get q.1 q.2 = 0) ∧
        (∀ p : ℕ × ℕ, p.1 < m.height → p.2 < m.width → LandsAt m.height m.width ⟨yc, xc⟩ coefs p q →
          (∀ p' : ℕ × ℕ, p'.1 < m.height → p'.2 < m.width → RowMajorLT p p' →
            ¬ LandsAt m.height m.width ⟨yc, xc⟩ coefs p' q) →
          out.get q.1 q.2 = m.get p.1 p.2) := by
  obtain ⟨out, e, h1, h2, h3⟩ := foldlM_setItem (forwardIndex m.height m.width xc yc coefs)
    (fun p => m.get p.1 p.2) (pixels m.height m.width)
    { height := m.height, width := m.width, get := fun _ _ => (0 : ℝ) }
    (fun p _ => forwardIndex_mem hh hw xc yc coefs p)
  refine ⟨out, e, h1, h2, fun q _ _ => ⟨fun hno => ?_, fun p hp1 hp2 hl hlast => ?_⟩⟩
  · rw [h3]
    have : (pixels m.height m.width).reverse.find?
        (fun p => decide (forwardIndex m.height m.width xc yc coefs p = ((q.1 : ℤ), (q.2 : ℤ)))) = none := by
      rw [List.find?_eq_none]
      intro p hp
      rw [List.mem_reverse, mem_pixels] at hp
      simp only [decide_eq_true_eq, forwardIndex_eq_iff hh hw]
      exact hno p hp.1 hp.2
    rw [this]
  · rw [h3]
    have : (pixels m.height m.width).reverse.find?
        (fun p => decide (forwardIndex m.height m.width xc yc coefs p = ((q.1 : ℤ), (q.2 : ℤ)))) = some p := by
      apply reverse_find?_eq_some (pixels_sorted m.height m.width) (mem_pixels.2 ⟨hp1, hp2⟩)
      · simp only [decide_eq_true_eq, forwardIndex_eq_iff hh hw]; exact hl
      · intro b hb hlt
        rw [mem_pixels] at hb
        simp only [decide_eq_false_iff_not, forwardIndex_eq_iff hh hw]
        exact hlast b hb.1 hb.2 hlt
    rw [this]

/-- **C11** (consequence): every output pixel is `0` or one of the input pixels that land there. -/
theorem C11_forward_only_copies (m : Mat ℝ) (xc yc : ℝ) (coefs : List ℝ) (hh : 0 < m.height) (hw : 0 < m.width) :
    ∃ out, unwarpImageForward m xc yc coefs = .ok out ∧
      ∀ q : ℕ × ℕ, q.1 < m.height → q.2 < m.width →
        out.get q.1 q.2 = 0 ∨ ∃ p : ℕ × ℕ, p.1 < m.height ∧ p.2 < m.width ∧
          LandsAt m.height m.width ⟨yc, xc⟩ coefs p q ∧ out.get q.1 q.2 = m.get p.1 p.2 := by
  obtain ⟨out, e, h1, h2, h3⟩ := foldlM_setItem (forwardIndex m.height m.width xc yc coefs)
    (fun p => m.get p.1 p.2) (pixels m.height m.width)
    { height := m.height, width := m.width, get := fun _ _ => (0 : ℝ) }
    (fun p _ => forwardIndex_mem hh hw xc yc coefs p)
  refine ⟨out, e, fun q _ _ => ?_⟩
  rw [h3]
  cases hf : (pixels m.height m.width).reverse.find?
      (fun p => decide (forwardIndex m.height m.width xc yc coefs p = ((q.1 : ℤ), (q.2 : ℤ)))) with
  | none => left; rfl
  | some p =>
    right
    have hm := List.mem_of_find?_eq_some hf
    have hp := List.find?_some hf
    rw [List.mem_reverse, mem_pixels] at hm
    simp only [decide_eq_true_eq, forwardIndex_eq_iff hh hw] at hp
    exact ⟨p, hm.1, hm.2, hp, rfl⟩

example := C11_forward_only_copies ⟨2, 2, fun i j => (10 * i + j + 1 : ℕ)⟩ 0 0 [1, 1 / 2] (by norm_num) (by norm_num)

/-- Non-trivial instance: with `F = 0` about pixel `(0,0)` every pixel of a 2×2 image lands on `(0,0)`; the last one wins
and pixel `(1,1)` stays vacant. -/
example : ∃ out, unwarpImageForward ⟨2, 2, fun i j => (10 * i + j + 1 : ℕ)⟩ 0 0 [0] = .ok out ∧
    out.get 0 0 = 12 ∧ out.get 1 1 = 0 := by
  obtain ⟨out, e, _, _, h⟩ := C11_forward_scatter ⟨2, 2, fun i j => (10 * i + j + 1 : ℕ)⟩ 0 0 [0]
    (by norm_num) (by norm_num)
  refine ⟨out, e, ?_, ?_⟩
  · have := (h (0, 0) (by norm_num) (by norm_num)).2 (1, 1) (by norm_num) (by norm_num) ?_ ?_
    · rw [this]; norm_num
    · constructor <;> left <;> norm_num [radialMap, radial, clampTo]
    · rintro ⟨a, b⟩ ha hb hlt
      simp only [RowMajorLT] at ha hb hlt
      omega
  · refine (h (1, 1) (by norm_num) (by norm_num)).1 ?_
    rintro ⟨a, b⟩ _ _ ⟨hl, _⟩
    rcases hl with hl | ⟨hl, _⟩ <;> norm_num [radialMap, radial, clampTo] at hl

end Discorpy
