import Verif.Lemmas.FourPoints
import Verif.Props.C15

/-! # C17, C18: perspective coefficients from point correspondences -/

namespace Discorpy

open Spec Matrix

/-- **C17.** If some projective map sends every source dot to its target, the coefficients returned in the `forward`
direction send every source dot they do not send to infinity to its target. Any number of dots. -/
theorem C17_forward_exact (lstsq : LstsqFn) (h : LstsqSpec lstsq) (s t : List Pt) (hne : s ≠ []) (c0 : Fin 8 → ℝ)
    (hex : List.Forall₂ (IsImage (coefMatrix c0)) s t) :
    ∃ c : Fin 8 → ℝ, calcPerspectiveCoefs lstsq s t "forward" = .ok (List.ofFn c) ∧
      List.Forall₂ (fun p q => FiniteAt (coefMatrix c) p → IsImage (coefMatrix c) p q) s t := by
  have hl := hex.length_eq
  have hz := List.forall₂_iff_zip.1 hex
  obtain ⟨c, e, hc⟩ := calcPerspectiveCoefs_solves h s t hne (by rintro rfl; simp at hl; exact hne hl) hl.ge c0
    (fun p hp => ((isImage_iff_solvesAt _ _ _).1 (hz.2 hp)).2)
  refine ⟨c, e, List.forall₂_iff_zip.2 ⟨hl, fun {p q} hp hf => ?_⟩⟩
  exact (isImage_iff_solvesAt _ _ _).2 ⟨hf, hc _ hp⟩

/-- **C17** (through the API): then `correct_perspective_line` with these coefficients moves the sources exactly onto the
targets. -/
theorem C17_corrects (lstsq : LstsqFn) (h : LstsqSpec lstsq) (s t : List Pt) (hne : s ≠ []) (c0 : Fin 8 → ℝ)
    (hex : List.Forall₂ (IsImage (coefMatrix c0)) s t) :
    ∃ c : Fin 8 → ℝ, calcPerspectiveCoefs lstsq s t "forward" = .ok (List.ofFn c) ∧
      ((∀ p ∈ s, FiniteAt (coefMatrix c) p) → correctPerspectiveLine [s] (List.ofFn c) = .ok [t]) := by
  obtain ⟨c, e, hc⟩ := C17_forward_exact lstsq h s t hne c0 hex
  refine ⟨c, e, fun hf => ?_⟩
  obtain ⟨out, eo, ho⟩ := C15_line_is_projective c [s] (by simpa using hne) (by simpa using hf)
  rw [eo]
  congr 1
  match out, ho with
  | [o], .cons h1 .nil =>
    congr 1
    clear eo e ho hex
    induction h1 generalizing t with
    | nil => cases hc; rfl
    | @cons a b l l' hab _ ih =>
      cases hc with
      | @cons _ d _ t' h1 h2 =>
        have hu := hab.unique (h1 (hf a (by simp)))
        rw [hu]
        congr 1
        rcases l with _ | ⟨x, l⟩
        · cases h2; cases ‹List.Forall₂ _ [] l'›; rfl
        · exact ih t' (by simp) h2 (fun p hp => hf p (by simp [hp]))

/-- **C17** (recovery). If four of the sources have no three collinear and the map is invertible, the coefficients are
recovered exactly. -/
theorem C17_recovers (lstsq : LstsqFn) (h : LstsqSpec lstsq) (s t : List Pt) (c0 : Fin 8 → ℝ)
    (hex : List.Forall₂ (IsImage (coefMatrix c0)) s t) (hdet : (coefMatrix c0).det ≠ 0) (p : Fin 4 → Pt)
    (hp : ∀ i, p i ∈ s) (hgen : ∀ i j k : Fin 4, i ≠ j → j ≠ k → i ≠ k → ¬ Collinear3 (p i) (p j) (p k)) :
    calcPerspectiveCoefs lstsq s t "forward" = .ok (List.ofFn c0) := by
  have hne : s ≠ [] := List.ne_nil_of_mem (hp 0)
  have hl := hex.length_eq
  have hz := List.forall₂_iff_zip.1 hex
  obtain ⟨c, e, hc⟩ := calcPerspectiveCoefs_solves h s t hne (by rintro rfl; simp at hl; exact hne hl) hl.ge c0
    (fun p hp => ((isImage_iff_solvesAt _ _ _).1 (hz.2 hp)).2)
  have hq : ∀ i, ∃ q, (p i, q) ∈ s.zip t := by
    intro i
    obtain ⟨n, hn, en⟩ := List.getElem_of_mem (hp i)
    exact ⟨t[n]'(by omega), by rw [← en]; exact List.mem_iff_getElem.2 ⟨n, by simp; omega, by simp⟩⟩
  choose q hq using hq
  have := coefs_unique c c0 p q hdet hgen (fun i => hz.2 (hq i)) (fun i => hc _ (hq i))
  rw [e, this]

/-- **C17** (errors): no source or no target raises `ValueError`; fewer sources than targets raises `LinAlgError`. -/
theorem C17_errors (lstsq : LstsqFn) (s t : List Pt) :
    ((s = [] ∨ t = []) → calcPerspectiveCoefs lstsq s t "forward" = .error .valueError) ∧
    (s ≠ [] → s.length < t.length → calcPerspectiveCoefs lstsq s t "forward" = .error .linAlgError) := by
  constructor
  · intro hst
    simp [calcPerspectiveCoefs, hst]
  · intro hs hlt
    have ht : t ≠ [] := by rintro rfl; simp at hlt
    unfold calcPerspectiveCoefs
    simp only [if_true, hs, ht, or_self, if_false]
    rw [if_pos]
    rw [system_length, rhs_length]
    omega

/-- Non-vacuity: the unit square in general position, moved by a genuinely projective invertible map. -/
example : (coefMatrix ![1, 0, 0, 0, 1, 0, 1, 0]).det ≠ 0 ∧
    (∀ i j k : Fin 4, i ≠ j → j ≠ k → i ≠ k →
      ¬ Collinear3 (![⟨0, 0⟩, ⟨0, 1⟩, ⟨1, 0⟩, ⟨1, 1⟩] i) (![⟨0, 0⟩, ⟨0, 1⟩, ⟨1, 0⟩, ⟨1, 1⟩] j)
        (![⟨0, 0⟩, ⟨0, 1⟩, ⟨1, 0⟩, ⟨1, 1⟩] k)) ∧
    List.Forall₂ (IsImage (coefMatrix ![1, 0, 0, 0, 1, 0, 1, 0]))
      [⟨0, 0⟩, ⟨0, 1⟩, ⟨1, 0⟩, ⟨1, 1⟩] [⟨0, 0⟩, ⟨0, 1 / 2⟩, ⟨1, 0⟩, ⟨1 / 2, 1 / 2⟩] := by
  refine ⟨?_, ?_, ?_⟩
  · rw [Matrix.det_fin_three]; simp [coefMatrix]
  · intro i j k
    fin_cases i <;> fin_cases j <;> fin_cases k <;> simp [Collinear3]
  · refine .cons ?_ (.cons ?_ (.cons ?_ (.cons ?_ .nil))) <;> rw [isImage_coef_iff] <;> simp <;> norm_num

/-- **C18.** Every mapping string other than `"forward"` solves the forward problem of the exchanged points. -/
theorem C18_backward_is_swapped_forward (lstsq : LstsqFn) (s t : List Pt) (mapping : String) (hm : mapping ≠ "forward") :
    calcPerspectiveCoefs lstsq s t mapping = calcPerspectiveCoefs lstsq t s "forward" := by
  unfold calcPerspectiveCoefs
  simp [hm]

/-- **C18** (with C17): when the sources are images of the targets, the default (backward) coefficients take the targets
to the sources — the map `correct_perspective_image` samples. -/
theorem C18_backward_exact (lstsq : LstsqFn) (h : LstsqSpec lstsq) (s t : List Pt) (hne : t ≠ []) (c0 : Fin 8 → ℝ)
    (hex : List.Forall₂ (IsImage (coefMatrix c0)) t s) (mapping : String) (hm : mapping ≠ "forward") :
    ∃ c : Fin 8 → ℝ, calcPerspectiveCoefs lstsq s t mapping = .ok (List.ofFn c) ∧
      List.Forall₂ (fun p q => FiniteAt (coefMatrix c) p → IsImage (coefMatrix c) p q) t s := by
  rw [C18_backward_is_swapped_forward lstsq s t mapping hm]
  exact C17_forward_exact lstsq h t s hne c0 hex

/-- Non-vacuity: "backward" is such a string; and so is any other, even a misspelt one. -/
example : "backward" ≠ "forward" ∧ "Forward" ≠ "forward" := by decide

/-- The corners of a square and their images under `(x, y) ↦ (x, y) / (1 + x)`. -/
theorem square_images : List.Forall₂ (IsImage (coefMatrix ![1, 0, 0, 0, 1, 0, 1, 0]))
    [⟨0, 0⟩, ⟨0, 1⟩, ⟨1, 0⟩, ⟨1, 1⟩] [⟨0, 0⟩, ⟨0, 1 / 2⟩, ⟨1, 0⟩, ⟨1 / 2, 1 / 2⟩] := by
  refine .cons ?_ (.cons ?_ (.cons ?_ (.cons ?_ .nil))) <;> rw [isImage_coef_iff] <;> simp <;> norm_num

example := C17_forward_exact refLstsq refLstsq_spec _ _ (by simp) _ square_images

example := C17_corrects refLstsq refLstsq_spec _ _ (by simp) _ square_images

example := C18_backward_is_swapped_forward refLstsq [⟨0, 0⟩, ⟨0, 1⟩] [⟨0, 0⟩, ⟨0, 1 / 2⟩] "backward" (by decide)

example := C18_backward_exact refLstsq refLstsq_spec _ _ (by simp) _ square_images "backward" (by decide)

example : calcPerspectiveCoefs refLstsq [⟨0, 0⟩, ⟨0, 1⟩, ⟨1, 0⟩, ⟨1, 1⟩] [⟨0, 0⟩, ⟨0, 1 / 2⟩, ⟨1, 0⟩, ⟨1 / 2, 1 / 2⟩] "forward" =
    .ok (List.ofFn ![1, 0, 0, 0, 1, 0, 1, 0]) := by
  refine C17_recovers refLstsq refLstsq_spec _ _ _ square_images ?_ ![⟨0, 0⟩, ⟨0, 1⟩, ⟨1, 0⟩, ⟨1, 1⟩] ?_ ?_
  · rw [Matrix.det_fin_three]; simp [coefMatrix]
  · intro i
    fin_cases i <;> simp
  · intro i j k
    fin_cases i <;> fin_cases j <;> fin_cases k <;> simp [Collinear3]

end Discorpy
