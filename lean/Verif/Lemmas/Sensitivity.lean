import Verif.Spec.Sensitivity
import Verif.Lemmas.Point
import Verif.Lemmas.Accuracy

/-! # Lemmas: models that differ a little -/

namespace Discorpy

open Spec

theorem radial_cons (a : ℝ) (l : List ℝ) (r : ℝ) : radial (a :: l) r = a + r * radial l r := by
  unfold radial
  rw [show (∑ i : Fin (a :: l).length, (a :: l)[i] * r ^ (i : ℕ)) = ∑ i : Fin (l.length + 1), (a :: l)[i] * r ^ (i : ℕ) from rfl,
    Fin.sum_univ_succ, Finset.mul_sum]
  simp only [Fin.getElem_fin, Fin.val_zero, List.getElem_cons_zero, pow_zero, mul_one, Fin.val_succ, List.getElem_cons_succ, pow_succ]
  congr 1
  refine Finset.sum_congr rfl fun i _ => ?_
  ring

theorem radial_nil (r : ℝ) : radial [] r = 0 := by
  simp [radial]

theorem radial_diff (f f' : List ℝ) (hl : f'.length = f.length) (r R : ℝ) (h0 : 0 ≤ r) (hR : r ≤ R) :
    |radial f r - radial f' r| ≤ radial (List.zipWith (fun a b => |a - b|) f f') R := by
  induction f generalizing f' with
  | nil =>
    rw [List.length_nil, List.length_eq_zero_iff] at hl
    subst hl
    simp [radial_nil]
  | cons a l ih =>
    cases f' with
    | nil => simp at hl
    | cons b l' =>
      have := ih l' (by simpa using hl)
      rw [List.zipWith_cons_cons, radial_cons, radial_cons, radial_cons]
      rw [show a + r * radial l r - (b + r * radial l' r) = (a - b) + r * (radial l r - radial l' r) by ring]
      refine (abs_add_le _ _).trans ?_
      rw [abs_mul, abs_of_nonneg h0]
      have h2 : r * |radial l r - radial l' r| ≤ R * radial (List.zipWith (fun a b => |a - b|) l l') R :=
        mul_le_mul hR this (abs_nonneg _) (h0.trans hR)
      linarith

theorem sub_le_ptDist (p q : Pt) : |p.y - q.y| ≤ ptDist p q ∧ |p.x - q.x| ≤ ptDist p q := by
  unfold ptDist
  exact ⟨Real.abs_le_sqrt (by nlinarith [sq_nonneg (p.x - q.x)]), Real.abs_le_sqrt (by nlinarith [sq_nonneg (p.y - q.y)])⟩

theorem steps_le_ptDist (V U : ℝ) (p q : Pt) : V * |p.y - q.y| + U * |p.x - q.x| ≤ √(V ^ 2 + U ^ 2) * ptDist p q := by
  unfold ptDist
  rw [← Real.sqrt_mul (by positivity)]
  refine Real.le_sqrt_of_sq_le ?_
  have a := sq_abs (p.y - q.y)
  have b := sq_abs (p.x - q.x)
  nlinarith [sq_nonneg (V * |p.x - q.x| - U * |p.y - q.y|)]

theorem clip_dist (a b lo hi : ℝ) : |clip a lo hi - clip b lo hi| ≤ |a - b| := by
  unfold clip
  exact (abs_min_sub_min_le_max _ _ _ _).trans (by
    rw [sub_self, abs_zero, max_eq_left (abs_nonneg _)]
    refine (abs_max_sub_max_le_max _ _ _ _).trans ?_
    rw [sub_self, abs_zero, max_eq_left (abs_nonneg _)])

end Discorpy
