import Verif.Model.Util
import Verif.Lemmas.Scatter
import Verif.Lemmas.Image

/-! # Helper lemmas about the point mapping -/

namespace Discorpy

open Spec

theorem findPointToPoint_eq (row col xc yc : ℝ) (fact : List ℝ) (order : String) :
    findPointToPoint row col xc yc fact order =
      if order = "xy" then ((radialMap ⟨yc, xc⟩ fact ⟨row, col⟩).x, (radialMap ⟨yc, xc⟩ fact ⟨row, col⟩).y)
      else ((radialMap ⟨yc, xc⟩ fact ⟨row, col⟩).y, (radialMap ⟨yc, xc⟩ fact ⟨row, col⟩).x) := by
  unfold findPointToPoint radialMap ptDist
  simp only [polySum_eq_radial, ← pow_two]

theorem unwarpLineForward_eq (store : ℝ → ℝ) (lines : List (List Pt)) (xc yc : ℝ) (fact : List ℝ) :
    unwarpLineForward store lines xc yc fact = lines.map fun line => line.map fun p =>
      { x := store (radialMap ⟨yc, xc⟩ fact p).x, y := store (radialMap ⟨yc, xc⟩ fact p).y } := by
  unfold unwarpLineForward radialMap ptDist
  simp only [polySum_eq_radial, ← pow_two]

theorem radialMap_one (c : Pt) (n : ℕ) (p : Pt) : radialMap c (1 :: List.replicate n 0) p = p := by
  unfold radialMap
  rw [← polySum_eq_radial, polySum_one]
  ext <;> simp

theorem ptDist_scale (c p : Pt) {k : ℝ} (hk : 0 ≤ k) :
    ptDist ⟨c.y + k * (p.y - c.y), c.x + k * (p.x - c.x)⟩ c = k * ptDist p c := by
  unfold ptDist
  simp only [add_sub_cancel_left]
  rw [show (k * (p.x - c.x)) ^ 2 + (k * (p.y - c.y)) ^ 2 = k ^ 2 * ((p.x - c.x) ^ 2 + (p.y - c.y) ^ 2) by ring,
    Real.sqrt_mul (by positivity), Real.sqrt_sq hk]

/-- The forward target of pixel `p` in the model is where the specification says it lands. -/
theorem forwardIndex_eq_iff {h w : ℕ} (hh : 0 < h) (hw : 0 < w) (xc yc : ℝ) (fact : List ℝ) (p q : ℕ × ℕ) :
    forwardIndex h w xc yc fact p = ((q.1 : ℤ), (q.2 : ℤ)) ↔ LandsAt h w ⟨yc, xc⟩ fact p q := by
  have hh1 : (1 : ℝ) ≤ h := by exact_mod_cast hh
  have hw1 : (1 : ℝ) ≤ w := by exact_mod_cast hw
  unfold forwardIndex LandsAt radialMap ptDist
  simp only [Prod.mk.injEq, roundHalfEven_eq_iff, polySum_eq_radial]
  rw [clip_eq_clampTo (by linarith), clip_eq_clampTo (by linarith)]

theorem forwardIndex_mem {h w : ℕ} (hh : 0 < h) (hw : 0 < w) (xc yc : ℝ) (fact : List ℝ) (p : ℕ × ℕ) :
    0 ≤ (forwardIndex h w xc yc fact p).1 ∧ (forwardIndex h w xc yc fact p).1 < h ∧
    0 ≤ (forwardIndex h w xc yc fact p).2 ∧ (forwardIndex h w xc yc fact p).2 < w := by
  have hh1 : (1 : ℝ) ≤ h := by exact_mod_cast hh
  have hw1 : (1 : ℝ) ≤ w := by exact_mod_cast hw
  unfold forwardIndex
  have a := roundHalfEven_mono_mem (n := h) (clip_ge (x := yc + polySum fact
    (√(((p.2 : ℝ) - xc) ^ 2 + ((p.1 : ℝ) - yc) ^ 2)) * ((p.1 : ℝ) - yc)) (by linarith : (0:ℝ) ≤ (h : ℝ) - 1)) clip_le
  have b := roundHalfEven_mono_mem (n := w) (clip_ge (x := xc + polySum fact
    (√(((p.2 : ℝ) - xc) ^ 2 + ((p.1 : ℝ) - yc) ^ 2)) * ((p.2 : ℝ) - xc)) (by linarith : (0:ℝ) ≤ (w : ℝ) - 1)) clip_le
  exact ⟨a.1, a.2, b.1, b.2⟩

end Discorpy
