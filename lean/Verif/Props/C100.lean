import Verif.Spec.TwoWays
import Verif.Props.C11
import Verif.Props.C98

/-! # C100 — the two ways of unwarping an image agree -/

namespace Discorpy

open Spec

/-- **C100 (stretching).** A radial model that stretches radii and circles by at most `K` stretches all distances by at most `K`. -/
theorem C100_stretch {K R : ℝ} {g : List ℝ} (h : StretchesAtMost K R g) (c p q : Pt) (hp : ptDist p c ≤ R) (hq : ptDist q c ≤ R) :
    ptDist (radialMap c g p) (radialMap c g q) ≤ K * ptDist p q := by
  set r := ptDist p c with hr
  set s := ptDist q c with hs
  have hr0 : 0 ≤ r := Real.sqrt_nonneg _
  have hs0 : 0 ≤ s := Real.sqrt_nonneg _
  have er : r ^ 2 = (p.x - c.x) ^ 2 + (p.y - c.y) ^ 2 := by rw [hr, ptDist, Real.sq_sqrt (by positivity)]
  have es : s ^ 2 = (q.x - c.x) ^ 2 + (q.y - c.y) ^ 2 := by rw [hs, ptDist, Real.sq_sqrt (by positivity)]
  have k1 := h.1 r hr0 hp
  have k2 := h.1 s hs0 hq
  have k3 := h.2 r s hr0 hp hs0 hq
  have hK : 0 ≤ K := (abs_nonneg _).trans k1
  set a := radial g r with ha
  set b := radial g s with hb
  set d := (p.x - c.x) * (q.x - c.x) + (p.y - c.y) * (q.y - c.y) with hd
  have hcs : d ≤ r * s := by
    refine le_trans (le_abs_self d) (abs_le_of_sq_le_sq ?_ (by positivity))
    rw [mul_pow, er, es, hd]
    nlinarith [sq_nonneg ((p.x - c.x) * (q.y - c.y) - (p.y - c.y) * (q.x - c.x))]
  have hab : a * b ≤ K * K := by
    refine (le_abs_self _).trans ?_
    rw [abs_mul]
    exact mul_le_mul k1 k2 (abs_nonneg _) hK
  have h4 : (r * a - s * b) ^ 2 ≤ K ^ 2 * (r - s) ^ 2 := by
    have := pow_le_pow_left₀ (abs_nonneg _) k3 2
    rwa [sq_abs, mul_pow, sq_abs] at this
  have h5 : a * b * (r * s - d) ≤ K * K * (r * s - d) := mul_le_mul_of_nonneg_right hab (by linarith)
  have e1 : ptDist (radialMap c g p) (radialMap c g q) = √((r * a - s * b) ^ 2 + 2 * (a * b * (r * s - d))) := by
    unfold ptDist
    congr 1
    simp only [radialMap, ← hr, ← hs, ← ha, ← hb]
    have : (r * a - s * b) ^ 2 + 2 * (a * b * (r * s - d)) = a ^ 2 * r ^ 2 + b ^ 2 * s ^ 2 - 2 * a * b * d := by ring
    rw [this, er, es, hd]
    ring
  have e2 : K * ptDist p q = √(K ^ 2 * (r - s) ^ 2 + 2 * (K * K * (r * s - d))) := by
    have : K ^ 2 * (r - s) ^ 2 + 2 * (K * K * (r * s - d)) = K ^ 2 * ((p.x - q.x) ^ 2 + (p.y - q.y) ^ 2) := by
      have : K ^ 2 * (r - s) ^ 2 + 2 * (K * K * (r * s - d)) = K ^ 2 * (r ^ 2 + s ^ 2 - 2 * d) := by ring
      rw [this, er, es, hd]
      ring
    rw [this, Real.sqrt_mul (by positivity), Real.sqrt_sq hK, ptDist]
  rw [e1, e2]
  exact Real.sqrt_le_sqrt (by linarith)

/-- Halving all distances. -/
example (c p q : Pt) (hp : ptDist p c ≤ 8) (hq : ptDist q c ≤ 8) := C100_stretch (K := 1 / 2) (R := 8) (g := [1 / 2]) (by
  refine ⟨fun r _ _ => ?_, fun r s _ _ _ _ => ?_⟩
  · rw [show radial [1 / 2] r = 1 / 2 by simp [radial], abs_of_pos (by norm_num)]
  · rw [show radial [1 / 2] r = 1 / 2 by simp [radial], show radial [1 / 2] s = 1 / 2 by simp [radial], ← sub_mul, abs_mul, mul_comm, abs_of_pos (by norm_num : (0 : ℝ) < 1 / 2)]) c p q hp hq

theorem last_landing {m : Mat ℝ} {c : Pt} {f : List ℝ} {q : ℕ × ℕ} (h : ∃ p : ℕ × ℕ, p.1 < m.height ∧ p.2 < m.width ∧ LandsAt m.height m.width c f p q) :
    ∃ p : ℕ × ℕ, p.1 < m.height ∧ p.2 < m.width ∧ LandsAt m.height m.width c f p q ∧
      ∀ p' : ℕ × ℕ, p'.1 < m.height → p'.2 < m.width → RowMajorLT p p' → ¬ LandsAt m.height m.width c f p' q := by
  classical
  obtain ⟨p0, a1, a2, a3⟩ := h
  let s := (Finset.range m.height ×ˢ Finset.range m.width).filter fun p => LandsAt m.height m.width c f p q
  have hs : s.Nonempty := ⟨p0, by simp [s, a1, a2, a3]⟩
  obtain ⟨p, hp, hmax⟩ := Finset.exists_max_image s (fun p => p.1 * m.width + p.2) hs
  simp only [s, Finset.mem_filter, Finset.mem_product, Finset.mem_range] at hp hmax
  refine ⟨p, hp.1.1, hp.1.2, hp.2, fun p' b1 b2 hlt hland => ?_⟩
  have := hmax p' ⟨⟨b1, b2⟩, hland⟩
  rcases hlt with h | ⟨h, h'⟩
  · have h2 : (p.1 + 1) * m.width ≤ p'.1 * m.width := Nat.mul_le_mul_right _ h
    have h3 := hp.1.2
    rw [Nat.add_mul, one_mul] at h2
    omega
  · rw [h] at this
    omega

theorem nearest_half {x : ℝ} {n : ℤ} (h : IsNearestEven x n) : |x - n| ≤ 1 / 2 := by
  rcases h with h | h
  · exact h.le
  · exact h.1.le

theorem clampTo_of_mem {n v : ℝ} (h0 : 0 ≤ v) (h1 : v ≤ n) : clampTo n v = v := by
  unfold clampTo
  rw [min_eq_right h1, max_eq_right h0]

/-- **C100.** Let the backward model be the inverse of the forward model at the pixels that `unwarp_image_forward` moves to the pixel `q`. Then
`unwarp_image_backward` has nearly the same value at `q`: the difference is at most the difference of neighbouring pixels times half a diagonal of a
pixel, enlarged by the stretching of the backward model, plus the rounding of the coordinates. -/
theorem C100_agree (B : Boundary) {rnd : ℝ → ℝ} (hr : CoordRounding rnd) {δ : ℝ} (m : Mat ℝ) (hδ : RoundsBy δ rnd m)
    (V U : ℝ) (hV : 0 ≤ V) (hU : 0 ≤ U) (hs : StepsAtMost V U m) (c : Pt) (f g : List ℝ) (K R : ℝ) (hK : StretchesAtMost K R g)
    (hR : ∀ y x, InFrame m y x → ptDist ⟨y, x⟩ c ≤ R) (hh : m.height ≤ 2 ^ 24) (hw : m.width ≤ 2 ^ 24) (hh0 : 0 < m.height) (hw0 : 0 < m.width) :
    ∃ out, unwarpImageForward m c.x c.y f = .ok out ∧ ∀ q : ℕ × ℕ, q.1 < m.height → q.2 < m.width →
      (∃ p : ℕ × ℕ, p.1 < m.height ∧ p.2 < m.width ∧ LandsAt m.height m.width c f p q) →
      (∀ p : ℕ × ℕ, p.1 < m.height → p.2 < m.width → LandsAt m.height m.width c f p q →
        InFrame m (radialMap c f ⟨p.1, p.2⟩).y (radialMap c f ⟨p.1, p.2⟩).x ∧ radialMap c g (radialMap c f ⟨p.1, p.2⟩) = ⟨p.1, p.2⟩) →
      |out.get q.1 q.2 - (unwarpImageBackward (linearInterp B) rnd m c.x c.y g).get q.1 q.2| ≤ (V + U) * (K * (√2 / 2) + δ) := by
  obtain ⟨out, e, _, _, hout⟩ := C11_forward_scatter m c.x c.y f hh0 hw0
  refine ⟨out, e, fun q hq1 hq2 hex hinv => ?_⟩
  obtain ⟨p, hp1, hp2, hland, hlast⟩ := last_landing hex
  rw [(hout q hq1 hq2).2 p hp1 hp2 hland hlast]
  obtain ⟨hin, hback⟩ := hinv p hp1 hp2 hland
  have hq1' : (q.1 : ℝ) + 1 ≤ m.height := by exact_mod_cast hq1
  have hq2' : (q.2 : ℝ) + 1 ≤ m.width := by exact_mod_cast hq2
  have hp1' : (p.1 : ℝ) + 1 ≤ m.height := by exact_mod_cast hp1
  have hp2' : (p.2 : ℝ) + 1 ≤ m.width := by exact_mod_cast hp2
  have hqf : InFrame m (q.1 : ℝ) (q.2 : ℝ) := ⟨by positivity, by linarith, by positivity, by linarith⟩
  have hpf : InFrame m (p.1 : ℝ) (p.2 : ℝ) := ⟨by positivity, by linarith, by positivity, by linarith⟩
  obtain ⟨l1, l2⟩ := hland
  have n1 := nearest_half l1
  have n2 := nearest_half l2
  rw [clampTo_of_mem hin.1 hin.2.1] at n1
  rw [clampTo_of_mem hin.2.2.1 hin.2.2.2] at n2
  have hdq : ptDist ⟨q.1, q.2⟩ (radialMap c f ⟨p.1, p.2⟩) ≤ √2 / 2 := by
    have := ptDist_le (p := ⟨q.1, q.2⟩) (q := radialMap c f ⟨p.1, p.2⟩) (d := 1 / 2) (by rw [abs_sub_comm]; exact_mod_cast n1)
      (by rw [abs_sub_comm]; exact_mod_cast n2)
    linarith
  have hst := C100_stretch hK c ⟨q.1, q.2⟩ (radialMap c f ⟨p.1, p.2⟩) (hR _ _ hqf) (hR _ _ hin)
  rw [hback] at hst
  have hK0 : 0 ≤ K := by
    have h0 : 0 ≤ ptDist ⟨q.1, q.2⟩ c := Real.sqrt_nonneg _
    exact (abs_nonneg _).trans (hK.1 _ h0 (hR _ _ hqf))
  have hst2 : ptDist (radialMap c g ⟨q.1, q.2⟩) ⟨p.1, p.2⟩ ≤ K * (√2 / 2) := hst.trans (mul_le_mul_of_nonneg_left hdq hK0)
  have cy : |(radialMap c g ⟨q.1, q.2⟩).y - (p.1 : ℝ)| ≤ K * (√2 / 2) := by
    refine le_trans ?_ hst2
    rw [ptDist, ← Real.sqrt_sq_eq_abs]
    exact Real.sqrt_le_sqrt (by nlinarith [sq_nonneg ((radialMap c g ⟨q.1, q.2⟩).x - (p.2 : ℝ))])
  have cx : |(radialMap c g ⟨q.1, q.2⟩).x - (p.2 : ℝ)| ≤ K * (√2 / 2) := by
    refine le_trans ?_ hst2
    rw [ptDist, ← Real.sqrt_sq_eq_abs]
    exact Real.sqrt_le_sqrt (by nlinarith [sq_nonneg ((radialMap c g ⟨q.1, q.2⟩).y - (p.1 : ℝ))])
  set t := radialMap c g ⟨q.1, q.2⟩ with ht
  have hc := inFrame_clip (m := m) hh0 hw0 t.y t.x
  have hf := inFrame_rnd hr hc hh0 hw0 hh hw
  obtain ⟨d1, d2⟩ := roundsBy_frame hδ hc
  have e1 : (unwarpImageBackward (linearInterp B) rnd m c.x c.y g).get q.1 q.2 =
      bilinear m (rnd (clip t.y 0 ((m.height : ℝ) - 1))) (rnd (clip t.x 0 ((m.width : ℝ) - 1))) := by
    refine Eq.trans ?_ (linearInterp_eq B _ hf)
    simp only [unwarpImageBackward, polySum_eq_radial]
    rfl
  have e2 : m.get p.1 p.2 = bilinear m p.1 p.2 := (bilinear_node p.1 p.2).symm
  rw [e1, e2, abs_sub_comm]
  refine (bilinear_lipschitz hV hU hs hpf hf).trans ?_
  have ky : |rnd (clip t.y 0 ((m.height : ℝ) - 1)) - (p.1 : ℝ)| ≤ K * (√2 / 2) + δ := by
    have h1 := clip_near t.y (p.1 : ℝ) 0 ((m.height : ℝ) - 1)
    rw [clip_of_mem (x := (p.1 : ℝ)) hpf.1 hpf.2.1] at h1
    have h2 := abs_sub_le (rnd (clip t.y 0 ((m.height : ℝ) - 1))) (clip t.y 0 ((m.height : ℝ) - 1)) (p.1 : ℝ)
    linarith
  have kx : |rnd (clip t.x 0 ((m.width : ℝ) - 1)) - (p.2 : ℝ)| ≤ K * (√2 / 2) + δ := by
    have h1 := clip_near t.x (p.2 : ℝ) 0 ((m.width : ℝ) - 1)
    rw [clip_of_mem (x := (p.2 : ℝ)) hpf.2.2.1 hpf.2.2.2] at h1
    have h2 := abs_sub_le (rnd (clip t.x 0 ((m.width : ℝ) - 1))) (clip t.x 0 ((m.width : ℝ) - 1)) (p.2 : ℝ)
    linarith
  nlinarith [mul_le_mul_of_nonneg_left ky hV, mul_le_mul_of_nonneg_left kx hU]

theorem radial_const (a r : ℝ) : radial [a] r = a := by
  rw [← polySum_eq_radial]
  simp [polySum]

/-- A ramp of 5 × 5 pixels, enlarged twice around its corner. The pixel (1, 1), and no other one, is moved to (2, 2). -/
example (B : Boundary) : ∃ out, unwarpImageForward ⟨5, 5, fun i j => 2 * (i : ℝ) + 6 * (j : ℝ) + 1⟩ 0 0 [2] = .ok out ∧
    |out.get 2 2 - (unwarpImageBackward (linearInterp B) id ⟨5, 5, fun i j => 2 * (i : ℝ) + 6 * (j : ℝ) + 1⟩ 0 0 [1 / 2]).get 2 2| ≤
      (2 + 6) * (1 / 2 * (√2 / 2) + 0) := by
  obtain ⟨out, e, h⟩ := C100_agree B coordRounding_id (δ := 0) ⟨5, 5, fun i j => 2 * (i : ℝ) + 6 * (j : ℝ) + 1⟩ (fun v _ _ => by simp) 2 6 (by norm_num)
    (by norm_num) ramp_steps ⟨0, 0⟩ [2] [1 / 2] (1 / 2) 8 (by
      refine ⟨fun r _ _ => ?_, fun r s _ _ _ _ => ?_⟩
      · rw [show radial [1 / 2] r = 1 / 2 by simp [radial], abs_of_pos (by norm_num)]
      · rw [show radial [1 / 2] r = 1 / 2 by simp [radial], show radial [1 / 2] s = 1 / 2 by simp [radial], ← sub_mul, abs_mul, mul_comm, abs_of_pos (by norm_num : (0 : ℝ) < 1 / 2)]) (by
      rintro y x ⟨h1, h2, h3, h4⟩
      unfold ptDist
      rw [Real.sqrt_le_left (by norm_num)]
      norm_num at h2 h4
      simp only [sub_zero]
      nlinarith) (by norm_num) (by norm_num) (by norm_num) (by norm_num)
  have hmap : ∀ p : ℕ × ℕ, radialMap ⟨0, 0⟩ [2] ⟨p.1, p.2⟩ = ⟨2 * (p.1 : ℝ), 2 * (p.2 : ℝ)⟩ := by
    intro p
    simp only [radialMap, radial_const]
    ext <;> simp
  refine ⟨out, e, h (2, 2) (by norm_num) (by norm_num) ⟨(1, 1), by norm_num, by norm_num, ?_⟩ ?_⟩
  · unfold LandsAt
    rw [hmap]
    norm_num [clampTo, IsNearestEven]
  · rintro ⟨a, b⟩ ha hb hl
    unfold LandsAt at hl
    rw [hmap] at hl
    simp only at ha hb hl
    rw [hmap]
    have key : ∀ a : ℕ, a < 5 → IsNearestEven (clampTo (((5 : ℕ) : ℝ) - 1) (2 * (a : ℝ))) ((2 : ℕ) : ℤ) → a = 1 := by
      intro a ha hl
      interval_cases a <;> first | rfl | (exfalso; norm_num [clampTo, IsNearestEven] at hl; try (norm_num [abs_lt, abs_eq] at hl))
    obtain rfl := key a ha hl.1
    obtain rfl := key b hb hl.2
    refine ⟨by norm_num [InFrame], ?_⟩
    simp only [radialMap, radial_const]
    ext <;> norm_num

end Discorpy
