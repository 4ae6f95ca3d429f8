import Verif.Model.Ellipse
import Verif.Spec.Ellipse
import Verif.Lemmas.Dots
import Mathlib.Tactic.LinearCombination

/-! # Lemmas: eigenvalues of the inertia tensor as extreme spreads -/

namespace Discorpy

open Spec

/-- Half the angle of a direction. -/
theorem exists_half {C S : ℝ} (h : C ^ 2 + S ^ 2 = 1) : ∃ u v : ℝ, u ^ 2 + v ^ 2 = 1 ∧ u ^ 2 - v ^ 2 = C ∧ 2 * u * v = S := by
  have h1 : -1 ≤ C := by nlinarith [sq_nonneg S]
  have h2 : C ≤ 1 := by nlinarith [sq_nonneg S]
  have e1 := Real.sq_sqrt (by linarith : 0 ≤ (1 + C) / 2)
  have e2 := Real.sq_sqrt (by linarith : 0 ≤ (1 - C) / 2)
  have e3 : (2 * √((1 + C) / 2) * √((1 - C) / 2)) ^ 2 = S ^ 2 := by
    rw [mul_pow, mul_pow, e1, e2]
    linarith
  rcases sq_eq_sq_iff_eq_or_eq_neg.1 e3 with e | e
  · exact ⟨√((1 + C) / 2), √((1 - C) / 2), by rw [e1, e2]; ring, by rw [e1, e2]; ring, e⟩
  · refine ⟨√((1 + C) / 2), -√((1 - C) / 2), by rw [neg_sq, e1, e2]; ring, by rw [neg_sq, e1, e2]; ring, ?_⟩
    linarith

/-- The quadratic form `c u² + a v² + 2 b u v` on the unit circle is between the eigenvalues, which it attains. -/
theorem form_bounds (a b c : ℝ) :
    (∀ u v : ℝ, u ^ 2 + v ^ 2 = 1 → (a + c) / 2 - √(((a - c) / 2) ^ 2 + b ^ 2) ≤ c * u ^ 2 + a * v ^ 2 + 2 * b * (u * v) ∧
      c * u ^ 2 + a * v ^ 2 + 2 * b * (u * v) ≤ (a + c) / 2 + √(((a - c) / 2) ^ 2 + b ^ 2)) ∧
    (∃ u v : ℝ, u ^ 2 + v ^ 2 = 1 ∧ c * u ^ 2 + a * v ^ 2 + 2 * b * (u * v) = (a + c) / 2 - √(((a - c) / 2) ^ 2 + b ^ 2)) ∧
    ∃ u v : ℝ, u ^ 2 + v ^ 2 = 1 ∧ c * u ^ 2 + a * v ^ 2 + 2 * b * (u * v) = (a + c) / 2 + √(((a - c) / 2) ^ 2 + b ^ 2) := by
  set R := √(((a - c) / 2) ^ 2 + b ^ 2) with hR
  have hR0 : 0 ≤ R := Real.sqrt_nonneg _
  have hR2 : R ^ 2 = ((a - c) / 2) ^ 2 + b ^ 2 := Real.sq_sqrt (by positivity)
  have key : ∀ u v : ℝ, u ^ 2 + v ^ 2 = 1 → c * u ^ 2 + a * v ^ 2 + 2 * b * (u * v) = (a + c) / 2 + ((c - a) / 2 * (u ^ 2 - v ^ 2) + b * (2 * u * v)) := by
    intro u v h
    linear_combination ((a + c) / 2) * h
  refine ⟨fun u v h => ?_, ?_, ?_⟩
  · rw [key u v h]
    have h1 : ((c - a) / 2 * (u ^ 2 - v ^ 2) + b * (2 * u * v)) ^ 2 ≤ R ^ 2 := by
      have h2 : (u ^ 2 - v ^ 2) ^ 2 + (2 * u * v) ^ 2 = 1 := by
        have : (u ^ 2 - v ^ 2) ^ 2 + (2 * u * v) ^ 2 = (u ^ 2 + v ^ 2) ^ 2 := by ring
        rw [this, h]
        norm_num
      rw [hR2]
      nlinarith [sq_nonneg ((c - a) / 2 * (2 * u * v) - b * (u ^ 2 - v ^ 2))]
    have := abs_le.1 (abs_le_of_sq_le_sq h1 hR0)
    constructor
    · linarith [this.1]
    · linarith [this.2]
  · by_cases h0 : R = 0
    · refine ⟨1, 0, by norm_num, ?_⟩
      rw [key 1 0 (by norm_num), h0]
      have : ((a - c) / 2) ^ 2 + b ^ 2 = 0 := by rw [← hR2, h0]; norm_num
      have h1 : (a - c) / 2 = 0 := by nlinarith [sq_nonneg ((a - c) / 2), sq_nonneg b]
      linarith
    · obtain ⟨u, v, h1, h2, h3⟩ := exists_half (C := -((c - a) / 2 / R)) (S := -(b / R)) (by
        rw [neg_sq, neg_sq, div_pow ((c - a) / 2), div_pow b, ← add_div, div_eq_one_iff_eq (pow_ne_zero 2 h0), hR2]
        ring)
      refine ⟨u, v, h1, ?_⟩
      rw [key u v h1, h2, h3]
      have : (c - a) / 2 * -((c - a) / 2 / R) + b * -(b / R) = -(((a - c) / 2) ^ 2 + b ^ 2) / R := by
        field_simp
        ring
      rw [this, ← hR2]
      field_simp
      ring
  · by_cases h0 : R = 0
    · refine ⟨1, 0, by norm_num, ?_⟩
      rw [key 1 0 (by norm_num), h0]
      have : ((a - c) / 2) ^ 2 + b ^ 2 = 0 := by rw [← hR2, h0]; norm_num
      have h1 : (a - c) / 2 = 0 := by nlinarith [sq_nonneg ((a - c) / 2), sq_nonneg b]
      linarith
    · obtain ⟨u, v, h1, h2, h3⟩ := exists_half (C := (c - a) / 2 / R) (S := b / R) (by
        rw [div_pow ((c - a) / 2), div_pow b, ← add_div, div_eq_one_iff_eq (pow_ne_zero 2 h0), hR2]
        ring)
      refine ⟨u, v, h1, ?_⟩
      rw [key u v h1, h2, h3]
      have : (c - a) / 2 * ((c - a) / 2 / R) + b * (b / R) = (((a - c) / 2) ^ 2 + b ^ 2) / R := by
        field_simp
        ring
      rw [this, ← hR2]
      field_simp

/-- The mean square in a direction as a quadratic form in the direction. -/
theorem spread_sq (F : Finset Pix) (u v : ℝ) : spread F u v = √(
    (pixelMean F fun q => ((q.1 : ℝ) - pixelMean F fun r => (r.1 : ℝ)) ^ 2) * u ^ 2 +
    (pixelMean F fun q => ((q.2 : ℝ) - pixelMean F fun r => (r.2 : ℝ)) ^ 2) * v ^ 2 +
    2 * (pixelMean F fun q => ((q.1 : ℝ) - pixelMean F fun r => (r.1 : ℝ)) * ((q.2 : ℝ) - pixelMean F fun r => (r.2 : ℝ))) * (u * v)) := by
  unfold spread
  congr 1
  generalize (pixelMean F fun r => (r.1 : ℝ)) = ym
  generalize (pixelMean F fun r => (r.2 : ℝ)) = xm
  unfold pixelMean
  have : ∑ q ∈ F, (u * ((q.1 : ℝ) - ym) + v * ((q.2 : ℝ) - xm)) ^ 2 = (∑ q ∈ F, ((q.1 : ℝ) - ym) ^ 2) * u ^ 2 + (∑ q ∈ F, ((q.2 : ℝ) - xm) ^ 2) * v ^ 2 +
      2 * (∑ q ∈ F, ((q.1 : ℝ) - ym) * ((q.2 : ℝ) - xm)) * (u * v) := by
    rw [Finset.sum_mul, Finset.sum_mul, mul_assoc, Finset.sum_mul, Finset.mul_sum, ← Finset.sum_add_distrib, ← Finset.sum_add_distrib]
    exact Finset.sum_congr rfl fun q _ => by ring
  rw [this]
  ring

theorem pixelMean_toFinset {ps : List Pix} (h : ps.Nodup) (f : Pix → ℝ) : (ps.map f).sum / (ps.length : ℝ) = pixelMean ps.toFinset f := by
  classical
  unfold pixelMean
  rw [List.toFinset_card_of_nodup h, List.sum_toFinset f h]

theorem inertiaEigenvalues_spread {ps : List Pix} (h : ps.Nodup) :
    IsLeast (spreads ps.toFinset) √(max (inertiaEigenvalues ps).1 0) ∧ IsGreatest (spreads ps.toFinset) √(max (inertiaEigenvalues ps).2 0) := by
  obtain ⟨hb, ⟨u1, v1, n1, e1⟩, ⟨u2, v2, n2, e2⟩⟩ := form_bounds
    (pixelMean ps.toFinset fun q => ((q.2 : ℝ) - pixelMean ps.toFinset fun r => (r.2 : ℝ)) ^ 2)
    (pixelMean ps.toFinset fun q => ((q.1 : ℝ) - pixelMean ps.toFinset fun r => (r.1 : ℝ)) * ((q.2 : ℝ) - pixelMean ps.toFinset fun r => (r.2 : ℝ)))
    (pixelMean ps.toFinset fun q => ((q.1 : ℝ) - pixelMean ps.toFinset fun r => (r.1 : ℝ)) ^ 2)
  have hs : ∀ x : ℝ, √(max x 0) = √x := by
    intro x
    rcases le_total x 0 with hx | hx
    · rw [max_eq_right hx, Real.sqrt_zero, Real.sqrt_eq_zero_of_nonpos hx]
    · rw [max_eq_left hx]
  rw [hs, hs]
  simp only [inertiaEigenvalues, pixelMean_toFinset h, neg_sq]
  refine ⟨⟨⟨u1, v1, n1, ?_⟩, ?_⟩, ⟨u2, v2, n2, ?_⟩, ?_⟩
  · rw [spread_sq, e1]
  · rintro s ⟨u, v, n, rfl⟩
    rw [spread_sq]
    exact Real.sqrt_le_sqrt (hb u v n).1
  · rw [spread_sq, e2]
  · rintro s ⟨u, v, n, rfl⟩
    rw [spread_sq]
    exact Real.sqrt_le_sqrt (hb u v n).2

/-- The axes are four times the extreme spreads of the region. -/
theorem ellipseAxes_ok {m : Mat ℤ} {ps : List Pix} (h : firstRegion m = .ok ps) (hn : ps.Nodup) :
    ∃ s l, ellipseAxes m = .ok (4 * s, 4 * l) ∧ IsLeast (spreads ps.toFinset) s ∧ IsGreatest (spreads ps.toFinset) l := by
  refine ⟨_, _, ?_, (inertiaEigenvalues_spread hn).1, (inertiaEigenvalues_spread hn).2⟩
  unfold ellipseAxes
  rw [h]
  rfl

/-- Moving the pixels does not change their spreads. -/
theorem spread_shift (F : Finset Pix) (y x : ℕ) (hF : F.Nonempty) (u v : ℝ) :
    spread (F.map ⟨fun q : Pix => (y + q.1, x + q.2), fun a b h => by
      simp only [Prod.mk.injEq] at h
      ext <;> omega⟩) u v = spread F u v := by
  have hc : (F.card : ℝ) ≠ 0 := by
    have := hF.card_pos
    positivity
  have h1 : ∀ f : Pix → ℝ, pixelMean (F.map ⟨fun q : Pix => (y + q.1, x + q.2), fun a b h => by
      simp only [Prod.mk.injEq] at h
      ext <;> omega⟩) f = pixelMean F fun q => f (y + q.1, x + q.2) := by
    intro f
    unfold pixelMean
    rw [Finset.card_map, Finset.sum_map]
    rfl
  unfold spread
  rw [h1, h1, h1]
  congr 2
  have h2 : ∀ (f : Pix → ℝ) (t : ℝ), (pixelMean F fun q => t + f q) = t + pixelMean F f := by
    intro f t
    unfold pixelMean
    rw [Finset.sum_add_distrib, Finset.sum_const, nsmul_eq_mul]
    field_simp
  funext q
  push_cast
  rw [h2, h2]
  ring

theorem spreads_nonneg {F : Finset Pix} {s : ℝ} (h : s ∈ spreads F) : 0 ≤ s := by
  obtain ⟨u, v, _, rfl⟩ := h
  exact Real.sqrt_nonneg _

/-- Pixels side by side and one above the other spread in every direction. -/
theorem spread_pos {F : Finset Pix} {i j i' j' : ℕ} (h1 : (i, j) ∈ F) (h2 : (i + 1, j) ∈ F) (h3 : (i', j') ∈ F) (h4 : (i', j' + 1) ∈ F) {s : ℝ}
    (h : s ∈ spreads F) : 0 < s := by
  obtain ⟨u, v, n, rfl⟩ := h
  unfold spread
  rw [Real.sqrt_pos]
  have hc : (0 : ℝ) < F.card := by
    have := Finset.card_pos.2 ⟨_, h1⟩
    exact_mod_cast this
  set ym := pixelMean F fun r => (r.1 : ℝ)
  set xm := pixelMean F fun r => (r.2 : ℝ)
  rw [pixelMean]
  refine div_pos ((Finset.sum_nonneg fun q _ => sq_nonneg _).lt_of_ne fun h0 => ?_) hc
  have hz := (Finset.sum_eq_zero_iff_of_nonneg fun q _ => sq_nonneg _).1 h0.symm
  have z : ∀ q ∈ F, u * ((q.1 : ℝ) - ym) + v * ((q.2 : ℝ) - xm) = 0 := fun q hq => pow_eq_zero_iff (two_ne_zero) |>.1 (hz q hq)
  have a1 := z _ h1
  have a2 := z _ h2
  have a3 := z _ h3
  have a4 := z _ h4
  push_cast at a1 a2 a3 a4
  have hu : u = 0 := by linarith
  have hv : v = 0 := by linarith
  rw [hu, hv] at n
  norm_num at n

/-- A dot with pixels in two rows has a pixel below another one. -/
theorem dot_vertical {m : Mat ℤ} {D : Set Pix} (h : IsDot m D) {p q : Pix} (hp : p ∈ D) (hq : q ∈ D) (hpq : p.1 < q.1) :
    ∃ i j, (i, j) ∈ D ∧ (i + 1, j) ∈ D := by
  by_contra hcon
  push Not at hcon
  have hE := h.minimal {d | d ∈ D ∧ d.1 = p.1} (fun d hd => hd.1) ⟨p, hp, rfl⟩ (by
    rintro a ⟨ha, hap⟩ b hb hab
    have hbD := h.closed a ha b hb hab
    refine ⟨hbD, ?_⟩
    by_contra hne
    unfold ShareEdge at hab
    obtain ⟨a1, a2⟩ := a
    obtain ⟨b1, b2⟩ := b
    simp only at hab hap hne
    have h2 : a2 = b2 := by
      by_contra h2
      have c1 : (1 : ℤ) ≤ |(a1 : ℤ) - b1| := Int.one_le_abs (by omega)
      have c2 : (1 : ℤ) ≤ |(a2 : ℤ) - b2| := Int.one_le_abs (by omega)
      omega
    subst h2
    rw [sub_self, abs_zero, add_zero] at hab
    rcases (abs_eq (by norm_num)).1 hab with e | e
    · have : a1 = b1 + 1 := by omega
      rw [this] at ha
      exact hcon b1 a2 hbD ha
    · have : b1 = a1 + 1 := by omega
      rw [this] at hbD
      exact hcon a1 a2 ha hbD)
  rw [← hE] at hq
  have := hq.2
  omega

/-- A dot with pixels in two columns has a pixel beside another one. -/
theorem dot_horizontal {m : Mat ℤ} {D : Set Pix} (h : IsDot m D) {p q : Pix} (hp : p ∈ D) (hq : q ∈ D) (hpq : p.2 < q.2) :
    ∃ i j, (i, j) ∈ D ∧ (i, j + 1) ∈ D := by
  by_contra hcon
  push Not at hcon
  have hE := h.minimal {d | d ∈ D ∧ d.2 = p.2} (fun d hd => hd.1) ⟨p, hp, rfl⟩ (by
    rintro a ⟨ha, hap⟩ b hb hab
    have hbD := h.closed a ha b hb hab
    refine ⟨hbD, ?_⟩
    by_contra hne
    unfold ShareEdge at hab
    obtain ⟨a1, a2⟩ := a
    obtain ⟨b1, b2⟩ := b
    simp only at hab hap hne
    have h2 : a1 = b1 := by
      by_contra h2
      have c1 : (1 : ℤ) ≤ |(a1 : ℤ) - b1| := Int.one_le_abs (by omega)
      have c2 : (1 : ℤ) ≤ |(a2 : ℤ) - b2| := Int.one_le_abs (by omega)
      omega
    subst h2
    rw [sub_self, abs_zero, zero_add] at hab
    rcases (abs_eq (by norm_num)).1 hab with e | e
    · have : a2 = b2 + 1 := by omega
      rw [this] at ha
      exact hcon a1 b2 hbD ha
    · have : b2 = a2 + 1 := by omega
      rw [this] at hbD
      exact hcon a1 a2 ha hbD)
  rw [← hE] at hq
  have := hq.2
  omega

/-- The mean over a set which goes to itself. -/
theorem pixelMean_turn {F : Finset Pix} {g : Pix → Pix} (hm : ∀ q ∈ F, g q ∈ F) (hi : ∀ q ∈ F, ∀ r ∈ F, g q = g r → q = r) (f : Pix → ℝ) :
    (pixelMean F fun q => f (g q)) = pixelMean F f := by
  unfold pixelMean
  congr 1
  refine Finset.sum_nbij g hm (fun q hq r hr => hi q hq r hr) ?_ (fun _ _ => rfl)
  exact Finset.surjOn_of_injOn_of_card_le g hm (fun q hq r hr => hi q hq r hr) le_rfl

theorem pixelMean_add {F : Finset Pix} (hF : F.Nonempty) (f : Pix → ℝ) (a : ℝ) : (pixelMean F fun q => f q + a) = pixelMean F f + a := by
  have hc : (F.card : ℝ) ≠ 0 := by
    have := hF.card_pos
    positivity
  unfold pixelMean
  rw [Finset.sum_add_distrib, Finset.sum_const, nsmul_eq_mul]
  field_simp

theorem pixelMean_neg (F : Finset Pix) (f : Pix → ℝ) : (pixelMean F fun q => -f q) = -pixelMean F f := by
  unfold pixelMean
  rw [Finset.sum_neg_distrib, neg_div]

/-- A set with the symmetry of a square spreads alike in all directions. -/
theorem quarterTurn_spread {F : Finset Pix} (h : QuarterTurn F) {s t : ℝ} (hs : s ∈ spreads F) (ht : t ∈ spreads F) : s = t := by
  obtain ⟨u, v, n, rfl⟩ := hs
  obtain ⟨u', v', n', rfl⟩ := ht
  rcases F.eq_empty_or_nonempty with rfl | hF
  · simp [spread, pixelMean]
  obtain ⟨a, b, hab⟩ := h
  have hab' : ∀ q : Pix, ∃ r : Pix, q ∈ F → r ∈ F ∧ (r.1 : ℤ) = q.2 + a ∧ (r.2 : ℤ) = b - q.1 := fun q => by
    by_cases hq : q ∈ F
    · obtain ⟨r, h1, h2⟩ := hab q hq
      exact ⟨r, fun _ => ⟨h1, h2⟩⟩
    · exact ⟨q, fun h => absurd h hq⟩
  choose g hg using hab'
  have hm : ∀ q ∈ F, g q ∈ F := fun q hq => (hg q hq).1
  have hi : ∀ q ∈ F, ∀ r ∈ F, g q = g r → q = r := fun q hq r hr e => by
    have h1 := (hg q hq).2
    have h2 := (hg r hr).2
    rw [e] at h1
    ext <;> omega
  have g1 : ∀ q ∈ F, ((g q).1 : ℝ) = q.2 + a := fun q hq => by exact_mod_cast (hg q hq).2.1
  have g2 : ∀ q ∈ F, ((g q).2 : ℝ) = b - q.1 := fun q hq => by exact_mod_cast (hg q hq).2.2
  have hcongr : ∀ {f f' : Pix → ℝ}, (∀ q ∈ F, f q = f' q) → pixelMean F f = pixelMean F f' := fun {f f'} h => by
    unfold pixelMean
    rw [Finset.sum_congr rfl h]
  have ey : (pixelMean F fun r => (r.1 : ℝ)) = (pixelMean F fun r => (r.2 : ℝ)) + a := by
    rw [← pixelMean_turn hm hi fun r => (r.1 : ℝ), ← pixelMean_add hF]
    exact hcongr g1
  have ex : (pixelMean F fun r => (r.2 : ℝ)) = -(pixelMean F fun r => (r.1 : ℝ)) + b := by
    rw [← pixelMean_turn hm hi fun r => (r.2 : ℝ), ← pixelMean_neg, ← pixelMean_add hF]
    exact hcongr fun q hq => by rw [g2 q hq]; ring
  rw [spread_sq, spread_sq]
  set ym := pixelMean F fun r => (r.1 : ℝ) with hym
  set xm := pixelMean F fun r => (r.2 : ℝ) with hxm
  have e1 : (pixelMean F fun q => ((q.1 : ℝ) - ym) ^ 2) = pixelMean F fun q => ((q.2 : ℝ) - xm) ^ 2 := by
    rw [← pixelMean_turn hm hi fun q => ((q.1 : ℝ) - ym) ^ 2]
    exact hcongr fun q hq => by
      rw [g1 q hq, ey]
      ring
  have e2 : (pixelMean F fun q => ((q.1 : ℝ) - ym) * ((q.2 : ℝ) - xm)) = 0 := by
    have : (pixelMean F fun q => ((q.1 : ℝ) - ym) * ((q.2 : ℝ) - xm)) = -pixelMean F fun q => ((q.1 : ℝ) - ym) * ((q.2 : ℝ) - xm) := by
      rw [← pixelMean_neg, ← pixelMean_turn hm hi fun q => ((q.1 : ℝ) - ym) * ((q.2 : ℝ) - xm)]
      exact hcongr fun q hq => by
        rw [g1 q hq, g2 q hq, show (q.2 : ℝ) + a - ym = q.2 - xm by rw [ey]; ring, show (b : ℝ) - q.1 - xm = -(q.1 - ym) by linarith]
        ring
    linarith
  rw [e1, e2]
  congr 1
  linear_combination (pixelMean F fun q => ((q.2 : ℝ) - xm) ^ 2) * (n - n')

theorem sum_range_real (n : ℕ) : ∑ k ∈ Finset.range n, (k : ℝ) = n * (n - 1) / 2 := by
  induction n with
  | zero => simp
  | succ n ih =>
    rw [Finset.sum_range_succ, ih]
    push_cast
    ring

theorem sum_range_sq (n : ℕ) : ∑ k ∈ Finset.range n, (k : ℝ) ^ 2 = n * (n - 1) * (2 * n - 1) / 6 := by
  induction n with
  | zero => simp
  | succ n ih =>
    rw [Finset.sum_range_succ, ih]
    push_cast
    ring

theorem sum_Ico_centred (i n : ℕ) : ∑ k ∈ Finset.Ico i (i + n), ((k : ℝ) - (i + ((n : ℝ) - 1) / 2)) = 0 ∧
    ∑ k ∈ Finset.Ico i (i + n), ((k : ℝ) - (i + ((n : ℝ) - 1) / 2)) ^ 2 = n * ((n : ℝ) ^ 2 - 1) / 12 := by
  rw [Finset.sum_Ico_eq_sum_range, Finset.sum_Ico_eq_sum_range, Nat.add_sub_cancel_left]
  constructor
  · have : ∀ k ∈ Finset.range n, (((i + k : ℕ) : ℝ) - (i + ((n : ℝ) - 1) / 2)) = k + -(((n : ℝ) - 1) / 2) := fun k _ => by
      push_cast
      ring
    rw [Finset.sum_congr rfl this, Finset.sum_add_distrib, sum_range_real, Finset.sum_const, Finset.card_range, nsmul_eq_mul]
    ring
  · have : ∀ k ∈ Finset.range n, (((i + k : ℕ) : ℝ) - (i + ((n : ℝ) - 1) / 2)) ^ 2 = (k : ℝ) ^ 2 + (-((n : ℝ) - 1) * k + (((n : ℝ) - 1) / 2) ^ 2) := fun k _ => by
      push_cast
      ring
    rw [Finset.sum_congr rfl this, Finset.sum_add_distrib, Finset.sum_add_distrib, ← Finset.mul_sum, sum_range_sq, sum_range_real, Finset.sum_const,
      Finset.card_range, nsmul_eq_mul]
    ring

/-- The spreads of a rectangle. -/
theorem rectangle_spread (i j : ℕ) {h w : ℕ} (h0 : 0 < h) (w0 : 0 < w) (u v : ℝ) :
    spread (Finset.Ico i (i + h) ×ˢ Finset.Ico j (j + w)) u v = √((((h : ℝ) ^ 2 - 1) / 12) * u ^ 2 + (((w : ℝ) ^ 2 - 1) / 12) * v ^ 2) := by
  have hh : (h : ℝ) ≠ 0 := by positivity
  have hw : (w : ℝ) ≠ 0 := by positivity
  have hF : (Finset.Ico i (i + h) ×ˢ Finset.Ico j (j + w)).Nonempty :=
    ⟨(i, j), by simp only [Finset.mem_product, Finset.mem_Ico]; omega⟩
  have hy : (pixelMean (Finset.Ico i (i + h) ×ˢ Finset.Ico j (j + w)) fun r => (r.1 : ℝ)) = i + ((h : ℝ) - 1) / 2 := by
    have := pixelMean_add hF (fun r => (r.1 : ℝ)) (-(i + ((h : ℝ) - 1) / 2))
    have h1 : (pixelMean (Finset.Ico i (i + h) ×ˢ Finset.Ico j (j + w)) fun r => (r.1 : ℝ) + -(i + ((h : ℝ) - 1) / 2)) = 0 := by
      unfold pixelMean
      simp only [← sub_eq_add_neg]
      rw [Finset.sum_product]
      simp only [Finset.sum_const, ← Finset.smul_sum]
      rw [(sum_Ico_centred i h).1, smul_zero, zero_div]
    linarith
  have hx : (pixelMean (Finset.Ico i (i + h) ×ˢ Finset.Ico j (j + w)) fun r => (r.2 : ℝ)) = j + ((w : ℝ) - 1) / 2 := by
    have := pixelMean_add hF (fun r => (r.2 : ℝ)) (-(j + ((w : ℝ) - 1) / 2))
    have h1 : (pixelMean (Finset.Ico i (i + h) ×ˢ Finset.Ico j (j + w)) fun r => (r.2 : ℝ) + -(j + ((w : ℝ) - 1) / 2)) = 0 := by
      unfold pixelMean
      simp only [← sub_eq_add_neg]
      rw [Finset.sum_product]
      simp only
      rw [(sum_Ico_centred j w).1]
      simp
    linarith
  rw [spread_sq, hy, hx]
  have e1 : (pixelMean (Finset.Ico i (i + h) ×ˢ Finset.Ico j (j + w)) fun q => ((q.1 : ℝ) - (i + ((h : ℝ) - 1) / 2)) ^ 2) = ((h : ℝ) ^ 2 - 1) / 12 := by
    unfold pixelMean
    rw [Finset.sum_product]
    simp only [Finset.sum_const, ← Finset.smul_sum]
    rw [(sum_Ico_centred i h).2, Finset.card_product, Nat.card_Ico, Nat.card_Ico, nsmul_eq_mul, Nat.add_sub_cancel_left, Nat.add_sub_cancel_left]
    push_cast
    field_simp
  have e2 : (pixelMean (Finset.Ico i (i + h) ×ˢ Finset.Ico j (j + w)) fun q => ((q.2 : ℝ) - (j + ((w : ℝ) - 1) / 2)) ^ 2) = ((w : ℝ) ^ 2 - 1) / 12 := by
    unfold pixelMean
    rw [Finset.sum_product]
    simp only
    rw [(sum_Ico_centred j w).2, Finset.sum_const, Finset.card_product, Nat.card_Ico, Nat.card_Ico, nsmul_eq_mul, Nat.add_sub_cancel_left,
      Nat.add_sub_cancel_left]
    push_cast
    field_simp
  have e3 : (pixelMean (Finset.Ico i (i + h) ×ˢ Finset.Ico j (j + w)) fun q => ((q.1 : ℝ) - (i + ((h : ℝ) - 1) / 2)) * ((q.2 : ℝ) - (j + ((w : ℝ) - 1) / 2))) = 0 := by
    unfold pixelMean
    rw [Finset.sum_product]
    simp only [← Finset.mul_sum]
    rw [(sum_Ico_centred j w).1]
    simp
  rw [e1, e2, e3]
  congr 1
  ring

/-- A rectangle of at least two rows and columns passes if the sides are nearly the same. -/
theorem rectangle_round (i j : ℕ) {h w : ℕ} (h0 : 2 ≤ h) (w0 : 2 ≤ w) {ratio : ℝ} (hr : 0 < ratio) :
    NearlyRound ratio (Finset.Ico i (i + h) ×ˢ Finset.Ico j (j + w)) ↔
      (h : ℝ) ^ 2 - 1 < (1 + ratio) ^ 2 * ((w : ℝ) ^ 2 - 1) ∧ (w : ℝ) ^ 2 - 1 < (1 + ratio) ^ 2 * ((h : ℝ) ^ 2 - 1) := by
  have hh : (2 : ℝ) ≤ h := by exact_mod_cast h0
  have hw : (2 : ℝ) ≤ w := by exact_mod_cast w0
  have hA : (0 : ℝ) < (h : ℝ) ^ 2 - 1 := by nlinarith
  have hB : (0 : ℝ) < (w : ℝ) ^ 2 - 1 := by nlinarith
  generalize hAe : (h : ℝ) ^ 2 - 1 = A at *
  generalize hBe : (w : ℝ) ^ 2 - 1 = B at *
  have hsp : ∀ u v : ℝ, spread (Finset.Ico i (i + h) ×ˢ Finset.Ico j (j + w)) u v = √((A * u ^ 2 + B * v ^ 2) / 12) := fun u v => by
    rw [rectangle_spread i j (by omega) (by omega), hAe, hBe]
    congr 1
    ring
  have key : ∀ x y : ℝ, 0 < x → 0 < y → (√(x / 12) < (1 + ratio) * √(y / 12) ↔ x < (1 + ratio) ^ 2 * y) := fun x y hx hy => by
    rw [← Real.sqrt_sq (by linarith : 0 ≤ 1 + ratio), ← Real.sqrt_mul (by positivity), Real.sqrt_sq (by linarith : 0 ≤ 1 + ratio),
      Real.sqrt_lt_sqrt_iff (by positivity), mul_div_assoc', div_lt_div_iff_of_pos_right (by norm_num)]
  constructor
  · intro hn
    have m1 : √(A / 12) ∈ spreads (Finset.Ico i (i + h) ×ˢ Finset.Ico j (j + w)) := ⟨1, 0, by norm_num, by rw [hsp]; norm_num⟩
    have m2 : √(B / 12) ∈ spreads (Finset.Ico i (i + h) ×ˢ Finset.Ico j (j + w)) := ⟨0, 1, by norm_num, by rw [hsp]; norm_num⟩
    exact ⟨(key A B hA hB).1 (hn _ m1 _ m2), (key B A hB hA).1 (hn _ m2 _ m1)⟩
  · rintro ⟨hn1, hn2⟩ _ ⟨u, v, n, rfl⟩ _ ⟨u', v', n', rfl⟩
    rw [hsp, hsp]
    have pos : ∀ u v : ℝ, u ^ 2 + v ^ 2 = 1 → 0 < A * u ^ 2 + B * v ^ 2 := fun u v n => by
      rcases le_total A B with hab | hab
      · nlinarith [sq_nonneg u, sq_nonneg v, mul_nonneg (sub_nonneg.2 hab) (sq_nonneg v)]
      · nlinarith [sq_nonneg u, sq_nonneg v, mul_nonneg (sub_nonneg.2 hab) (sq_nonneg u)]
    rw [key _ _ (pos u v n) (pos u' v' n')]
    have upper : A * u ^ 2 + B * v ^ 2 ≤ max A B := by
      have h1 := mul_le_mul_of_nonneg_right (le_max_left A B) (sq_nonneg u)
      have h2 := mul_le_mul_of_nonneg_right (le_max_right A B) (sq_nonneg v)
      have : max A B * u ^ 2 + max A B * v ^ 2 = max A B := by rw [← mul_add, n, mul_one]
      linarith
    have lower : min A B ≤ A * u' ^ 2 + B * v' ^ 2 := by
      have h1 := mul_le_mul_of_nonneg_right (min_le_left A B) (sq_nonneg u')
      have h2 := mul_le_mul_of_nonneg_right (min_le_right A B) (sq_nonneg v')
      have : min A B * u' ^ 2 + min A B * v' ^ 2 = min A B := by rw [← mul_add, n', mul_one]
      linarith
    have one : 1 < (1 + ratio) ^ 2 := by nlinarith
    have : max A B < (1 + ratio) ^ 2 * min A B := by
      rcases le_total A B with hab | hab
      · rw [max_eq_right hab, min_eq_left hab]
        exact hn2
      · rw [max_eq_left hab, min_eq_right hab]
        exact hn1
    nlinarith

end Discorpy
