import Verif.Model.Normalize
import Verif.Spec.Normalize
import Verif.Lemmas.Array
import Verif.Lemmas.Except
import Mathlib.Analysis.SpecialFunctions.Trigonometric.Basic
import Mathlib.Algebra.Field.GeomSum
import Mathlib.Algebra.BigOperators.Field

/-! # Lemmas about discrete Fourier transforms and normalization -/

namespace Discorpy

open Spec Complex

/-- `exp (2πi (u y / h + v x / w))` -/
noncomputable def planeWave (h w : ℕ) (u v : ℤ) (y x : ℕ) : ℂ := cexp (2 * Real.pi * I * ((u : ℂ) * y / h + (v : ℂ) * x / w))

theorem sum_roots {n : ℕ} (hn : 0 < n) (k : ℤ) :
    ∑ y ∈ Finset.range n, cexp (2 * Real.pi * I * ((k : ℂ) * y / n)) = if (n : ℤ) ∣ k then (n : ℂ) else 0 := by
  have hn0 : (n : ℂ) ≠ 0 := by exact_mod_cast hn.ne'
  have hpow : ∀ y : ℕ, cexp (2 * Real.pi * I * ((k : ℂ) * y / n)) = cexp (2 * Real.pi * I * ((k : ℂ) / n)) ^ y := by
    intro y
    rw [← Complex.exp_nat_mul]
    congr 1
    ring
  rw [Finset.sum_congr rfl fun y _ => hpow y]
  set z := cexp (2 * Real.pi * I * ((k : ℂ) / n)) with hz
  have hpi : (2 * Real.pi * I : ℂ) ≠ 0 := Complex.two_pi_I_ne_zero
  by_cases hd : (n : ℤ) ∣ k
  · obtain ⟨c, rfl⟩ := hd
    have : z = 1 := by
      rw [hz, Complex.exp_eq_one_iff]
      exact ⟨c, by push_cast; field_simp⟩
    simp [this]
  · have hz1 : z ≠ 1 := by
      intro e
      rw [hz, Complex.exp_eq_one_iff] at e
      obtain ⟨c, hc⟩ := e
      apply hd
      have hc' : (k : ℂ) / n = c := by
        apply mul_left_cancel₀ hpi
        rw [hc]
        ring
      rw [div_eq_iff hn0] at hc'
      exact ⟨c, by have : (k : ℂ) = ((n * c : ℤ) : ℂ) := by rw [hc']; push_cast; ring
                   exact_mod_cast this⟩
    have hzn : z ^ n = 1 := by
      rw [hz, ← Complex.exp_nat_mul, Complex.exp_eq_one_iff]
      exact ⟨k, by field_simp⟩
    rw [geom_sum_eq hz1, hzn, if_neg hd]
    simp

theorem fft2_wave {h w : ℕ} (h0 : 0 < h) (w0 : 0 < w) (a b : ℤ) (u v : ℕ) :
    fft2 h w (planeWave h w a b) u v = if (h : ℤ) ∣ a - u ∧ (w : ℤ) ∣ b - v then (h : ℂ) * w else 0 := by
  have e : ∀ y x : ℕ, planeWave h w a b y x * cexp (-(2 * Real.pi * I * ((u : ℂ) * y / h + (v : ℂ) * x / w))) =
      cexp (2 * Real.pi * I * (((a - u : ℤ) : ℂ) * y / h)) * cexp (2 * Real.pi * I * (((b - v : ℤ) : ℂ) * x / w)) := by
    intro y x
    unfold planeWave
    rw [← Complex.exp_add, ← Complex.exp_add]
    congr 1
    push_cast
    ring
  unfold fft2
  simp only [e]
  rw [← Finset.sum_mul_sum, sum_roots h0, sum_roots w0]
  split_ifs <;> simp_all

theorem planeWave_congr {h w : ℕ} (h0 : 0 < h) (w0 : 0 < w) {a b a' b' : ℤ} (ha : (h : ℤ) ∣ a - a') (hb : (w : ℤ) ∣ b - b') (y x : ℕ) :
    planeWave h w a b y x = planeWave h w a' b' y x := by
  obtain ⟨c, hc⟩ := ha
  obtain ⟨d, hd⟩ := hb
  obtain rfl : a = h * c + a' := by linarith
  obtain rfl : b = w * d + b' := by linarith
  have hn0 : (h : ℂ) ≠ 0 := by exact_mod_cast h0.ne'
  have wn0 : (w : ℂ) ≠ 0 := by exact_mod_cast w0.ne'
  unfold planeWave
  rw [Complex.exp_eq_exp_iff_exists_int]
  refine ⟨c * y + d * x, ?_⟩
  push_cast
  field_simp
  ring

theorem ifft2_single {h w : ℕ} {u v : ℕ} (hu : u < h) (hv : v < w) (c : ℂ) (y x : ℕ) :
    ifft2 h w (fun u' v' => (if u' = u ∧ v' = v then (h : ℂ) * w else 0) * c) y x = c * planeWave h w u v y x := by
  have hn0 : (h : ℂ) ≠ 0 := by exact_mod_cast (by omega : h ≠ 0)
  have wn0 : (w : ℂ) ≠ 0 := by exact_mod_cast (by omega : w ≠ 0)
  unfold ifft2 planeWave
  rw [Finset.sum_eq_single u, Finset.sum_eq_single v]
  · simp only [and_self, if_true]
    push_cast
    field_simp
  · intro b _ hb
    simp [hb]
  · intro hh
    exact absurd (Finset.mem_range.2 hv) hh
  · intro b _ hb
    apply Finset.sum_eq_zero
    intro v' _
    simp [hb]
  · intro hh
    exact absurd (Finset.mem_range.2 hu) hh

theorem neg_one_pow_wave (k : ℕ) : ((-1 : ℂ)) ^ k = cexp (Real.pi * I * k) := by
  rw [mul_comm, Complex.exp_nat_mul, Complex.exp_pi_mul_I]

/-- With even sizes the filter multiplies a plane wave by the value of the window at its frequency. -/
theorem fftFilter_wave {h w : ℕ} (h0 : 0 < h) (w0 : 0 < w) (sigma : ℝ) (u v : ℤ) (hu : -(h : ℤ) ≤ u) (hu' : u < h) (hv : -(w : ℤ) ≤ v)
    (hv' : v < w) (y x : ℕ) :
    fftFilter (2 * h) (2 * w) sigma (planeWave (2 * h) (2 * w) u v) y x =
      (Real.exp (-(((u : ℝ) + 1 / 2) ^ 2 + (v + 1 / 2) ^ 2) / (2 * sigma ^ 2)) : ℝ) * planeWave (2 * h) (2 * w) u v y x := by
  have hn0 : (h : ℂ) ≠ 0 := by exact_mod_cast h0.ne'
  have wn0 : (w : ℂ) ≠ 0 := by exact_mod_cast w0.ne'
  have hs : ∀ y x : ℕ, planeWave (2 * h) (2 * w) u v y x * (-1) ^ (x + y) = planeWave (2 * h) (2 * w) (u + h) (v + w) y x := by
    intro y x
    rw [neg_one_pow_wave]
    unfold planeWave
    rw [← Complex.exp_add]
    congr 1
    push_cast
    field_simp
    ring
  obtain ⟨a, ha⟩ := Int.eq_ofNat_of_zero_le (by omega : 0 ≤ u + h)
  obtain ⟨b, hb⟩ := Int.eq_ofNat_of_zero_le (by omega : 0 ≤ v + w)
  have ha' : a < 2 * h := by omega
  have hb' : b < 2 * w := by omega
  unfold fftFilter
  simp only [hs]
  have e : ∀ u' v' : ℕ, u' < 2 * h → v' < 2 * w →
      fft2 (2 * h) (2 * w) (fun y x => planeWave (2 * h) (2 * w) (u + h) (v + w) y x) u' v' * (makeWindow (2 * h) (2 * w) sigma u' v' : ℝ) =
      (if u' = a ∧ v' = b then ((2 * h : ℕ) : ℂ) * (2 * w : ℕ) else 0) * (makeWindow (2 * h) (2 * w) sigma a b : ℝ) := by
    intro u' v' hu' hv'
    rw [show (fun y x => planeWave (2 * h) (2 * w) (u + h) (v + w) y x) = planeWave (2 * h) (2 * w) (u + h) (v + w) from rfl,
      fft2_wave (by omega) (by omega), ha, hb]
    have d1 : (((2 * h : ℕ) : ℤ) ∣ (a : ℤ) - u') ↔ u' = a := by
      constructor
      · rintro ⟨c, hc⟩
        have h1 : (2 * h : ℤ) * c < 2 * h * 1 := by push_cast at hc; omega
        have h2 : (2 * h : ℤ) * (-1) < 2 * h * c := by push_cast at hc; omega
        have := lt_of_mul_lt_mul_left h1 (by omega)
        have := lt_of_mul_lt_mul_left h2 (by omega)
        obtain rfl : c = 0 := by omega
        simp at hc
        omega
      · rintro rfl
        simp
    have d2 : (((2 * w : ℕ) : ℤ) ∣ (b : ℤ) - v') ↔ v' = b := by
      constructor
      · rintro ⟨c, hc⟩
        have h1 : (2 * w : ℤ) * c < 2 * w * 1 := by push_cast at hc; omega
        have h2 : (2 * w : ℤ) * (-1) < 2 * w * c := by push_cast at hc; omega
        have := lt_of_mul_lt_mul_left h1 (by omega)
        have := lt_of_mul_lt_mul_left h2 (by omega)
        obtain rfl : c = 0 := by omega
        simp at hc
        omega
      · rintro rfl
        simp
    simp only [d1, d2]
    by_cases hc : u' = a ∧ v' = b
    · obtain ⟨rfl, rfl⟩ := hc
      simp
    · simp [hc]
  have key : ifft2 (2 * h) (2 * w) (fun u' v' => fft2 (2 * h) (2 * w) (fun y x => planeWave (2 * h) (2 * w) (u + h) (v + w) y x) u' v' *
      (makeWindow (2 * h) (2 * w) sigma u' v' : ℝ)) y x =
      ifft2 (2 * h) (2 * w) (fun u' v' => (if u' = a ∧ v' = b then ((2 * h : ℕ) : ℂ) * (2 * w : ℕ) else 0) *
        (makeWindow (2 * h) (2 * w) sigma a b : ℝ)) y x := by
    unfold ifft2
    congr 1
    apply Finset.sum_congr rfl
    intro u' hu'
    apply Finset.sum_congr rfl
    intro v' hv'
    simp only
    rw [e u' v' (Finset.mem_range.1 hu') (Finset.mem_range.1 hv')]
  rw [key, ifft2_single ha' hb', mul_assoc]
  rw [show planeWave (2 * h) (2 * w) (a : ℤ) (b : ℤ) y x = planeWave (2 * h) (2 * w) (u + h) (v + w) y x by rw [ha, hb]]
  rw [← hs, mul_assoc, ← mul_pow]
  simp only [mul_neg, mul_one, neg_neg, one_pow]
  congr 3
  have ea : (a : ℝ) = u + h := by have := congrArg (fun z : ℤ => (z : ℝ)) ha; push_cast at this; linarith
  have eb : (b : ℝ) = v + w := by have := congrArg (fun z : ℤ => (z : ℝ)) hb; push_cast at this; linarith
  unfold makeWindow
  simp only [ea, eb]
  push_cast
  congr 1
  by_cases hz : sigma = 0
  · simp [hz]
  · field_simp
    ring

/-- The weight of pixel `(y', x')` in the filtered pixel `(y, x)`. -/
noncomputable def fftKernel (h w : ℕ) (sigma : ℝ) (y x y' x' : ℕ) : ℂ :=
  (∑ u ∈ Finset.range h, ∑ v ∈ Finset.range w,
    (makeWindow h w sigma u v : ℝ) * cexp (2 * Real.pi * I * ((u : ℂ) * (y - y') / h + (v : ℂ) * (x - x') / w))) / ((h : ℂ) * w) *
      ((-1) ^ (x + y) * (-1) ^ (x' + y'))

theorem fftFilter_kernel (h w : ℕ) (sigma : ℝ) (f : ℕ → ℕ → ℂ) (y x : ℕ) :
    fftFilter h w sigma f y x = ∑ y' ∈ Finset.range h, ∑ x' ∈ Finset.range w, f y' x' * fftKernel h w sigma y x y' x' := by
  have e : ∀ u v : ℕ, fft2 h w (fun y x => f y x * (-1) ^ (x + y)) u v * (makeWindow h w sigma u v : ℝ) *
      cexp (2 * Real.pi * I * ((u : ℂ) * y / h + (v : ℂ) * x / w)) =
      ∑ y' ∈ Finset.range h, ∑ x' ∈ Finset.range w, f y' x' * (-1) ^ (x' + y') *
        ((makeWindow h w sigma u v : ℝ) * cexp (2 * Real.pi * I * ((u : ℂ) * (y - y') / h + (v : ℂ) * (x - x') / w))) := by
    intro u v
    unfold fft2
    rw [Finset.sum_mul, Finset.sum_mul]
    apply Finset.sum_congr rfl
    intro y' _
    rw [Finset.sum_mul, Finset.sum_mul]
    apply Finset.sum_congr rfl
    intro x' _
    rw [show (2 * Real.pi * I * ((u : ℂ) * (y - y') / h + (v : ℂ) * (x - x') / w)) =
      -(2 * Real.pi * I * ((u : ℂ) * y' / h + (v : ℂ) * x' / w)) + 2 * Real.pi * I * ((u : ℂ) * y / h + (v : ℂ) * x / w) by ring,
      Complex.exp_add]
    ring
  unfold fftFilter ifft2
  simp only [e]
  unfold fftKernel
  rw [Finset.sum_congr rfl fun u _ => Finset.sum_comm, Finset.sum_comm, Finset.sum_div, Finset.sum_mul]
  apply Finset.sum_congr rfl
  intro y' _
  rw [Finset.sum_congr rfl fun u _ => Finset.sum_comm, Finset.sum_comm, Finset.sum_div, Finset.sum_mul]
  apply Finset.sum_congr rfl
  intro x' _
  simp only [← Finset.mul_sum]
  ring

theorem fftFilter_add (h w : ℕ) (sigma : ℝ) (f g : ℕ → ℕ → ℂ) (y x : ℕ) :
    fftFilter h w sigma (fun y x => f y x + g y x) y x = fftFilter h w sigma f y x + fftFilter h w sigma g y x := by
  simp only [fftFilter_kernel, add_mul, Finset.sum_add_distrib]

theorem fftFilter_smul (h w : ℕ) (sigma : ℝ) (c : ℂ) (f : ℕ → ℕ → ℂ) (y x : ℕ) :
    fftFilter h w sigma (fun y x => c * f y x) y x = c * fftFilter h w sigma f y x := by
  simp only [fftFilter_kernel, mul_assoc, Finset.mul_sum]

theorem fftFilter_congr {h w : ℕ} (sigma : ℝ) {f g : ℕ → ℕ → ℂ} (hfg : ∀ y < h, ∀ x < w, f y x = g y x) (y x : ℕ) :
    fftFilter h w sigma f y x = fftFilter h w sigma g y x := by
  simp only [fftFilter_kernel]
  apply Finset.sum_congr rfl
  intro y hy
  apply Finset.sum_congr rfl
  intro x hx
  rw [hfg y (Finset.mem_range.1 hy) x (Finset.mem_range.1 hx)]

/-! ### the division -/

theorem matFlat_sum (m : Mat ℝ) : m.flat.sum = ∑ i ∈ Finset.range m.height, ∑ j ∈ Finset.range m.width, m.get i j := by
  have aux : ∀ (n : ℕ) (g : ℕ → ℝ), ((List.range n).map g).sum = ∑ j ∈ Finset.range n, g j := by
    intro n g
    induction n with
    | zero => simp
    | succ n ih => rw [List.range_succ, List.map_append, List.sum_append, ih, Finset.sum_range_succ]; simp
  have aux2 : ∀ n : ℕ, ((List.range n).flatMap fun i => (List.range m.width).map (m.get i)).sum =
      ∑ i ∈ Finset.range n, ∑ j ∈ Finset.range m.width, m.get i j := by
    intro n
    induction n with
    | zero => simp
    | succ n ih => rw [List.range_succ, List.flatMap_append, List.sum_append, ih, Finset.sum_range_succ]; simp [aux]
  exact aux2 _

theorem matFlat_length (m : Mat ℝ) : m.flat.length = m.height * m.width := by
  unfold Mat.flat
  rw [List.length_flatMap]
  simp

theorem divideBackground_spec {m bck : Mat ℝ} (h0 : 0 < m.height) (w0 : 0 < m.width) (hh : bck.height = m.height)
    (hw : bck.width = m.width) : IsNormalized m bck.get (divideBackground m bck) := by
  have hne : bck.flat ≠ [] := by
    intro e
    have := matFlat_length bck
    rw [e, hh, hw] at this
    simp at this
    omega
  have hmean : npMean bck.flat = .ok (meanOver m.height m.width bck.get) := by
    rw [npMean_ok hne, matFlat_sum, matFlat_length, hh, hw]
    unfold meanOver
    push_cast
    rfl
  have hany : (bck.flat.any fun b => decide (b = 0)) = true ↔ ∃ i < m.height, ∃ j < m.width, bck.get i j = 0 := by
    unfold Mat.flat
    rw [hh, hw]
    simp
  constructor
  · intro hz
    unfold divideBackground
    rw [hmean, ok_bind, if_pos (hany.2 hz)]
  · intro hz
    refine ⟨⟨m.height, m.width, fun i j => meanOver m.height m.width bck.get * m.get i j / bck.get i j⟩, ?_, rfl, rfl, fun _ _ _ _ => rfl⟩
    unfold divideBackground
    rw [hmean, ok_bind, if_neg]
    · rfl
    · rw [hany]
      push Not
      exact hz

/-- The outcome depends only on the background inside the frame. -/
theorem isNormalized_congr {m : Mat ℝ} {b b' : ℕ → ℕ → ℝ} {r : Except PyErr (Mat ℝ)} (h : IsNormalized m b r)
    (e : ∀ i < m.height, ∀ j < m.width, b i j = b' i j) : IsNormalized m b' r := by
  have hm : meanOver m.height m.width b = meanOver m.height m.width b' := by
    unfold meanOver
    congr 1
    apply Finset.sum_congr rfl
    intro i hi
    apply Finset.sum_congr rfl
    intro j hj
    exact e i (Finset.mem_range.1 hi) j (Finset.mem_range.1 hj)
  constructor
  · rintro ⟨i, hi, j, hj, hz⟩
    exact h.1 ⟨i, hi, j, hj, by rw [e i hi j hj]; exact hz⟩
  · intro hz
    obtain ⟨out, h1, h2, h3, h4⟩ := h.2 fun i hi j hj => by rw [e i hi j hj]; exact hz i hi j hj
    refine ⟨out, h1, h2, h3, fun i hi j hj => ?_⟩
    rw [h4 i hi j hj, hm, e i hi j hj]

/-! ### the median background -/

theorem reflectIdx_mirror {n : ℕ} (hn : 0 < n) (k : ℤ) : IsMirror n k (reflectIdx n k) := by
  have h1 := Int.emod_nonneg k (show ((2 * n : ℕ) : ℤ) ≠ 0 by omega)
  have h2 := Int.emod_lt_of_pos k (show (0 : ℤ) < ((2 * n : ℕ) : ℤ) by omega)
  have h3 := Int.emod_add_mul_ediv k ((2 * n : ℕ) : ℤ)
  obtain ⟨r, hr⟩ := Int.eq_ofNat_of_zero_le h1
  unfold reflectIdx
  rw [hr] at h2 h3 ⊢
  simp only [Int.toNat_natCast]
  push_cast at h2 h3
  split_ifs with hlt
  · exact ⟨hlt, k / ((2 * n : ℕ) : ℤ), Or.inl (by push_cast; linarith)⟩
  · refine ⟨by omega, k / ((2 * n : ℕ) : ℤ) + 1, Or.inr ?_⟩
    have : ((2 * n - 1 - r : ℕ) : ℤ) = 2 * n - 1 - r := by omega
    rw [this]
    push_cast
    linarith

theorem isMirror_unique {n : ℕ} {k : ℤ} {i j : ℕ} (hi : IsMirror n k i) (hj : IsMirror n k j) : i = j := by
  obtain ⟨h1, z, hz⟩ := hi
  obtain ⟨h2, y, hy⟩ := hj
  have aux : ∀ a : ℤ, (n : ℤ) * a < n * 1 → (n : ℤ) * (-1) < n * a → a = 0 := by
    intro a p q
    have := lt_of_mul_lt_mul_left p (by omega)
    have := lt_of_mul_lt_mul_left q (by omega)
    omega
  have aux2 : ∀ a : ℤ, 2 * (n : ℤ) * a < 2 * n * 1 → (2 * n : ℤ) * (-1) < 2 * n * a → a = 0 := by
    intro a p q
    have := lt_of_mul_lt_mul_left p (by omega)
    have := lt_of_mul_lt_mul_left q (by omega)
    omega
  rcases hz with hz | hz <;> rcases hy with hy | hy
  · have := aux2 (z - y) (by linarith [mul_sub (2 * (n : ℤ)) z y]) (by linarith [mul_sub (2 * (n : ℤ)) z y])
    obtain rfl : z = y := by omega
    omega
  · have e : 2 * (n : ℤ) * (y - z) = i + j + 1 := by linarith [mul_sub (2 * (n : ℤ)) y z]
    have p : 0 < y - z := by
      by_contra hc
      have := mul_nonpos_of_nonneg_of_nonpos (by omega : (0 : ℤ) ≤ 2 * n) (by omega : y - z ≤ 0)
      omega
    have := mul_le_mul_of_nonneg_left (by omega : (1 : ℤ) ≤ y - z) (by omega : (0 : ℤ) ≤ 2 * n)
    omega
  · have e : 2 * (n : ℤ) * (z - y) = i + j + 1 := by linarith [mul_sub (2 * (n : ℤ)) z y]
    have p : 0 < z - y := by
      by_contra hc
      have := mul_nonpos_of_nonneg_of_nonpos (by omega : (0 : ℤ) ≤ 2 * n) (by omega : z - y ≤ 0)
      omega
    have := mul_le_mul_of_nonneg_left (by omega : (1 : ℤ) ≤ z - y) (by omega : (0 : ℤ) ≤ 2 * n)
    omega
  · have := aux2 (z - y) (by linarith [mul_sub (2 * (n : ℤ)) z y]) (by linarith [mul_sub (2 * (n : ℤ)) z y])
    obtain rfl : z = y := by omega
    omega

theorem isRank_unique {l : List ℝ} {k : ℕ} {v v' : ℝ} (h : IsRank l k v) (h' : IsRank l k v') : v = v' := by
  classical
  have aux : ∀ a b : ℝ, a < b → l.countP (fun x => decide (x ≤ a)) ≤ l.countP (fun x => decide (x < b)) := by
    intro a b hab
    apply List.countP_mono_left
    intro x _ hx
    simp only [decide_eq_true_eq] at hx ⊢
    linarith
  obtain ⟨_, a1, a2⟩ := h
  obtain ⟨_, b1, b2⟩ := h'
  by_contra hne
  rcases lt_or_gt_of_ne hne with hlt | hlt
  · have := aux v v' hlt
    omega
  · have := aux v' v hlt
    omega

theorem isRank_scale {l : List ℝ} {k : ℕ} {v c : ℝ} (hc : 0 < c) (h : IsRank l k v) : IsRank (l.map fun x => c * x) k (c * v) := by
  classical
  obtain ⟨h1, h2, h3⟩ := h
  refine ⟨List.mem_map.2 ⟨v, h1, rfl⟩, ?_, ?_⟩
  · rw [List.countP_map]
    convert h2 using 2
    ext x
    simp [hc]
  · rw [List.countP_map]
    convert h3 using 2
    ext x
    simp [hc]

/-! ### the Fourier background -/

theorem fftKernel_re (H W : ℕ) (H0 : 0 < H) (W0 : 0 < W) (sigma : ℝ) (y x y' x' : ℕ) :
    (fftKernel H W sigma y x y' x').re = gaussWeight H W sigma ((y : ℤ) - y') ((x : ℤ) - x') := by
  have hH : (H : ℝ) ≠ 0 := by exact_mod_cast H0.ne'
  have hW : (W : ℝ) ≠ 0 := by exact_mod_cast W0.ne'
  have hs : ((-1 : ℂ)) ^ (x + y) * (-1) ^ (x' + y') = ((Real.cos (Real.pi * ((y : ℝ) - y' + (x - x'))) : ℝ) : ℂ) := by
    rw [← pow_add]
    have : Real.cos (Real.pi * ((y : ℝ) - y' + (x - x'))) = (-1) ^ (x + y + (x' + y')) := by
      rw [show Real.pi * ((y : ℝ) - y' + (x - x')) = ((x + y + (x' + y') : ℕ) : ℝ) * Real.pi - ((x' + y' : ℕ) : ℝ) * (2 * Real.pi) by
        push_cast; ring, Real.cos_sub_nat_mul_two_pi, Real.cos_nat_mul_pi]
    rw [this]
    push_cast
    rfl
  have hsin : Real.sin (Real.pi * ((y : ℝ) - y' + (x - x'))) = 0 := by
    rw [show Real.pi * ((y : ℝ) - y' + (x - x')) = (((y : ℤ) - y' + (x - x') : ℤ) : ℝ) * Real.pi by push_cast; ring, Real.sin_int_mul_pi]
  unfold fftKernel gaussWeight meanOver
  rw [hs, Complex.re_mul_ofReal, show (H : ℂ) * W = (((H : ℝ) * W : ℝ) : ℂ) by push_cast; rfl, Complex.div_ofReal_re, div_mul_eq_mul_div]
  congr 1
  rw [Complex.re_sum, Finset.sum_mul]
  apply Finset.sum_congr rfl
  intro u _
  rw [Complex.re_sum, Finset.sum_mul]
  apply Finset.sum_congr rfl
  intro v _
  rw [Complex.re_ofReal_mul]
  have e : (2 * Real.pi * I * ((u : ℂ) * (y - y') / H + (v : ℂ) * (x - x') / W)) =
      ((2 * Real.pi * ((u : ℝ) * (y - y') / H + v * (x - x') / W) : ℝ) : ℂ) * I := by
    push_cast
    ring
  rw [e, Complex.exp_ofReal_mul_I_re, mul_assoc]
  congr 1
  · unfold makeWindow
    simp only
    congr 1
    by_cases hz : sigma = 0
    · simp [hz]
    · field_simp
      ring
  · rw [show 2 * Real.pi * (((u : ℝ) - H / 2) * (((y : ℤ) - y' : ℤ) : ℝ) / H + (v - W / 2) * (((x : ℤ) - x' : ℤ) : ℝ) / W) =
      2 * Real.pi * ((u : ℝ) * (y - y') / H + v * (x - x') / W) - Real.pi * ((y : ℝ) - y' + (x - x')) by
      push_cast; field_simp; ring, Real.cos_sub, hsin]
    ring

theorem fftFilter_re (H W : ℕ) (H0 : 0 < H) (W0 : 0 < W) (sigma : ℝ) (f : ℕ → ℕ → ℝ) (y x : ℕ) :
    (fftFilter H W sigma (fun y x => (f y x : ℝ)) y x).re =
      ∑ y' ∈ Finset.range H, ∑ x' ∈ Finset.range W, gaussWeight H W sigma ((y : ℤ) - y') ((x : ℤ) - x') * f y' x' := by
  rw [fftFilter_kernel, Complex.re_sum]
  apply Finset.sum_congr rfl
  intro y' _
  rw [Complex.re_sum]
  apply Finset.sum_congr rfl
  intro x' _
  rw [Complex.re_ofReal_mul, fftKernel_re H W H0 W0, mul_comm]

/-- The background of a wave, for even sizes. -/
theorem fftFilter_ripple {h w : ℕ} (h0 : 0 < h) (w0 : 0 < w) (sigma : ℝ) (u v : ℤ) (hu : -(h : ℤ) < u) (hu' : u < h) (hv : -(w : ℤ) < v)
    (hv' : v < w) (phase : ℝ) (y x : ℕ) :
    (fftFilter (2 * h) (2 * w) sigma (fun y x => (ripple (2 * h) (2 * w) u v phase y x : ℝ)) y x).re =
      Real.exp (-(1 / (4 * sigma ^ 2))) * (attenuation sigma u v * ripple (2 * h) (2 * w) u v phase y x) := by
  have hexp : ∀ (u v : ℤ) (phase : ℝ) (y x : ℕ), cexp (phase * I) * planeWave (2 * h) (2 * w) u v y x =
      cexp (((2 * Real.pi * (u * y / (2 * h : ℕ) + v * x / (2 * w : ℕ)) + phase : ℝ) : ℂ) * I) := by
    intro u v phase y x
    unfold planeWave
    rw [← Complex.exp_add]
    congr 1
    push_cast
    ring
  have hsplit : ∀ y x : ℕ, ((ripple (2 * h) (2 * w) u v phase y x : ℝ) : ℂ) =
      (cexp (phase * I) / 2) * planeWave (2 * h) (2 * w) u v y x +
        (cexp ((-phase : ℝ) * I) / 2) * planeWave (2 * h) (2 * w) (-u) (-v) y x := by
    intro y x
    rw [div_mul_eq_mul_div, div_mul_eq_mul_div, hexp, hexp, ← add_div]
    unfold ripple
    rw [Complex.ofReal_cos, Complex.cos]
    congr 3
    push_cast
    ring_nf
  have e : (fun y x => ((ripple (2 * h) (2 * w) u v phase y x : ℝ) : ℂ)) = fun y x =>
      (cexp (phase * I) / 2) * planeWave (2 * h) (2 * w) u v y x +
        (cexp ((-phase : ℝ) * I) / 2) * planeWave (2 * h) (2 * w) (-u) (-v) y x := by
    funext y x
    exact hsplit y x
  rw [e, fftFilter_add, fftFilter_smul, fftFilter_smul, fftFilter_wave h0 w0 sigma u v (by omega) hu' (by omega) hv',
    fftFilter_wave h0 w0 sigma (-u) (-v) (by omega) (by omega) (by omega) (by omega)]
  have r1 : ∀ (p g : ℝ) (u v : ℤ), (cexp (p * I) / 2 * ((g : ℂ) * planeWave (2 * h) (2 * w) u v y x)).re =
      g / 2 * Real.cos (2 * Real.pi * (u * y / (2 * h : ℕ) + v * x / (2 * w : ℕ)) + p) := by
    intro p g u v
    rw [show cexp (p * I) / 2 * ((g : ℂ) * planeWave (2 * h) (2 * w) u v y x) =
      ((g / 2 : ℝ) : ℂ) * (cexp (p * I) * planeWave (2 * h) (2 * w) u v y x) by push_cast; ring, hexp, Complex.re_ofReal_mul,
      Complex.exp_ofReal_mul_I_re]
  rw [Complex.add_re, r1, r1]
  have c2 : Real.cos (2 * Real.pi * (((-u : ℤ) : ℝ) * y / (2 * h : ℕ) + ((-v : ℤ) : ℝ) * x / (2 * w : ℕ)) + -phase) =
      Real.cos (2 * Real.pi * ((u : ℝ) * y / (2 * h : ℕ) + v * x / (2 * w : ℕ)) + phase) := by
    rw [← Real.cos_neg]
    congr 1
    push_cast
    ring
  rw [c2]
  unfold attenuation ripple
  have g1 : ∀ u v : ℝ, Real.exp (-((u + 1 / 2) ^ 2 + (v + 1 / 2) ^ 2) / (2 * sigma ^ 2)) =
      Real.exp (-(1 / (4 * sigma ^ 2))) * Real.exp (-(u ^ 2 + v ^ 2 + u + v) / (2 * sigma ^ 2)) := by
    intro u v
    rw [← Real.exp_add]
    congr 1
    by_cases hz : sigma = 0
    · simp [hz]
    · field_simp
      ring
  rw [g1, g1]
  push_cast
  rw [show -((-(u : ℝ)) ^ 2 + (-(v : ℝ)) ^ 2 + -(u : ℝ) + -(v : ℝ)) = -((u : ℝ) ^ 2 + v ^ 2 - u - v) by ring]
  ring

theorem ripple_mean {h w : ℕ} (h0 : 0 < h) (w0 : 0 < w) (u v : ℤ) (hu : -(h : ℤ) < u) (hu' : u < h) (hv : -(w : ℤ) < v)
    (hv' : v < w) (hne : u ≠ 0 ∨ v ≠ 0) (phase : ℝ) :
    ∑ i ∈ Finset.range h, ∑ j ∈ Finset.range w, ripple h w u v phase i j = 0 := by
  have hz := fft2_wave h0 w0 u v 0 0
  have hnd : ¬ ((h : ℤ) ∣ u - (0 : ℕ) ∧ (w : ℤ) ∣ v - (0 : ℕ)) := by
    rintro ⟨a, b⟩
    rw [Nat.cast_zero, sub_zero] at a b
    have e1 := Int.eq_zero_of_abs_lt_dvd a (by rw [abs_lt]; exact ⟨hu, hu'⟩)
    have e2 := Int.eq_zero_of_abs_lt_dvd b (by rw [abs_lt]; exact ⟨hv, hv'⟩)
    rcases hne with hh | hh
    · exact hh e1
    · exact hh e2
  rw [if_neg hnd] at hz
  have hre := congrArg (fun z => (cexp (phase * I) * z).re) hz
  simp only [mul_zero, Complex.zero_re] at hre
  rw [← hre]
  unfold fft2
  rw [Finset.mul_sum, Complex.re_sum]
  apply Finset.sum_congr rfl
  intro i _
  rw [Finset.mul_sum, Complex.re_sum]
  apply Finset.sum_congr rfl
  intro j _
  unfold planeWave ripple
  rw [← Complex.exp_add, ← Complex.exp_add, ← Complex.exp_ofReal_mul_I_re]
  congr 2
  push_cast
  ring

end Discorpy
