import Verif.Lemmas.Normalize
import Verif.Props.C81

/-! # C85 — correction of the background -/

namespace Discorpy

open Spec

theorem medianWindow_eq {m : Mat ℝ} (h0 : 0 < m.height) (w0 : 0 < m.width) {rowOf colOf : ℤ → ℕ}
    (hr : ∀ k, IsMirror m.height k (rowOf k)) (hc : ∀ k, IsMirror m.width k (colOf k)) (size i j : ℕ) :
    medianWindow m size size i j = neighbourhood m.get rowOf colOf size i j := by
  have er : ∀ k, reflectIdx m.height k = rowOf k := fun k => isMirror_unique (reflectIdx_mirror h0 k) (hr k)
  have ec : ∀ k, reflectIdx m.width k = colOf k := fun k => isMirror_unique (reflectIdx_mirror w0 k) (hc k)
  unfold medianWindow neighbourhood pixels
  rw [List.map_flatMap]
  apply List.flatMap_congr
  intro a _
  rw [List.map_map]
  apply List.map_congr_left
  intro b _
  simp only [Function.comp_apply]
  rw [er, ec]
  congr 2 <;> ring

theorem neighbourhood_length (f : ℕ → ℕ → ℝ) (rowOf colOf : ℤ → ℕ) (size i j : ℕ) :
    (neighbourhood f rowOf colOf size i j).length = size * size := by
  unfold neighbourhood
  rw [List.length_flatMap]
  simp

theorem medianFilter_rank {m : Mat ℝ} (h0 : 0 < m.height) (w0 : 0 < m.width) {rowOf colOf : ℤ → ℕ}
    (hr : ∀ k, IsMirror m.height k (rowOf k)) (hc : ∀ k, IsMirror m.width k (colOf k)) {size : ℕ} (hs : 0 < size) (i j : ℕ) :
    IsRank (neighbourhood m.get rowOf colOf size i j) (size ^ 2 / 2) ((medianFilter m size size).get i j) := by
  rw [← medianWindow_eq h0 w0 hr hc, pow_two]
  apply isRank_sorted
  rw [medianWindow_eq h0 w0 hr hc, neighbourhood_length]
  exact Nat.div_lt_self (Nat.mul_pos hs hs) (by norm_num)

/-- **C85.** `normalization`: the background of a pixel is the median of its `size × size` neighbours, where the image is continued
by its mirror images. The image is divided by the background and multiplied by the mean background; if the background vanishes
somewhere the result is not finite (the handling of `ZeroDivisionError` in the code is never reached). -/
theorem C85_median (m : Mat ℝ) (h0 : 0 < m.height) (w0 : 0 < m.width) (rowOf colOf : ℤ → ℕ) (hr : ∀ k, IsMirror m.height k (rowOf k))
    (hc : ∀ k, IsMirror m.width k (colOf k)) (size : ℕ) (hs : 0 < size) (bck : ℕ → ℕ → ℝ)
    (hb : ∀ i < m.height, ∀ j < m.width, IsRank (neighbourhood m.get rowOf colOf size i j) (size ^ 2 / 2) (bck i j)) :
    IsNormalized m bck (normalization m size) := by
  refine isNormalized_congr (divideBackground_spec (bck := medianFilter m size size) h0 w0 rfl rfl) ?_
  intro i hi j hj
  exact isRank_unique (medianFilter_rank h0 w0 hr hc hs i j) (hb i hi j hj)

/-- The rows and columns can be continued, and every pixel has such a median. -/
theorem exists_background (m : Mat ℝ) (h0 : 0 < m.height) (w0 : 0 < m.width) (size : ℕ) (hs : 0 < size) :
    ∃ rowOf colOf : ℤ → ℕ, (∀ k, IsMirror m.height k (rowOf k)) ∧ (∀ k, IsMirror m.width k (colOf k)) ∧
      ∃ bck : ℕ → ℕ → ℝ, ∀ i < m.height, ∀ j < m.width,
        IsRank (neighbourhood m.get rowOf colOf size i j) (size ^ 2 / 2) (bck i j) :=
  ⟨_, _, reflectIdx_mirror h0, reflectIdx_mirror w0, _, fun i _ j _ =>
    medianFilter_rank h0 w0 (reflectIdx_mirror h0) (reflectIdx_mirror w0) hs i j⟩

theorem mem_neighbourhood {m : Mat ℝ} {rowOf colOf : ℤ → ℕ} (hr : ∀ k, IsMirror m.height k (rowOf k))
    (hc : ∀ k, IsMirror m.width k (colOf k)) {size i j : ℕ} {v : ℝ} (hv : v ∈ neighbourhood m.get rowOf colOf size i j) :
    ∃ y < m.height, ∃ x < m.width, v = m.get y x := by
  unfold neighbourhood at hv
  rw [List.mem_flatMap] at hv
  obtain ⟨a, _, ha⟩ := hv
  obtain ⟨b, _, rfl⟩ := List.mem_map.1 ha
  exact ⟨_, (hr _).1, _, (hc _).1, rfl⟩

/-- **C85 (positive images).** An image with positive values is always normalized, and stays positive. -/
theorem C85_positive (m : Mat ℝ) (h0 : 0 < m.height) (w0 : 0 < m.width) (hp : ∀ i < m.height, ∀ j < m.width, 0 < m.get i j) (size : ℕ)
    (hs : 0 < size) :
    ∃ out, normalization m size = .ok out ∧ out.height = m.height ∧ out.width = m.width ∧
      ∀ i < m.height, ∀ j < m.width, 0 < out.get i j := by
  obtain ⟨rowOf, colOf, hr, hc, bck, hb⟩ := exists_background m h0 w0 size hs
  have hpos : ∀ i < m.height, ∀ j < m.width, 0 < bck i j := by
    intro i hi j hj
    obtain ⟨y, hy, x, hx, e⟩ := mem_neighbourhood hr hc (hb i hi j hj).1
    rw [e]
    exact hp y hy x hx
  obtain ⟨out, h1, h2, h3, h4⟩ := (C85_median m h0 w0 rowOf colOf hr hc size hs bck hb).2 fun i hi j hj => (hpos i hi j hj).ne'
  refine ⟨out, h1, h2, h3, fun i hi j hj => ?_⟩
  rw [h4 i hi j hj]
  have hm : 0 < meanOver m.height m.width bck := by
    unfold meanOver
    apply div_pos
    · apply Finset.sum_pos
      · intro i hi
        apply Finset.sum_pos
        · intro j hj
          exact hpos i (Finset.mem_range.1 hi) j (Finset.mem_range.1 hj)
        · exact ⟨0, Finset.mem_range.2 w0⟩
      · exact ⟨0, Finset.mem_range.2 h0⟩
    · have : (0 : ℝ) < m.height := by exact_mod_cast h0
      have : (0 : ℝ) < m.width := by exact_mod_cast w0
      positivity
  have := hp i hi j hj
  have := hpos i hi j hj
  positivity

theorem meanOver_const {h w : ℕ} (h0 : 0 < h) (w0 : 0 < w) {b : ℕ → ℕ → ℝ} {c : ℝ} (hb : ∀ i < h, ∀ j < w, b i j = c) :
    meanOver h w b = c := by
  have hh : (h : ℝ) ≠ 0 := by exact_mod_cast h0.ne'
  have hw : (w : ℝ) ≠ 0 := by exact_mod_cast w0.ne'
  unfold meanOver
  rw [Finset.sum_congr rfl fun i hi => Finset.sum_congr rfl fun j hj => hb i (Finset.mem_range.1 hi) j (Finset.mem_range.1 hj)]
  simp only [Finset.sum_const, Finset.card_range, nsmul_eq_mul]
  field_simp

theorem meanOver_smul (h w : ℕ) (c : ℝ) (b : ℕ → ℕ → ℝ) : meanOver h w (fun i j => c * b i j) = c * meanOver h w b := by
  unfold meanOver
  simp only [← Finset.mul_sum]
  ring

/-- **C85 (uniform images).** A uniform image keeps its value; a black one gives values that are not finite. -/
theorem C85_uniform (m : Mat ℝ) (h0 : 0 < m.height) (w0 : 0 < m.width) (c : ℝ) (hm : ∀ i < m.height, ∀ j < m.width, m.get i j = c)
    (size : ℕ) (hs : 0 < size) :
    (c = 0 → normalization m size = .error .nonFinite) ∧
    (c ≠ 0 → ∃ out, normalization m size = .ok out ∧ out.height = m.height ∧ out.width = m.width ∧
      ∀ i < m.height, ∀ j < m.width, out.get i j = c) := by
  obtain ⟨rowOf, colOf, hr, hc, bck, hb⟩ := exists_background m h0 w0 size hs
  have hbc : ∀ i < m.height, ∀ j < m.width, bck i j = c := by
    intro i hi j hj
    obtain ⟨y, hy, x, hx, e⟩ := mem_neighbourhood hr hc (hb i hi j hj).1
    rw [e, hm y hy x hx]
  have hn := C85_median m h0 w0 rowOf colOf hr hc size hs bck hb
  constructor
  · rintro rfl
    exact hn.1 ⟨0, h0, 0, w0, hbc 0 h0 0 w0⟩
  · intro hc0
    obtain ⟨out, h1, h2, h3, h4⟩ := hn.2 fun i hi j hj => by rw [hbc i hi j hj]; exact hc0
    refine ⟨out, h1, h2, h3, fun i hi j hj => ?_⟩
    rw [h4 i hi j hj, meanOver_const h0 w0 hbc, hbc i hi j hj, hm i hi j hj]
    field_simp

/-- Both outcomes of a normalization with a scaled image and background. -/
theorem isNormalized_scale {m m' : Mat ℝ} {b b' : ℕ → ℕ → ℝ} {r r' : Except PyErr (Mat ℝ)} {c : ℝ} (hc : c ≠ 0)
    (hh : m'.height = m.height) (hw : m'.width = m.width) (hm : ∀ i < m.height, ∀ j < m.width, m'.get i j = c * m.get i j)
    (hb : ∀ i < m.height, ∀ j < m.width, b' i j = c * b i j) (hr : IsNormalized m b r) (hr' : IsNormalized m' b' r') :
    (r = .error .nonFinite ∧ r' = .error .nonFinite) ∨
    ∃ out out', r = .ok out ∧ r' = .ok out' ∧ out'.height = out.height ∧ out'.width = out.width ∧
      ∀ i < m.height, ∀ j < m.width, out'.get i j = c * out.get i j := by
  by_cases hz : ∃ i < m.height, ∃ j < m.width, b i j = 0
  · left
    refine ⟨hr.1 hz, hr'.1 ?_⟩
    obtain ⟨i, hi, j, hj, e⟩ := hz
    exact ⟨i, by omega, j, by omega, by rw [hb i hi j hj, e, mul_zero]⟩
  · right
    push Not at hz
    obtain ⟨out, h1, h2, h3, h4⟩ := hr.2 hz
    obtain ⟨out', h1', h2', h3', h4'⟩ := hr'.2 fun i hi j hj => by
      rw [hh] at hi
      rw [hw] at hj
      rw [hb i hi j hj]
      exact mul_ne_zero hc (hz i hi j hj)
    refine ⟨out, out', h1, h1', by omega, by omega, fun i hi j hj => ?_⟩
    have e : meanOver m'.height m'.width b' = c * meanOver m.height m.width b := by
      rw [← meanOver_smul, hh, hw]
      unfold meanOver
      congr 1
      apply Finset.sum_congr rfl
      intro i hi
      apply Finset.sum_congr rfl
      intro j hj
      exact hb i (Finset.mem_range.1 hi) j (Finset.mem_range.1 hj)
    rw [h4' i (by omega) j (by omega), h4 i hi j hj, e, hm i hi j hj, hb i hi j hj]
    have := hz i hi j hj
    field_simp

/-- **C85 (brightness).** Multiplying the image by a positive factor multiplies the result by this factor. -/
theorem C85_scale (m m' : Mat ℝ) (h0 : 0 < m.height) (w0 : 0 < m.width) (c : ℝ) (hc : 0 < c) (hh : m'.height = m.height)
    (hw : m'.width = m.width) (hm : ∀ i < m.height, ∀ j < m.width, m'.get i j = c * m.get i j) (size : ℕ) (hs : 0 < size) :
    (normalization m size = .error .nonFinite ∧ normalization m' size = .error .nonFinite) ∨
    ∃ out out', normalization m size = .ok out ∧ normalization m' size = .ok out' ∧ out'.height = out.height ∧
      out'.width = out.width ∧ ∀ i < m.height, ∀ j < m.width, out'.get i j = c * out.get i j := by
  obtain ⟨rowOf, colOf, hr, hcol, bck, hb⟩ := exists_background m h0 w0 size hs
  have e : ∀ i j, neighbourhood m'.get rowOf colOf size i j = (neighbourhood m.get rowOf colOf size i j).map fun x => c * x := by
    intro i j
    unfold neighbourhood
    rw [List.map_flatMap]
    apply List.flatMap_congr
    intro a _
    rw [List.map_map]
    apply List.map_congr_left
    intro b _
    exact hm _ (hr _).1 _ (hcol _).1
  refine isNormalized_scale hc.ne' hh hw hm (b' := fun i j => c * bck i j) (fun _ _ _ _ => rfl)
    (C85_median m h0 w0 rowOf colOf hr hcol size hs bck hb)
    (C85_median m' (by omega) (by omega) rowOf colOf (by rw [hh]; exact hr) (by rw [hw]; exact hcol) size hs _ ?_)
  intro i hi j hj
  rw [e]
  exact isRank_scale hc (hb i (by omega) j (by omega))

/-- The default padding mode continues the image. -/
theorem padReflect_padding : IsPadding padReflect := by
  constructor
  · intro n k hk
    rcases Nat.lt_or_ge n 2 with hn | hn
    · obtain rfl : n = 1 := by omega
      obtain rfl : k = 0 := by omega
      rfl
    · have e : (k : ℤ) % ((2 * n - 2 : ℕ) : ℤ) = k := Int.emod_eq_of_lt (by omega) (by omega)
      unfold padReflect
      simp only [e, Int.toNat_natCast, if_pos hk]
  · intro n k hn
    unfold padReflect
    simp only
    split_ifs with h
    · exact h
    · omega

/-- **C85 (padding).** With the default padding mode an image with at least two rows and columns is continued by its mirror images
about the outermost rows and columns. -/
theorem C85_padding (n : ℕ) (hn : 2 ≤ n) (k : ℤ) : IsFold n k (padReflect n k) := by
  have h1 := Int.emod_nonneg k (show ((2 * n - 2 : ℕ) : ℤ) ≠ 0 by omega)
  have h2 := Int.emod_lt_of_pos k (show (0 : ℤ) < ((2 * n - 2 : ℕ) : ℤ) by omega)
  have h3 := Int.emod_add_mul_ediv k ((2 * n - 2 : ℕ) : ℤ)
  have hc : ((2 * n - 2 : ℕ) : ℤ) = 2 * ((n : ℤ) - 1) := by omega
  obtain ⟨r, hr⟩ := Int.eq_ofNat_of_zero_le h1
  unfold padReflect
  rw [hr] at h2 h3 ⊢
  simp only [Int.toNat_natCast]
  generalize k / ((2 * n - 2 : ℕ) : ℤ) = q at h3
  rw [hc] at h2 h3
  split_ifs with hlt
  · exact ⟨hlt, q, Or.inl (by linarith)⟩
  · refine ⟨by omega, q + 1, Or.inr ?_⟩
    have : ((2 * n - 2 - r : ℕ) : ℤ) = 2 * (n - 1) - r := by omega
    rw [this]
    linarith

/-- **C85 (Fourier).** `normalization_fft`: the background is the image, continued by `pad` pixels on each side, averaged with the
weights of a Gaussian window in the frequency plane. -/
theorem C85_fft (padIdx : ℕ → ℤ → ℕ) (m : Mat ℝ) (h0 : 0 < m.height) (w0 : 0 < m.width) (sigma : ℝ) (hs : sigma ≠ 0) (pad : ℕ) :
    IsNormalized m (gaussBackground m padIdx sigma pad) (normalizationFft padIdx m sigma pad) := by
  unfold normalizationFft applyFftFilter
  rw [if_neg (by omega), if_neg hs]
  simp only [pure_bind]
  refine isNormalized_congr (divideBackground_spec h0 w0 ?_ ?_) ?_
  · rfl
  · rfl
  · intro i _ j _
    simp only
    unfold gaussBackground
    rw [fftFilter_re _ _ (by omega) (by omega) sigma
      (fun y x => m.get (padIdx m.height ((y : ℤ) - pad)) (padIdx m.width ((x : ℤ) - pad)))]
    push_cast
    rfl

/-- **C85 (Fourier, errors).** Images without pixels are rejected; a width `sigma = 0` gives values that are not finite. -/
theorem C85_fft_errors (padIdx : ℕ → ℤ → ℕ) (m : Mat ℝ) (sigma : ℝ) (pad : ℕ) :
    (m.height = 0 ∨ m.width = 0 → normalizationFft padIdx m sigma pad = .error .valueError) ∧
    (0 < m.height → 0 < m.width → sigma = 0 → normalizationFft padIdx m sigma pad = .error .nonFinite) := by
  constructor
  · intro h
    unfold normalizationFft applyFftFilter
    rw [if_pos h]
    rfl
  · intro h0 w0 hs
    unfold normalizationFft applyFftFilter
    rw [if_neg (by omega), if_pos hs]
    rfl

/-- **C85 (Fourier, brightness).** Multiplying the image by a factor multiplies the result by this factor. -/
theorem C85_fft_scale (padIdx : ℕ → ℤ → ℕ) (hp : IsPadding padIdx) (m m' : Mat ℝ) (h0 : 0 < m.height) (w0 : 0 < m.width) (c : ℝ)
    (hc : c ≠ 0) (hh : m'.height = m.height) (hw : m'.width = m.width)
    (hm : ∀ i < m.height, ∀ j < m.width, m'.get i j = c * m.get i j) (sigma : ℝ) (hs : sigma ≠ 0) (pad : ℕ) :
    (normalizationFft padIdx m sigma pad = .error .nonFinite ∧ normalizationFft padIdx m' sigma pad = .error .nonFinite) ∨
    ∃ out out', normalizationFft padIdx m sigma pad = .ok out ∧ normalizationFft padIdx m' sigma pad = .ok out' ∧
      out'.height = out.height ∧ out'.width = out.width ∧ ∀ i < m.height, ∀ j < m.width, out'.get i j = c * out.get i j := by
  refine isNormalized_scale hc hh hw hm (fun i hi j hj => ?_) (C85_fft padIdx m h0 w0 sigma hs pad)
    (C85_fft padIdx m' (by omega) (by omega) sigma hs pad)
  unfold gaussBackground
  rw [hh, hw, Finset.mul_sum]
  apply Finset.sum_congr rfl
  intro y _
  rw [Finset.mul_sum]
  apply Finset.sum_congr rfl
  intro x _
  rw [hm _ (hp.range _ _ h0) _ (hp.range _ _ w0)]
  ring

theorem fftFilter_const {h w : ℕ} (h0 : 0 < h) (w0 : 0 < w) (sigma c : ℝ) (y x : ℕ) :
    (fftFilter (2 * h) (2 * w) sigma (fun _ _ => (c : ℂ)) y x).re = Real.exp (-(1 / (4 * sigma ^ 2))) * c := by
  have e : (fun _ _ : ℕ => (c : ℂ)) = fun y x => (c : ℂ) * planeWave (2 * h) (2 * w) 0 0 y x := by
    funext y x
    simp [planeWave]
  rw [e, fftFilter_smul, fftFilter_wave h0 w0 sigma 0 0 (by omega) (by omega) (by omega) (by omega)]
  simp only [planeWave, Int.cast_zero, zero_mul, zero_div, add_zero, mul_zero, Complex.exp_zero, mul_one]
  rw [← Complex.ofReal_mul, Complex.ofReal_re, mul_comm]
  congr 2
  by_cases hz : sigma = 0
  · simp [hz]
  · field_simp
    norm_num

/-- **C85 (Fourier, uniform images).** With an even number of rows and columns, a uniform image keeps its value. -/
theorem C85_fft_uniform (padIdx : ℕ → ℤ → ℕ) (hp : IsPadding padIdx) (m : Mat ℝ) (h0 : 0 < m.height) (w0 : 0 < m.width)
    (he : Even m.height) (we : Even m.width) (c : ℝ) (hc : c ≠ 0) (hm : ∀ i < m.height, ∀ j < m.width, m.get i j = c) (sigma : ℝ)
    (hs : sigma ≠ 0) (pad : ℕ) :
    ∃ out, normalizationFft padIdx m sigma pad = .ok out ∧ out.height = m.height ∧ out.width = m.width ∧
      ∀ i < m.height, ∀ j < m.width, out.get i j = c := by
  obtain ⟨h, hh⟩ := he
  obtain ⟨w, hw⟩ := we
  have hb : ∀ i < m.height, ∀ j < m.width, gaussBackground m padIdx sigma pad i j = Real.exp (-(1 / (4 * sigma ^ 2))) * c := by
    intro i hi j hj
    rw [← fftFilter_const (h := h + pad) (w := w + pad) (by omega) (by omega) sigma c (i + pad) (j + pad)]
    rw [fftFilter_re _ _ (by omega) (by omega) sigma (fun _ _ => c)]
    unfold gaussBackground
    rw [show m.height + 2 * pad = 2 * (h + pad) by omega, show m.width + 2 * pad = 2 * (w + pad) by omega]
    apply Finset.sum_congr rfl
    intro y _
    apply Finset.sum_congr rfl
    intro x _
    rw [hm _ (hp.range _ _ h0) _ (hp.range _ _ w0)]
    push_cast
    rfl
  have hpos := Real.exp_pos (-(1 / (4 * sigma ^ 2)))
  obtain ⟨out, h1, h2, h3, h4⟩ := (C85_fft padIdx m h0 w0 sigma hs pad).2 fun i hi j hj => by
    rw [hb i hi j hj]
    exact mul_ne_zero hpos.ne' hc
  refine ⟨out, h1, h2, h3, fun i hi j hj => ?_⟩
  rw [h4 i hi j hj, meanOver_const h0 w0 hb, hb i hi j hj, hm i hi j hj]
  field_simp

/-- **C85 (Fourier, waves).** Without padding, for an even number of rows and columns: a uniform image with waves on it is divided
by the same image with all amplitudes reduced by `attenuation`, multiplied by the uniform value. (Every image of that size without
waves of the highest frequency is a sum of such waves.) -/
theorem C85_fft_waves (padIdx : ℕ → ℤ → ℕ) (hp : IsPadding padIdx) (m : Mat ℝ) (h w : ℕ) (h0 : 0 < h) (w0 : 0 < w)
    (hh : m.height = 2 * h) (hw : m.width = 2 * w) (B : ℝ) (waves : List (ℤ × ℤ × ℝ × ℝ))
    (hwaves : ∀ q ∈ waves, |q.1| < h ∧ |q.2.1| < w ∧ (q.1 ≠ 0 ∨ q.2.1 ≠ 0))
    (hm : ∀ i < m.height, ∀ j < m.width, m.get i j = waveImage m.height m.width B (fun _ _ => 1) waves i j) (sigma : ℝ)
    (hs : sigma ≠ 0)
    (hne : ∀ i < m.height, ∀ j < m.width, waveImage m.height m.width B (attenuation sigma) waves i j ≠ 0) :
    ∃ out, normalizationFft padIdx m sigma 0 = .ok out ∧ out.height = m.height ∧ out.width = m.width ∧
      ∀ i < m.height, ∀ j < m.width,
        out.get i j = B * m.get i j / waveImage m.height m.width B (attenuation sigma) waves i j := by
  set g0 := Real.exp (-(1 / (4 * sigma ^ 2))) with hg0
  have hpos : 0 < g0 := Real.exp_pos _
  have hlin : ∀ (ws : List (ℤ × ℤ × ℝ × ℝ)), (∀ q ∈ ws, |q.1| < h ∧ |q.2.1| < w ∧ (q.1 ≠ 0 ∨ q.2.1 ≠ 0)) → ∀ y x : ℕ,
      (fftFilter (2 * h) (2 * w) sigma (fun y x => (waveImage (2 * h) (2 * w) B (fun _ _ => 1) ws y x : ℝ)) y x).re =
        g0 * waveImage (2 * h) (2 * w) B (attenuation sigma) ws y x := by
    intro ws
    induction ws with
    | nil =>
      intro _ y x
      simp only [waveImage, List.map_nil, List.sum_nil, add_zero]
      exact fftFilter_const h0 w0 sigma B y x
    | cons q ws ih =>
      intro hq y x
      obtain ⟨a1, a2, _⟩ := hq q (List.mem_cons_self ..)
      rw [abs_lt] at a1 a2
      have e : (fun y x => ((waveImage (2 * h) (2 * w) B (fun _ _ => 1) (q :: ws) y x : ℝ) : ℂ)) = fun y x =>
          ((q.2.2.1 : ℝ) : ℂ) * ((ripple (2 * h) (2 * w) q.1 q.2.1 q.2.2.2 y x : ℝ) : ℂ) +
            ((waveImage (2 * h) (2 * w) B (fun _ _ => 1) ws y x : ℝ) : ℂ) := by
        funext y x
        unfold waveImage
        rw [List.map_cons, List.sum_cons]
        push_cast
        ring
      rw [e, fftFilter_add, fftFilter_smul, Complex.add_re, Complex.re_ofReal_mul, ih (fun q' hq' => hq q' (List.mem_cons_of_mem _ hq')),
        fftFilter_ripple h0 w0 sigma q.1 q.2.1 a1.1 a1.2 a2.1 a2.2]
      unfold waveImage
      rw [List.map_cons, List.sum_cons]
      ring
  have hmean : ∀ (ws : List (ℤ × ℤ × ℝ × ℝ)), (∀ q ∈ ws, |q.1| < h ∧ |q.2.1| < w ∧ (q.1 ≠ 0 ∨ q.2.1 ≠ 0)) →
      meanOver (2 * h) (2 * w) (waveImage (2 * h) (2 * w) B (attenuation sigma) ws) = B := by
    intro ws
    induction ws with
    | nil =>
      intro _
      exact meanOver_const (by omega) (by omega) fun i _ j _ => by simp [waveImage]
    | cons q ws ih =>
      intro hq
      obtain ⟨a1, a2, a3⟩ := hq q (List.mem_cons_self ..)
      rw [abs_lt] at a1 a2
      have hr := ripple_mean (h := 2 * h) (w := 2 * w) (by omega) (by omega) q.1 q.2.1 (by omega) (by omega) (by omega) (by omega) a3 q.2.2.2
      have ih' := ih fun q' hq' => hq q' (List.mem_cons_of_mem _ hq')
      refine Eq.trans ?_ ih'
      unfold meanOver
      congr 1
      have e : ∀ i j : ℕ, waveImage (2 * h) (2 * w) B (attenuation sigma) (q :: ws) i j =
          attenuation sigma q.1 q.2.1 * q.2.2.1 * ripple (2 * h) (2 * w) q.1 q.2.1 q.2.2.2 i j +
            waveImage (2 * h) (2 * w) B (attenuation sigma) ws i j := by
        intro i j
        unfold waveImage
        rw [List.map_cons, List.sum_cons]
        ring
      simp only [e, Finset.sum_add_distrib, ← Finset.mul_sum]
      rw [hr]
      ring
  have hb : ∀ i < m.height, ∀ j < m.width, gaussBackground m padIdx sigma 0 i j =
      g0 * waveImage m.height m.width B (attenuation sigma) waves i j := by
    intro i hi j hj
    rw [hh, hw, ← hlin waves hwaves i j, fftFilter_re _ _ (by omega) (by omega)]
    unfold gaussBackground
    rw [hh, hw]
    apply Finset.sum_congr rfl
    intro y hy
    apply Finset.sum_congr rfl
    intro x hx
    have hy' : y < 2 * h := Finset.mem_range.1 hy
    have hx' : x < 2 * w := Finset.mem_range.1 hx
    rw [show ((y : ℤ) - (0 : ℕ)) = y by simp, show ((x : ℤ) - (0 : ℕ)) = x by simp, hp.inside _ _ hy', hp.inside _ _ hx',
      hm y (by omega) x (by omega), hh, hw]
    simp
  obtain ⟨out, h1, h2, h3, h4⟩ := (C85_fft padIdx m (by omega) (by omega) sigma hs 0).2 fun i hi j hj => by
    rw [hb i hi j hj]
    exact mul_ne_zero hpos.ne' (hne i hi j hj)
  refine ⟨out, h1, h2, h3, fun i hi j hj => ?_⟩
  have hmb : meanOver m.height m.width (gaussBackground m padIdx sigma 0) = g0 * B := by
    rw [← hmean waves hwaves, ← meanOver_smul]
    unfold meanOver
    rw [← hh, ← hw]
    congr 1
    apply Finset.sum_congr rfl
    intro i hi
    apply Finset.sum_congr rfl
    intro j hj
    exact hb i (Finset.mem_range.1 hi) j (Finset.mem_range.1 hj)
  have := hne i hi j hj
  rw [h4 i hi j hj, hmb, hb i hi j hj]
  field_simp

/-- **C85 (Fourier, odd sizes).** With an odd number of columns a uniform image does not stay uniform: the result for three white
pixels in a row has different values. -/
theorem C85_fft_odd (padIdx : ℕ → ℤ → ℕ) (hp : IsPadding padIdx) (sigma : ℝ) (hs : sigma ≠ 0) :
    ∃ out, normalizationFft padIdx ⟨1, 3, fun _ _ => 1⟩ sigma 0 = .ok out ∧ out.get 0 0 ≠ out.get 0 1 := by
  set g := Real.exp (-1 / (2 * sigma ^ 2)) with hg
  have hs2 : 0 < sigma ^ 2 := by positivity
  have g0 : 0 < g := Real.exp_pos _
  have g1 : g < 1 := by
    rw [hg, Real.exp_lt_one_iff]
    apply div_neg_of_neg_of_pos <;> linarith
  have hw : ∀ dx : ℤ, gaussWeight 1 3 sigma 0 dx =
      (g * Real.cos (Real.pi * dx) + Real.cos (Real.pi / 3 * dx) + g * Real.cos (Real.pi / 3 * dx)) / 3 := by
    intro dx
    unfold gaussWeight meanOver
    simp only [Finset.sum_range_succ, Finset.sum_range_zero, zero_add]
    have e0 : Real.exp (-((((0 : ℕ) : ℝ) - ((1 : ℕ) : ℝ) / 2 + 1 / 2) ^ 2 + (((0 : ℕ) : ℝ) - ((3 : ℕ) : ℝ) / 2 + 1 / 2) ^ 2) / (2 * sigma ^ 2)) = g := by
      rw [hg]; congr 2; push_cast; norm_num
    have e1 : Real.exp (-((((0 : ℕ) : ℝ) - ((1 : ℕ) : ℝ) / 2 + 1 / 2) ^ 2 + (((1 : ℕ) : ℝ) - ((3 : ℕ) : ℝ) / 2 + 1 / 2) ^ 2) / (2 * sigma ^ 2)) = 1 := by
      rw [Real.exp_eq_one_iff]; push_cast; norm_num
    have e2 : Real.exp (-((((0 : ℕ) : ℝ) - ((1 : ℕ) : ℝ) / 2 + 1 / 2) ^ 2 + (((2 : ℕ) : ℝ) - ((3 : ℕ) : ℝ) / 2 + 1 / 2) ^ 2) / (2 * sigma ^ 2)) = g := by
      rw [hg]; congr 2; push_cast; norm_num
    rw [e0, e1, e2]
    have c0 : Real.cos (2 * Real.pi * ((((0 : ℕ) : ℝ) - ((1 : ℕ) : ℝ) / 2) * ((0 : ℤ) : ℝ) / ((1 : ℕ) : ℝ) + (((0 : ℕ) : ℝ) - ((3 : ℕ) : ℝ) / 2) * (dx : ℝ) / ((3 : ℕ) : ℝ))) =
        Real.cos (Real.pi * dx) := by
      rw [← Real.cos_neg]; congr 1; push_cast; ring
    have c1 : Real.cos (2 * Real.pi * ((((0 : ℕ) : ℝ) - ((1 : ℕ) : ℝ) / 2) * ((0 : ℤ) : ℝ) / ((1 : ℕ) : ℝ) + (((1 : ℕ) : ℝ) - ((3 : ℕ) : ℝ) / 2) * (dx : ℝ) / ((3 : ℕ) : ℝ))) =
        Real.cos (Real.pi / 3 * dx) := by
      rw [← Real.cos_neg]; congr 1; push_cast; ring
    have c2 : Real.cos (2 * Real.pi * ((((0 : ℕ) : ℝ) - ((1 : ℕ) : ℝ) / 2) * ((0 : ℤ) : ℝ) / ((1 : ℕ) : ℝ) + (((2 : ℕ) : ℝ) - ((3 : ℕ) : ℝ) / 2) * (dx : ℝ) / ((3 : ℕ) : ℝ))) =
        Real.cos (Real.pi / 3 * dx) := by
      congr 1; push_cast; ring
    rw [c0, c1, c2]
    push_cast
    ring
  have p3 : Real.cos (Real.pi / 3) = 1 / 2 := Real.cos_pi_div_three
  have p23 : Real.cos (Real.pi / 3 * 2) = -(1 / 2) := by
    rw [show Real.pi / 3 * 2 = Real.pi - Real.pi / 3 by ring, Real.cos_pi_sub, p3]
  have p2 : Real.cos (Real.pi * 2) = 1 := by rw [mul_comm]; exact Real.cos_two_pi
  have w0 : gaussWeight 1 3 sigma 0 0 = (1 + 2 * g) / 3 := by
    rw [hw]; simp; ring
  have w1 : gaussWeight 1 3 sigma 0 1 = (1 - g) / 6 := by
    rw [hw]; push_cast; rw [mul_one, mul_one, p3, Real.cos_pi]; ring
  have wm1 : gaussWeight 1 3 sigma 0 (-1) = (1 - g) / 6 := by
    rw [hw]; push_cast; rw [mul_neg_one, mul_neg_one, Real.cos_neg, Real.cos_neg, p3, Real.cos_pi]; ring
  have w2 : gaussWeight 1 3 sigma 0 2 = (g - 1) / 6 := by
    rw [hw]; push_cast; rw [p23, p2]; ring
  have wm2 : gaussWeight 1 3 sigma 0 (-2) = (g - 1) / 6 := by
    rw [hw]; push_cast; rw [mul_neg, mul_neg, Real.cos_neg, Real.cos_neg, p23, p2]; ring
  set m : Mat ℝ := ⟨1, 3, fun _ _ => 1⟩ with hmdef
  have b0 : gaussBackground m padIdx sigma 0 0 0 = (1 + 2 * g) / 3 := by
    unfold gaussBackground
    simp [hmdef, Finset.sum_range_succ, w0, wm1, wm2]
    ring
  have b1 : gaussBackground m padIdx sigma 0 0 1 = (2 + g) / 3 := by
    unfold gaussBackground
    simp [hmdef, Finset.sum_range_succ, w0, w1, wm1]
    ring
  have b2 : gaussBackground m padIdx sigma 0 0 2 = (1 + 2 * g) / 3 := by
    unfold gaussBackground
    simp [hmdef, Finset.sum_range_succ, w0, w1, w2]
    ring
  obtain ⟨out, h1, _, _, h4⟩ := (C85_fft padIdx m (by simp [hmdef]) (by simp [hmdef]) sigma hs 0).2 fun i hi j hj => by
    simp only [hmdef] at hi hj
    obtain rfl : i = 0 := by omega
    have : j = 0 ∨ j = 1 ∨ j = 2 := by omega
    rcases this with rfl | rfl | rfl
    · rw [b0]; positivity
    · rw [b1]; positivity
    · rw [b2]; positivity
  refine ⟨out, h1, ?_⟩
  rw [h4 0 (by simp [hmdef]) 0 (by simp [hmdef]), h4 0 (by simp [hmdef]) 1 (by simp [hmdef]), b0, b1]
  have hmean : meanOver m.height m.width (gaussBackground m padIdx sigma 0) = (4 + 5 * g) / 9 := by
    unfold meanOver
    simp only [hmdef, Finset.sum_range_succ, Finset.sum_range_zero, zero_add]
    rw [← hmdef, b0, b1, b2]
    push_cast
    ring
  rw [hmean]
  simp only [hmdef, mul_one]
  intro e
  rw [div_eq_div_iff (by positivity) (by positivity)] at e
  nlinarith

/-- Non-vacuity: with a filter of size 1 two pixels of different brightness become equal. -/
example : ∃ out, normalization ⟨1, 2, fun _ j => if j = 0 then 1 else 3⟩ 1 = .ok out ∧ out.get 0 0 = 2 ∧ out.get 0 1 = 2 := by
  obtain ⟨rowOf, colOf, hr, hc, _⟩ := exists_background ⟨1, 2, fun _ j => if j = 0 then 1 else 3⟩ (by simp) (by simp) 1 (by simp)
  have c0 : colOf 0 = 0 := isMirror_unique (hc 0) ⟨by simp, 0, Or.inl (by simp)⟩
  have c1 : colOf 1 = 1 := isMirror_unique (hc 1) ⟨by simp, 0, Or.inl (by simp)⟩
  obtain ⟨out, h1, _, _, h4⟩ := (C85_median ⟨1, 2, fun _ j => if j = 0 then 1 else 3⟩ (by simp) (by simp) rowOf colOf hr hc 1 (by simp)
    (fun _ j => if j = 0 then 1 else 3) (by
      intro i hi j hj
      have hj' : j < 2 := hj
      unfold neighbourhood IsRank
      rcases (by omega : j = 0 ∨ j = 1) with rfl | rfl <;> simp [c0, c1])).2 (by
      intro i hi j hj
      simp only
      split_ifs <;> norm_num)
  refine ⟨out, h1, ?_, ?_⟩
  · rw [h4 0 (by simp) 0 (by simp)]
    norm_num [meanOver, Finset.sum_range_succ]
  · rw [h4 0 (by simp) 1 (by simp)]
    norm_num [meanOver, Finset.sum_range_succ]

/-- Non-vacuity of `C85_fft_waves`: an image of four by four pixels with one wave. -/
example (sigma : ℝ) (hs : sigma ≠ 0) : ∃ out, normalizationFft padReflect
    ⟨4, 4, waveImage 4 4 10 (fun _ _ => 1) [(0, 1, 2, 0)]⟩ sigma 0 = .ok out ∧
      out.get 0 0 = 10 * 12 / (10 + attenuation sigma 0 1 * 2) := by
  have ha : ∀ s : ℝ, s ≠ 0 → 0 < attenuation s 0 1 ∧ attenuation s 0 1 ≤ 1 := by
    intro s hs
    unfold attenuation
    have h1 := Real.exp_pos (-(((0 : ℤ) : ℝ) ^ 2 + ((1 : ℤ) : ℝ) ^ 2 + ((0 : ℤ) : ℝ) + ((1 : ℤ) : ℝ)) / (2 * s ^ 2))
    have h2 : Real.exp (-(((0 : ℤ) : ℝ) ^ 2 + ((1 : ℤ) : ℝ) ^ 2 + ((0 : ℤ) : ℝ) + ((1 : ℤ) : ℝ)) / (2 * s ^ 2)) ≤ 1 := by
      rw [Real.exp_le_one_iff]
      apply div_nonpos_of_nonpos_of_nonneg
      · push_cast; norm_num
      · positivity
    have h3 : Real.exp (-(((0 : ℤ) : ℝ) ^ 2 + ((1 : ℤ) : ℝ) ^ 2 - ((0 : ℤ) : ℝ) - ((1 : ℤ) : ℝ)) / (2 * s ^ 2)) = 1 := by
      rw [Real.exp_eq_one_iff]
      push_cast
      norm_num
    constructor <;> linarith
  obtain ⟨out, h1, _, _, h4⟩ := C85_fft_waves padReflect padReflect_padding ⟨4, 4, waveImage 4 4 10 (fun _ _ => 1) [(0, 1, 2, 0)]⟩ 2 2
    (by norm_num) (by norm_num) rfl rfl 10 [(0, 1, 2, 0)] (by simp) (fun _ _ _ _ => rfl) sigma hs (by
      intro i _ j _
      unfold waveImage ripple
      simp only [List.map_cons, List.map_nil, List.sum_cons, List.sum_nil, add_zero]
      have hc := Real.neg_one_le_cos (2 * Real.pi * (((0 : ℤ) : ℝ) * i / ((4 : ℕ) : ℝ) + ((1 : ℤ) : ℝ) * j / ((4 : ℕ) : ℝ)))
      have hA := ha sigma hs
      intro e
      nlinarith)
  refine ⟨out, h1, ?_⟩
  rw [h4 0 (by simp) 0 (by simp)]
  simp only [waveImage, ripple, List.map_cons, List.map_nil, List.sum_cons, List.sum_nil]
  norm_num

example := C85_positive ⟨2, 3, fun i j => (i + 2 * j + 1 : ℕ)⟩ (by norm_num) (by norm_num) (fun _ _ _ _ => by positivity) 3 (by norm_num)
example (c : ℝ) := C85_uniform ⟨2, 3, fun _ _ => c⟩ (by norm_num) (by norm_num) c (fun _ _ _ _ => rfl) 3 (by norm_num)
example := C85_scale ⟨2, 3, fun i j => (i + 2 * j : ℕ)⟩ ⟨2, 3, fun i j => 5 * (i + 2 * j : ℕ)⟩ (by norm_num) (by norm_num) 5 (by norm_num) rfl rfl
  (fun _ _ _ _ => rfl) 3 (by norm_num)
/-- Padding three values on both sides. -/
example := C85_padding 3 (by norm_num) (-2)
example := C85_fft padReflect ⟨2, 3, fun i j => (i + 2 * j + 1 : ℕ)⟩ (by norm_num) (by norm_num) 10 (by norm_num) 5
example := C85_fft_scale padReflect padReflect_padding ⟨2, 3, fun i j => (i + 2 * j : ℕ)⟩ ⟨2, 3, fun i j => (-5) * (i + 2 * j : ℕ)⟩ (by norm_num) (by norm_num) (-5)
  (by norm_num) rfl rfl (fun _ _ _ _ => rfl) 10 (by norm_num) 5
example := C85_fft_uniform padReflect padReflect_padding ⟨2, 4, fun _ _ => 7⟩ (by norm_num) (by norm_num) ⟨1, rfl⟩ ⟨2, rfl⟩ 7 (by norm_num) (fun _ _ _ _ => rfl)
  10 (by norm_num) 5
example := C85_fft_odd padReflect padReflect_padding 10 (by norm_num)

end Discorpy
