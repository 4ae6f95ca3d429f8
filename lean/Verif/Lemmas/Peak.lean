import Verif.Spec.Peak
import Verif.Lemmas.Array
import Verif.Lemmas.Except

/-! # Helper lemmas: acceptance of peaks -/

namespace Discorpy

open Spec

theorem isPercentile_of_npPercentile {l : List ℝ} {q v : ℝ} (h0 : 0 ≤ q) (h1 : q ≤ 100) (h : npPercentile l q = .ok v) :
    IsPercentile l q v := by
  unfold npPercentile at h
  split at h
  · cases h
  rename_i hne
  have hn : 1 ≤ l.length := List.length_pos_iff.2 hne
  have hn' : (1 : ℝ) ≤ l.length := by exact_mod_cast hn
  simp only at h
  injection h with h
  set s := l.mergeSort (fun a b => decide (a ≤ b)) with hs
  have hperm : s.Perm l := List.mergeSort_perm _ _
  have hsl : s.length = l.length := hperm.length_eq
  have hsort : s.Pairwise (· ≤ ·) := by
    have := List.pairwise_mergeSort (le := fun a b : ℝ => decide (a ≤ b)) (by intro a b c; simp; exact le_trans)
      (by intro a b; simp; exact le_total a b) l
    exact this.imp (by simp)
  set idx := q / 100 * ((l.length : ℝ) - 1) with hidx
  have hi0 : 0 ≤ idx := mul_nonneg (by positivity) (by linarith)
  have hi1 : idx ≤ (l.length : ℝ) - 1 := by
    rw [hidx]
    exact mul_le_of_le_one_left (by linarith) (by rw [div_le_one (by norm_num)]; exact h1)
  have hk : (⌊idx⌋₊ : ℝ) ≤ idx := Nat.floor_le hi0
  have hk1 : idx < ⌊idx⌋₊ + 1 := Nat.lt_floor_add_one idx
  have hkl : ⌊idx⌋₊ < l.length := by
    have : (⌊idx⌋₊ : ℝ) + 1 ≤ l.length := by linarith
    have : ⌊idx⌋₊ + 1 ≤ l.length := by exact_mod_cast this
    omega
  refine ⟨s, hperm, hsort, ⌊idx⌋₊, idx - ⌊idx⌋₊, s[⌊idx⌋₊]'(by omega), by linarith, by linarith, by ring,
    List.getElem?_eq_getElem (by omega), ?_⟩
  have ea : s.getD ⌊idx⌋₊ 0 = s[⌊idx⌋₊]'(by omega) := by
    rw [List.getD_eq_getElem?_getD, List.getElem?_eq_getElem (by omega)]; rfl
  rw [ea] at h
  by_cases hlast : ⌊idx⌋₊ + 1 < l.length
  · right
    refine ⟨s[⌊idx⌋₊ + 1]'(by omega), List.getElem?_eq_getElem (by omega), ?_⟩
    rw [Nat.min_eq_left (by omega)] at h
    have eb : s.getD (⌊idx⌋₊ + 1) 0 = s[⌊idx⌋₊ + 1]'(by omega) := by
      rw [List.getD_eq_getElem?_getD, List.getElem?_eq_getElem (by omega)]; rfl
    rw [eb] at h
    rw [← h]
    ring
  · left
    have e : (l.length : ℝ) = ⌊idx⌋₊ + 1 := by
      have : l.length = ⌊idx⌋₊ + 1 := by omega
      exact_mod_cast this
    have ht : idx - ⌊idx⌋₊ = 0 := by linarith
    refine ⟨ht, ?_⟩
    rw [← h, ht, zero_mul, add_zero]

/-- A percentile is unique. -/
theorem isPercentile_unique {l : List ℝ} {q v v' : ℝ} (h : IsPercentile l q v) (h' : IsPercentile l q v') : v = v' := by
  obtain ⟨s, p1, o1, k, t, a, t0, t1, e, ha, hv⟩ := h
  obtain ⟨s', p2, o2, k', t', a', t0', t1', e', ha', hv'⟩ := h'
  obtain rfl : s = s' := List.Perm.eq_of_pairwise (fun a b _ _ h1 h2 => le_antisymm h1 h2) o1 o2 (p1.trans p2.symm)
  rw [← e'] at e
  have hk : k = k' := by
    have h1 : (k : ℝ) < k' + 1 := by linarith
    have h2 : (k' : ℝ) < k + 1 := by linarith
    have h1 : k < k' + 1 := by exact_mod_cast h1
    have h2 : k' < k + 1 := by exact_mod_cast h2
    omega
  subst hk
  have ht : t = t' := by linarith
  subst ht
  rw [ha] at ha'
  obtain rfl := Option.some.inj ha'
  rcases hv with ⟨z, hv⟩ | ⟨b, hb, hv⟩ <;> rcases hv' with ⟨z', hv'⟩ | ⟨b', hb', hv'⟩
  · rw [hv, hv']
  · rw [hv, hv', z]; ring
  · rw [hv, hv', z']; ring
  · rw [hb] at hb'
    obtain rfl := Option.some.inj hb'
    rw [hv, hv']

theorem npSlice_eq_range (l : List ℝ) {a b : ℕ} (hab : a ≤ b) (hb : b ≤ l.length) :
    npSlice l a b = (List.range (b - a)).map fun k => l.getD (a + k) 0 := by
  apply List.ext_getElem?
  intro i
  unfold npSlice
  rw [List.getElem?_drop, List.getElem?_map, List.getElem?_take]
  by_cases hi : i < b - a
  · rw [if_pos (by omega), List.getElem?_range hi, List.getElem?_eq_getElem (by omega)]
    simp [List.getD_eq_getElem?_getD, List.getElem?_eq_getElem (show a + i < l.length by omega)]
  · rw [if_neg (by omega), List.getElem?_eq_none (by simpa using hi)]
    rfl

theorem npStd_sq {l : List ℝ} (hne : l ≠ []) : npStd l ^ 2 * l.length = (l.map fun x => (x - l.sum / l.length) ^ 2).sum := by
  have hn : (0 : ℝ) < l.length := by exact_mod_cast List.length_pos_iff.2 hne
  unfold npStd
  rw [Real.sq_sqrt, div_mul_cancel₀ _ hn.ne']
  apply div_nonneg _ hn.le
  apply List.sum_nonneg
  intro y hy
  obtain ⟨x, _, rfl⟩ := List.mem_map.1 hy
  positivity

theorem goodPeak_iff {gaussFit : List ℝ → GaussFit} {l : List ℝ} {tol : ℝ} {radius : ℤ} {useOffset : Bool} {p : ℤ} {b : Bool}
    (h : goodPeak gaussFit l tol radius useOffset p = .ok b) : b = true ↔ PeakAccepted gaussFit l tol radius useOffset p := by
  unfold goodPeak peakWindow at h
  simp only at h
  by_cases hlen : min (l.length : ℤ) (p + radius + 1) - max 0 (p - radius) > 3
  swap
  · rw [if_neg hlen] at h
    simp only at h
    injection h with h
    subst h
    simp only [Bool.false_eq_true, false_iff]
    rintro ⟨start, stop, w, m, σ, num, e1, e2, e3, -⟩
    omega
  rw [if_pos hlen] at h
  obtain ⟨start, hstart⟩ : ∃ s : ℕ, (s : ℤ) = max 0 (p - radius) := ⟨(max 0 (p - radius)).toNat, by omega⟩
  obtain ⟨stop, hstop⟩ : ∃ s : ℕ, (s : ℤ) = min (l.length : ℤ) (p + radius + 1) := ⟨(min (l.length : ℤ) (p + radius + 1)).toNat, by omega⟩
  rw [← hstart, ← hstop, Int.toNat_natCast, Int.toNat_natCast, npSlice_eq_range l (by omega) (by omega)] at h
  set w := (List.range (stop - start)).map fun k => l.getD (start + k) 0 with hw
  have hwl : w.length = stop - start := by simp [hw]
  have hwne : w ≠ [] := by rw [← List.length_pos_iff]; omega
  have hwpos : (0 : ℝ) < w.length := by exact_mod_cast List.length_pos_iff.2 hwne
  have huniq : ∀ s' t' : ℕ, (s' : ℤ) = max 0 (p - radius) → (t' : ℤ) = min (l.length : ℤ) (p + radius + 1) → s' = start ∧ t' = stop := by
    intro s' t' h1 h2; omega
  have hsd : ∀ σ : ℝ, 0 < σ → σ ^ 2 * w.length = (w.map fun x => (x - w.sum / w.length) ^ 2).sum → σ = npStd w := by
    intro σ h0 h1
    rw [← npStd_sq hwne] at h1
    have := mul_right_cancel₀ hwpos.ne' h1
    have h2 : 0 ≤ npStd w := Real.sqrt_nonneg _
    exact (sq_eq_sq₀ h0.le h2).1 this
  by_cases hstd : npStd w = 0
  · rw [if_neg (by simpa using hstd)] at h
    simp only at h
    injection h with h
    subst h
    simp only [Bool.false_eq_true, false_iff]
    rintro ⟨start', stop', w', m, σ, num, e1, e2, e3, e4, e5, e6, e7, e8, -⟩
    obtain ⟨rfl, rfl⟩ := huniq _ _ e1 e2
    rw [← hw] at e4
    subst e4
    rw [hsd σ e7 e8, hstd] at e7
    exact lt_irrefl _ e7
  rw [if_pos hstd] at h
  have hpos : 0 < npStd w := lt_of_le_of_ne (Real.sqrt_nonneg _) (Ne.symm hstd)
  obtain ⟨m, hm⟩ := Option.ne_none_iff_exists'.1 (mt List.min?_eq_none_iff.1 hwne)
  rw [hm] at h
  simp only at h
  rw [List.min?_eq_some_iff] at hm
  rw [bind_ok_iff] at h
  obtain ⟨num, hnum, h⟩ := h
  have hper := isPercentile_of_npPercentile (by norm_num) (by norm_num) hnum
  constructor
  · intro hb
    subst hb
    split_ifs at h with c1 c2
    · injection h with h
      rw [decide_eq_true_eq] at h
      exact ⟨start, stop, w, m, npStd w, num, hstart, hstop, by omega, hw, hm.1, hm.2, hpos, npStd_sq hwne, c1.1, c1.2.1, hper, c1.2.2,
        fun _ => h⟩
    · exact ⟨start, stop, w, m, npStd w, num, hstart, hstop, by omega, hw, hm.1, hm.2, hpos, npStd_sq hwne, c1.1, c1.2.1, hper, c1.2.2,
        fun h => absurd h c2⟩
    · cases h
  · rintro ⟨start', stop', w', m', σ, num', e1, e2, e3, e4, e5, e6, e7, e8, e9, e10, e11, e12, e13⟩
    obtain ⟨rfl, rfl⟩ := huniq _ _ e1 e2
    rw [← hw] at e4
    subst e4
    obtain rfl := hsd σ e7 e8
    obtain rfl : m' = m := le_antisymm (e6 m hm.1) (hm.2 m' e5)
    obtain rfl := isPercentile_unique hper e11
    rw [if_pos ⟨e9, e10, e12⟩] at h
    split_ifs at h with c
    · injection h with h
      rw [← h]
      simpa using e13 c
    · exact (Except.ok.inj h).symm

end Discorpy
