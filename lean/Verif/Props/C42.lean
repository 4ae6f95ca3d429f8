import Verif.Model.LinePattern
import Verif.Lemmas.FitUnique
import Verif.Lemmas.Array
import Mathlib.Tactic.FieldSimp

/-! # C42 — sub-pixel position of an extremum -/

namespace Discorpy

theorem fit_range_ne {n : ℕ} (h : n ≠ 0) : ((List.range n).map fun i : ℕ => (i : ℝ)) ≠ [] := by
  simpa using h

theorem locate_eq {pf : PolyfitFn} {l : List ℝ} {option : String} {a b c : ℝ} (hne : l ≠ [])
    (hf : pf ((List.range l.length).map fun i : ℕ => (i : ℝ)) l 2 = [a, b, c]) :
    locateSubpixelPoint pf l option = (do
      let pos ← (if option = "min" then npArgmin l else npArgmax l)
      if a ≠ 0 then
        let num := -b / (2 * a)
        if num ≥ 0 ∧ num < l.length then .ok num else .ok (pos : ℝ)
      else .ok (pos : ℝ)) := by
  unfold locateSubpixelPoint
  rw [if_neg hne, hf]

theorem locate_pos {l : List ℝ} (hne : l ≠ []) (option : String) :
    ∃ k, (if option = "min" then npArgmin l else npArgmax l) = .ok k ∧ k < l.length := by
  split
  · obtain ⟨k, hk, h, _⟩ := npArgmin_ok hne
    exact ⟨k, hk, h⟩
  · obtain ⟨k, hk, h, _⟩ := npArgmax_ok hne
    exact ⟨k, hk, h⟩

theorem fit_three {pf : PolyfitFn} (hpf : PolyfitSpec pf) {l : List ℝ} (hne : l ≠ []) :
    ∃ a b c, pf ((List.range l.length).map fun i : ℕ => (i : ℝ)) l 2 = [a, b, c] :=
  List.length_eq_three.1 (hpf.length _ l 2 (by simp) (fit_range_ne (by simpa using hne)))

/-- **C42 (range).** For every non-empty list and either option a position is returned and it lies in `[0, n)`; an empty list is
an error. -/
theorem C42_range {pf : PolyfitFn} (hpf : PolyfitSpec pf) (l : List ℝ) (option : String) :
    (l = [] ∧ locateSubpixelPoint pf l option = .error .typeError) ∨
    ∃ v, locateSubpixelPoint pf l option = .ok v ∧ 0 ≤ v ∧ v < l.length := by
  by_cases hne : l = []
  · left
    refine ⟨hne, ?_⟩
    unfold locateSubpixelPoint
    rw [if_pos hne]
  · right
    obtain ⟨a, b, c, hf⟩ := fit_three hpf hne
    obtain ⟨k, hk, hlt⟩ := locate_pos hne option
    rw [locate_eq hne hf, hk, ok_bind]
    have hkl : (k : ℝ) < l.length := by exact_mod_cast hlt
    simp only
    split_ifs with h1 h2
    · exact ⟨_, rfl, h2.1, h2.2⟩
    · exact ⟨_, rfl, Nat.cast_nonneg k, hkl⟩
    · exact ⟨_, rfl, Nat.cast_nonneg k, hkl⟩

example := C42_range refPolyfit_spec [3, 1, 2, 7] "min"

/-- Least squares recovers the coefficients of an exact parabola from at least three samples. -/
theorem fit_parabola {pf : PolyfitFn} (hpf : PolyfitSpec pf) {l : List ℝ} {a b c : ℝ} (hn : 3 ≤ l.length)
    (hl : l = (List.range l.length).map fun i : ℕ => a * (i : ℝ) ^ 2 + b * i + c) :
    pf ((List.range l.length).map fun i : ℕ => (i : ℝ)) l 2 = [a, b, c] := by
  have hne := fit_range_ne (n := l.length) (by omega)
  have hex : ∀ r ∈ ((List.range l.length).map fun i : ℕ => (i : ℝ)).zip l, polyval [a, b, c] r.1 = r.2 := by
    intro r hr
    generalize hm : l.length = m at hr hl
    rw [hl, List.zip_map', List.mem_map] at hr
    obtain ⟨i, _, rfl⟩ := hr
    simp [polyval]
    ring
  have h := hpf.exact (deg := 2) (by simp) hne (q := [a, b, c]) rfl hex
  have key : ∀ i : ℕ, i < l.length → polyval (pf ((List.range l.length).map fun i : ℕ => (i : ℝ)) l 2) i = polyval [a, b, c] i := by
    intro i hi
    have hmem : ((i : ℝ), l[i]) ∈ ((List.range l.length).map fun i : ℕ => (i : ℝ)).zip l := by
      rw [List.mem_iff_getElem]
      exact ⟨i, by simp [hi], by simp⟩
    exact (h _ hmem).trans (hex _ hmem).symm
  refine quadratic_coefs_eq (hpf.length _ _ _ (by simp) hne) rfl ?_ ?_ ?_
  · exact_mod_cast key 0 (by omega)
  · exact_mod_cast key 1 (by omega)
  · exact_mod_cast key 2 (by omega)

/-- **C42 (parabola).** From `n ≥ 3` samples of a parabola `a x² + b x + c` whose vertex is in `[0, n)`, exactly the vertex is
returned, whichever option is chosen. -/
theorem C42_parabola {pf : PolyfitFn} (hpf : PolyfitSpec pf) (n : ℕ) (hn : 3 ≤ n) (a b c : ℝ) (ha : a ≠ 0)
    (hv : 0 ≤ -b / (2 * a)) (hv' : -b / (2 * a) < n) (option : String) :
    locateSubpixelPoint pf ((List.range n).map fun i : ℕ => a * (i : ℝ) ^ 2 + b * i + c) option = .ok (-b / (2 * a)) := by
  set l := (List.range n).map fun i : ℕ => a * (i : ℝ) ^ 2 + b * i + c with hl
  have hlen : l.length = n := by simp [hl]
  have hne : l ≠ [] := by rw [← List.length_pos_iff]; omega
  obtain ⟨k, hk, _⟩ := locate_pos hne option
  rw [locate_eq hne (fit_parabola hpf (by omega) (by rw [hlen])), hk, ok_bind, if_pos ha]
  simp only
  rw [if_pos ⟨hv, by rw [hlen]; exact hv'⟩]

/-- The fit of three samples. -/
theorem fit_triple {pf : PolyfitFn} (hpf : PolyfitSpec pf) (u v w : ℝ) :
    pf ((List.range [u, v, w].length).map fun i : ℕ => (i : ℝ)) [u, v, w] 2 = [(u - 2 * v + w) / 2, (4 * v - 3 * u - w) / 2, u] := by
  apply fit_parabola hpf (by simp)
  simp only [List.length_cons, List.length_nil, List.range_succ, List.range_zero, List.nil_append, List.map_cons,
    List.map_nil, List.cons_append, List.cons.injEq, and_true]
  refine ⟨?_, ?_, ?_⟩ <;> push_cast <;> ring

/-- **C42 (three samples).** If the middle one of three samples is strictly below (above) both neighbours, the returned position
is less than half a sample away from the middle. -/
theorem C42_three {pf : PolyfitFn} (hpf : PolyfitSpec pf) (u v w : ℝ) (option : String)
    (h : (v < u ∧ v < w) ∨ (u < v ∧ w < v)) :
    ∃ p, locateSubpixelPoint pf [u, v, w] option = .ok p ∧ |p - 1| < 1 / 2 := by
  obtain ⟨k, hk, _⟩ := locate_pos (l := [u, v, w]) (by simp) option
  rw [locate_eq (by simp) (fit_triple hpf u v w), hk, ok_bind]
  have hs : u - 2 * v + w ≠ 0 := by rcases h with ⟨h1, h2⟩ | ⟨h1, h2⟩ <;> intro h0 <;> linarith
  have e : -((4 * v - 3 * u - w) / 2) / (2 * ((u - 2 * v + w) / 2)) - 1 = (u - w) / (2 * (u - 2 * v + w)) := by
    generalize hd : u - 2 * v + w = d at hs ⊢
    have hw : w = d - u + 2 * v := by linarith
    subst hw
    field_simp
    ring
  have hlt : |-((4 * v - 3 * u - w) / 2) / (2 * ((u - 2 * v + w) / 2)) - 1| < 1 / 2 := by
    rw [e, abs_div, div_lt_iff₀ (by positivity), abs_mul, abs_two]
    rcases h with ⟨h1, h2⟩ | ⟨h1, h2⟩
    · rw [abs_of_pos (by linarith : 0 < u - 2 * v + w), abs_lt]
      constructor <;> linarith
    · rw [abs_of_neg (by linarith : u - 2 * v + w < 0), abs_lt]
      constructor <;> linarith
  rw [if_pos (by simpa using hs)]
  simp only
  have hb := abs_lt.1 hlt
  rw [if_pos ⟨by linarith, by simp only [List.length_cons, List.length_nil]; push_cast; linarith⟩]
  exact ⟨_, rfl, hlt⟩

/-- **C42 (flat).** On three equal samples the first one is returned, a full sample away from the middle. -/
theorem C42_flat {pf : PolyfitFn} (hpf : PolyfitSpec pf) (v : ℝ) (option : String) :
    locateSubpixelPoint pf [v, v, v] option = .ok 0 := by
  obtain ⟨k, hk, hlt⟩ := locate_pos (l := [v, v, v]) (by simp) option
  have h0 : k = 0 := by
    by_contra h0
    split at hk
    · obtain ⟨k', hk', _, _, h⟩ := npArgmin_ok (l := [v, v, v]) (by simp)
      rw [hk'] at hk
      injection hk with hk
      subst hk
      obtain ⟨y, hy, h⟩ := h 0 (by omega)
      simp at hy h
      subst hy; exact absurd h (lt_irrefl _)
    · obtain ⟨k', hk', _, _, h⟩ := npArgmax_ok (l := [v, v, v]) (by simp)
      rw [hk'] at hk
      injection hk with hk
      subst hk
      obtain ⟨y, hy, h⟩ := h 0 (by omega)
      simp at hy h
      subst hy; exact absurd h (lt_irrefl _)
  rw [locate_eq (by simp) (fit_triple hpf v v v), hk, ok_bind, if_neg (by ring_nf; simp), h0]
  simp

example := C42_flat refPolyfit_spec 4 "max"

/-- The hypotheses can be met: samples `4, 1, 0, 1, 4` of `(x - 2)²`, and a function meeting the contract. -/
example : locateSubpixelPoint refPolyfit ((List.range 5).map fun i : ℕ => (1 : ℝ) * (i : ℝ) ^ 2 + (-4) * i + 4) "min" = .ok 2 := by
  have := C42_parabola refPolyfit_spec 5 (by norm_num) 1 (-4) 4 one_ne_zero (by norm_num) (by norm_num) "min"
  rw [this]
  norm_num

example : ∃ p, locateSubpixelPoint refPolyfit [3, 1, 2] "min" = .ok p ∧ |p - 1| < 1 / 2 :=
  C42_three refPolyfit_spec 3 1 2 "min" (by norm_num)

end Discorpy
