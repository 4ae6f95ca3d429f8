import Verif.Lemmas.Ridge
import Verif.Lemmas.Tent
import Verif.Props.C79

/-! # C110 — the lines of a line pattern are found where they are -/

namespace Discorpy
open Spec

section profile
variable {E : Ext} {l : List ℝ} {radius : ℤ} {s top w : ℝ} {r : ℕ} {cs : List ℝ} {φ : ℝ → ℝ → ℝ} {h : ℝ → ℝ}

theorem ridge_mem (R : Ridges cs φ w h) (hS : Searchable cs φ w s top r) (hs : 0 ≤ s) (hr : 0 < r) {M : ℝ} (hM : M ∈ l)
    (hmax : ∀ x ∈ l, x ≤ M) (htop : ∀ x ∈ l, x ≤ top) (hl : ∀ k, k + 1 < l.length → l[k]? = some (h k)) (i : ℕ) :
    i ∈ extremaIdx (l.map fun x => M - x) r s ↔ r ≤ i ∧ i + r + 1 < l.length ∧ ∃ c ∈ cs, |(i : ℝ) - c| ≤ 1 / 2 := by
  rw [mem_extremaIdx_sub]
  refine and_congr_right fun h1 => and_congr_right fun h2 => ?_
  exact ridge_minimum R hS hs hr (htop M hM) hmax hl h1 h2

/-- **C110 (the samples found).** On a profile across bright lines that are wide and distinct enough for the search radius,
`get_local_extrema_points` returns, in increasing order, exactly the samples at most half a sample away from a line, as far as
they have `r` samples before and `r + 1` after them. -/
theorem C110_found (E : Ext) (l : List ℝ) (radius : ℤ) (s : ℝ) (hs : 0 ≤ s) (hn : 4 ≤ l.length) (r : ℕ)
    (hr : (r : ℤ) = min (max radius 1) ((l.length / 4 : ℕ) : ℤ)) (cs : List ℝ) (φ : ℝ → ℝ → ℝ) (w top : ℝ) (h : ℝ → ℝ)
    (R : Ridges cs φ w h) (hl : ∀ k, k + 1 < l.length → l[k]? = some (h k)) (htop : ∀ x ∈ l, x ≤ top)
    (hS : Searchable cs φ w s top r) :
    ∃ pts : List ℕ, getLocalExtremaPoints E l "max" radius s false false false none = .ok (pts.map fun i : ℕ => (i : ℝ)) ∧
      pts.Pairwise (· < ·) ∧ ∀ i, i ∈ pts ↔ r ≤ i ∧ i + r + 1 < l.length ∧ ∃ c ∈ cs, |(i : ℝ) - c| ≤ 1 / 2 := by
  have hne : l ≠ [] := by rw [← List.length_pos_iff]; omega
  obtain ⟨M, hM, hmem, hmax⟩ := npMax_ok hne
  have e : usedRadius radius (l.map fun x => M - x).length = r := by rw [List.length_map]; unfold usedRadius; omega
  refine ⟨_, (extrema_max E l radius s hM false false none).trans (extrema_plain E _ radius s (by simpa using hn)),
    extremaIdx_sorted _ _ _, fun i => ?_⟩
  rw [e]
  exact ridge_mem R hS hs (by omega) hmem hmax htop hl i

/-- The refined position of the sample `i` next to the line at `c`. -/
theorem vertex_near (R : Ridges cs φ w h) (hS : Searchable cs φ w s top r) (hr : 0 < r) {c : ℝ} (hc : c ∈ cs) {i : ℕ} (hi0 : 1 ≤ i)
    (hi : |(i : ℝ) - c| ≤ 1 / 2) :
    (h ((i - 1 : ℕ) : ℝ) < h i ∨ h ((i + 1 : ℕ) : ℝ) < h i) ∧
    |(i : ℝ) + (h ((i + 1 : ℕ) : ℝ) - h ((i - 1 : ℕ) : ℝ)) / (2 * (2 * h i - h ((i - 1 : ℕ) : ℝ) - h ((i + 1 : ℕ) : ℝ))) - c| ≤ 1 / 2 ∧
    (|(i : ℝ) - c| < 1 / 2 →
      |(i : ℝ) + (h ((i + 1 : ℕ) : ℝ) - h ((i - 1 : ℕ) : ℝ)) / (2 * (2 * h i - h ((i - 1 : ℕ) : ℝ) - h ((i + 1 : ℕ) : ℝ))) - c| < 1 / 2) ∧
    (|(i : ℝ) - c| = 1 / 2 →
      (i : ℝ) + (h ((i + 1 : ℕ) : ℝ) - h ((i - 1 : ℕ) : ℝ)) / (2 * (2 * h i - h ((i - 1 : ℕ) : ℝ) - h ((i + 1 : ℕ) : ℝ))) = c) := by
  have em : ((i - 1 : ℕ) : ℝ) = (i : ℝ) - 1 := by rw [Nat.cast_sub hi0]; simp
  have ep : ((i + 1 : ℕ) : ℝ) = (i : ℝ) + 1 := by push_cast; ring
  have hiw : |(i : ℝ) - c| < w := hi.trans_lt hS.wide
  have hb := abs_le.1 hi
  have hle1 : h ((i - 1 : ℕ) : ℝ) ≤ h i := window_mono R hS hc hi (by omega) (by omega) (by
    rw [em, abs_of_nonpos (by linarith : (i : ℝ) - 1 - c ≤ 0), abs_le]; constructor <;> linarith)
  have hle2 : h ((i + 1 : ℕ) : ℝ) ≤ h i := window_mono R hS hc hi (by omega) (by omega) (by
    rw [ep, abs_of_nonneg (by linarith : 0 ≤ (i : ℝ) + 1 - c), abs_le]; constructor <;> linarith)
  have hlt1 : (i : ℝ) - c < 1 / 2 → h ((i - 1 : ℕ) : ℝ) < h i := fun hh => window_lt R hS hc hi (by omega) (by omega) hiw (by
    rw [em, abs_of_nonpos (by linarith : (i : ℝ) - 1 - c ≤ 0), abs_lt]; constructor <;> linarith)
  have hlt2 : -(1 / 2) < (i : ℝ) - c → h ((i + 1 : ℕ) : ℝ) < h i := fun hh => window_lt R hS hc hi (by omega) (by omega) hiw (by
    rw [ep, abs_of_nonneg (by linarith : 0 ≤ (i : ℝ) + 1 - c), abs_lt]; constructor <;> linarith)
  have hside1 : (i : ℝ) ≤ c → h ((i - 1 : ℕ) : ℝ) ≤ h ((i + 1 : ℕ) : ℝ) := fun hh => window_mono R hS hc hi (by omega) (by omega) (by
    rw [em, ep, abs_of_nonneg (by linarith : 0 ≤ (i : ℝ) + 1 - c), abs_of_nonpos (by linarith : (i : ℝ) - 1 - c ≤ 0)]; linarith)
  have hside2 : c ≤ (i : ℝ) → h ((i + 1 : ℕ) : ℝ) ≤ h ((i - 1 : ℕ) : ℝ) := fun hh => window_mono R hS hc hi (by omega) (by omega) (by
    rw [em, ep, abs_of_nonneg (by linarith : 0 ≤ (i : ℝ) + 1 - c), abs_of_nonpos (by linarith : (i : ℝ) - 1 - c ≤ 0)]; linarith)
  have htie1 : (i : ℝ) - c = 1 / 2 → h ((i - 1 : ℕ) : ℝ) = h i := fun hh => le_antisymm hle1 (by
    rw [R.on c hc _ hiw, R.on c hc]
    · apply le_of_eq; congr 1
      rw [em, hh, show (i : ℝ) - 1 - c = -(1 / 2) by linarith, abs_neg]
    · rw [em, show (i : ℝ) - 1 - c = -(1 / 2) by linarith, abs_neg, abs_of_pos (by norm_num)]; exact hS.wide)
  have htie2 : (i : ℝ) - c = -(1 / 2) → h ((i + 1 : ℕ) : ℝ) = h i := fun hh => le_antisymm hle2 (by
    rw [R.on c hc _ hiw, R.on c hc]
    · apply le_of_eq; congr 1
      rw [ep, hh, show (i : ℝ) + 1 - c = 1 / 2 by linarith, abs_neg]
    · rw [ep, show (i : ℝ) + 1 - c = 1 / 2 by linarith, abs_of_pos (by norm_num)]; exact hS.wide)
  generalize h ((i - 1 : ℕ) : ℝ) = a at *
  generalize h ((i + 1 : ℕ) : ℝ) = b at *
  generalize h (i : ℝ) = v at *
  have hor : a < v ∨ b < v := by
    by_cases hh : (i : ℝ) - c < 1 / 2
    · exact Or.inl (hlt1 hh)
    · exact Or.inr (hlt2 (by linarith))
  have hd : 0 < 2 * v - a - b := by rcases hor with h1 | h1 <;> linarith
  have hq : ∀ x y, (x ≤ (b - a) / (2 * (2 * v - a - b)) ↔ x * (2 * (2 * v - a - b)) ≤ b - a) ∧
      ((b - a) / (2 * (2 * v - a - b)) ≤ y ↔ b - a ≤ y * (2 * (2 * v - a - b))) ∧
      (x < (b - a) / (2 * (2 * v - a - b)) ↔ x * (2 * (2 * v - a - b)) < b - a) ∧
      ((b - a) / (2 * (2 * v - a - b)) < y ↔ b - a < y * (2 * (2 * v - a - b))) :=
    fun x y => ⟨le_div_iff₀ (by positivity), div_le_iff₀ (by positivity), lt_div_iff₀ (by positivity), div_lt_iff₀ (by positivity)⟩
  have key : |(i : ℝ) - c| < 1 / 2 → |(i : ℝ) + (b - a) / (2 * (2 * v - a - b)) - c| < 1 / 2 := by
    intro hlt
    have hbl := abs_lt.1 hlt
    have ha := hlt1 hbl.2
    have hb' := hlt2 hbl.1
    have h1 : (b - a) / (2 * (2 * v - a - b)) < 1 / 2 := ((hq 0 _).2.2.2).2 (by linarith)
    have h2 : -(1 / 2) < (b - a) / (2 * (2 * v - a - b)) := ((hq _ 0).2.2.1).2 (by linarith)
    rw [abs_lt]
    rcases le_total (i : ℝ) c with hic | hic
    · have h3 : 0 ≤ (b - a) / (2 * (2 * v - a - b)) := ((hq _ 0).1).2 (by linarith [hside1 hic])
      constructor <;> linarith
    · have h3 : (b - a) / (2 * (2 * v - a - b)) ≤ 0 := ((hq 0 _).2.1).2 (by linarith [hside2 hic])
      constructor <;> linarith
  have key2 : |(i : ℝ) - c| = 1 / 2 → (i : ℝ) + (b - a) / (2 * (2 * v - a - b)) = c := by
    intro he
    rcases abs_cases ((i : ℝ) - c) with ⟨h1, _⟩ | ⟨h1, _⟩
    · have ht := htie1 (by linarith)
      have hbv := hlt2 (by linarith)
      have : (b - a) / (2 * (2 * v - a - b)) = -(1 / 2) := by
        rw [div_eq_iff (by positivity)]; rw [ht]; ring
      rw [this]; linarith
    · have ht := htie2 (by linarith)
      have : (b - a) / (2 * (2 * v - a - b)) = 1 / 2 := by
        rw [div_eq_iff (by positivity)]; rw [ht]; ring
      rw [this]; linarith
  refine ⟨hor, ?_, key, key2⟩
  rcases lt_or_eq_of_le hi with hlt | he
  · exact (key hlt).le
  · rw [key2 he, sub_self, abs_zero]; norm_num

/-- The positions returned, with or without refinement. -/
theorem ridge_points (E : Ext) (hpf : PolyfitSpec E.pf) (hs : 0 ≤ s) (hn : 4 ≤ l.length)
    (hr : (r : ℤ) = min (max radius 1) ((l.length / 4 : ℕ) : ℤ)) (R : Ridges cs φ w h)
    (hl : ∀ k, k + 1 < l.length → l[k]? = some (h k)) (htop : ∀ x ∈ l, x ≤ top) (hS : Searchable cs φ w s top r) (sub : Bool) :
    ∃ pts : List ℕ, pts.Pairwise (· < ·) ∧
      (∀ i, i ∈ pts ↔ r ≤ i ∧ i + r + 1 < l.length ∧ ∃ c ∈ cs, |(i : ℝ) - c| ≤ 1 / 2) ∧
      getLocalExtremaPoints E l "max" radius s false false sub none = .ok (pts.map fun i : ℕ => if sub then (i : ℝ) +
        (h ((i + 1 : ℕ) : ℝ) - h ((i - 1 : ℕ) : ℝ)) / (2 * (2 * h i - h ((i - 1 : ℕ) : ℝ) - h ((i + 1 : ℕ) : ℝ))) else i) := by
  have hne : l ≠ [] := by rw [← List.length_pos_iff]; omega
  obtain ⟨M, hM, hmem, hmax⟩ := npMax_ok hne
  have e : usedRadius radius (l.map fun x => M - x).length = r := by rw [List.length_map]; unfold usedRadius; omega
  have hrp : 0 < r := by omega
  have hmem' := ridge_mem R hS hs hrp hmem hmax htop hl
  refine ⟨extremaIdx (l.map fun x => M - x) r s, extremaIdx_sorted _ _ _, hmem', ?_⟩
  have hg : ∀ k, k + 1 < l.length → (l.map fun x => M - x).getD k 0 = M - h k := by
    intro k hk
    rw [getD_sub M (by omega), List.getD_eq_getElem?_getD, hl k hk, Option.getD_some]
  cases sub
  · rw [extrema_max E l radius s hM false false none, extrema_plain E _ radius s (by simpa using hn), e]
    simp
  · rw [extrema_max E l radius s hM false true none, extrema_sub E hpf _ radius s (by simpa using hn), e]
    · congr 1
      apply List.map_congr_left
      intro i hi
      rw [hmem'] at hi
      rw [if_pos rfl, hg i (by omega), hg (i - 1) (by omega), hg (i + 1) (by omega)]
      congr 1
      congr 1
      · ring
      · ring
    · intro i hi
      rw [e, hmem'] at hi
      obtain ⟨h1, h2, c, hc, hcd⟩ := hi
      rw [hg i (by omega), hg (i - 1) (by omega), hg (i + 1) (by omega)]
      rcases (vertex_near R hS hrp hc (by omega) hcd).1 with hv | hv
      · left; linarith
      · right; linarith

/-- The sample nearest to a place. -/
noncomputable def nearestSample (c : ℝ) : ℕ := ⌊c + 1 / 2⌋.toNat

theorem nearestSample_spec {c : ℝ} (h0 : -(1 / 2) < c) (ht : ∀ k : ℤ, c ≠ k + 1 / 2) : |(nearestSample c : ℝ) - c| < 1 / 2 := by
  have h1 := Int.floor_le (c + 1 / 2)
  have h2 := Int.lt_floor_add_one (c + 1 / 2)
  have h3 : 0 ≤ ⌊c + 1 / 2⌋ := Int.floor_nonneg.2 (by linarith)
  have e : (nearestSample c : ℝ) = (⌊c + 1 / 2⌋ : ℝ) := by
    unfold nearestSample
    have : ((⌊c + 1 / 2⌋.toNat : ℤ) : ℝ) = ((⌊c + 1 / 2⌋ : ℤ) : ℝ) := by rw [Int.toNat_of_nonneg h3]
    exact_mod_cast this
  have h4 : (⌊c + 1 / 2⌋ : ℝ) ≠ c + 1 / 2 := by
    intro he
    apply ht (⌊c + 1 / 2⌋ - 1)
    push_cast
    linarith
  have h5 := lt_of_le_of_ne h1 h4
  rw [e, abs_lt]
  constructor <;> linarith

theorem nearestSample_unique {c : ℝ} {i : ℕ} (hi : |(i : ℝ) - c| < 1 / 2) : nearestSample c = i := by
  have hb := abs_lt.1 hi
  unfold nearestSample
  have : ⌊c + 1 / 2⌋ = (i : ℤ) := by
    rw [Int.floor_eq_iff]
    push_cast
    constructor <;> linarith
  rw [this]; simp

/-- Where no line is halfway between two samples, each line in reach has exactly one nearest sample. -/
theorem ridge_matching {n : ℕ} (hr : 0 < r) (ha : PlacesApart cs (w + r + 1 / 2)) (hw : 1 / 2 < w)
    (ht : ∀ c ∈ cs, ∀ k : ℤ, c ≠ k + 1 / 2) {pts : List ℕ} (hp : pts.Pairwise (· < ·))
    (hm : ∀ i, i ∈ pts ↔ r ≤ i ∧ i + r + 1 < n ∧ ∃ c ∈ cs, |(i : ℝ) - c| ≤ 1 / 2) :
    ∃ seen : List ℝ, seen.Sublist cs ∧ (∀ c ∈ cs, c ∈ seen ↔ (r : ℝ) - 1 / 2 < c ∧ c < (n : ℝ) - r - 3 / 2) ∧
      List.Forall₂ (fun (c : ℝ) (i : ℕ) => |(i : ℝ) - c| < 1 / 2) seen pts := by
  classical
  have hr' : (1 : ℝ) ≤ r := by exact_mod_cast hr
  set seen := cs.filter fun c => decide ((r : ℝ) - 1 / 2 < c ∧ c < (n : ℝ) - r - 3 / 2) with hseen
  have hms : ∀ c, c ∈ seen ↔ c ∈ cs ∧ (r : ℝ) - 1 / 2 < c ∧ c < (n : ℝ) - r - 3 / 2 := by
    intro c; rw [hseen, List.mem_filter, decide_eq_true_eq]
  have hspec : ∀ c ∈ seen, |(nearestSample c : ℝ) - c| < 1 / 2 := by
    intro c hc
    rw [hms] at hc
    exact nearestSample_spec (by linarith [hc.2.1]) (ht c hc.1)
  have hsub : seen.Sublist cs := List.filter_sublist
  have he : pts = seen.map nearestSample := by
    refine increasing_ext hp ?_ ?_
    · rw [List.pairwise_map]
      refine ((ha.sublist hsub).imp_of_mem ?_)
      intro c c' hc hc' hcc
      have h1 := abs_lt.1 (hspec c hc)
      have h2 := abs_lt.1 (hspec c' hc')
      have : (nearestSample c : ℝ) < nearestSample c' := by linarith
      exact_mod_cast this
    · intro i
      rw [hm, List.mem_map]
      constructor
      · rintro ⟨h1, h2, c, hc, hcd⟩
        have hlt : |(i : ℝ) - c| < 1 / 2 := by
          refine lt_of_le_of_ne hcd fun hh => ?_
          rcases abs_cases ((i : ℝ) - c) with ⟨h3, _⟩ | ⟨h3, _⟩
          · exact ht c hc ((i : ℤ) - 1) (by push_cast; linarith)
          · exact ht c hc (i : ℤ) (by push_cast; linarith)
        have hb := abs_lt.1 hlt
        have h1' : (r : ℝ) ≤ i := by exact_mod_cast h1
        have h2' : (i : ℝ) + r + 2 ≤ n := by exact_mod_cast h2
        refine ⟨c, (hms c).2 ⟨hc, by linarith, by linarith⟩, nearestSample_unique hlt⟩
      · rintro ⟨c, hc, rfl⟩
        have hb := abs_lt.1 (hspec c hc)
        have hlt := hspec c hc
        rw [hms] at hc
        have h1 : (r : ℝ) - 1 < nearestSample c := by linarith [hc.2.1]
        have h2 : (nearestSample c : ℝ) + r + 1 < n := by linarith [hc.2.2]
        refine ⟨?_, by exact_mod_cast h2, c, hc.1, hlt.le⟩
        have : (r : ℝ) < (nearestSample c + 1 : ℕ) := by push_cast; linarith
        have : r < nearestSample c + 1 := by exact_mod_cast this
        omega
  refine ⟨seen, hsub, ?_, ?_⟩
  · intro c hc
    rw [hms]; exact and_iff_right hc
  · rw [he, List.forall₂_map_right_iff, List.forall₂_same]
    exact hspec

/-- The vertex of a parabola is its place. -/
theorem vertex_exact (R : Ridges cs φ w h) {c : ℝ} (hcs : c ∈ cs) {i : ℕ} (hi0 : 1 ≤ i) (hlt : |(i : ℝ) - c| < 1 / 2) (hw : 3 / 2 < w)
    {A B : ℝ} (hpar : ∀ d, 0 ≤ d → d ≤ 3 / 2 → φ c d = A - B * d ^ 2) :
    (i : ℝ) + (h ((i + 1 : ℕ) : ℝ) - h ((i - 1 : ℕ) : ℝ)) / (2 * (2 * h i - h ((i - 1 : ℕ) : ℝ) - h ((i + 1 : ℕ) : ℝ))) = c := by
  have em : ((i - 1 : ℕ) : ℝ) = (i : ℝ) - 1 := by rw [Nat.cast_sub (by omega)]; simp
  have ep : ((i + 1 : ℕ) : ℝ) = (i : ℝ) + 1 := by push_cast; ring
  have hb := abs_lt.1 hlt
  have hv : ∀ t : ℝ, |t - c| ≤ 3 / 2 → h t = A - B * (t - c) ^ 2 := by
    intro t htc
    rw [R.on c hcs t (htc.trans_lt hw), hpar _ (abs_nonneg _) htc, sq_abs]
  have hB : 0 < B := by
    have h4 := R.falls c hcs 0 1 le_rfl one_pos (by linarith)
    rw [hpar 0 le_rfl (by norm_num), hpar 1 (by norm_num) (by norm_num)] at h4
    linarith
  rw [em, ep, hv ((i : ℝ) + 1) (abs_le.2 ⟨by linarith, by linarith⟩), hv ((i : ℝ) - 1) (abs_le.2 ⟨by linarith, by linarith⟩),
    hv (i : ℝ) (abs_le.2 ⟨by linarith, by linarith⟩)]
  have e1 : A - B * ((i : ℝ) + 1 - c) ^ 2 - (A - B * ((i : ℝ) - 1 - c) ^ 2) = 4 * B * (c - i) := by ring
  have e2 : 2 * (2 * (A - B * ((i : ℝ) - c) ^ 2) - (A - B * ((i : ℝ) - 1 - c) ^ 2) - (A - B * ((i : ℝ) + 1 - c) ^ 2)) =
      4 * B := by ring
  rw [e1, e2, mul_div_cancel_left₀ _ (by positivity)]
  ring

theorem ridge_both (E : Ext) (hpf : PolyfitSpec E.pf) (hs : 0 ≤ s) (hn : 4 ≤ l.length)
    (hr : (r : ℤ) = min (max radius 1) ((l.length / 4 : ℕ) : ℤ)) (R : Ridges cs φ w h)
    (hl : ∀ k, k + 1 < l.length → l[k]? = some (h k)) (htop : ∀ x ∈ l, x ≤ top)
    (hS : Searchable cs φ w s top r) (ht : ∀ c ∈ cs, ∀ k : ℤ, c ≠ k + 1 / 2) (sub : Bool) :
    ∃ seen vs : List ℝ, getLocalExtremaPoints E l "max" radius s false false sub none = .ok vs ∧
      seen.Sublist cs ∧ (∀ c ∈ cs, c ∈ seen ↔ (r : ℝ) - 1 / 2 < c ∧ c < (l.length : ℝ) - r - 3 / 2) ∧
      List.Forall₂ (fun c v => |v - c| < 1 / 2 ∧ (∃ i : ℕ, |(i : ℝ) - c| < 1 / 2 ∧ v = foundAt sub h i) ∧ (sub = true → 3 / 2 < w →
        (∃ A B, ∀ d, 0 ≤ d → d ≤ 3 / 2 → φ c d = A - B * d ^ 2) → v = c)) seen vs := by
  have hrp : 0 < r := by omega
  obtain ⟨pts, hp, hm, he⟩ := ridge_points E hpf hs hn hr R hl htop hS sub
  obtain ⟨seen, h1, h2, h3⟩ := ridge_matching hrp hS.apart hS.wide ht hp hm
  refine ⟨seen, _, he, h1, h2, ?_⟩
  rw [List.forall₂_map_right_iff]
  rw [List.forall₂_iff_get] at h3 ⊢
  refine ⟨h3.1, fun k hk hk' => ?_⟩
  have hlt := h3.2 k hk hk'
  have hin := (hm _).1 (List.get_mem pts ⟨k, hk'⟩)
  have hcs := h1.subset (List.get_mem seen ⟨k, hk⟩)
  cases sub
  · exact ⟨by simpa using hlt, ⟨_, hlt, rfl⟩, fun h => absurd h (by simp)⟩
  · simp only [if_true]
    refine ⟨(vertex_near R hS hrp hcs (by omega) hlt.le).2.2.1 hlt, ⟨_, hlt, rfl⟩, ?_⟩
    rintro - hw ⟨A, B, hpar⟩
    exact vertex_exact R hcs (by omega) hlt hw hpar

/-- **C110 (one point for each line).** If no line is halfway between two samples, each line in reach of the search gives exactly
one point, in order, less than half a sample away from it, with or without the sub-pixel refinement: the nearest sample, or the vertex
of the parabola through this sample and its neighbours. -/
theorem C110_one_each (E : Ext) (hpf : PolyfitSpec E.pf) (l : List ℝ) (radius : ℤ) (s : ℝ) (hs : 0 ≤ s) (hn : 4 ≤ l.length) (r : ℕ)
    (hr : (r : ℤ) = min (max radius 1) ((l.length / 4 : ℕ) : ℤ)) (cs : List ℝ) (φ : ℝ → ℝ → ℝ) (w top : ℝ) (h : ℝ → ℝ)
    (R : Ridges cs φ w h) (hl : ∀ k, k + 1 < l.length → l[k]? = some (h k)) (htop : ∀ x ∈ l, x ≤ top)
    (hS : Searchable cs φ w s top r) (ht : ∀ c ∈ cs, ∀ k : ℤ, c ≠ k + 1 / 2) (sub : Bool) :
    ∃ seen vs : List ℝ, getLocalExtremaPoints E l "max" radius s false false sub none = .ok vs ∧
      seen.Sublist cs ∧ (∀ c ∈ cs, c ∈ seen ↔ (r : ℝ) - 1 / 2 < c ∧ c < (l.length : ℝ) - r - 3 / 2) ∧
      List.Forall₂ (fun c v => |v - c| < 1 / 2 ∧ ∃ i : ℕ, |(i : ℝ) - c| < 1 / 2 ∧ v = foundAt sub h i) seen vs := by
  obtain ⟨seen, vs, h1, h2, h3, h4⟩ := ridge_both E hpf hs hn hr R hl htop hS ht sub
  exact ⟨seen, vs, h1, h2, h3, h4.imp fun _ _ h => ⟨h.1, h.2.1⟩⟩

/-- **C110 (exact positions).** Where a line is a parabola over the three samples around it, the refined position is exact. -/
theorem C110_parabola (E : Ext) (hpf : PolyfitSpec E.pf) (l : List ℝ) (radius : ℤ) (s : ℝ) (hs : 0 ≤ s) (hn : 4 ≤ l.length) (r : ℕ)
    (hr : (r : ℤ) = min (max radius 1) ((l.length / 4 : ℕ) : ℤ)) (cs : List ℝ) (φ : ℝ → ℝ → ℝ) (w top : ℝ) (h : ℝ → ℝ)
    (R : Ridges cs φ w h) (hl : ∀ k, k + 1 < l.length → l[k]? = some (h k)) (htop : ∀ x ∈ l, x ≤ top)
    (hS : Searchable cs φ w s top r) (ht : ∀ c ∈ cs, ∀ k : ℤ, c ≠ k + 1 / 2) (hw : 3 / 2 < w) (A B : ℝ → ℝ)
    (hpar : ∀ c ∈ cs, ∀ d, 0 ≤ d → d ≤ 3 / 2 → φ c d = A c - B c * d ^ 2) :
    ∃ seen : List ℝ, getLocalExtremaPoints E l "max" radius s false false true none = .ok seen ∧
      seen.Sublist cs ∧ ∀ c ∈ cs, c ∈ seen ↔ (r : ℝ) - 1 / 2 < c ∧ c < (l.length : ℝ) - r - 3 / 2 := by
  obtain ⟨seen, vs, h1, h2, h3, h4⟩ := ridge_both E hpf hs hn hr R hl htop hS ht true
  have e : seen = vs := by
    rw [← List.forall₂_eq_eq_eq]
    rw [List.forall₂_iff_get] at h4 ⊢
    refine ⟨h4.1, fun k hk hk' => ?_⟩
    have hc := h2.subset (List.get_mem seen ⟨k, hk⟩)
    exact ((h4.2 k hk hk').2.2 rfl hw ⟨_, _, hpar _ hc⟩).symm
  exact ⟨seen, by rw [h1, e], h2, h3⟩

/-- **C110 (a line found twice).** A line exactly halfway between two samples gives two points; with the sub-pixel refinement both
are at its place, so that the point occurs twice in the result. -/
theorem C110_twice (E : Ext) (hpf : PolyfitSpec E.pf) (l : List ℝ) (radius : ℤ) (s : ℝ) (hs : 0 ≤ s) (hn : 4 ≤ l.length) (r : ℕ)
    (hr : (r : ℤ) = min (max radius 1) ((l.length / 4 : ℕ) : ℤ)) (cs : List ℝ) (φ : ℝ → ℝ → ℝ) (w top : ℝ) (h : ℝ → ℝ)
    (R : Ridges cs φ w h) (hl : ∀ k, k + 1 < l.length → l[k]? = some (h k)) (htop : ∀ x ∈ l, x ≤ top)
    (hS : Searchable cs φ w s top r) (k : ℕ) (hk : ((k : ℝ) + 1 / 2) ∈ cs) (h1 : r ≤ k) (h2 : k + r + 2 < l.length) :
    (∃ vs, getLocalExtremaPoints E l "max" radius s false false false none = .ok vs ∧ (k : ℝ) ∈ vs ∧ ((k : ℝ) + 1) ∈ vs) ∧
    ∃ vs, getLocalExtremaPoints E l "max" radius s false false true none = .ok vs ∧ [(k : ℝ) + 1 / 2, (k : ℝ) + 1 / 2].Sublist vs := by
  have hrp : 0 < r := by omega
  have d1 : |(k : ℝ) - ((k : ℝ) + 1 / 2)| = 1 / 2 := by
    rw [show (k : ℝ) - ((k : ℝ) + 1 / 2) = -(1 / 2) by ring, abs_neg, abs_of_pos (by norm_num)]
  have d2 : |((k + 1 : ℕ) : ℝ) - ((k : ℝ) + 1 / 2)| = 1 / 2 := by
    rw [show ((k + 1 : ℕ) : ℝ) - ((k : ℝ) + 1 / 2) = 1 / 2 by push_cast; ring, abs_of_pos (by norm_num)]
  constructor
  · obtain ⟨pts, hp, hm, he⟩ := ridge_points E hpf hs hn hr R hl htop hS false
    refine ⟨_, he, List.mem_map.2 ⟨k, (hm k).2 ⟨h1, by omega, _, hk, d1.le⟩, by simp⟩,
      List.mem_map.2 ⟨k + 1, (hm _).2 ⟨by omega, by omega, _, hk, d2.le⟩, by simp⟩⟩
  · obtain ⟨pts, hp, hm, he⟩ := ridge_points E hpf hs hn hr R hl htop hS true
    refine ⟨_, he, ?_⟩
    have hsub : [k, k + 1].Sublist pts := by
      have hk1 := (hm k).2 ⟨h1, by omega, _, hk, d1.le⟩
      have hk2 := (hm (k + 1)).2 ⟨by omega, by omega, _, hk, d2.le⟩
      have hsorted : [k, k + 1].Pairwise (· < ·) := by simp
      have hfil : pts.filter (fun i => decide (i = k ∨ i = k + 1)) = [k, k + 1] := by
        refine increasing_ext (hp.sublist List.filter_sublist) hsorted fun i => ?_
        rw [List.mem_filter]
        simp only [decide_eq_true_eq, List.mem_cons, List.not_mem_nil, or_false]
        constructor
        · exact fun h => h.2
        · rintro (rfl | rfl)
          · exact ⟨hk1, Or.inl rfl⟩
          · exact ⟨hk2, Or.inr rfl⟩
      rw [← hfil]; exact List.filter_sublist
    have := hsub.map fun i : ℕ => if true = true then (i : ℝ) +
        (h ((i + 1 : ℕ) : ℝ) - h ((i - 1 : ℕ) : ℝ)) / (2 * (2 * h i - h ((i - 1 : ℕ) : ℝ) - h ((i + 1 : ℕ) : ℝ))) else i
    simp only [List.map_cons, List.map_nil, if_true] at this
    rw [(vertex_near R hS hrp hk (by omega) d1.le).2.2.2 d1, (vertex_near R hS hrp hk (by omega) d2.le).2.2.2 d2] at this
    simpa using this

end profile

section image

/-- The ridges in units of samples. -/
theorem ridges_scale {cs : List ℝ} {φ : ℝ → ℝ → ℝ} {w q : ℝ} {h : ℝ → ℝ} (hq : 0 < q) (R : Ridges cs φ w h) :
    Ridges (cs.map (· / q)) (fun c d => φ (c * q) (d * q)) (w / q) (fun t => h (q * t)) := by
  have key : ∀ t c : ℝ, |q * t - c| = |t - c / q| * q := by
    intro t c
    rw [show q * t - c = (t - c / q) * q by field_simp, abs_mul, abs_of_pos hq]
  refine ⟨?_, ?_, ?_, ?_⟩
  · intro c' hc' t ht
    obtain ⟨c, hc, rfl⟩ := List.mem_map.1 hc'
    rw [lt_div_iff₀ hq, ← key] at ht
    rw [R.on c hc _ ht, key, div_mul_cancel₀ _ hq.ne']
  · intro t ht
    refine R.off _ fun c hc => ?_
    rw [key, ← div_le_iff₀ hq]
    exact ht _ (List.mem_map.2 ⟨c, hc, rfl⟩)
  · intro c' hc' a b ha hab hb
    obtain ⟨c, hc, rfl⟩ := List.mem_map.1 hc'
    rw [div_mul_cancel₀ _ hq.ne']
    exact R.falls c hc _ _ (by positivity) (mul_lt_mul_of_pos_right hab hq) ((lt_div_iff₀ hq).1 hb)
  · intro c' hc' a ha hb
    obtain ⟨c, hc, rfl⟩ := List.mem_map.1 hc'
    rw [div_mul_cancel₀ _ hq.ne']
    exact R.pos c hc _ (by positivity) ((lt_div_iff₀ hq).1 hb)

theorem searchable_scale {cs : List ℝ} {φ : ℝ → ℝ → ℝ} {w q s top : ℝ} {r : ℕ} (hq : 0 < q) (hS : SearchableBy q cs φ w s top r) :
    Searchable (cs.map (· / q)) (fun c d => φ (c * q) (d * q)) (w / q) s top r := by
  refine ⟨?_, ?_, ?_, ?_⟩
  · rw [lt_div_iff₀ hq]; linarith [hS.wide]
  · rw [← mul_div_assoc, div_le_iff₀ hq]; linarith [hS.narrow]
  · have := hS.apart
    unfold PlacesApart at this ⊢
    rw [List.pairwise_map]
    refine this.imp fun {c c'} hcc => ?_
    rw [le_div_iff₀ hq, add_mul, add_mul, add_mul, div_mul_cancel₀ _ hq.ne', div_mul_cancel₀ _ hq.ne']
    linarith
  · intro c' hc'
    obtain ⟨c, hc, rfl⟩ := List.mem_map.1 hc'
    rw [div_mul_cancel₀ _ hq.ne', one_div_mul_eq_div]
    exact hS.clear c hc

/-- One line of `n` samples, `q` pixels apart. -/
theorem line_seen {E : Ext} {l : List ℝ} {radius : ℤ} {s top w q : ℝ} {r : ℕ} {cs : List ℝ} {φ : ℝ → ℝ → ℝ} {h : ℝ → ℝ}
    (hpf : PolyfitSpec E.pf) (hs : 0 ≤ s) (hn : 4 ≤ l.length) (hr : (r : ℤ) = min (max radius 1) ((l.length / 4 : ℕ) : ℤ)) (hq : 0 < q)
    (R : Ridges cs φ w h) (hl : ∀ k : ℕ, k + 1 < l.length → l[k]? = some (h (q * k))) (htop : ∀ x ∈ l, x ≤ top)
    (hS : SearchableBy q cs φ w s top r) (ht : ∀ c ∈ cs, ∀ k : ℤ, c ≠ q * (k + 1 / 2)) {sub : Bool} {rs : List ℝ}
    (he : getLocalExtremaPoints E l "max" radius s false false sub none = .ok rs) :
    ∃ seen : List ℝ, seen.Sublist cs ∧
      (∀ c ∈ cs, c ∈ seen ↔ q * ((r : ℝ) - 1 / 2) < c ∧ c < q * ((l.length : ℝ) - r - 3 / 2)) ∧
      List.Forall₂ (fun c v => |v * q - c| < q / 2 ∧ 0 ≤ v ∧ v ≤ (l.length : ℝ) - 2 ∧
        (∃ i : ℕ, |q * i - c| < q / 2 ∧ v = foundAt sub (fun t => h (q * t)) i) ∧ (sub = true → 3 / 2 * q < w →
        (∃ A B, ∀ d, 0 ≤ d → d ≤ 3 / 2 * q → φ c d = A - B * d ^ 2) → v * q = c)) seen rs := by
  obtain ⟨seen', vs, h1, h2, h3, h4⟩ := ridge_both E hpf hs hn hr (ridges_scale hq R) hl htop (searchable_scale hq hS) (by
    intro c' hc' k hk
    obtain ⟨c, hc, rfl⟩ := List.mem_map.1 hc'
    exact ht c hc k (by rw [← hk]; field_simp)) sub
  rw [he] at h1
  injection h1 with h1
  subst h1
  have hr1 : (1 : ℝ) ≤ r := by
    have : 1 ≤ r := by omega
    exact_mod_cast this
  have hinj : Function.Injective fun c : ℝ => c / q := fun a b hab => by
    simp only at hab
    rwa [div_left_inj' hq.ne'] at hab
  obtain ⟨seen, hsub, rfl⟩ := List.sublist_map_iff.1 h2
  refine ⟨seen, hsub, ?_, ?_⟩
  · intro c hc
    have := h3 (c / q) (List.mem_map.2 ⟨c, hc, rfl⟩)
    rw [List.mem_map_of_injective hinj] at this
    rw [this, lt_div_iff₀ hq, div_lt_iff₀ hq, mul_comm q, mul_comm q]
  · rw [List.forall₂_map_left_iff] at h4
    rw [List.forall₂_iff_get] at h4 ⊢
    refine ⟨h4.1, fun k hk hk' => ?_⟩
    have hc := hsub.subset (List.get_mem seen ⟨k, hk⟩)
    have hm := (h3 _ (List.mem_map.2 ⟨_, hc, rfl⟩)).1 (List.mem_map.2 ⟨_, List.get_mem seen ⟨k, hk⟩, rfl⟩)
    obtain ⟨h5, ⟨n, h7, h8⟩, h6⟩ := h4.2 k hk hk'
    generalize seen.get ⟨k, hk⟩ = c at *
    generalize rs.get ⟨k, hk'⟩ = v at *
    have hb := abs_lt.1 h5
    refine ⟨?_, by linarith, by linarith, ⟨n, ?_, h8⟩, ?_⟩
    · rw [show v * q - c = (v - c / q) * q by field_simp, abs_mul, abs_of_pos hq]
      calc |v - c / q| * q < 1 / 2 * q := mul_lt_mul_of_pos_right h5 hq
        _ = q / 2 := by ring
    · rw [show q * n - c = ((n : ℝ) - c / q) * q by field_simp, abs_mul, abs_of_pos hq]
      calc |(n : ℝ) - c / q| * q < 1 / 2 * q := mul_lt_mul_of_pos_right h7 hq
        _ = q / 2 := by ring
    · rintro hsb hw ⟨A, B, hpar⟩
      have := h6 hsb ((lt_div_iff₀ hq).2 hw) ⟨A, B * q ^ 2, fun d hd0 hd => by
        rw [div_mul_cancel₀ _ hq.ne', hpar (d * q) (by positivity) (mul_le_mul_of_nonneg_right hd hq.le)]
        ring⟩
      rw [this, div_mul_cancel₀ _ hq.ne']

/-- What a generated vertical line sees. -/
theorem ver_profile {S : Sampler} {img : Mat ℝ} {i slope : ℝ} {xs ys prof : List ℝ} {b : ℝ → ℝ → ℝ} {q : ℝ} (hh : 2 ≤ img.height)
    (hw : img.width ≤ 32767) (hb : ShowsCols S img b)
    (hq : q = (⌊(img.height : ℝ) / Real.cos (Real.arctan slope)⌋ : ℝ) * Real.cos (Real.arctan slope) / ((img.height : ℝ) - 1))
    (hp : getTiltedProfile S img i (Real.arctan slope * 180 / Real.pi) "vertical" = .ok (xs, ys, prof)) :
    prof.length = img.height ∧ (∀ k : ℕ, k + 1 < prof.length → prof[k]? = some (b (q * k) (max (i + slope * (q * k)) 0)) ∧
        ys[k]? = some (q * k)) ∧
      ∀ p ∈ prof, ∃ y x, Spec.InFrame img y x ∧ p = b y x := by
  obtain ⟨lx, ly, lp, lo, hi, hlo, hhi, hin⟩ := C45_inside_ver S img i _ hw xs ys prof hp
  have line := fun k hk => C45_line_ver S img i _ (arctan_deg_lt slope) hh xs ys prof hp k hk
  rw [arctan_deg] at line
  have hco := Real.cos_arctan_pos slope
  have hh' : (2 : ℝ) ≤ img.height := by exact_mod_cast hh
  have all : ∀ k : ℕ, k < img.height → ∃ x y, xs[k]? = some x ∧ ys[k]? = some y ∧ Spec.InFrame img y x ∧ prof[k]? = some (b y x) := by
    intro k hk
    have e1 := List.getElem?_eq_getElem (l := xs) (i := k) (by omega)
    have e2 := List.getElem?_eq_getElem (l := ys) (i := k) (by omega)
    have e3 := List.getElem?_eq_getElem (l := prof) (i := k) (by omega)
    obtain ⟨f1, f2, f3⟩ := hin k _ _ _ e1 e2 e3
    refine ⟨_, _, e1, e2, f1, ?_⟩
    rw [e3, f3, hb lo hi hlo hhi _ _ f2]
  refine ⟨lp, ?_, ?_⟩
  · intro k hk
    obtain ⟨x, y, e1, e2, f1, e3⟩ := all k (by omega)
    obtain ⟨t, ht, h1, h2, h3, h4⟩ := line k (by omega)
    have hk' : (k : ℝ) + 2 ≤ img.height := by
      have : k + 2 ≤ img.height := by omega
      exact_mod_cast this
    have htq : t * Real.cos (Real.arctan slope) = q * k := by rw [ht, hq]; ring
    have hLn : (⌊(img.height : ℝ) / Real.cos (Real.arctan slope)⌋ : ℝ) * Real.cos (Real.arctan slope) ≤ img.height := by
      rw [← le_div_iff₀ hco]; exact Int.floor_le _
    have hqk : q * k ≤ (img.height : ℝ) - 1 := by
      rw [hq, div_mul_eq_mul_div, div_le_iff₀ (by linarith)]
      nlinarith
    have hy : y = q * k := by
      rw [e2] at h2; injection h2 with h2
      rw [h2, htq, min_eq_left hqk]
    have hxs : t * Real.sin (Real.arctan slope) = slope * (q * k) := by
      rw [sin_arctan_eq, ← htq]; ring
    have hx : x = max (i + slope * (q * k)) 0 := by
      by_cases hs : 0 < Real.arctan slope * 180 / Real.pi
      · have := h3 hs
        rw [e1, hxs] at this; injection this with this
        rw [max_eq_left]
        · exact this
        · rw [← this]; exact f1.2.2.1
      · have := (h4 (not_lt.1 hs)).1
        rw [e1, hxs] at this; injection this
    rw [e3, e2, hx, hy]
    exact ⟨rfl, rfl⟩
  · intro p hpp
    obtain ⟨k, hk, rfl⟩ := List.getElem_of_mem hpp
    obtain ⟨x, y, _, _, f1, e3⟩ := all k (by omega)
    rw [List.getElem?_eq_getElem hk] at e3
    injection e3 with e3
    exact ⟨y, x, f1, e3⟩

/-- What a generated horizontal line sees. -/
theorem hor_profile {S : Sampler} {img : Mat ℝ} {i slope : ℝ} {xs ys prof : List ℝ} {b : ℝ → ℝ → ℝ} {q : ℝ} (hh : 2 ≤ img.width)
    (hw : img.height ≤ 32767) (hb : ShowsRows S img b)
    (hq : q = (⌊(img.width : ℝ) / Real.cos (Real.arctan slope)⌋ : ℝ) * Real.cos (Real.arctan slope) / ((img.width : ℝ) - 1))
    (hp : getTiltedProfile S img i (-(Real.arctan slope * 180 / Real.pi)) "horizontal" = .ok (xs, ys, prof)) :
    prof.length = img.width ∧ (∀ k : ℕ, k + 1 < prof.length →
        prof[k]? = some (b (min (i + slope * (q * k)) ((img.height : ℝ) - 1)) (q * k)) ∧ xs[k]? = some (q * k)) ∧
      ∀ p ∈ prof, ∃ y x, Spec.InFrame img y x ∧ p = b y x := by
  obtain ⟨lx, ly, lp, lo, hi, hlo, hhi, hin⟩ := C45_inside_hor S img i _ hw xs ys prof hp
  have hd : |-(Real.arctan slope * 180 / Real.pi)| < 90 := by rw [abs_neg]; exact arctan_deg_lt slope
  have line := fun k hk => C45_line_hor S img i _ hd hh xs ys prof hp k hk
  have ea : -(Real.arctan slope * 180 / Real.pi) * Real.pi / 180 = -Real.arctan slope := by
    rw [neg_mul, neg_div, arctan_deg]
  simp only [ea, Real.cos_neg, Real.sin_neg, mul_neg, sub_neg_eq_add] at line
  have hco := Real.cos_arctan_pos slope
  have hh' : (2 : ℝ) ≤ img.width := by exact_mod_cast hh
  have all : ∀ k : ℕ, k < img.width → ∃ x y, xs[k]? = some x ∧ ys[k]? = some y ∧ Spec.InFrame img y x ∧ prof[k]? = some (b y x) := by
    intro k hk
    have e1 := List.getElem?_eq_getElem (l := xs) (i := k) (by omega)
    have e2 := List.getElem?_eq_getElem (l := ys) (i := k) (by omega)
    have e3 := List.getElem?_eq_getElem (l := prof) (i := k) (by omega)
    obtain ⟨f1, f2, f3⟩ := hin k _ _ _ e1 e2 e3
    refine ⟨_, _, e1, e2, f1, ?_⟩
    rw [e3, f3, hb lo hi hlo hhi _ _ f2]
  refine ⟨lp, ?_, ?_⟩
  · intro k hk
    obtain ⟨x, y, e1, e2, f1, e3⟩ := all k (by omega)
    obtain ⟨t, ht, h1, h2, h3, h4⟩ := line k (by omega)
    have hk' : (k : ℝ) + 2 ≤ img.width := by
      have : k + 2 ≤ img.width := by omega
      exact_mod_cast this
    have htq : t * Real.cos (Real.arctan slope) = q * k := by rw [ht, hq]; ring
    have hLn : (⌊(img.width : ℝ) / Real.cos (Real.arctan slope)⌋ : ℝ) * Real.cos (Real.arctan slope) ≤ img.width := by
      rw [← le_div_iff₀ hco]; exact Int.floor_le _
    have hqk : q * k ≤ (img.width : ℝ) - 1 := by
      rw [hq, div_mul_eq_mul_div, div_le_iff₀ (by linarith)]
      nlinarith
    have hx : x = q * k := by
      rw [e1] at h2; injection h2 with h2
      rw [h2, htq, min_eq_left hqk]
    have hxs : t * Real.sin (Real.arctan slope) = slope * (q * k) := by
      rw [sin_arctan_eq, ← htq]; ring
    have hy : y = min (i + slope * (q * k)) ((img.height : ℝ) - 1) := by
      by_cases hs : 0 < -(Real.arctan slope * 180 / Real.pi)
      · have := h3 hs
        rw [e2, hxs] at this; injection this with this
        rw [min_eq_left]
        · exact this
        · rw [← this]; exact f1.2.1
      · have := (h4 (not_lt.1 hs)).1
        rw [e2, hxs] at this; injection this
    rw [e3, e1, hx, hy]
    exact ⟨rfl, rfl⟩
  · intro p hpp
    obtain ⟨k, hk, rfl⟩ := List.getElem_of_mem hpp
    obtain ⟨x, y, _, _, f1, e3⟩ := all k (by omega)
    rw [List.getElem?_eq_getElem hk] at e3
    injection e3 with e3
    exact ⟨y, x, f1, e3⟩

/-- From samples to coordinates: `t` pixels are reported for a sample, `q` pixels apart in truth. -/
theorem reported_bound {n : ℕ} {q t δ v c : ℝ} (h1 : t ≤ q) (h2 : ((n : ℝ) - 2) * q ≤ ((n : ℝ) - 2) * t + δ) (hv : 0 ≤ v)
    (hvn : v ≤ (n : ℝ) - 2) (hc : |v * q - c| < q / 2) : |v * t - c| < q / 2 + δ := by
  have h3 : v * (q - t) ≤ δ := by
    calc v * (q - t) ≤ ((n : ℝ) - 2) * (q - t) := mul_le_mul_of_nonneg_right hvn (by linarith)
      _ ≤ δ := by linarith
  have h4 : 0 ≤ v * (q - t) := mul_nonneg hv (by linarith)
  rw [abs_lt] at hc ⊢
  constructor <;> linarith [hc.1, hc.2]

theorem crossImage_unique {fft filter2 : Mat ℝ → Mat ℝ} {bright norm denoise : Bool} {mat img img' : Mat ℝ}
    (h : IsCrossImage fft filter2 bright norm denoise mat img) (h' : IsCrossImage fft filter2 bright norm denoise mat img') :
    img = img' := by
  obtain ⟨base, a1, a2, n1, e1, e2⟩ := h
  obtain ⟨base', b1, b2, n2, f1, f2⟩ := h'
  have : base = base' := by
    cases bright with
    | false => rw [a1 rfl, b1 rfl]
    | true =>
      obtain ⟨p1, p2, M, ⟨i, j, hi, hj, hM⟩, p4, p5⟩ := a2 rfl
      obtain ⟨q1, q2, M', ⟨i', j', hi', hj', hM'⟩, q4, q5⟩ := b2 rfl
      have e : M = M' := le_antisymm (hM ▸ q4 i j hi hj) (hM' ▸ p4 i' j' hi' hj')
      cases base
      cases base'
      simp only at p1 p2 q1 q2
      congr 1
      · rw [p1, q1]
      · rw [p2, q2]
      · funext x y
        exact (p5 x y).trans (by rw [e]; exact (q5 x y).symm)
  rw [e2, f2, e1, f1, this]

/-- **C110 (points on horizontal lines).** Whatever the slope of the generated vertical lines: if the prepared image shows, along the
generated line that starts at column `i`, bright lines at the rows `cs`, wide and distinct enough for the search radius and not
halfway between two samples, then the points reported for it are, in order, one for each of the `cs` in reach, on the generated line
and less than `q/2 + 1` (for a negative slope `q/2 + 2`) rows away from where the line is. `q`, the distance of the samples in rows,
is at most `H / (H - 1)`. For lines without a slope all rows are reported too small by the factor `(H - 1) / H`: multiplied by
`H / (H - 1)` they are less than half a sample off, and exact for a parabolic line with the sub-pixel refinement. -/
theorem C110_hor_lines (E : Ext) (hpf : PolyfitSpec E.pf) (S : Sampler) (fft filter2 : Mat ℝ → Mat ℝ) (store : ℝ → ℝ) (mat img : Mat ℝ)
    (hf : ∀ m, (fft m).height = m.height ∧ (fft m).width = m.width)
    (hg : ∀ m, (filter2 m).height = m.height ∧ (filter2 m).width = m.width) (hh : 4 ≤ mat.height) (hw : mat.width ≤ 32767)
    (slope dist ratio offset : ℝ) (hs : 0 < ratio * dist) (bright sub : Bool) (radius : ℤ) (sensitive : ℝ) (hsen : 0 ≤ sensitive)
    (himg : IsCrossImage fft filter2 bright true true mat img) (b : ℝ → ℝ → ℝ) (hb : ShowsCols S img b) (r : ℕ)
    (hr : (r : ℤ) = min (max radius 1) ((mat.height / 4 : ℕ) : ℤ)) (q : ℝ)
    (hq : q = (⌊(mat.height : ℝ) / Real.cos (Real.arctan slope)⌋ : ℝ) * Real.cos (Real.arctan slope) / ((mat.height : ℝ) - 1))
    (P : List Pt)
    (h : getCrossPointsHorLines E S fft filter2 store mat slope dist ratio offset bright true false true sub radius sensitive none =
      .ok P) :
    0 < q ∧ q ≤ mat.height / ((mat.height : ℝ) - 1) ∧ (slope = 0 → q = mat.height / ((mat.height : ℝ) - 1)) ∧
    ∃ lo hi off starts groups, VerLimits mat.height mat.width slope lo hi ∧ IsOffset offset (min mat.height mat.width / 3) off ∧
      IsStarts lo hi off (ratio * dist) starts ∧ P = groups.flatten ∧
      List.Forall₂ (fun i g => ∀ (cs : List ℝ) (φ : ℝ → ℝ → ℝ) (w top : ℝ),
        Ridges cs φ w (fun y => b y (max (i + slope * y) 0)) → SearchableBy q cs φ w sensitive top r →
        (∀ y x, Spec.InFrame img y x → b y x ≤ top) → (∀ c ∈ cs, ∀ k : ℤ, c ≠ q * (k + 1 / 2)) →
        ∃ seen : List ℝ, seen.Sublist cs ∧
          (∀ c ∈ cs, c ∈ seen ↔ q * ((r : ℝ) - 1 / 2) < c ∧ c < q * ((mat.height : ℝ) - r - 3 / 2)) ∧
          List.Forall₂ (fun c p => p.x = i + slope * p.y ∧ |p.y - c| < q / 2 + (if 0 ≤ slope then 1 else 2) ∧
            (slope = 0 → |p.y * (mat.height / ((mat.height : ℝ) - 1)) - c| < q / 2) ∧
            (slope = 0 → ∃ n : ℕ, |q * n - c| < q / 2 ∧ p.y = foundAt sub (fun t => b (q * t) (max i 0)) n) ∧
            (slope = 0 → sub = true → 3 / 2 * q < w → (∃ A B, ∀ d, 0 ≤ d → d ≤ 3 / 2 * q → φ c d = A - B * d ^ 2) →
              p.y = c * (((mat.height : ℝ) - 1) / mat.height))) seen g) starts groups := by
  have hh' : (4 : ℝ) ≤ mat.height := by exact_mod_cast hh
  have hco := Real.cos_arctan_pos slope
  have hco1 : Real.cos (Real.arctan slope) ≤ 1 := Real.cos_le_one _
  have hL : (1 : ℝ) ≤ (⌊(mat.height : ℝ) / Real.cos (Real.arctan slope)⌋ : ℝ) := by
    have : (1 : ℤ) ≤ ⌊(mat.height : ℝ) / Real.cos (Real.arctan slope)⌋ := Int.le_floor.2 (by
      rw [Int.cast_one, le_div_iff₀ hco]; linarith)
    exact_mod_cast this
  have hq0 : 0 < q := by
    rw [hq]; exact div_pos (mul_pos (by linarith) hco) (by linarith)
  have hqz : slope = 0 → q = mat.height / ((mat.height : ℝ) - 1) := by
    rintro rfl
    rw [hq, Real.arctan_zero, Real.cos_zero, div_one, mul_one, Int.floor_natCast, Int.cast_natCast]
  obtain ⟨img', lo, hi, off, starts, groups, h1, h2, h3, h4, h5, h6⟩ := C79_hor_lines E S fft filter2 store mat hf hg (by omega) slope dist
    ratio offset hs bright true false true sub radius sensitive none P h
  rw [crossImage_unique h1 himg] at h6
  obtain ⟨eh, ew⟩ : img.height = mat.height ∧ img.width = mat.width := by
    obtain ⟨base, a1, a2, n1, e1, e2⟩ := himg
    have hb1 : base.height = mat.height ∧ base.width = mat.width := by
      cases bright with
      | false => rw [a1 rfl]; exact ⟨rfl, rfl⟩
      | true => exact ⟨(a2 rfl).1, (a2 rfl).2.1⟩
    rw [if_pos rfl] at e1 e2
    rw [e2, (hg n1).1, (hg n1).2, e1, (hf base).1, (hf base).2]
    exact hb1
  refine ⟨hq0, ?_, hqz, lo, hi, off, starts, groups, h2, h3, h4, h5, h6.imp ?_⟩
  · rw [hq]
    apply div_le_div_of_nonneg_right _ (by linarith)
    rw [← le_div_iff₀ hco]; exact Int.floor_le _
  intro i g hig cs φ w top R hS hmax ht
  obtain ⟨xs, ys, prof, prof', rs, t, hp, hpe, _, he, hol, ht0, htz, hk⟩ := hig
  obtain rfl := hpe rfl
  obtain ⟨lp, hpr, hin⟩ := ver_profile (q := q) (by omega) (by omega) hb (by rw [eh]; exact hq) hp
  rw [eh] at lp
  obtain ⟨seen, s1, s2, s3⟩ := line_seen hpf hsen (by omega) (by rw [lp]; exact hr) hq0 R (fun k hk' => (hpr k hk').1) (by
    intro x hx
    obtain ⟨y', x', f1, rfl⟩ := hin x hx
    exact hmax _ _ f1) hS ht he
  rw [lp] at s2 s3
  refine ⟨seen, s1, s2, ?_⟩
  have hk1 := hk 1 _ (by omega) (hpr 1 (by omega)).2
  have hk2 := hk (mat.height - 2) _ (by omega) (hpr _ (by omega)).2
  have ecast : ((mat.height - 2 : ℕ) : ℝ) = (mat.height : ℝ) - 2 := by rw [Nat.cast_sub (by omega)]; simp
  rw [ecast] at hk2
  have htq : t ≤ q := by simpa using hk1.1
  unfold AreOnLine at hol
  rw [List.forall₂_iff_get] at s3 hol ⊢
  refine ⟨s3.1.trans hol.1, fun k hk hk' => ?_⟩
  obtain ⟨u1, u2, u3, ⟨m, um, uv⟩, u4⟩ := s3.2 k hk (by rw [← s3.1]; exact hk)
  obtain ⟨o1, o2⟩ := hol.2 k (by rw [← s3.1]; exact hk) hk'
  generalize seen.get ⟨k, hk⟩ = c at *
  generalize rs.get ⟨k, _⟩ = v at *
  generalize g.get ⟨k, hk'⟩ = p at *
  have ez : slope = 0 → p.y * (mat.height / ((mat.height : ℝ) - 1)) = v * q := by
    intro h0; rw [o1, htz h0, hqz h0, mul_one]
  refine ⟨o2, ?_, ?_, ?_, ?_⟩
  · rw [o1]
    exact reported_bound htq (by have := hk2.2.1; linarith) u2 u3 u1
  · intro h0; rw [ez h0]; exact u1
  · intro h0
    refine ⟨m, um, ?_⟩
    rw [o1, htz h0, mul_one, uv]
    simp only [h0, zero_mul, add_zero]
  · intro h0 hsub hww hpar
    have := u4 hsub hww hpar
    rw [← this, ← ez h0]
    have hne : (mat.height : ℝ) - 1 ≠ 0 := by intro h; linarith
    have hne' : (mat.height : ℝ) ≠ 0 := by intro h; linarith
    field_simp

/-- **C110 (points on vertical lines).** The same for `get_cross_points_ver_lines` with generated horizontal lines. -/
theorem C110_ver_lines (E : Ext) (hpf : PolyfitSpec E.pf) (S : Sampler) (fft filter2 : Mat ℝ → Mat ℝ) (store : ℝ → ℝ) (mat img : Mat ℝ)
    (hf : ∀ m, (fft m).height = m.height ∧ (fft m).width = m.width)
    (hg : ∀ m, (filter2 m).height = m.height ∧ (filter2 m).width = m.width) (hw : 4 ≤ mat.width) (hh : mat.height ≤ 32767)
    (slope dist ratio offset : ℝ) (hs : 0 < ratio * dist) (bright sub : Bool) (radius : ℤ) (sensitive : ℝ) (hsen : 0 ≤ sensitive)
    (himg : IsCrossImage fft filter2 bright true true mat img) (b : ℝ → ℝ → ℝ) (hb : ShowsRows S img b) (r : ℕ)
    (hr : (r : ℤ) = min (max radius 1) ((mat.width / 4 : ℕ) : ℤ)) (q : ℝ)
    (hq : q = (⌊(mat.width : ℝ) / Real.cos (Real.arctan slope)⌋ : ℝ) * Real.cos (Real.arctan slope) / ((mat.width : ℝ) - 1))
    (P : List Pt)
    (h : getCrossPointsVerLines E S fft filter2 store mat slope dist ratio offset bright true false true sub radius sensitive none =
      .ok P) :
    0 < q ∧ q ≤ mat.width / ((mat.width : ℝ) - 1) ∧ (slope = 0 → q = mat.width / ((mat.width : ℝ) - 1)) ∧
    ∃ lo hi off starts groups, HorLimits mat.height mat.width slope lo hi ∧ IsOffset offset (min mat.height mat.width / 8) off ∧
      IsStarts lo hi off (ratio * dist) starts ∧ P = groups.flatten ∧
      List.Forall₂ (fun i g => ∀ (cs : List ℝ) (φ : ℝ → ℝ → ℝ) (w top : ℝ),
        Ridges cs φ w (fun x => b (min (i + slope * x) ((mat.height : ℝ) - 1)) x) → SearchableBy q cs φ w sensitive top r →
        (∀ y x, Spec.InFrame img y x → b y x ≤ top) → (∀ c ∈ cs, ∀ k : ℤ, c ≠ q * (k + 1 / 2)) →
        ∃ seen : List ℝ, seen.Sublist cs ∧
          (∀ c ∈ cs, c ∈ seen ↔ q * ((r : ℝ) - 1 / 2) < c ∧ c < q * ((mat.width : ℝ) - r - 3 / 2)) ∧
          List.Forall₂ (fun c p => p.y = i + slope * p.x ∧ |p.x - c| < q / 2 + (if slope ≤ 0 then 1 else 2) ∧
            (slope = 0 → |p.x * (mat.width / ((mat.width : ℝ) - 1)) - c| < q / 2) ∧
            (slope = 0 → ∃ n : ℕ, |q * n - c| < q / 2 ∧ p.x = foundAt sub (fun t => b (min i ((mat.height : ℝ) - 1)) (q * t)) n) ∧
            (slope = 0 → sub = true → 3 / 2 * q < w → (∃ A B, ∀ d, 0 ≤ d → d ≤ 3 / 2 * q → φ c d = A - B * d ^ 2) →
              p.x = c * (((mat.width : ℝ) - 1) / mat.width))) seen g) starts groups := by
  have hh' : (4 : ℝ) ≤ mat.width := by exact_mod_cast hw
  have hco := Real.cos_arctan_pos slope
  have hco1 : Real.cos (Real.arctan slope) ≤ 1 := Real.cos_le_one _
  have hL : (1 : ℝ) ≤ (⌊(mat.width : ℝ) / Real.cos (Real.arctan slope)⌋ : ℝ) := by
    have : (1 : ℤ) ≤ ⌊(mat.width : ℝ) / Real.cos (Real.arctan slope)⌋ := Int.le_floor.2 (by
      rw [Int.cast_one, le_div_iff₀ hco]; linarith)
    exact_mod_cast this
  have hq0 : 0 < q := by
    rw [hq]; exact div_pos (mul_pos (by linarith) hco) (by linarith)
  have hqz : slope = 0 → q = mat.width / ((mat.width : ℝ) - 1) := by
    rintro rfl
    rw [hq, Real.arctan_zero, Real.cos_zero, div_one, mul_one, Int.floor_natCast, Int.cast_natCast]
  obtain ⟨img', lo, hi, off, starts, groups, h1, h2, h3, h4, h5, h6⟩ := C79_ver_lines E S fft filter2 store mat hf hg (by omega) slope dist
    ratio offset hs bright true false true sub radius sensitive none P h
  rw [crossImage_unique h1 himg] at h6
  obtain ⟨eh, ew⟩ : img.height = mat.height ∧ img.width = mat.width := by
    obtain ⟨base, a1, a2, n1, e1, e2⟩ := himg
    have hb1 : base.height = mat.height ∧ base.width = mat.width := by
      cases bright with
      | false => rw [a1 rfl]; exact ⟨rfl, rfl⟩
      | true => exact ⟨(a2 rfl).1, (a2 rfl).2.1⟩
    rw [if_pos rfl] at e1 e2
    rw [e2, (hg n1).1, (hg n1).2, e1, (hf base).1, (hf base).2]
    exact hb1
  refine ⟨hq0, ?_, hqz, lo, hi, off, starts, groups, h2, h3, h4, h5, h6.imp ?_⟩
  · rw [hq]
    apply div_le_div_of_nonneg_right _ (by linarith)
    rw [← le_div_iff₀ hco]; exact Int.floor_le _
  intro i g hig cs φ w top R hS hmax ht
  obtain ⟨xs, ys, prof, prof', rs, t, hp, hpe, _, he, hol, ht0, htz, hk⟩ := hig
  obtain rfl := hpe rfl
  obtain ⟨lp, hpr, hin⟩ := hor_profile (q := q) (by omega) (by omega) hb (by rw [ew]; exact hq) hp
  rw [ew] at lp
  rw [← eh] at R
  obtain ⟨seen, s1, s2, s3⟩ := line_seen hpf hsen (by omega) (by rw [lp]; exact hr) hq0 R (fun k hk' => (hpr k hk').1) (by
    intro x hx
    obtain ⟨y', x', f1, rfl⟩ := hin x hx
    exact hmax _ _ f1) hS ht he
  rw [lp] at s2 s3
  refine ⟨seen, s1, s2, ?_⟩
  have hk1 := hk 1 _ (by omega) (hpr 1 (by omega)).2
  have hk2 := hk (mat.width - 2) _ (by omega) (hpr _ (by omega)).2
  have ecast : ((mat.width - 2 : ℕ) : ℝ) = (mat.width : ℝ) - 2 := by rw [Nat.cast_sub (by omega)]; simp
  rw [ecast] at hk2
  have htq : t ≤ q := by simpa using hk1.1
  unfold AreOnLine at hol
  rw [List.forall₂_iff_get] at s3 hol ⊢
  refine ⟨s3.1.trans hol.1, fun k hk hk' => ?_⟩
  obtain ⟨u1, u2, u3, ⟨m, um, uv⟩, u4⟩ := s3.2 k hk (by rw [← s3.1]; exact hk)
  obtain ⟨o1, o2⟩ := hol.2 k (by rw [← s3.1]; exact hk) hk'
  generalize seen.get ⟨k, hk⟩ = c at *
  generalize rs.get ⟨k, _⟩ = v at *
  generalize g.get ⟨k, hk'⟩ = p at *
  have ez : slope = 0 → p.x * (mat.width / ((mat.width : ℝ) - 1)) = v * q := by
    intro h0; rw [o1, htz h0, hqz h0, mul_one]
  refine ⟨o2, ?_, ?_, ?_, ?_⟩
  · rw [o1]
    exact reported_bound htq (by have := hk2.2.1; linarith) u2 u3 u1
  · intro h0; rw [ez h0]; exact u1
  · intro h0
    refine ⟨m, um, ?_⟩
    rw [o1, htz h0, mul_one, uv]
    simp only [h0, zero_mul, add_zero, eh]
  · intro h0 hsub hww hpar
    have := u4 hsub hww hpar
    rw [← this, ← ez h0]
    have hne : (mat.width : ℝ) - 1 ≠ 0 := by intro h; linarith
    have hne' : (mat.width : ℝ) ≠ 0 := by intro h; linarith
    field_simp

end image

/-! ## The hypotheses can be met -/

theorem tents_samples (w : ℝ) (cs : List ℝ) (n : ℕ) (k : ℕ) (hk : k + 1 < ((List.range n).map fun i : ℕ => tents w cs i).length) :
    ((List.range n).map fun i : ℕ => tents w cs i)[k]? = some (tents w cs k) := by
  rw [List.length_map, List.length_range] at hk
  rw [List.getElem?_map, List.getElem?_range (by omega), Option.map_some]

theorem tents_top {w : ℝ} (hw : 0 ≤ w) {cs : List ℝ} (ha : PlacesApart cs (2 * w)) (n : ℕ) :
    ∀ x ∈ (List.range n).map fun i : ℕ => tents w cs i, x ≤ w := by
  intro x hx
  obtain ⟨i, _, rfl⟩ := List.mem_map.1 hx
  exact tent_le hw ha _

/-- 40 samples across two triangular lines at 10 and 22. -/
example (E : Ext) (hpf : PolyfitSpec E.pf) (sub : Bool) : ∃ u v, getLocalExtremaPoints E ((List.range 40).map fun i : ℕ => tents 2 [10, 22] i)
    "max" 7 (1 / 10) false false sub none = .ok [u, v] ∧ |u - 10| < 1 / 2 ∧ |v - 22| < 1 / 2 := by
  have ha : PlacesApart [(10 : ℝ), 22] (2 * 2) := by simp [PlacesApart]; norm_num
  obtain ⟨seen, vs, h1, h2, h3, h4⟩ := C110_one_each E hpf _ 7 (1 / 10) (by norm_num) (by simp) 7 (by simp) [10, 22] _ 2 2 _
    (tents_ridges ha) (tents_samples 2 [10, 22] 40) (tents_top (by norm_num) ha 40)
    ⟨by norm_num, by norm_num, by simp [PlacesApart]; norm_num, by simp; norm_num⟩ (by
      intro c hc k hk
      have : 2 * c = 2 * k + 1 := by linarith
      simp only [List.mem_cons, List.not_mem_nil, or_false] at hc
      rcases hc with rfl | rfl
      · have : (20 : ℤ) = 2 * k + 1 := by exact_mod_cast (by linarith : (20 : ℝ) = 2 * k + 1)
        omega
      · have : (44 : ℤ) = 2 * k + 1 := by exact_mod_cast (by linarith : (44 : ℝ) = 2 * k + 1)
        omega) sub
  have m1 := (h3 10 (by simp)).2 ⟨by norm_num, by simp; norm_num⟩
  have m2 := (h3 22 (by simp)).2 ⟨by norm_num, by simp; norm_num⟩
  have e : seen = [10, 22] := by
    refine h2.eq_of_length_le ?_
    have : [(10 : ℝ), 22].Subperm seen := List.subperm_of_subset (by simp) (by
      intro x hx
      simp only [List.mem_cons, List.not_mem_nil, or_false] at hx
      rcases hx with rfl | rfl
      · exact m1
      · exact m2)
    exact this.length_le
  rw [e] at h4
  cases h4 with
  | cons p q => cases q with
    | cons p' q' => cases q'; exact ⟨_, _, h1, p.1, p'.1⟩

/-- A line halfway between the samples 10 and 11: found twice. -/
example : ∃ vs, getLocalExtremaPoints ⟨refPolyfit, fun _ => [], fun l _ => l, fun _ => ⟨[], 0, 0, false⟩⟩
    ((List.range 40).map fun i : ℕ => tents 2 [10 + 1 / 2] i) "max" 7 (1 / 10) false false true none = .ok vs ∧
    [(10 : ℝ) + 1 / 2, 10 + 1 / 2].Sublist vs := by
  have ha : PlacesApart [(10 : ℝ) + 1 / 2] (2 * 2) := by simp [PlacesApart]
  have := (C110_twice ⟨refPolyfit, fun _ => [], fun l _ => l, fun _ => ⟨[], 0, 0, false⟩⟩ refPolyfit_spec _ 7 (1 / 10) (by norm_num)
    (by simp) 7 (by simp) [10 + 1 / 2] _ 2 2 _ (tents_ridges ha) (tents_samples 2 [10 + 1 / 2] 40) (tents_top (by norm_num) ha 40)
    ⟨by norm_num, by norm_num, by simp [PlacesApart], by simp; norm_num⟩ 10 (by simp) (by norm_num) (by simp)).2
  simpa using this

/-- An image of 40 by 40 pixels with triangular horizontal lines at the rows 10, 22 and 34, searched with linear interpolation: the
line at row 34 is too near to the edge, the others are found on the first generated line, at column 5. -/
example (E : Ext) (hpf : PolyfitSpec E.pf) (B : Boundary) (store : ℝ → ℝ) : ∃ P,
    getCrossPointsHorLines E (linearInterp B) id id store ⟨40, 40, fun i _ => tents 2 [10, 22, 34] i⟩ 0 12 0.3 5 false true false true
      true 7 0.1 none = .ok P ∧
    ∃ p p' : Pt, p ∈ P ∧ p' ∈ P ∧ p.x = 5 ∧ p'.x = 5 ∧ |p.y * (40 / 39) - 10| < 20 / 39 ∧ |p'.y * (40 / 39) - 22| < 20 / 39 := by
  have hlist : ([10, 22, 34] : List ℕ).map (fun c : ℕ => (c : ℝ)) = [10, 22, 34] := by simp
  have hshow := tents_cols B 2 [10, 22, 34] 40 40
  rw [hlist] at hshow
  push_cast at hshow
  have ha : PlacesApart [(10 : ℝ), 22, 34] (2 * 2) := by simp [PlacesApart]; norm_num
  obtain ⟨P, hP⟩ := (C79_success E (linearInterp B) id id store ⟨40, 40, fun i _ => tents 2 [10, 22, 34] i⟩ (fun _ => ⟨rfl, rfl⟩)
    (fun _ => ⟨rfl, rfl⟩) (by norm_num) (by norm_num) 0 12 0.3 5 (by norm_num) false true (fun _ => hpf) 7 0.1).1 (by norm_num)
    (fun h => absurd h (lt_irrefl _)) (fun _ => by simp)
  obtain ⟨_, _, hq, lo, hi, off, starts, groups, h1, h2, h3, h4, h5⟩ := C110_hor_lines E hpf (linearInterp B) id id store
    ⟨40, 40, fun i _ => tents 2 [10, 22, 34] i⟩ ⟨40, 40, fun i _ => tents 2 [10, 22, 34] i⟩ (fun _ => ⟨rfl, rfl⟩)
    (fun _ => ⟨rfl, rfl⟩) (by norm_num) (by norm_num) 0 12 0.3 5 (by norm_num) false true 7 0.1 (by norm_num)
    ⟨_, fun _ => rfl, fun h => absurd h (by simp), _, rfl, rfl⟩ _ hshow 7 (by simp) _ rfl P hP
  have hq := hq rfl
  simp only at hq
  rw [hq] at h5
  obtain ⟨rfl, rfl⟩ := h1.2 le_rfl
  have hoff : off = 5 := by rw [h2, Int.floor_eq_iff]; norm_num
  subst hoff
  have hm : (5 : ℝ) ∈ starts := (h3.2 5).2 ⟨0, by simp, by norm_num⟩
  obtain ⟨k, hk, e5⟩ := List.getElem_of_mem hm
  rw [List.forall₂_iff_get] at h5
  have hk' : k < groups.length := by rw [← h5.1]; exact hk
  have key := h5.2 k hk hk'
  rw [List.get_eq_getElem, e5] at key
  obtain ⟨seen, s1, s2, s3⟩ := key [10, 22, 34] _ 2 2 (tents_ridges ha) ⟨by norm_num, by norm_num, by simp [PlacesApart]; norm_num, by
    simp; norm_num⟩ (fun y x _ => tent_le (by norm_num) ha y) (by
      intro c hc k hk
      have h' : 78 * c = 80 * (k : ℝ) + 40 := by rw [hk]; push_cast; ring
      simp only [List.mem_cons, List.not_mem_nil, or_false] at hc
      rcases hc with rfl | rfl | rfl
      · have : (780 : ℤ) = 80 * k + 40 := by exact_mod_cast (by linarith : (780 : ℝ) = 80 * k + 40)
        omega
      · have : (1716 : ℤ) = 80 * k + 40 := by exact_mod_cast (by linarith : (1716 : ℝ) = 80 * k + 40)
        omega
      · have : (2652 : ℤ) = 80 * k + 40 := by exact_mod_cast (by linarith : (2652 : ℝ) = 80 * k + 40)
        omega)
  have pick : ∀ c ∈ seen, ∃ p ∈ P, p.x = 5 ∧ |p.y * (40 / 39) - c| < 20 / 39 := by
    intro c hc
    obtain ⟨j, hj, rfl⟩ := List.getElem_of_mem hc
    rw [List.forall₂_iff_get] at s3
    have hj' : j < (groups.get ⟨k, hk'⟩).length := by rw [← s3.1]; exact hj
    obtain ⟨o1, _, o3, _, _⟩ := s3.2 j hj hj'
    refine ⟨(groups.get ⟨k, hk'⟩).get ⟨j, hj'⟩, ?_, ?_, ?_⟩
    · rw [h4]
      exact List.mem_flatten.2 ⟨_, List.get_mem groups ⟨k, hk'⟩, List.get_mem _ _⟩
    · rw [o1]; ring
    · have := o3 rfl
      have e1 : ((40 : ℕ) : ℝ) / (((40 : ℕ) : ℝ) - 1) = 40 / 39 := by norm_num
      simp only [e1] at this
      rw [show (40 : ℝ) / 39 / 2 = 20 / 39 by norm_num] at this
      exact this
  obtain ⟨p, m1, x1, y1⟩ := pick 10 ((s2 10 (by simp)).2 ⟨by norm_num, by norm_num⟩)
  obtain ⟨p', m2, x2, y2⟩ := pick 22 ((s2 22 (by simp)).2 ⟨by norm_num, by norm_num⟩)
  exact ⟨P, hP, p, p', m1, m2, x1, x2, y1, y2⟩

end Discorpy
