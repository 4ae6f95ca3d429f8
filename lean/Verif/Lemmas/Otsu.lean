import Verif.Model.Otsu
import Verif.Spec.Otsu
import Verif.Lemmas.Array
import Verif.Lemmas.Tilted
import Verif.Lemmas.ImageIO

/-! # Lemmas about Otsu's threshold -/

namespace Discorpy

open Spec

theorem cumsum_map (n : ℕ) (f : ℕ → ℝ) :
    npCumsum ((List.range n).map f) = (List.range n).map fun k => ∑ i ∈ Finset.range (k + 1), f i := by
  unfold npCumsum
  rw [List.length_map, List.length_range]
  refine List.map_congr_left fun k hk => ?_
  rw [List.mem_range] at hk
  rw [← List.map_take, List.take_range, min_eq_left (by omega), sum_map_range]

theorem cumsum_rev (n : ℕ) (f : ℕ → ℝ) :
    (npCumsum ((List.range n).map f).reverse).reverse = (List.range n).map fun k => ∑ i ∈ Finset.Ico k n, f i := by
  refine List.ext_getElem (by simp [npCumsum]) fun k h1 h2 => ?_
  have hk : k < n := by simpa using h2
  rw [List.getElem_reverse]
  simp only [npCumsum, List.getElem_map, List.getElem_range, List.length_map, List.length_range, List.length_reverse]
  rw [List.take_reverse, List.sum_reverse, ← List.map_drop]
  simp only [List.length_map, List.length_range]
  rw [show n - (n - 1 - k + 1) = k by omega, Finset.sum_Ico_eq_sum_range, ← sum_map_range]
  congr 1
  refine List.ext_getElem (by simp) fun i h1 h2 => ?_
  simp

theorem mapM_finDiv (l : List (ℝ × ℝ)) (h : ∀ p ∈ l, p.2 ≠ 0) :
    (l.mapM fun p => finDiv p.1 p.2) = .ok (l.map fun p => p.1 / p.2) := by
  rw [mapM_ok_iff, List.forall₂_map_right_iff, List.forall₂_same]
  intro p hp
  unfold finDiv
  rw [if_neg (h p hp)]

/-- The variance between the classes of the first `k + 1` bins and of the others. -/
noncomputable def binSpread (n : ℕ) (c x : ℕ → ℝ) (k : ℕ) : ℝ :=
  (∑ i ∈ Finset.range (k + 1), c i) * (∑ i ∈ Finset.Ico (k + 1) n, c i) *
    ((∑ i ∈ Finset.range (k + 1), c i * x i) / (∑ i ∈ Finset.range (k + 1), c i) -
      (∑ i ∈ Finset.Ico (k + 1) n, c i * x i) / (∑ i ∈ Finset.Ico (k + 1) n, c i)) ^ 2

theorem dropLast_map_range (n : ℕ) (f : ℕ → ℝ) : ((List.range n).map f).dropLast = (List.range (n - 1)).map f := by
  refine List.ext_getElem (by simp) fun i h1 h2 => ?_
  simp [List.getElem_dropLast]

theorem tail_map_range (n : ℕ) (f : ℕ → ℝ) : ((List.range n).map f).tail = (List.range (n - 1)).map fun k => f (k + 1) := by
  refine List.ext_getElem (by simp) fun i h1 h2 => ?_
  simp [List.getElem_tail]

theorem otsuOfHistogram_fun {n : ℕ} {c x : ℕ → ℝ} (hc : ∀ k, 0 ≤ c k) (h0 : 0 < c 0) (hl : 0 < c (n - 1)) (hn : 2 ≤ n) :
    ∃ idx, idx < n - 1 ∧ otsuOfHistogram ((List.range n).map c) ((List.range n).map x) = .ok (x idx) ∧
      (∀ k < n - 1, binSpread n c x k ≤ binSpread n c x idx) ∧ ∀ j < idx, binSpread n c x j < binSpread n c x idx := by
  have hW1 : ∀ k, 0 < ∑ i ∈ Finset.range (k + 1), c i := fun k =>
    Finset.sum_pos' (fun i _ => hc i) ⟨0, by simp, h0⟩
  have hW2 : ∀ k < n, 0 < ∑ i ∈ Finset.Ico k n, c i := fun k hk =>
    Finset.sum_pos' (fun i _ => hc i) ⟨n - 1, by simp; omega, hl⟩
  have hprod : List.zipWith (fun a b => a * b) ((List.range n).map c) ((List.range n).map x) = (List.range n).map fun k => c k * x k := by
    rw [List.zipWith_map, List.zipWith_self]
  have hw2r : (npCumsum ((List.range n).map c).reverse).reverse.reverse = ((List.range n).map fun k => ∑ i ∈ Finset.Ico k n, c i).reverse := by
    rw [cumsum_rev]
  have hs2 : npCumsum ((List.range n).map fun k => c k * x k).reverse =
      ((List.range n).map fun k => ∑ i ∈ Finset.Ico k n, c i * x i).reverse := by
    rw [← cumsum_rev, List.reverse_reverse]
  unfold otsuOfHistogram
  simp only [hprod]
  rw [mapM_finDiv, ok_bind, mapM_finDiv, ok_bind]
  · have hvar : List.zipWith (fun w m : ℝ × ℝ => w.1 * w.2 * (m.1 - m.2) ^ 2)
        (List.zip (npCumsum ((List.range n).map c)).dropLast (npCumsum ((List.range n).map c).reverse).reverse.tail)
        (List.zip ((List.zip (npCumsum ((List.range n).map fun k => c k * x k)) (npCumsum ((List.range n).map c))).map
            fun p => p.1 / p.2).dropLast
          ((List.zip (npCumsum ((List.range n).map fun k => c k * x k).reverse)
            (npCumsum ((List.range n).map c).reverse).reverse.reverse).map fun p => p.1 / p.2).reverse.tail) =
        (List.range (n - 1)).map (binSpread n c x) := by
      rw [hw2r, hs2, cumsum_rev, cumsum_map, cumsum_map]
      have e1 : List.zip ((List.range n).map fun k => ∑ i ∈ Finset.Ico k n, c i * x i).reverse
          ((List.range n).map fun k => ∑ i ∈ Finset.Ico k n, c i).reverse =
          ((List.range n).map fun k => (∑ i ∈ Finset.Ico k n, c i * x i, ∑ i ∈ Finset.Ico k n, c i)).reverse := by
        rw [← List.map_reverse, ← List.map_reverse, List.zip_map', List.map_reverse]
      rw [e1, List.zip_map', List.map_map, ← List.map_reverse, List.reverse_reverse, List.map_map]
      simp only [Function.comp_def]
      rw [dropLast_map_range, dropLast_map_range, tail_map_range, tail_map_range, List.zip_map', List.zip_map', List.zipWith_map,
        List.zipWith_self]
      rfl
    rw [hvar]
    have hne : (List.range (n - 1)).map (binSpread n c x) ≠ [] := by
      simp only [ne_eq, List.map_eq_nil_iff, List.range_eq_nil]
      omega
    obtain ⟨idx, e, hk, hmax, hfirst⟩ := npArgmax_ok hne
    have hk' : idx < n - 1 := by simpa using hk
    have hmax' : ∀ k < n - 1, binSpread n c x k ≤ binSpread n c x idx := by
      intro k hk
      have := hmax _ (List.mem_map.2 ⟨k, List.mem_range.2 hk, rfl⟩)
      simpa using this
    refine ⟨idx, hk', ?_, hmax', fun j hj => ?_⟩
    · rw [e, ok_bind]
      unfold npGet
      rw [List.getElem?_map, List.getElem?_range (by omega)]
      rfl
    · obtain ⟨y, hy, hlt⟩ := hfirst j hj
      obtain ⟨k, hk2, rfl⟩ := List.mem_map.1 hy
      rw [List.getElem_map, List.getElem_range] at hlt
      exact hlt.trans_le (hmax' k (List.mem_range.1 hk2))
  · intro p hp
    rw [hw2r, hs2, ← List.map_reverse, ← List.map_reverse, List.zip_map'] at hp
    obtain ⟨k, hk, rfl⟩ := List.mem_map.1 hp
    rw [List.mem_reverse, List.mem_range] at hk
    exact (hW2 k hk).ne'
  · intro p hp
    rw [cumsum_map, cumsum_map, List.zip_map'] at hp
    obtain ⟨k, -, rfl⟩ := List.mem_map.1 hp
    exact (hW1 k).ne'

theorem sum_countP (xs : List ℝ) (bin : ℝ → ℕ) (S : Finset ℕ) :
    ∑ i ∈ S, ((xs.countP fun z => bin z = i : ℕ) : ℝ) = ((xs.filter fun z => bin z ∈ S).length : ℝ) := by
  induction xs with
  | nil => simp
  | cons z r ih =>
    simp only [List.countP_cons, Nat.cast_add, Finset.sum_add_distrib, ih, List.filter_cons]
    by_cases h : bin z ∈ S
    · simp [h]
    · simp only [h, decide_false, Bool.false_eq_true, if_false]
      rw [Finset.sum_eq_zero, add_zero]
      intro i hi
      have : bin z ≠ i := fun e => h (e ▸ hi)
      simp [this]

theorem sum_countP_mul (xs : List ℝ) (bin : ℝ → ℕ) (x : ℕ → ℝ) (S : Finset ℕ) :
    ∑ i ∈ S, ((xs.countP fun z => bin z = i : ℕ) : ℝ) * x i = ((xs.filter fun z => bin z ∈ S).map fun z => x (bin z)).sum := by
  induction xs with
  | nil => simp
  | cons z r ih =>
    simp only [List.countP_cons, Nat.cast_add, add_mul, Finset.sum_add_distrib, ih, List.filter_cons]
    by_cases h : bin z ∈ S
    · simp only [h, decide_true, if_true, List.map_cons, List.sum_cons]
      rw [add_comm]
      congr 1
      rw [Finset.sum_eq_single (bin z)]
      · simp
      · intro i _ hi
        simp [Ne.symm hi]
      · exact fun hn => absurd h hn
    · simp only [h, decide_false, Bool.false_eq_true, if_false]
      rw [Finset.sum_eq_zero, add_zero]
      intro i hi
      have : bin z ≠ i := fun e => h (e ▸ hi)
      simp [this]

/-- The spread of binned values for a threshold between two bins. -/
theorem classSpread_bins {xs : List ℝ} {bin : ℝ → ℕ} {x : ℕ → ℝ} (hx : StrictMono x) {n k : ℕ} (hb : ∀ z ∈ xs, bin z < n) {s : ℝ}
    (h1 : x k ≤ s) (h2 : s < x (k + 1)) :
    classSpread (xs.map fun z => x (bin z)) s = binSpread n (fun i => ((xs.countP fun z => bin z = i : ℕ) : ℝ)) x k := by
  have ha : (xs.map fun z => x (bin z)).filter (fun y => y ≤ s) =
      (xs.filter fun z => bin z ∈ Finset.range (k + 1)).map fun z => x (bin z) := by
    rw [List.filter_map]
    congr 1
    refine List.filter_congr fun z _ => ?_
    simp only [Function.comp, Finset.mem_range, decide_eq_decide]
    constructor
    · intro h
      by_contra hn
      exact absurd (h2.trans_le (hx.monotone (by omega : k + 1 ≤ bin z))) (not_lt.2 h)
    · exact fun h => (hx.monotone (by omega : bin z ≤ k)).trans h1
  have hb' : (xs.map fun z => x (bin z)).filter (fun y => s < y) =
      (xs.filter fun z => bin z ∈ Finset.Ico (k + 1) n).map fun z => x (bin z) := by
    rw [List.filter_map]
    congr 1
    refine List.filter_congr fun z hz => ?_
    simp only [Function.comp, Finset.mem_Ico, decide_eq_decide]
    constructor
    · intro h
      refine ⟨?_, hb z hz⟩
      by_contra hn
      exact absurd ((hx.monotone (by omega : bin z ≤ k)).trans h1) (not_le.2 h)
    · exact fun h => h2.trans_le (hx.monotone h.1)
  unfold classSpread binSpread
  simp only [ha, hb', sum_countP, sum_countP_mul, List.length_map]

theorem classSpread_nonneg (ys : List ℝ) (t : ℝ) : 0 ≤ classSpread ys t := by
  unfold classSpread
  positivity

theorem classSpread_low {ys : List ℝ} {s : ℝ} (h : ∀ y ∈ ys, s < y) : classSpread ys s = 0 := by
  have : ys.filter (fun y => y ≤ s) = [] := by
    rw [List.filter_eq_nil_iff]
    intro y hy
    simpa using h y hy
  unfold classSpread
  simp [this]

theorem classSpread_high {ys : List ℝ} {s : ℝ} (h : ∀ y ∈ ys, y ≤ s) : classSpread ys s = 0 := by
  have : ys.filter (fun y => s < y) = [] := by
    rw [List.filter_eq_nil_iff]
    intro y hy
    simpa using h y hy
  unfold classSpread
  simp [this]

theorem exists_step {x : ℕ → ℝ} {n : ℕ} {s : ℝ} (h0 : x 0 ≤ s) (hn : s < x n) : ∃ k < n, x k ≤ s ∧ s < x (k + 1) := by
  induction n with
  | zero => exact absurd h0 (not_le.2 hn)
  | succ n ih =>
    by_cases h : s < x n
    · obtain ⟨k, hk, h1⟩ := ih h
      exact ⟨k, by omega, h1⟩
    · exact ⟨n, by omega, not_lt.1 h, hn⟩

theorem binSpread_empty {n k : ℕ} {c x : ℕ → ℝ} (hk : k + 1 < n) (hc : c (k + 1) = 0) : binSpread n c x (k + 1) = binSpread n c x k := by
  unfold binSpread
  rw [Finset.sum_range_succ c (k + 1), Finset.sum_range_succ (fun i => c i * x i) (k + 1), Finset.sum_eq_sum_Ico_succ_bot hk c,
    Finset.sum_eq_sum_Ico_succ_bot hk (fun i => c i * x i), hc]
  simp

/-- Otsu's threshold for values sorted into bins. -/
theorem otsu_bins {xs : List ℝ} {bin : ℝ → ℕ} {x : ℕ → ℝ} (hx : StrictMono x) {n : ℕ} (hn : 2 ≤ n) (hb : ∀ z ∈ xs, bin z < n)
    (h0 : ∃ z ∈ xs, bin z = 0) (hl : ∃ z ∈ xs, bin z = n - 1) :
    ∃ idx, idx < n - 1 ∧ otsuOfHistogram ((List.range n).map fun i => ((xs.countP fun z => bin z = i : ℕ) : ℝ)) ((List.range n).map x) =
      .ok (x idx) ∧ OtsuThreshold (xs.map fun z => x (bin z)) (x idx) := by
  have hpos : ∀ i, (∃ z ∈ xs, bin z = i) → (0 : ℝ) < ((xs.countP fun z => bin z = i : ℕ) : ℝ) := by
    rintro i ⟨z, hz, hi⟩
    rw [Nat.cast_pos, List.countP_pos_iff]
    exact ⟨z, hz, by simpa using hi⟩
  obtain ⟨idx, hidx, e, hmax, hfirst⟩ := otsuOfHistogram_fun (x := x) (c := fun i => ((xs.countP fun z => bin z = i : ℕ) : ℝ))
    (fun k => Nat.cast_nonneg _) (hpos 0 h0) (hpos _ hl) hn
  have hat : ∀ k, classSpread (xs.map fun z => x (bin z)) (x k) = binSpread n (fun i => ((xs.countP fun z => bin z = i : ℕ) : ℝ)) x k :=
    fun k => classSpread_bins hx hb le_rfl (hx (by omega))
  have hp0 : 0 < binSpread n (fun i => ((xs.countP fun z => bin z = i : ℕ) : ℝ)) x 0 := by
    have hc0 := hpos 0 h0
    have hW2 : 0 < ∑ i ∈ Finset.Ico 1 n, ((xs.countP fun z => bin z = i : ℕ) : ℝ) :=
      Finset.sum_pos' (fun i _ => Nat.cast_nonneg _) ⟨n - 1, by simp; omega, hpos _ hl⟩
    have hS : x 1 * ∑ i ∈ Finset.Ico 1 n, ((xs.countP fun z => bin z = i : ℕ) : ℝ) ≤
        ∑ i ∈ Finset.Ico 1 n, ((xs.countP fun z => bin z = i : ℕ) : ℝ) * x i := by
      rw [Finset.mul_sum]
      refine Finset.sum_le_sum fun i hi => ?_
      rw [mul_comm]
      exact mul_le_mul_of_nonneg_left (hx.monotone (Finset.mem_Ico.1 hi).1) (Nat.cast_nonneg _)
    unfold binSpread
    simp only [zero_add, Finset.sum_range_one]
    have hm : x 1 ≤ (∑ i ∈ Finset.Ico 1 n, ((xs.countP fun z => bin z = i : ℕ) : ℝ) * x i) /
        ∑ i ∈ Finset.Ico 1 n, ((xs.countP fun z => bin z = i : ℕ) : ℝ) := by
      rw [le_div_iff₀ hW2]; exact hS
    rw [mul_div_cancel_left₀ _ hc0.ne']
    have h01 : x 0 < x 1 := hx (by omega)
    have hne : x 0 - (∑ i ∈ Finset.Ico 1 n, ((xs.countP fun z => bin z = i : ℕ) : ℝ) * x i) /
        ∑ i ∈ Finset.Ico 1 n, ((xs.countP fun z => bin z = i : ℕ) : ℝ) ≠ 0 := by
      have : x 0 - (∑ i ∈ Finset.Ico 1 n, ((xs.countP fun z => bin z = i : ℕ) : ℝ) * x i) /
        ∑ i ∈ Finset.Ico 1 n, ((xs.countP fun z => bin z = i : ℕ) : ℝ) < 0 := by linarith
      exact this.ne
    positivity
  have hptop : 0 < classSpread (xs.map fun z => x (bin z)) (x idx) := by
    rw [hat]; exact hp0.trans_le (hmax 0 (by omega))
  refine ⟨idx, hidx, e, ?_, fun s => ?_, fun s hs => ?_⟩
  · by_contra hmem
    have hc : ((xs.countP fun z => bin z = idx : ℕ) : ℝ) = 0 := by
      rw [Nat.cast_eq_zero, List.countP_eq_zero]
      intro z hz hzi
      exact hmem (List.mem_map.2 ⟨z, hz, by rw [of_decide_eq_true hzi]⟩)
    have hi0 : idx ≠ 0 := by
      rintro rfl
      exact (hpos 0 h0).ne' hc
    have hlt := hfirst (idx - 1) (by omega)
    refine absurd hlt (not_lt.2 (le_of_eq ?_))
    have hs := binSpread_empty (n := n) (c := fun i => ((xs.countP fun z => bin z = i : ℕ) : ℝ)) (x := x) (k := idx - 1) (by omega)
      (by rw [show idx - 1 + 1 = idx by omega]; exact hc)
    rw [show idx - 1 + 1 = idx by omega] at hs
    exact hs
  · by_cases h1 : s < x 0
    · rw [classSpread_low]
      · exact classSpread_nonneg _ _
      · intro y hy
        obtain ⟨z, -, rfl⟩ := List.mem_map.1 hy
        exact h1.trans_le (hx.monotone (Nat.zero_le _))
    · by_cases h2 : x (n - 1) ≤ s
      · rw [classSpread_high]
        · exact classSpread_nonneg _ _
        · intro y hy
          obtain ⟨z, hz, rfl⟩ := List.mem_map.1 hy
          exact (hx.monotone (by have := hb z hz; omega)).trans h2
      · obtain ⟨k, hk, h3, h4⟩ := exists_step (not_lt.1 h1) (not_le.1 h2)
        rw [classSpread_bins hx hb h3 h4, hat]
        exact hmax k hk
  · by_cases h1 : s < x 0
    · rw [classSpread_low]
      · exact hptop
      · intro y hy
        obtain ⟨z, -, rfl⟩ := List.mem_map.1 hy
        exact h1.trans_le (hx.monotone (Nat.zero_le _))
    · obtain ⟨k, hk, h3, h4⟩ := exists_step (not_lt.1 h1) hs
      rw [classSpread_bins hx hb h3 h4, hat]
      exact hfirst k hk

/-- The centre of a bin. -/
noncomputable def binCentre (lo hi : ℝ) (n k : ℕ) : ℝ := (binEdge lo hi n k + binEdge lo hi n (k + 1)) / 2

theorem binCentre_eq (lo hi : ℝ) {n : ℕ} (k : ℕ) : binCentre lo hi n k = lo + (k + 1 / 2) * ((hi - lo) / n) := by
  unfold binCentre binEdge
  push_cast
  ring

theorem binCentre_strictMono {lo hi : ℝ} (h : lo < hi) {n : ℕ} (hn : 0 < n) : StrictMono (binCentre lo hi n) := by
  have hn' : (0 : ℝ) < n := Nat.cast_pos.2 hn
  have hw : 0 < (hi - lo) / n := div_pos (sub_pos.2 h) hn'
  intro a b hab
  rw [binCentre_eq, binCentre_eq]
  have : (a : ℝ) < b := by exact_mod_cast hab
  nlinarith

theorem binIndex_lt {lo hi : ℝ} {n : ℕ} (hn : 0 < n) (x : ℝ) : binIndex lo hi n x < n := by
  unfold binIndex
  omega

theorem binIndex_low {lo hi : ℝ} {n : ℕ} : binIndex lo hi n lo = 0 := by
  unfold binIndex
  simp

theorem binIndex_high {lo hi : ℝ} (h : lo < hi) {n : ℕ} : binIndex lo hi n hi = n - 1 := by
  unfold binIndex
  rw [div_self (sub_ne_zero.2 h.ne'), one_mul, Nat.floor_natCast]
  omega

theorem binned_index {lo hi : ℝ} (h : lo < hi) {n : ℕ} (hn : 0 < n) {x : ℝ} (h1 : lo ≤ x) (h2 : x ≤ hi) :
    Binned lo hi n x (binCentre lo hi n (binIndex lo hi n x)) := by
  have hn' : (0 : ℝ) < n := Nat.cast_pos.2 hn
  have hd : 0 < hi - lo := sub_pos.2 h
  have hw : 0 < (hi - lo) / n := div_pos hd hn'
  refine ⟨binIndex lo hi n x, binIndex_lt hn x, binCentre_eq _ _ _, ?_⟩
  have hx : lo + (x - lo) / (hi - lo) * n * ((hi - lo) / n) = x := by
    field_simp
    ring
  set q := (x - lo) / (hi - lo) * n with hq
  have hq0 : 0 ≤ q := by
    have : 0 ≤ x - lo := sub_nonneg.2 h1
    positivity
  rcases h2.lt_or_eq with h2 | h2
  · have hqn : q < n := by
      have : (x - lo) / (hi - lo) < 1 := by rw [div_lt_one hd]; linarith
      nlinarith
    have hfl : ⌊q⌋₊ < n := (Nat.floor_lt hq0).2 hqn
    have hi' : binIndex lo hi n x = ⌊q⌋₊ := by
      unfold binIndex
      rw [← hq]
      omega
    rw [hi']
    have a1 := Nat.floor_le hq0
    have a2 := Nat.lt_floor_add_one q
    refine ⟨?_, Or.inl ?_⟩
    · rw [← hx]
      nlinarith
    · rw [← hx]
      nlinarith
  · subst h2
    rw [binIndex_high h]
    refine ⟨?_, Or.inr ⟨by omega, rfl⟩⟩
    have : ((n - 1 : ℕ) : ℝ) ≤ n := by exact_mod_cast Nat.sub_le _ _
    have e : lo + n * ((x - lo) / n) = x := by
      field_simp
      ring
    nlinarith

/-- Otsu's threshold for the histogram of floats. -/
theorem otsu_float {xs : List ℝ} {lo hi : ℝ} (hlo : lo ∈ xs) (hhi : hi ∈ xs) (h : lo < hi) {n : ℕ} (hn : 2 ≤ n) :
    ∃ idx, idx < n - 1 ∧ otsuOfHistogram (floatHistogram xs lo hi n).1 (floatHistogram xs lo hi n).2 = .ok (binCentre lo hi n idx) ∧
      OtsuThreshold (xs.map fun z => binCentre lo hi n (binIndex lo hi n z)) (binCentre lo hi n idx) :=
  otsu_bins (binCentre_strictMono h (by omega)) hn (fun z _ => binIndex_lt (by omega) z) ⟨lo, hlo, binIndex_low⟩ ⟨hi, hhi, binIndex_high h⟩

/-- Otsu's threshold for the histogram of integers. -/
theorem otsu_integer {xs : List ℝ} {lo hi : ℝ} (hlo : lo ∈ xs) (hhi : hi ∈ xs) (h : lo < hi) (hmin : ∀ x ∈ xs, lo ≤ x) (hmax : ∀ x ∈ xs, x ≤ hi)
    (hz : ∀ x ∈ xs, ∃ z : ℤ, x = z) :
    ∃ t, otsuOfHistogram (intHistogram xs lo hi).1 (intHistogram xs lo hi).2 = .ok t ∧ OtsuThreshold xs t ∧ lo ≤ t ∧ t < hi := by
  have hfl : ∀ x ∈ xs, lo + (⌊x - lo⌋₊ : ℝ) = x := by
    intro x hx
    obtain ⟨a, ea⟩ := hz x hx
    obtain ⟨b, eb⟩ := hz lo hlo
    have hab : b ≤ a := by
      have := hmin x hx
      rw [ea, eb] at this
      exact_mod_cast this
    obtain ⟨k, hk⟩ := Int.eq_ofNat_of_zero_le (sub_nonneg.2 hab)
    have e : x - lo = (k : ℝ) := by
      rw [ea, eb]
      exact_mod_cast hk
    rw [e, Nat.floor_natCast, ← e]
    ring
  have hn : 2 ≤ ⌊hi - lo⌋₊ + 1 := by
    have := hfl hi hhi
    by_contra hc
    have h0 : ⌊hi - lo⌋₊ = 0 := by omega
    rw [h0] at this
    simp at this
    linarith
  have hx : StrictMono fun k : ℕ => lo + (k : ℝ) := by
    intro a b hab
    have : (a : ℝ) < b := by exact_mod_cast hab
    simp only
    linarith
  obtain ⟨idx, hidx, e, ho⟩ := otsu_bins (xs := xs) (bin := fun z => ⌊z - lo⌋₊) hx hn
    (fun z hz' => by
      have := Nat.floor_le_floor (sub_le_sub_right (hmax z hz') lo)
      omega)
    ⟨lo, hlo, by simp⟩ ⟨hi, hhi, by simp⟩
  have em : (xs.map fun z => lo + (⌊z - lo⌋₊ : ℝ)) = xs := by
    conv_rhs => rw [← List.map_id xs]
    exact List.map_congr_left hfl
  rw [em] at ho
  refine ⟨lo + (idx : ℝ), by unfold intHistogram; exact e, ho, by simp, ?_⟩
  have h1 : lo + (idx : ℝ) < lo + (⌊hi - lo⌋₊ : ℝ) := hx (by omega)
  rwa [hfl hi hhi] at h1

theorem otsuThreshold_unique {ys : List ℝ} {t t' : ℝ} (h : OtsuThreshold ys t) (h' : OtsuThreshold ys t') : t = t' := by
  rcases lt_trichotomy t t' with hl | he | hl
  · exact absurd (h'.first t hl) (not_lt.2 (h.best t'))
  · exact he
  · exact absurd (h.first t' hl) (not_lt.2 (h'.best t))

theorem sum_map_affine (l : List ℝ) (a b : ℝ) : (l.map fun y => a * y + b).sum = a * l.sum + l.length * b := by
  induction l with
  | nil => simp
  | cons x r ih =>
    simp only [List.map_cons, List.sum_cons, ih, List.length_cons]
    push_cast
    ring

theorem classSpread_affine {ys : List ℝ} {a : ℝ} (ha : 0 < a) (b s : ℝ) :
    classSpread (ys.map fun y => a * y + b) (a * s + b) = a ^ 2 * classSpread ys s := by
  have e1 : (ys.map fun y => a * y + b).filter (fun y => y ≤ a * s + b) = (ys.filter fun y => y ≤ s).map fun y => a * y + b := by
    rw [List.filter_map]
    congr 1
    refine List.filter_congr fun z _ => ?_
    simp only [Function.comp, decide_eq_decide, add_le_add_iff_right]
    exact mul_le_mul_iff_right₀ ha
  have e2 : (ys.map fun y => a * y + b).filter (fun y => a * s + b < y) = (ys.filter fun y => s < y).map fun y => a * y + b := by
    rw [List.filter_map]
    congr 1
    refine List.filter_congr fun z _ => ?_
    simp only [Function.comp, decide_eq_decide, add_lt_add_iff_right]
    exact mul_lt_mul_iff_right₀ ha
  unfold classSpread
  simp only [e1, e2, sum_map_affine, List.length_map]
  rcases Nat.eq_zero_or_pos (ys.filter fun y => y ≤ s).length with h1 | h1
  · rw [h1]; simp
  rcases Nat.eq_zero_or_pos (ys.filter fun y => s < y).length with h2 | h2
  · rw [h2]; simp
  have h1' : (0 : ℝ) < ((ys.filter fun y => y ≤ s).length : ℝ) := Nat.cast_pos.2 h1
  have h2' : (0 : ℝ) < ((ys.filter fun y => s < y).length : ℝ) := Nat.cast_pos.2 h2
  field_simp
  ring

theorem otsuThreshold_affine {ys : List ℝ} {t a : ℝ} (h : OtsuThreshold ys t) (ha : 0 < a) (b : ℝ) :
    OtsuThreshold (ys.map fun y => a * y + b) (a * t + b) := by
  have hinv : ∀ s, s = a * ((s - b) / a) + b := by
    intro s
    field_simp
    ring
  refine ⟨List.mem_map.2 ⟨t, h.mem, rfl⟩, fun s => ?_, fun s hs => ?_⟩
  · rw [hinv s, classSpread_affine ha, classSpread_affine ha]
    exact mul_le_mul_of_nonneg_left (h.best _) (by positivity)
  · rw [hinv s, classSpread_affine ha, classSpread_affine ha]
    refine mul_lt_mul_of_pos_left (h.first _ ?_) (by positivity)
    rw [div_lt_iff₀ ha]
    linarith

end Discorpy
