import Verif.Lemmas.PolyRows
import Verif.Lemmas.BentGrid
import Verif.Lemmas.Fit

/-! # C102: the grouping based on a polynomial fit recovers curved lines -/

namespace Discorpy

open Spec

/-- **C102 (rows).** Dots on curved rows, each in the turned frame a polynomial of the fitted order. In the middle band the rows
are nearly straight and have enough dots; a dot keeps away from the curves of the other rows; neighbours are at most the search
distance apart; no row is much shorter than another one; the medians of the rows differ. Then the function returns exactly the
rows, each sorted by `x`, ordered by the mean of `y`. -/
theorem C102_hor {ι : Type} [DecidableEq ι] (pf : PolyfitFn) (hpf : PolyfitSpec pf) (argsort : List ℝ → List ℕ) (hs : ArgsortSpec argsort)
    (dots : List Pt) (hne : dots ≠ []) (slope dist ratio miss acc overlap : ℝ) (order : ℕ) (row : Pt → ι) (f : ι → List ℝ)
    (t u : Pt → ℝ) (ht : ∀ p, t p = (turn (-Real.arctan slope) p).x) (hu : ∀ p, u p = (turn (-Real.arctan slope) p).y)
    (hd : 0 < dist) (hratio : 0 ≤ ratio) (hacc : 0 ≤ acc) (hsmall : acc * dots.length < 32768)
    (m D lo hi : ℝ) (hm : m = max 1 (min miss dots.length)) (hD : D = (m + 1 / 2) * dist)
    (hlo : IsLeast {v | ∃ p ∈ dots, t p = v} lo) (hhi : IsGreatest {v | ∃ p ∈ dots, t p = v} hi)
    (hrows : CurvedRows t u row f order (ratio * dist) D dots)
    (hband : StraightRows t u row dist ratio m (midBand t ((lo + hi) / 2) D dots))
    (hmany : ∀ p ∈ dots, 3 ≤ (ofRow row (midBand t ((lo + hi) / 2) D dots) (row p)).length ∧
      order + 1 ≤ (ofRow row (midBand t ((lo + hi) / 2) D dots) (row p)).length)
    (hshare : ∀ p ∈ dots, ∀ q ∈ dots, acc * (ofRow row dots (row q)).length < (ofRow row dots (row p)).length ∧
      acc * (ofRow row (midBand t ((lo + hi) / 2) D dots) (row q)).length < (ofRow row (midBand t ((lo + hi) / 2) D dots) (row p)).length)
    (hmed : ∀ p ∈ dots, ∀ q ∈ dots, row p ≠ row q → ∀ v w,
      IsMedian Pt.y (ofRow row dots (row p)) v → IsMedian Pt.y (ofRow row dots (row q)) w → 0.1 * dist < |w - v|) :
    ∃ lines, groupPolyfitHor pf argsort dots slope dist ratio miss acc overlap order = .ok lines ∧
      (∀ l ∈ lines, ∃ p ∈ dots, l.Perm (ofRow row dots (row p)) ∧ l.Pairwise fun p q => p.x ≤ q.x) ∧
      (∀ p ∈ dots, ∃ l ∈ lines, l.Perm (ofRow row dots (row p))) ∧
      lines.Pairwise (fun a b => ∀ p ∈ a, p ∉ b) ∧
      lines.Pairwise fun a b => meanY a ≤ meanY b :=
  groupPolyfit_all hpf hs hne (funext ht) (funext hu)
    (fun _ _ h1 h2 h3 h4 h5 => coarse_hor hs h1 h2 h3 h4 h5)
    hd hratio hacc hsmall hm hD hlo hhi hrows hband hmany hshare hmed

/-- **C102 (columns).** The same for columns, with the roles of the two coordinates exchanged. -/
theorem C102_ver {ι : Type} [DecidableEq ι] (pf : PolyfitFn) (hpf : PolyfitSpec pf) (argsort : List ℝ → List ℕ) (hs : ArgsortSpec argsort)
    (dots : List Pt) (hne : dots ≠ []) (slope dist ratio miss acc overlap : ℝ) (order : ℕ) (row : Pt → ι) (f : ι → List ℝ)
    (t u : Pt → ℝ) (ht : ∀ p, t p = (turn (Real.arctan slope) p).y) (hu : ∀ p, u p = (turn (Real.arctan slope) p).x)
    (hd : 0 < dist) (hratio : 0 ≤ ratio) (hacc : 0 ≤ acc) (hsmall : acc * dots.length < 32768)
    (m D lo hi : ℝ) (hm : m = max 1 (min miss dots.length)) (hD : D = (m + 1 / 2) * dist)
    (hlo : IsLeast {v | ∃ p ∈ dots, t p = v} lo) (hhi : IsGreatest {v | ∃ p ∈ dots, t p = v} hi)
    (hrows : CurvedRows t u row f order (ratio * dist) D dots)
    (hband : StraightRows t u row dist ratio m (midBand t ((lo + hi) / 2) D dots))
    (hmany : ∀ p ∈ dots, 3 ≤ (ofRow row (midBand t ((lo + hi) / 2) D dots) (row p)).length ∧
      order + 1 ≤ (ofRow row (midBand t ((lo + hi) / 2) D dots) (row p)).length)
    (hshare : ∀ p ∈ dots, ∀ q ∈ dots, acc * (ofRow row dots (row q)).length < (ofRow row dots (row p)).length ∧
      acc * (ofRow row (midBand t ((lo + hi) / 2) D dots) (row q)).length < (ofRow row (midBand t ((lo + hi) / 2) D dots) (row p)).length)
    (hmed : ∀ p ∈ dots, ∀ q ∈ dots, row p ≠ row q → ∀ v w,
      IsMedian Pt.x (ofRow row dots (row p)) v → IsMedian Pt.x (ofRow row dots (row q)) w → 0.1 * dist < |w - v|) :
    ∃ lines, groupPolyfitVer pf argsort dots slope dist ratio miss acc overlap order = .ok lines ∧
      (∀ l ∈ lines, ∃ p ∈ dots, l.Perm (ofRow row dots (row p)) ∧ l.Pairwise fun p q => p.y ≤ q.y) ∧
      (∀ p ∈ dots, ∃ l ∈ lines, l.Perm (ofRow row dots (row p))) ∧
      lines.Pairwise (fun a b => ∀ p ∈ a, p ∉ b) ∧
      lines.Pairwise fun a b => meanOf Pt.x a ≤ meanOf Pt.x b :=
  groupPolyfit_all hpf hs hne (funext ht) (funext hu)
    (fun _ _ h1 h2 h3 h4 h5 => coarse_ver hs h1 h2 h3 h4 h5)
    hd hratio hacc hsmall hm hD hlo hhi hrows hband hmany hshare hmed

theorem filter_disjoint_length {α : Type} (g : α → ℝ) (l : List α) {v w : ℝ} (h : v < w) :
    (l.filter fun x => decide (g x ≤ v)).length + (l.filter fun x => decide (w ≤ g x)).length ≤ l.length := by
  induction l with
  | nil => simp
  | cons a l ih =>
    rw [List.filter_cons, List.filter_cons]
    by_cases c1 : g a ≤ v
    · have c2 : ¬ w ≤ g a := by push Not; linarith
      simp only [c1, c2, decide_true, decide_false, if_true, List.length_cons, Bool.false_eq_true, if_false]
      omega
    · by_cases c2 : w ≤ g a
      · simp only [c1, c2, decide_true, decide_false, if_true, List.length_cons, Bool.false_eq_true, if_false]
        omega
      · simp only [c1, c2, decide_false, List.length_cons, Bool.false_eq_true, if_false]
        omega

/-- Two medians of an odd number of values are equal. -/
theorem isMedian_unique {α : Type} {g : α → ℝ} {l : List α} {v w : ℝ} (hodd : l.length % 2 = 1) (hv : IsMedian g l v)
    (hw : IsMedian g l w) : v = w := by
  have key : ∀ v w, IsMedian g l v → IsMedian g l w → ¬ v < w := by
    intro v w hv hw h
    have h1 := hv.1
    have h2 := hw.2
    have h3 := filter_disjoint_length g l h
    omega
  exact le_antisymm (not_lt.1 (key w v hw hv)) (not_lt.1 (key v w hv hw))

/-- The dot in row `k` and column `i` of a table of parabolas with the curvature `κ` and the axis in column `N`. -/
noncomputable def parabolaDot (d κ : ℝ) (N k i : ℕ) : Pt := ⟨k * d + κ * ((i - N) * d) ^ 2, (i - N) * d⟩

theorem table_row {f : ℕ → ℕ → Pt} {row : Pt → ℝ} {K L : ℕ} (hrow : ∀ k i, row (f k i) = k) {k : ℕ} (hk : k < K) :
    ofRow row (tableRows f K L).flatten k = (List.range L).map (f k) := by
  unfold ofRow tableRows
  have hone : ∀ k', ((List.range L).map fun l => f k' l).filter (fun p => decide (row p = k)) =
      if k' = k then (List.range L).map (f k) else [] := by
    intro k'
    split_ifs with h
    · subst h
      rw [List.filter_eq_self]
      intro p hp
      obtain ⟨i, -, rfl⟩ := List.mem_map.1 hp
      simp [hrow]
    · rw [List.filter_eq_nil_iff]
      intro p hp
      obtain ⟨i, -, rfl⟩ := List.mem_map.1 hp
      simpa [hrow] using h
  rw [List.filter_flatten, List.map_map]
  simp only [Function.comp_def, hone]
  induction K with
  | zero => omega
  | succ K ih =>
    rw [List.range_succ, List.map_append, List.flatten_append, List.map_singleton, List.flatten_singleton]
    by_cases h : k = K
    · subst h
      rw [if_pos rfl]
      have : ((List.range k).map fun k' => if k' = k then (List.range L).map (f k) else []).flatten = [] := by
        rw [List.flatten_eq_nil_iff]
        intro l hl
        obtain ⟨k', hk', rfl⟩ := List.mem_map.1 hl
        rw [if_neg (by have := List.mem_range.1 hk'; omega)]
      rw [this, List.nil_append]
    · rw [ih (by omega), if_neg (fun e => h e.symm), List.append_nil]

/-- **C102 (parabolas).** The dots of `K` parallel parabolas, `2N + 1` dots each, in any order: if the parabolas are nearly straight
in the middle band, they are found completely, however strongly they bend outside. -/
theorem C102_parabolas (pf : PolyfitFn) (hpf : PolyfitSpec pf) (argsort : List ℝ → List ℕ) (hs : ArgsortSpec argsort)
    (d κ ratio miss acc overlap : ℝ) (K N : ℕ) (hK : 1 ≤ K) (hN : 1 ≤ N) (hd : 0 < d) (hr0 : 0 ≤ ratio) (hr1 : ratio < 1)
    (hmiss : 1 < miss) (hacc0 : 0 ≤ acc) (hacc1 : acc < 1) (hsmall : acc * (K * (2 * N + 1)) < 32768)
    (hb1 : |κ| * d * (2 * miss + 1) < ratio) (hb2 : |κ| * d * (2 * miss + 1) ≤ 1 - ratio)
    (dots : List Pt) (hp : dots.Perm (tableRows (parabolaDot d κ N) K (2 * N + 1)).flatten) :
    groupPolyfitHor pf argsort dots 0 d ratio miss acc overlap 2 = .ok (tableRows (parabolaDot d κ N) K (2 * N + 1)) := by
  classical
  obtain ⟨row, hrowdef⟩ : ∃ row : Pt → ℝ, row = fun p => (p.y - κ * p.x ^ 2) / d := ⟨_, rfl⟩
  have hrow : ∀ k i, row (parabolaDot d κ N k i) = k := by
    intro k i
    rw [hrowdef]
    simp only [parabolaDot]
    field_simp
    ring
  have hmem : ∀ p, p ∈ dots ↔ ∃ k < K, ∃ i < 2 * N + 1, p = parabolaDot d κ N k i := by
    intro p
    rw [hp.mem_iff]
    unfold tableRows
    simp only [List.mem_flatten, List.mem_map, List.mem_range]
    constructor
    · rintro ⟨_, ⟨k, hk, rfl⟩, hp⟩
      obtain ⟨i, hi, rfl⟩ := List.mem_map.1 hp
      exact ⟨k, hk, i, List.mem_range.1 hi, rfl⟩
    · rintro ⟨k, hk, i, hi, rfl⟩
      exact ⟨_, ⟨k, hk, rfl⟩, List.mem_map.2 ⟨i, List.mem_range.2 hi, rfl⟩⟩
  have hcell : ∀ k i, (parabolaDot d κ N k i).x = (i - N) * d := fun k i => rfl
  have hyc : ∀ k i, (parabolaDot d κ N k i).y = k * d + κ * ((i - N) * d) ^ 2 := fun k i => rfl
  have hxlt : ∀ k k' i i', (parabolaDot d κ N k i).x < (parabolaDot d κ N k' i').x ↔ i < i' := by
    intro k k' i i'
    rw [hcell, hcell, mul_lt_mul_iff_left₀ hd, sub_lt_sub_iff_right, Nat.cast_lt]
  have hofrow : ∀ k < K, (ofRow row dots k).Perm ((List.range (2 * N + 1)).map (parabolaDot d κ N k)) := by
    intro k hk
    rw [← table_row hrow hk]
    exact hp.filter _
  have hlen : dots.length = K * (2 * N + 1) := by
    rw [hp.length_eq]
    unfold tableRows
    rw [List.length_flatten, List.map_map]
    simp [Function.comp_def]
  have hlen1 : (3 : ℝ) ≤ dots.length := by
    have : 3 ≤ dots.length := by
      rw [hlen]
      calc 3 ≤ 1 * (2 * N + 1) := by omega
        _ ≤ _ := Nat.mul_le_mul_right _ hK
    exact_mod_cast this
  have hne : dots ≠ [] := by
    rintro rfl
    norm_num at hlen1
  obtain ⟨m, hm⟩ : ∃ m, m = max 1 (min miss dots.length) := ⟨_, rfl⟩
  have hm1 : 1 < m := by
    rw [hm]
    exact lt_max_of_lt_right (lt_min hmiss (by linarith))
  have hm2 : m ≤ miss := by
    rw [hm]
    exact max_le hmiss.le (min_le_left _ _)
  obtain ⟨D, hD⟩ : ∃ D, D = (m + 1 / 2) * d := ⟨_, rfl⟩
  have hid : ∀ p, turn (-Real.arctan 0) p = p := by
    intro p
    simp [turn]
  have hκ0 : 0 ≤ |κ| := abs_nonneg κ
  have hNpos : (0 : ℝ) ≤ N := Nat.cast_nonneg N
  -- the middle
  have hmid : (-((N : ℝ) * d) + N * d) / 2 = 0 := by ring
  have hbmem : ∀ p, p ∈ midBand Pt.x ((-((N : ℝ) * d) + N * d) / 2) D dots ↔
      ∃ k < K, ∃ i < 2 * N + 1, |(i : ℝ) - N| ≤ m + 1 / 2 ∧ p = parabolaDot d κ N k i := by
    intro p
    unfold midBand
    rw [List.mem_filter, decide_eq_true_eq, hmid, sub_zero, hmem]
    constructor
    · rintro ⟨⟨k, hk, i, hi, rfl⟩, h⟩
      refine ⟨k, hk, i, hi, ?_, rfl⟩
      rw [hcell, hD, abs_mul, abs_of_pos hd] at h
      exact le_of_mul_le_mul_right h hd
    · rintro ⟨k, hk, i, hi, h, rfl⟩
      refine ⟨⟨k, hk, i, hi, rfl⟩, ?_⟩
      rw [hcell, hD, abs_mul, abs_of_pos hd]
      exact mul_le_mul_of_nonneg_right h hd.le
  have hbrow : ∀ k < K, (ofRow row (midBand Pt.x ((-((N : ℝ) * d) + N * d) / 2) D dots) k).length =
      ((List.range (2 * N + 1)).filter fun i : ℕ => decide (|((i : ℝ) - N) * d| ≤ D)).length := by
    intro k hk
    have h1 : (ofRow row (midBand Pt.x ((-((N : ℝ) * d) + N * d) / 2) D dots) k) = (ofRow row dots k).filter fun p =>
        decide (|p.x - (-((N : ℝ) * d) + N * d) / 2| ≤ D) := by
      unfold ofRow midBand
      rw [List.filter_comm]
    rw [h1, ((hofrow k hk).filter _).length_eq, List.filter_map, List.length_map, hmid]
    congr 1
    apply List.filter_congr
    intro i _
    simp [hcell]
  have hb3 : 3 ≤ ((List.range (2 * N + 1)).filter fun i : ℕ => decide (|((i : ℝ) - N) * d| ≤ D)).length := by
    have hsub : [N - 1, N, N + 1].Subperm ((List.range (2 * N + 1)).filter fun i : ℕ => decide (|((i : ℝ) - N) * d| ≤ D)) := by
      apply List.Nodup.subperm
      · simp
        omega
      · intro i hi
        rw [List.mem_filter, List.mem_range, decide_eq_true_eq, abs_mul, abs_of_pos hd, hD]
        have h1 : |(i : ℝ) - N| ≤ 1 := by
          simp only [List.mem_cons, List.not_mem_nil, or_false] at hi
          rcases hi with rfl | rfl | rfl
          · rw [Nat.cast_sub hN]; norm_num
          · norm_num
          · push_cast; norm_num
        refine ⟨?_, mul_le_mul_of_nonneg_right (by linarith) hd.le⟩
        simp only [List.mem_cons, List.not_mem_nil, or_false] at hi
        omega
    simpa using hsub.length_le
  -- neighbours in the middle
  have hstep : ∀ i : ℕ, |(i : ℝ) - N| ≤ m + 1 / 2 → |((i + 1 : ℕ) : ℝ) - N| ≤ m + 1 / 2 →
      |κ * ((((i + 1 : ℕ) : ℝ) - N) * d) ^ 2 - κ * (((i : ℝ) - N) * d) ^ 2| ≤ |κ| * d * (2 * miss + 1) * d := by
    intro i h1 h2
    rw [abs_le] at h1 h2
    push_cast at h2 ⊢
    have e : κ * (((i : ℝ) + 1 - N) * d) ^ 2 - κ * (((i : ℝ) - N) * d) ^ 2 = κ * (d * d) * (2 * (i - N) + 1) := by ring
    rw [e, abs_mul, abs_mul, abs_of_pos (mul_pos hd hd)]
    have : |2 * ((i : ℝ) - N) + 1| ≤ 2 * miss + 1 := by
      rw [abs_le]
      constructor <;> linarith
    calc |κ| * (d * d) * |2 * ((i : ℝ) - N) + 1| ≤ |κ| * (d * d) * (2 * miss + 1) :=
          mul_le_mul_of_nonneg_left this (by positivity)
      _ = _ := by ring
  have hcount : ∀ k < K, (ofRow row dots k).length = 2 * N + 1 := by
    intro k hk
    rw [(hofrow k hk).length_eq, List.length_map, List.length_range]
  have hpos : (0 : ℝ) < ((2 * N + 1 : ℕ) : ℝ) := by exact_mod_cast Nat.succ_pos _
  obtain ⟨lines, e, g1, g2, g3, g4⟩ := C102_hor pf hpf argsort hs dots hne 0 d ratio miss acc overlap 2 row (fun r => [κ, 0, r * d])
    Pt.x Pt.y (fun p => by rw [hid]) (fun p => by rw [hid]) hd hr0 hacc0 (by rw [hlen]; push_cast; exact hsmall) m D
    (-(N * d)) (N * d) hm hD
    ⟨⟨parabolaDot d κ N 0 0, (hmem _).2 ⟨0, by omega, 0, by omega, rfl⟩, by rw [hcell]; push_cast; ring⟩, by
      rintro v ⟨p, hp, rfl⟩
      obtain ⟨k, -, i, hi, rfl⟩ := (hmem p).1 hp
      rw [hcell]
      have : (0 : ℝ) ≤ i := Nat.cast_nonneg i
      nlinarith⟩
    ⟨⟨parabolaDot d κ N 0 (2 * N), (hmem _).2 ⟨0, by omega, 2 * N, by omega, rfl⟩, by rw [hcell]; push_cast; ring⟩, by
      rintro v ⟨p, hp, rfl⟩
      obtain ⟨k, -, i, hi, rfl⟩ := (hmem p).1 hp
      rw [hcell]
      have : (i : ℝ) ≤ 2 * N := by exact_mod_cast (by omega : i ≤ 2 * N)
      exact mul_le_mul_of_nonneg_right (by linarith) hd.le⟩
    { len := fun p _ => rfl
      on := by
        intro p hp
        rw [hrowdef]
        simp only [polyval, List.foldl_cons, List.foldl_nil]
        field_simp
        ring
      off := by
        intro p hp q hq hpq
        obtain ⟨k, hk, i, hi, rfl⟩ := (hmem p).1 hp
        obtain ⟨k', hk', i', hi', rfl⟩ := (hmem q).1 hq
        rw [hrow, hrow] at hpq
        rw [hrow, hyc, hcell]
        simp only [polyval, List.foldl_cons, List.foldl_nil]
        have e : (k' : ℝ) * d + κ * ((i' - N) * d) ^ 2 - (((0 * ((i' - N) * d) + κ) * ((i' - N) * d) + 0) * ((i' - N) * d) + k * d) =
          (k' - k : ℤ) * d := by push_cast; ring
        rw [e, abs_mul, abs_of_pos hd]
        apply mul_lt_mul_of_pos_right _ hd
        refine lt_of_lt_of_le hr1 ?_
        have : (1 : ℤ) ≤ |(k' : ℤ) - k| := Int.one_le_abs (by intro h; apply hpq; have : (k' : ℤ) = k := by omega
                                                              exact_mod_cast this)
        exact_mod_cast this
      apart := by
        have : (tableRows (parabolaDot d κ N) K (2 * N + 1)).flatten.Pairwise fun p q => row p = row q → p.x ≠ q.x := by
          rw [List.pairwise_flatten]
          unfold tableRows
          refine ⟨?_, ?_⟩
          · intro l hl
            obtain ⟨k, -, rfl⟩ := List.mem_map.1 hl
            rw [List.pairwise_map]
            exact List.pairwise_lt_range.imp (S := fun a b => row (parabolaDot d κ N k a) = row (parabolaDot d κ N k b) → _) fun {a b} h _ => ne_of_lt ((hxlt k k a b).2 h)
          · rw [List.pairwise_map]
            refine List.pairwise_lt_range.imp fun {a b} h p hp q hq hpq => ?_
            obtain ⟨i, -, rfl⟩ := List.mem_map.1 hp
            obtain ⟨j, -, rfl⟩ := List.mem_map.1 hq
            rw [hrow, hrow] at hpq
            have : a = b := by exact_mod_cast hpq
            omega
        exact (hp.pairwise_iff fun {a b} h h' => (h h'.symm).symm).2 this
      gaps := by
        intro p hp q hq hpq hlt hno
        obtain ⟨k, hk, i, hi, rfl⟩ := (hmem p).1 hp
        obtain ⟨k', hk', i', hi', rfl⟩ := (hmem q).1 hq
        rw [hxlt] at hlt
        have h1 : i' = i + 1 := by
          by_contra h
          exact hno (parabolaDot d κ N k (i + 1)) ((hmem _).2 ⟨k, hk, i + 1, by omega, rfl⟩) (by rw [hrow, hrow])
            ⟨(hxlt _ _ _ _).2 (by omega), (hxlt _ _ _ _).2 (by omega)⟩
        rw [hcell, hcell, h1, hD]
        push_cast
        nlinarith }
    { sep := by
        intro p hp q hq hlt ho
        obtain ⟨k, hk, i, hi, hi2, rfl⟩ := (hbmem p).1 hp
        obtain ⟨k', hk', i', hi', hi2', rfl⟩ := (hbmem q).1 hq
        have hle : i ≤ i' := by
          by_contra h
          exact absurd ((hxlt k' k i' i).2 (by omega)) (not_lt.2 hlt)
        rcases Nat.lt_or_ge (i + 1) i' with h | h
        · right
          refine ⟨parabolaDot d κ N k (i + 1), (hbmem _).2 ⟨k, hk, i + 1, by omega, ?_, rfl⟩, by rw [hrow, hrow],
            (hxlt _ _ _ _).2 (by omega), (hxlt _ _ _ _).2 h⟩
          rw [abs_le] at hi2 hi2' ⊢
          have : ((i + 1 : ℕ) : ℝ) ≤ i' := by exact_mod_cast h.le
          push_cast at this ⊢
          constructor <;> linarith
        · left
          rw [hrow, hrow]
          have h2 := ho.2
          simp only [zero_mul, zero_sub, abs_neg, hyc] at h2
          rw [show (1 : ℝ) + 0 ^ 2 = 1 by norm_num, Real.sqrt_one, div_one] at h2
          have h3 : |κ * (((i' : ℝ) - N) * d) ^ 2 - κ * (((i : ℝ) - N) * d) ^ 2| ≤ |κ| * d * (2 * miss + 1) * d := by
            have : i' = i ∨ i' = i + 1 := by omega
            rcases this with rfl | rfl
            · rw [sub_self, abs_zero]
              have : 0 ≤ 2 * miss + 1 := by linarith
              positivity
            · exact hstep i hi2 hi2'
          by_contra hkk
          have h4 : (1 : ℤ) ≤ |(k' : ℤ) - k| := Int.one_le_abs (by intro h; apply hkk; have : (k : ℤ) = k' := by omega
                                                                   exact_mod_cast this)
          have h5 : (1 : ℝ) ≤ |(k' : ℝ) - k| := by exact_mod_cast h4
          have h6 : |((k' : ℝ) - k) * d| = |(k' : ℝ) - k| * d := by rw [abs_mul, abs_of_pos hd]
          have h7 : |((k' : ℝ) - k) * d| ≤ |(k' : ℝ) * d + κ * (((i' : ℝ) - N) * d) ^ 2 - (k * d + κ * (((i : ℝ) - N) * d) ^ 2)| +
              |κ * (((i' : ℝ) - N) * d) ^ 2 - κ * (((i : ℝ) - N) * d) ^ 2| := by
            refine le_trans (le_of_eq ?_) (abs_sub _ _)
            congr 1
            ring
          nlinarith
      next := by
        intro p hp q hq hpq hlt hno
        obtain ⟨k, hk, i, hi, hi2, rfl⟩ := (hbmem p).1 hp
        obtain ⟨k', hk', i', hi', hi2', rfl⟩ := (hbmem q).1 hq
        rw [hrow, hrow] at hpq
        have hkk : k = k' := by exact_mod_cast hpq
        subst hkk
        rw [hxlt] at hlt
        have h1 : i' = i + 1 := by
          by_contra h
          refine hno (parabolaDot d κ N k (i + 1)) ((hbmem _).2 ⟨k, hk, i + 1, by omega, ?_, rfl⟩) (by rw [hrow, hrow])
            ⟨(hxlt _ _ _ _).2 (by omega), (hxlt _ _ _ _).2 (by omega)⟩
          rw [abs_le] at hi2 hi2' ⊢
          have : ((i + 1 : ℕ) : ℝ) ≤ i' := by exact_mod_cast (by omega : i + 1 ≤ i')
          push_cast at this ⊢
          constructor <;> linarith
        subst h1
        refine ⟨?_, ?_⟩
        · simp only [hcell]
          push_cast
          rw [show ((i : ℝ) + 1 - N) * d - (i - N) * d = d by ring, abs_of_pos hd]
          nlinarith
        · simp only [zero_mul, zero_sub, abs_neg, hyc]
          rw [show (1 : ℝ) + 0 ^ 2 = 1 by norm_num, Real.sqrt_one, div_one]
          have := hstep i hi2 hi2'
          rw [show (k : ℝ) * d + κ * ((((i + 1 : ℕ) : ℝ) - N) * d) ^ 2 - (k * d + κ * (((i : ℝ) - N) * d) ^ 2) =
            κ * ((((i + 1 : ℕ) : ℝ) - N) * d) ^ 2 - κ * (((i : ℝ) - N) * d) ^ 2 by ring]
          refine lt_of_le_of_lt this ?_
          exact mul_lt_mul_of_pos_right hb1 hd }
    (by
      intro p hp
      obtain ⟨k, hk, i, hi, rfl⟩ := (hmem p).1 hp
      rw [hrow, hbrow k hk]
      exact ⟨hb3, hb3⟩)
    (by
      intro p hp q hq
      obtain ⟨k, hk, i, hi, rfl⟩ := (hmem p).1 hp
      obtain ⟨k', hk', i', hi', rfl⟩ := (hmem q).1 hq
      rw [hrow, hrow, hbrow k hk, hbrow k' hk', hcount k hk, hcount k' hk']
      have : (0 : ℝ) < (((List.range (2 * N + 1)).filter fun i : ℕ => decide (|((i : ℝ) - N) * d| ≤ D)).length : ℝ) := by
        exact_mod_cast lt_of_lt_of_le (by norm_num) hb3
      constructor <;> nlinarith)
    (by
      intro p hp q hq hpq v w hv hw
      obtain ⟨k, hk, i, hi, rfl⟩ := (hmem p).1 hp
      obtain ⟨k', hk', i', hi', rfl⟩ := (hmem q).1 hq
      rw [hrow] at hv hw
      rw [hrow, hrow] at hpq
      have key : ∀ k < K, ∀ v, IsMedian Pt.y (ofRow row dots k) v → IsMedian (fun i : ℕ => κ * (((i : ℝ) - N) * d) ^ 2) (List.range (2 * N + 1)) (v - k * d) := by
        intro k hk v hv
        have := isMedian_perm hv (hofrow k hk)
        unfold IsMedian at this ⊢
        rw [List.filter_map, List.filter_map, List.length_map, List.length_map, List.length_map] at this
        have e1 : ∀ i : ℕ, decide (κ * (((i : ℝ) - N) * d) ^ 2 ≤ v - k * d) = decide ((parabolaDot d κ N k i).y ≤ v) := by
          intro i
          rw [hyc]
          congr 1
          apply propext
          constructor <;> intro h <;> linarith
        have e2 : ∀ i : ℕ, decide (v - k * d ≤ κ * (((i : ℝ) - N) * d) ^ 2) = decide (v ≤ (parabolaDot d κ N k i).y) := by
          intro i
          rw [hyc]
          congr 1
          apply propext
          constructor <;> intro h <;> linarith
        simp only [e1, e2]
        exact this
      have h1 := isMedian_unique (by rw [List.length_range]; omega) (key k hk v hv) (key k' hk' w hw)
      have h2 : w - v = (((k' : ℤ) - k : ℤ) : ℝ) * d := by push_cast; linarith
      have h3 : (1 : ℤ) ≤ |(k' : ℤ) - k| := Int.one_le_abs (by intro h; apply hpq; have : (k : ℤ) = k' := by omega
                                                               exact_mod_cast this)
      have h4 : (1 : ℝ) ≤ |(((k' : ℤ) - k : ℤ) : ℝ)| := by exact_mod_cast h3
      rw [h2, abs_mul, abs_of_pos hd]
      nlinarith)
  -- the lines are the rows of the table
  have heq : ∀ k < K, ∀ l ∈ lines, l.Perm (ofRow row dots k) → l.Pairwise (fun p q => p.x ≤ q.x) → l = (List.range (2 * N + 1)).map (parabolaDot d κ N k) := by
    intro k hk l _ hpl hsort
    refine List.Perm.eq_of_pairwise (le := fun p q : Pt => p.x ≤ q.x) ?_ hsort ?_ (hpl.trans (hofrow k hk))
    · intro a b ha hb hab hba
      have ha' := (hpl.trans (hofrow k hk)).mem_iff.1 ha
      obtain ⟨i, -, rfl⟩ := List.mem_map.1 ha'
      obtain ⟨j, -, rfl⟩ := List.mem_map.1 hb
      have : i = j := by
        rcases lt_trichotomy i j with h | h | h
        · exact absurd ((hxlt k k i j).2 h) (not_lt.2 hba)
        · exact h
        · exact absurd ((hxlt k k j i).2 h) (not_lt.2 hab)
      rw [this]
    · rw [List.pairwise_map]
      exact List.pairwise_lt_range.imp fun {a b} h => ((hxlt k k a b).2 h).le
  have hrowl : ∀ l ∈ lines, ∃ k < K, l = (List.range (2 * N + 1)).map (parabolaDot d κ N k) := by
    intro l hl
    obtain ⟨p, hp, h1, h2⟩ := g1 l hl
    obtain ⟨k, hk, i, hi, rfl⟩ := (hmem p).1 hp
    rw [hrow] at h1
    exact ⟨k, hk, heq k hk l hl h1 h2⟩
  have hmean : ∀ k k', k < k' → meanY ((List.range (2 * N + 1)).map (parabolaDot d κ N k)) <
      meanY ((List.range (2 * N + 1)).map (parabolaDot d κ N k')) := by
    intro k k' hkk
    unfold meanY
    rw [List.length_map, List.length_map, List.length_range]
    apply div_lt_div_of_pos_right _ hpos
    rw [List.map_map, List.map_map]
    refine List.sum_lt_sum_of_ne_nil (by simp) _ _ fun i _ => ?_
    simp only [Function.comp_apply, hyc]
    have : (k : ℝ) < k' := by exact_mod_cast hkk
    nlinarith
  have hinj : ∀ k k', (List.range (2 * N + 1)).map (parabolaDot d κ N k) = (List.range (2 * N + 1)).map (parabolaDot d κ N k') → k = k' := by
    intro k k' e
    rcases lt_trichotomy k k' with h | h | h
    · exact absurd (congrArg meanY e) (hmean k k' h).ne
    · exact h
    · exact absurd (congrArg meanY e) (hmean k' k h).ne'
  have hlnd : lines.Nodup := by
    refine g3.imp_of_mem ?_
    rintro a b ha hb hab rfl
    obtain ⟨k, hk, rfl⟩ := hrowl a ha
    have : parabolaDot d κ N k 0 ∈ (List.range (2 * N + 1)).map (parabolaDot d κ N k) := List.mem_map.2 ⟨0, by simp, rfl⟩
    exact hab _ this this
  have hlines : lines.Perm (tableRows (parabolaDot d κ N) K (2 * N + 1)) := by
    rw [List.perm_ext_iff_of_nodup hlnd]
    · intro l
      unfold tableRows
      rw [List.mem_map]
      constructor
      · intro hl
        obtain ⟨k, hk, e⟩ := hrowl l hl
        exact ⟨k, List.mem_range.2 hk, e.symm⟩
      · rintro ⟨k, hk, rfl⟩
        rw [List.mem_range] at hk
        obtain ⟨l, hl, hpl⟩ := g2 (parabolaDot d κ N k 0) ((hmem _).2 ⟨k, hk, 0, by omega, rfl⟩)
        rw [hrow] at hpl
        obtain ⟨p, hp, -, h2⟩ := g1 l hl
        have := heq k hk l hl hpl h2
        rw [← show l = List.map (fun l => parabolaDot d κ N k l) (List.range (2 * N + 1)) from this]
        exact hl
    · unfold tableRows
      exact List.Nodup.map_on (fun a _ b _ e => hinj a b e) List.nodup_range
  rw [e]
  congr 1
  refine List.Perm.eq_of_pairwise (le := fun a b => meanY a ≤ meanY b) ?_ g4 ?_ hlines
  · intro a b ha hb hab hba
    obtain ⟨k, hk, rfl⟩ := hrowl a ha
    obtain ⟨k', hk', rfl⟩ := hrowl b (hlines.mem_iff.2 hb)
    rcases lt_trichotomy k k' with h | h | h
    · exact absurd (hmean k k' h) (not_lt.2 hba)
    · rw [h]
    · exact absurd (hmean k' k h) (not_lt.2 hab)
  · unfold tableRows
    rw [List.pairwise_map]
    exact List.pairwise_lt_range.imp fun {a b} hab => (hmean a b hab).le

/-- Three parabolas of 101 dots, 10 pixels apart, that bend by 250 pixels — 25 times the distance of the rows — towards the ends;
default ratio and number of missing dots of the function. -/
example : groupPolyfitHor refPolyfit refArgsort (tableRows (parabolaDot 10 0.001 50) 3 101).flatten 0 10 0.1 3 0.65 0.5 2 =
    .ok (tableRows (parabolaDot 10 0.001 50) 3 101) :=
  C102_parabolas refPolyfit refPolyfit_spec refArgsort refArgsort_spec 10 0.001 0.1 3 0.65 0.5 3 50 (by norm_num) (by norm_num) (by norm_num)
    (by norm_num) (by norm_num) (by norm_num) (by norm_num) (by norm_num) (by norm_num)
    (by rw [abs_of_pos (by norm_num)]; norm_num) (by rw [abs_of_pos (by norm_num)]; norm_num) _ (List.Perm.refl _)

end Discorpy
