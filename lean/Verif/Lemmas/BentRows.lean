import Verif.Props.C102
import Verif.Spec.Fisheye

/-! # Rows bent in proportion to their distance -/

namespace Discorpy

open Spec

/-- The median of scaled values is the scaled median. -/
theorem isMedian_affine {α : Type} {g : α → ℝ} {l : List α} {μ : ℝ} (h : IsMedian g l μ) (b a : ℝ) :
    IsMedian (fun x => b + a * g x) l (b + a * μ) := by
  unfold IsMedian at h ⊢
  rcases lt_trichotomy a 0 with ha | ha | ha
  · have e1 : ∀ x, decide (b + a * g x ≤ b + a * μ) = decide (μ ≤ g x) := by
      intro x
      rw [decide_eq_decide, add_le_add_iff_left, mul_le_mul_left_of_neg ha]
    have e2 : ∀ x, decide (b + a * μ ≤ b + a * g x) = decide (g x ≤ μ) := by
      intro x
      rw [decide_eq_decide, add_le_add_iff_left, mul_le_mul_left_of_neg ha]
    simp only [e1, e2]
    exact ⟨h.2, h.1⟩
  · subst ha
    simp
    omega
  · have e1 : ∀ x, decide (b + a * g x ≤ b + a * μ) = decide (g x ≤ μ) := by
      intro x
      rw [decide_eq_decide, add_le_add_iff_left, mul_le_mul_iff_right₀ ha]
    have e2 : ∀ x, decide (b + a * μ ≤ b + a * g x) = decide (μ ≤ g x) := by
      intro x
      rw [decide_eq_decide, add_le_add_iff_left, mul_le_mul_iff_right₀ ha]
    simp only [e1, e2]
    exact h

theorem isMedian_map {α β : Type} {g : β → ℝ} {f : α → β} {l : List α} {v : ℝ} (h : IsMedian g (l.map f) v) : IsMedian (fun x => g (f x)) l v := by
  unfold IsMedian at h ⊢
  rw [List.filter_map, List.filter_map, List.length_map, List.length_map, List.length_map] at h
  exact h

/-- The dots of one row of a table of labelled dots. -/
theorem table_row_lt {f : ℕ → ℕ → Pt} {row : Pt → ℝ} {K L : ℕ} (hrow : ∀ k, ∀ i < L, row (f k i) = k) {k : ℕ} (hk : k < K) :
    ofRow row (tableRows f K L).flatten k = (List.range L).map (f k) := by
  unfold ofRow tableRows
  have hone : ∀ k', ((List.range L).map fun l => f k' l).filter (fun p => decide (row p = k)) =
      if k' = k then (List.range L).map (f k) else [] := by
    intro k'
    split_ifs with h
    · subst h
      rw [List.filter_eq_self]
      intro p hp
      obtain ⟨i, hi, rfl⟩ := List.mem_map.1 hp
      simp [hrow k' i (List.mem_range.1 hi)]
    · rw [List.filter_eq_nil_iff]
      intro p hp
      obtain ⟨i, hi, rfl⟩ := List.mem_map.1 hp
      simpa [hrow k' i (List.mem_range.1 hi)] using h
  rw [List.filter_flatten, List.map_map]
  simp only [Function.comp_def, hone]
  induction K with
  | zero => omega
  | succ K ih =>
    rw [List.range_succ, List.map_append, List.flatten_append, List.map_singleton, List.flatten_singleton]
    by_cases h : k = K
    · subst h
      rw [if_pos rfl]
      have : ((List.range k).map fun k' => if k' = k then (List.range L).map (f k) else []).flatten = [] := by
        rw [List.flatten_eq_nil_iff]
        intro l hl
        obtain ⟨k', hk', rfl⟩ := List.mem_map.1 hl
        rw [if_neg (by have := List.mem_range.1 hk'; omega)]
      rw [this, List.nil_append]
    · rw [ih (by omega), if_neg (fun e => h e.symm), List.append_nil]

/-- Sorted groups that are the rows of a table, in the order of increasing means, are the table. -/
theorem table_of_groups {dot : ℕ → ℕ → Pt} {row : Pt → ℝ} {along across : Pt → ℝ} {K L : ℕ} (hL : 0 < L) {dots : List Pt} {lines : List (List Pt)}
    (hrow : ∀ k, ∀ i < L, row (dot k i) = k) (hmem : ∀ p, p ∈ dots ↔ ∃ k < K, ∃ i < L, p = dot k i)
    (hxlt : ∀ k k' i i', along (dot k i) < along (dot k' i') ↔ i < i')
    (hofrow : ∀ k < K, (ofRow row dots k).Perm ((List.range L).map (dot k)))
    (hmean : ∀ k k', k < k' → meanOf across ((List.range L).map (dot k)) < meanOf across ((List.range L).map (dot k')))
    (g1 : ∀ l ∈ lines, ∃ p ∈ dots, l.Perm (ofRow row dots (row p)) ∧ l.Pairwise fun p q => along p ≤ along q)
    (g2 : ∀ p ∈ dots, ∃ l ∈ lines, l.Perm (ofRow row dots (row p))) (g3 : lines.Pairwise (fun a b => ∀ p ∈ a, p ∉ b))
    (g4 : lines.Pairwise fun a b => meanOf across a ≤ meanOf across b) : lines = tableRows dot K L := by
  have heq : ∀ k < K, ∀ l ∈ lines, l.Perm (ofRow row dots k) → l.Pairwise (fun p q => along p ≤ along q) → l = (List.range L).map (dot k) := by
    intro k hk l _ hpl hsort
    refine List.Perm.eq_of_pairwise (le := fun p q : Pt => along p ≤ along q) ?_ hsort ?_ (hpl.trans (hofrow k hk))
    · intro a b ha hb hab hba
      have ha' := (hpl.trans (hofrow k hk)).mem_iff.1 ha
      obtain ⟨i, -, rfl⟩ := List.mem_map.1 ha'
      obtain ⟨j, -, rfl⟩ := List.mem_map.1 hb
      have : i = j := by
        rcases lt_trichotomy i j with h | h | h
        · exact absurd ((hxlt k k i j).2 h) (not_lt.2 hba)
        · exact h
        · exact absurd ((hxlt k k j i).2 h) (not_lt.2 hab)
      rw [this]
    · rw [List.pairwise_map]
      exact List.pairwise_lt_range.imp fun {a b} h => ((hxlt k k a b).2 h).le
  have hrowl : ∀ l ∈ lines, ∃ k < K, l = (List.range L).map (dot k) := by
    intro l hl
    obtain ⟨p, hp, h1, h2⟩ := g1 l hl
    obtain ⟨k, hk, i, hi, rfl⟩ := (hmem p).1 hp
    rw [hrow k i hi] at h1
    exact ⟨k, hk, heq k hk l hl h1 h2⟩
  have hinj : ∀ k k', (List.range L).map (dot k) = (List.range L).map (dot k') → k = k' := by
    intro k k' e
    rcases lt_trichotomy k k' with h | h | h
    · exact absurd (congrArg (meanOf across) e) (hmean k k' h).ne
    · exact h
    · exact absurd (congrArg (meanOf across) e) (hmean k' k h).ne'
  have hlnd : lines.Nodup := by
    refine g3.imp_of_mem ?_
    rintro a b ha hb hab rfl
    obtain ⟨k, hk, rfl⟩ := hrowl a ha
    have : dot k 0 ∈ (List.range L).map (dot k) := List.mem_map.2 ⟨0, by simpa using hL, rfl⟩
    exact hab _ this this
  have hlines : lines.Perm (tableRows (dot) K L) := by
    rw [List.perm_ext_iff_of_nodup hlnd]
    · intro l
      unfold tableRows
      rw [List.mem_map]
      constructor
      · intro hl
        obtain ⟨k, hk, e⟩ := hrowl l hl
        exact ⟨k, List.mem_range.2 hk, e.symm⟩
      · rintro ⟨k, hk, rfl⟩
        rw [List.mem_range] at hk
        obtain ⟨l, hl, hpl⟩ := g2 (dot k 0) ((hmem _).2 ⟨k, hk, 0, hL, rfl⟩)
        rw [hrow k 0 hL] at hpl
        obtain ⟨p, hp, -, h2⟩ := g1 l hl
        have := heq k hk l hl hpl h2
        rw [← show l = List.map (fun l => dot k l) (List.range L) from this]
        exact hl
    · unfold tableRows
      exact List.Nodup.map_on (fun a _ b _ e => hinj a b e) List.nodup_range
  refine List.Perm.eq_of_pairwise (le := fun a b => meanOf across a ≤ meanOf across b) ?_ g4 ?_ hlines
  · intro a b ha hb hab hba
    obtain ⟨k, hk, rfl⟩ := hrowl a ha
    obtain ⟨k', hk', rfl⟩ := hrowl b (hlines.mem_iff.2 hb)
    rcases lt_trichotomy k k' with h | h | h
    · exact absurd (hmean k k' h) (not_lt.2 hba)
    · rw [h]
    · exact absurd (hmean k' k h) (not_lt.2 hab)
  · unfold tableRows
    rw [List.pairwise_map]
    exact List.pairwise_lt_range.imp fun {a b} hab => (hmean a b hab).le

/-- The grouping based on a polynomial fit returns the rows of a bent pattern; common part for rows and columns. -/
theorem bentRows_found {pf : PolyfitFn} (hpf : PolyfitSpec pf) {argsort : List ℝ → List ℕ} (hs : ArgsortSpec argsort)
    {along across : Pt → ℝ} {mk : ℝ → ℝ → Pt} (hal : ∀ t u, along (mk t u) = t) (hac : ∀ t u, across (mk t u) = u) {angle : ℝ}
    (hid : ∀ p, turn angle p = p) {coarse : List Pt → ℝ → Except PyErr (List (List Pt))} {a0 b0 κ o d s : ℝ} {K N : ℕ}
    (hcoarse : ∀ (B : List Pt) (row' : Pt → ℝ), B ≠ [] → StraightRows along across row' d 0.1 3 B →
      (B.Pairwise fun p q => row' p = row' q → along p ≠ along q) →
      (∀ p ∈ B, 2 ≤ (B.filter fun q => decide (row' q = row' p)).length) →
      (∀ p ∈ B, ∀ q ∈ B, (0.65 : ℝ) * (B.filter fun e => decide (row' e = row' q)).length < (B.filter fun e => decide (row' e = row' p)).length) →
      ∃ groups, coarse B 3 = .ok groups ∧
        (∀ g ∈ groups, ∃ p ∈ B, g.Perm (B.filter fun q => decide (row' q = row' p)) ∧ g.Pairwise fun p q => along p < along q) ∧
        (∀ p ∈ B, ∃ g ∈ groups, g.Perm (B.filter fun q => decide (row' q = row' p))) ∧
        groups.Pairwise fun a b => ∀ p ∈ a, ∀ q ∈ b, row' p ≠ row' q)
    (hK : 1 ≤ K) (hN : 1 ≤ N) (hd : 0 < d) (hs0 : 0 < s) (hsd : s ≤ d) (hsmall : K * (2 * N + 1) ≤ 50000)
    (hκ : |κ| * (N * s) ^ 2 ≤ 0.8) (hband : ∀ k < K, 70 * |κ| * |o + k * d| * s < 1)
    (dot : ℕ → ℕ → Pt) (hdot : ∀ k i, dot k i = mk (a0 + ((i : ℝ) - N) * s) (b0 + (o + k * d) * (1 + κ * (((i : ℝ) - N) * s) ^ 2)))
    (overlap : ℝ) (dots : List Pt) (hp : dots.Perm (tableRows dot K (2 * N + 1)).flatten) :
    groupPolyfit pf argsort along across angle coarse dots d 0.1 3 0.65 overlap 2 = .ok (tableRows dot K (2 * N + 1)) := by
  classical
  have hκ0 : 0 ≤ |κ| := abs_nonneg κ
  have hNpos : (0 : ℝ) ≤ N := Nat.cast_nonneg N
  -- the factor of a dot
  have hfac : ∀ i < 2 * N + 1, 0.2 ≤ 1 + κ * (((i : ℝ) - N) * s) ^ 2 := by
    intro i hi
    have h1 : |(i : ℝ) - N| ≤ N := by
      rw [abs_le]
      have : (i : ℝ) ≤ 2 * N := by exact_mod_cast (by omega : i ≤ 2 * N)
      have : (0 : ℝ) ≤ i := Nat.cast_nonneg i
      constructor <;> linarith
    have h2 : (((i : ℝ) - N) * s) ^ 2 ≤ (N * s) ^ 2 := by
      rw [mul_pow, mul_pow]
      refine mul_le_mul_of_nonneg_right ?_ (by positivity)
      exact sq_le_sq' (by rw [abs_le] at h1; linarith [h1.1]) (by rw [abs_le] at h1; linarith [h1.2])
    have h3 : |κ| * (((i : ℝ) - N) * s) ^ 2 ≤ 0.8 := le_trans (mul_le_mul_of_nonneg_left h2 hκ0) hκ
    have h4 : -(|κ| * (((i : ℝ) - N) * s) ^ 2) ≤ κ * (((i : ℝ) - N) * s) ^ 2 := by
      rw [← neg_mul]
      exact mul_le_mul_of_nonneg_right (neg_abs_le κ) (by positivity)
    linarith
  have hcell : ∀ k i, along (dot k i) = a0 + ((i : ℝ) - N) * s := fun k i => by rw [hdot, hal]
  have hyc : ∀ k i, across (dot k i) = b0 + (o + k * d) * (1 + κ * (((i : ℝ) - N) * s) ^ 2) := fun k i => by rw [hdot, hac]
  obtain ⟨row, hrowdef⟩ : ∃ row : Pt → ℝ, row = fun p => ((across p - b0) / (1 + κ * (along p - a0) ^ 2) - o) / d := ⟨_, rfl⟩
  have hrow : ∀ k, ∀ i < 2 * N + 1, row (dot k i) = k := by
    intro k i hi
    have := hfac i hi
    rw [hrowdef]
    simp only [hcell, hyc, add_sub_cancel_left]
    rw [mul_div_assoc, div_self (by linarith), mul_one, add_sub_cancel_left, mul_div_assoc, div_self hd.ne', mul_one]
  have hmem : ∀ p, p ∈ dots ↔ ∃ k < K, ∃ i < 2 * N + 1, p = dot k i := by
    intro p
    rw [hp.mem_iff]
    unfold tableRows
    simp only [List.mem_flatten, List.mem_map, List.mem_range]
    constructor
    · rintro ⟨_, ⟨k, hk, rfl⟩, hp⟩
      obtain ⟨i, hi, rfl⟩ := List.mem_map.1 hp
      exact ⟨k, hk, i, List.mem_range.1 hi, rfl⟩
    · rintro ⟨k, hk, i, hi, rfl⟩
      exact ⟨_, ⟨k, hk, rfl⟩, List.mem_map.2 ⟨i, List.mem_range.2 hi, rfl⟩⟩
  have hxlt : ∀ k k' i i', along (dot k i) < along (dot k' i') ↔ i < i' := by
    intro k k' i i'
    rw [hcell, hcell, add_lt_add_iff_left, mul_lt_mul_iff_left₀ hs0, sub_lt_sub_iff_right, Nat.cast_lt]
  have hofrow : ∀ k < K, (ofRow row dots k).Perm ((List.range (2 * N + 1)).map (dot k)) := by
    intro k hk
    rw [← table_row_lt hrow hk]
    exact hp.filter _
  have hlen : dots.length = K * (2 * N + 1) := by
    rw [hp.length_eq]
    unfold tableRows
    rw [List.length_flatten, List.map_map]
    simp [Function.comp_def]
  have hlen1 : (3 : ℝ) ≤ dots.length := by
    have : 3 ≤ dots.length := by
      rw [hlen]
      calc 3 ≤ 1 * (2 * N + 1) := by omega
        _ ≤ _ := Nat.mul_le_mul_right _ hK
    exact_mod_cast this
  have hne : dots ≠ [] := by
    rintro rfl
    norm_num at hlen1
  have hm : (3 : ℝ) = max 1 (min 3 (dots.length : ℝ)) := by
    rw [min_eq_left hlen1, max_eq_right (by norm_num)]
  obtain ⟨D, hD⟩ : ∃ D, D = ((3 : ℝ) + 1 / 2) * d := ⟨_, rfl⟩
  -- the middle
  have hmid : (a0 - (N : ℝ) * s + (a0 + N * s)) / 2 = a0 := by ring
  have hbmem : ∀ p, p ∈ midBand along ((a0 - (N : ℝ) * s + (a0 + N * s)) / 2) D dots ↔
      ∃ k < K, ∃ i < 2 * N + 1, |((i : ℝ) - N) * s| ≤ D ∧ p = dot k i := by
    intro p
    unfold midBand
    rw [List.mem_filter, decide_eq_true_eq, hmid, hmem]
    constructor
    · rintro ⟨⟨k, hk, i, hi, rfl⟩, h⟩
      refine ⟨k, hk, i, hi, ?_, rfl⟩
      rwa [hcell, add_sub_cancel_left] at h
    · rintro ⟨k, hk, i, hi, h, rfl⟩
      refine ⟨⟨k, hk, i, hi, rfl⟩, ?_⟩
      rwa [hcell, add_sub_cancel_left]
  have hbrow : ∀ k < K, (ofRow row (midBand along ((a0 - (N : ℝ) * s + (a0 + N * s)) / 2) D dots) k).length =
      ((List.range (2 * N + 1)).filter fun i : ℕ => decide (|((i : ℝ) - N) * s| ≤ D)).length := by
    intro k hk
    have h1 : (ofRow row (midBand along ((a0 - (N : ℝ) * s + (a0 + N * s)) / 2) D dots) k) = (ofRow row dots k).filter fun p =>
        decide (|along p - (a0 - (N : ℝ) * s + (a0 + N * s)) / 2| ≤ D) := by
      unfold ofRow midBand
      rw [List.filter_comm]
    rw [h1, ((hofrow k hk).filter _).length_eq, List.filter_map, List.length_map, hmid]
    congr 1
    apply List.filter_congr
    intro i _
    simp [hcell]
  have hb3 : 3 ≤ ((List.range (2 * N + 1)).filter fun i : ℕ => decide (|((i : ℝ) - N) * s| ≤ D)).length := by
    have hsub : [N - 1, N, N + 1].Subperm ((List.range (2 * N + 1)).filter fun i : ℕ => decide (|((i : ℝ) - N) * s| ≤ D)) := by
      apply List.Nodup.subperm
      · simp
        omega
      · intro i hi
        rw [List.mem_filter, List.mem_range, decide_eq_true_eq, abs_mul, abs_of_pos hs0, hD]
        have h1 : |(i : ℝ) - N| ≤ 1 := by
          simp only [List.mem_cons, List.not_mem_nil, or_false] at hi
          rcases hi with rfl | rfl | rfl
          · rw [Nat.cast_sub hN]; norm_num
          · norm_num
          · push_cast; norm_num
        refine ⟨?_, ?_⟩
        · simp only [List.mem_cons, List.not_mem_nil, or_false] at hi
          omega
        · have := mul_le_mul_of_nonneg_right h1 hs0.le
          linarith
    simpa using hsub.length_le
  -- neighbours in the middle
  have hstep : ∀ k < K, ∀ i i' : ℕ, i' = i ∨ i' = i + 1 → |((i : ℝ) - N) * s| ≤ D → |((i' : ℝ) - N) * s| ≤ D →
      |(o + k * d) * (κ * (((i' : ℝ) - N) * s) ^ 2) - (o + k * d) * (κ * (((i : ℝ) - N) * s) ^ 2)| < 0.1 * d := by
    intro k hk i i' hii h1 h2
    have hb := hband k hk
    have e : (o + k * d) * (κ * (((i' : ℝ) - N) * s) ^ 2) - (o + k * d) * (κ * (((i : ℝ) - N) * s) ^ 2) =
        (o + k * d) * κ * ((i' - i) * s * (((i' : ℝ) - N) * s + (i - N) * s)) := by ring
    rw [e, abs_mul, abs_mul, abs_mul, abs_mul, abs_of_pos hs0]
    have h3 : |(i' : ℝ) - i| ≤ 1 := by
      rcases hii with rfl | rfl
      · simp
      · push_cast; simp
    have h4 : |((i' : ℝ) - N) * s + (i - N) * s| ≤ 7 * d := by
      refine le_trans (abs_add_le _ _) ?_
      rw [hD] at h1 h2
      linarith
    have h5 : |(i' : ℝ) - i| * s * |((i' : ℝ) - N) * s + (i - N) * s| ≤ s * (7 * d) := by
      exact mul_le_mul (mul_le_of_le_one_left hs0.le h3) h4 (abs_nonneg _) hs0.le
    have h6 : 0 ≤ |o + k * d| * |κ| := by positivity
    calc |o + k * d| * |κ| * (|(i' : ℝ) - i| * s * |((i' : ℝ) - N) * s + (i - N) * s|) ≤ |o + k * d| * |κ| * (s * (7 * d)) :=
          mul_le_mul_of_nonneg_left h5 h6
      _ = (70 * |κ| * |o + k * d| * s) * (0.1 * d) := by ring
      _ < 1 * (0.1 * d) := mul_lt_mul_of_pos_right hb (by positivity)
      _ = 0.1 * d := one_mul _
  have hcount : ∀ k < K, (ofRow row dots k).length = 2 * N + 1 := by
    intro k hk
    rw [(hofrow k hk).length_eq, List.length_map, List.length_range]
  have hpos : (0 : ℝ) < ((2 * N + 1 : ℕ) : ℝ) := by exact_mod_cast Nat.succ_pos _
  have hkk1 : ∀ k k' : ℕ, (k' : ℝ) ≠ k → (1 : ℝ) ≤ |(k' : ℝ) - k| := by
    intro k k' h
    have : (1 : ℤ) ≤ |(k' : ℤ) - k| := Int.one_le_abs (by intro h'; apply h; have : (k' : ℤ) = k := by omega
                                                          exact_mod_cast this)
    exact_mod_cast this
  obtain ⟨lines, e, g1, g2, g3, g4⟩ := groupPolyfit_all (coarse := coarse) (overlap := overlap) (angle := angle) hpf hs hne (t := along) (u := across)
    (along := along) (across := across) (row := row) (order := 2) (miss := 3)
    (f := fun r => [(o + r * d) * κ, -2 * ((o + r * d) * κ * a0), (o + r * d) * (1 + κ * a0 ^ 2) + b0])
    (funext fun p => by rw [hid]) (funext fun p => by rw [hid]) (fun B row' => hcoarse B row') hd (by norm_num : (0 : ℝ) ≤ 0.1) (by norm_num : (0 : ℝ) ≤ 0.65)
    (by
      rw [hlen]
      have : ((K * (2 * N + 1) : ℕ) : ℝ) ≤ 50000 := by exact_mod_cast hsmall
      linarith) hm hD (lo := a0 - N * s) (hi := a0 + N * s)
    ⟨⟨dot 0 0, (hmem _).2 ⟨0, by omega, 0, by omega, rfl⟩, by rw [hcell]; push_cast; ring⟩, by
      rintro v ⟨p, hp, rfl⟩
      obtain ⟨k, -, i, hi, rfl⟩ := (hmem p).1 hp
      rw [hcell]
      have := mul_nonneg (Nat.cast_nonneg i : (0 : ℝ) ≤ i) hs0.le
      linarith⟩
    ⟨⟨dot 0 (2 * N), (hmem _).2 ⟨0, by omega, 2 * N, by omega, rfl⟩, by rw [hcell]; push_cast; ring⟩, by
      rintro v ⟨p, hp, rfl⟩
      obtain ⟨k, -, i, hi, rfl⟩ := (hmem p).1 hp
      rw [hcell]
      have : (i : ℝ) ≤ 2 * N := by exact_mod_cast (by omega : i ≤ 2 * N)
      have := mul_le_mul_of_nonneg_right this hs0.le
      linarith⟩
    { len := fun p _ => rfl
      on := by
        intro p hp
        obtain ⟨k, hk, i, hi, rfl⟩ := (hmem p).1 hp
        rw [hrow k i hi, hyc, hcell]
        simp only [polyval, List.foldl_cons, List.foldl_nil]
        ring
      off := by
        intro p hp q hq hpq
        obtain ⟨k, hk, i, hi, rfl⟩ := (hmem p).1 hp
        obtain ⟨k', hk', i', hi', rfl⟩ := (hmem q).1 hq
        rw [hrow k i hi, hrow k' i' hi'] at hpq
        rw [hrow k i hi, hyc, hcell]
        simp only [polyval, List.foldl_cons, List.foldl_nil]
        have e : b0 + (o + (k' : ℝ) * d) * (1 + κ * (((i' : ℝ) - N) * s) ^ 2) -
            (((0 * (a0 + ((i' : ℝ) - N) * s) + (o + k * d) * κ) * (a0 + ((i' : ℝ) - N) * s) + -2 * ((o + k * d) * κ * a0)) *
              (a0 + ((i' : ℝ) - N) * s) + ((o + k * d) * (1 + κ * a0 ^ 2) + b0)) =
          (k' - k) * d * (1 + κ * (((i' : ℝ) - N) * s) ^ 2) := by ring
        have hf := hfac i' hi'
        rw [e, abs_mul, abs_mul, abs_of_pos hd, abs_of_pos (by linarith : 0 < 1 + κ * (((i' : ℝ) - N) * s) ^ 2)]
        have h1 := hkk1 k k' hpq
        have h2 := mul_le_mul (le_mul_of_one_le_left hd.le h1) hf (by norm_num) (by positivity)
        linarith
      apart := by
        have : (tableRows dot K (2 * N + 1)).flatten.Pairwise fun p q => row p = row q → along p ≠ along q := by
          rw [List.pairwise_flatten]
          unfold tableRows
          refine ⟨?_, ?_⟩
          · intro l hl
            obtain ⟨k, -, rfl⟩ := List.mem_map.1 hl
            rw [List.pairwise_map]
            exact List.pairwise_lt_range.imp (S := fun a b => row (dot k a) = row (dot k b) → _) fun {a b} h _ => ne_of_lt ((hxlt k k a b).2 h)
          · rw [List.pairwise_map]
            refine List.pairwise_lt_range.imp fun {a b} h p hp q hq hpq => ?_
            obtain ⟨i, hi, rfl⟩ := List.mem_map.1 hp
            obtain ⟨j, hj, rfl⟩ := List.mem_map.1 hq
            rw [hrow a i (List.mem_range.1 hi), hrow b j (List.mem_range.1 hj)] at hpq
            have : a = b := by exact_mod_cast hpq
            omega
        exact (hp.pairwise_iff fun {a b} h h' => (h h'.symm).symm).2 this
      gaps := by
        intro p hp q hq hpq hlt hno
        obtain ⟨k, hk, i, hi, rfl⟩ := (hmem p).1 hp
        obtain ⟨k', hk', i', hi', rfl⟩ := (hmem q).1 hq
        rw [hxlt] at hlt
        have h1 : i' = i + 1 := by
          by_contra h
          exact hno (dot k (i + 1)) ((hmem _).2 ⟨k, hk, i + 1, by omega, rfl⟩) (by rw [hrow _ _ (by omega), hrow _ _ hi])
            ⟨(hxlt _ _ _ _).2 (by omega), (hxlt _ _ _ _).2 (by omega)⟩
        rw [hcell, hcell, h1, hD]
        push_cast
        linarith }
    { sep := by
        intro p hp q hq hlt ho
        obtain ⟨k, hk, i, hi, hi2, rfl⟩ := (hbmem p).1 hp
        obtain ⟨k', hk', i', hi', hi2', rfl⟩ := (hbmem q).1 hq
        have hle : i ≤ i' := by
          by_contra h
          exact absurd ((hxlt k' k i' i).2 (by omega)) (not_lt.2 hlt)
        rcases Nat.lt_or_ge (i + 1) i' with h | h
        · right
          refine ⟨dot k (i + 1), (hbmem _).2 ⟨k, hk, i + 1, by omega, ?_, rfl⟩, by rw [hrow _ _ (by omega), hrow _ _ hi],
            (hxlt _ _ _ _).2 (by omega), (hxlt _ _ _ _).2 h⟩
          rw [abs_le] at hi2 hi2' ⊢
          have : ((i + 1 : ℕ) : ℝ) ≤ i' := by exact_mod_cast h.le
          push_cast at this ⊢
          have := mul_le_mul_of_nonneg_right this hs0.le
          constructor <;> linarith
        · left
          rw [hrow k i hi, hrow k' i' hi']
          have h2 := ho.2
          simp only [zero_mul, zero_sub, abs_neg, hyc] at h2
          rw [show (1 : ℝ) + 0 ^ 2 = 1 by norm_num, Real.sqrt_one, div_one] at h2
          have h3 := hstep k hk i i' (by omega) hi2 hi2'
          by_contra hkk
          have hf := hfac i' hi'
          have h5 := hkk1 k k' (fun h => hkk h.symm)
          have h6 : |((k' : ℝ) - k) * d * (1 + κ * (((i' : ℝ) - N) * s) ^ 2)| = |(k' : ℝ) - k| * d * (1 + κ * (((i' : ℝ) - N) * s) ^ 2) := by
            rw [abs_mul, abs_mul, abs_of_pos hd, abs_of_pos (by linarith : 0 < 1 + κ * (((i' : ℝ) - N) * s) ^ 2)]
          have h7 : |((k' : ℝ) - k) * d * (1 + κ * (((i' : ℝ) - N) * s) ^ 2)| ≤
              |b0 + (o + (k' : ℝ) * d) * (1 + κ * (((i' : ℝ) - N) * s) ^ 2) - (b0 + (o + k * d) * (1 + κ * (((i : ℝ) - N) * s) ^ 2))| +
              |(o + k * d) * (κ * (((i' : ℝ) - N) * s) ^ 2) - (o + k * d) * (κ * (((i : ℝ) - N) * s) ^ 2)| := by
            refine le_trans (le_of_eq ?_) (abs_sub _ _)
            congr 1
            ring
          have h8 : d ≤ |(k' : ℝ) - k| * d := le_mul_of_one_le_left hd.le h5
          have h9 : d * 0.2 ≤ |(k' : ℝ) - k| * d * (1 + κ * (((i' : ℝ) - N) * s) ^ 2) := by
            refine mul_le_mul h8 hf (by norm_num) (by positivity)
          linarith
      next := by
        intro p hp q hq hpq hlt hno
        obtain ⟨k, hk, i, hi, hi2, rfl⟩ := (hbmem p).1 hp
        obtain ⟨k', hk', i', hi', hi2', rfl⟩ := (hbmem q).1 hq
        rw [hrow k i hi, hrow k' i' hi'] at hpq
        have hkk : k = k' := by exact_mod_cast hpq
        subst hkk
        rw [hxlt] at hlt
        have h1 : i' = i + 1 := by
          by_contra h
          refine hno (dot k (i + 1)) ((hbmem _).2 ⟨k, hk, i + 1, by omega, ?_, rfl⟩) (by rw [hrow _ _ (by omega), hrow _ _ hi])
            ⟨(hxlt _ _ _ _).2 (by omega), (hxlt _ _ _ _).2 (by omega)⟩
          rw [abs_le] at hi2 hi2' ⊢
          have : ((i + 1 : ℕ) : ℝ) ≤ i' := by exact_mod_cast (by omega : i + 1 ≤ i')
          push_cast at this ⊢
          have := mul_le_mul_of_nonneg_right this hs0.le
          constructor <;> linarith
        subst h1
        refine ⟨?_, ?_⟩
        · simp only [hcell]
          push_cast
          rw [show a0 + ((i : ℝ) + 1 - N) * s - (a0 + (i - N) * s) = s by ring, abs_of_pos hs0]
          linarith
        · simp only [zero_mul, zero_sub, abs_neg, hyc]
          rw [show (1 : ℝ) + 0 ^ 2 = 1 by norm_num, Real.sqrt_one, div_one]
          have := hstep k hk i (i + 1) (Or.inr rfl) hi2 hi2'
          rw [show b0 + (o + (k : ℝ) * d) * (1 + κ * ((((i + 1 : ℕ) : ℝ) - N) * s) ^ 2) - (b0 + (o + k * d) * (1 + κ * (((i : ℝ) - N) * s) ^ 2)) =
            (o + k * d) * (κ * ((((i + 1 : ℕ) : ℝ) - N) * s) ^ 2) - (o + k * d) * (κ * (((i : ℝ) - N) * s) ^ 2) by ring]
          exact this }
    (by
      intro p hp
      obtain ⟨k, hk, i, hi, rfl⟩ := (hmem p).1 hp
      rw [hrow k i hi, hbrow k hk]
      exact ⟨hb3, hb3⟩)
    (by
      intro p hp q hq
      obtain ⟨k, hk, i, hi, rfl⟩ := (hmem p).1 hp
      obtain ⟨k', hk', i', hi', rfl⟩ := (hmem q).1 hq
      rw [hrow k i hi, hrow k' i' hi', hbrow k hk, hbrow k' hk', hcount k hk, hcount k' hk']
      have : (0 : ℝ) < (((List.range (2 * N + 1)).filter fun i : ℕ => decide (|((i : ℝ) - N) * s| ≤ D)).length : ℝ) := by
        exact_mod_cast lt_of_lt_of_le (by norm_num) hb3
      constructor <;> linarith)
    (by
      intro p hp q hq hpq v w hv hw
      obtain ⟨k, hk, i, hi, rfl⟩ := (hmem p).1 hp
      obtain ⟨k', hk', i', hi', rfl⟩ := (hmem q).1 hq
      rw [hrow k i hi] at hv
      rw [hrow k' i' hi'] at hw
      rw [hrow k i hi, hrow k' i' hi'] at hpq
      obtain ⟨g, hg⟩ : ∃ g : ℕ → ℝ, g = fun i : ℕ => 1 + κ * (((i : ℝ) - N) * s) ^ 2 := ⟨_, rfl⟩
      -- the median of the factors
      have hodd : (List.range (2 * N + 1)).length % 2 = 1 := by rw [List.length_range]; omega
      obtain ⟨μ, hμ, hμ2⟩ : ∃ μ, IsMedian g (List.range (2 * N + 1)) μ ∧ 0.2 ≤ μ := by
        obtain ⟨μ, hμ⟩ := npMedian_ok (l := (List.range (2 * N + 1)).map g) (by simp)
        have h1 := isMedian_of_npMedian hμ
        refine ⟨μ, h1, ?_⟩
        by_contra hlt
        push Not at hlt
        have h2 := h1.1
        have h3 : (List.range (2 * N + 1)).filter (fun x => decide (g x ≤ μ)) = [] := by
          rw [List.filter_eq_nil_iff]
          intro x hx
          have := hfac x (List.mem_range.1 hx)
          rw [decide_eq_true_iff, hg]
          push Not
          exact lt_of_lt_of_le hlt this
        rw [h3] at h2
        simp at h2
      have key : ∀ k < K, ∀ v, IsMedian across (ofRow row dots k) v → v = b0 + (o + k * d) * μ := by
        intro k hk v hv
        have h1 := isMedian_map (isMedian_perm hv (hofrow k hk))
        have h2 := isMedian_affine hμ b0 (o + k * d)
        refine isMedian_unique hodd h1 ?_
        have e : (fun x => across (dot k x)) = fun x => b0 + (o + k * d) * g x := by
          funext x
          rw [hyc, hg]
        rw [e]
        exact h2
      rw [key k hk v hv, key k' hk' w hw]
      rw [show b0 + (o + (k' : ℝ) * d) * μ - (b0 + (o + k * d) * μ) = (k' - k) * d * μ by ring, abs_mul, abs_mul, abs_of_pos hd,
        abs_of_pos (by linarith : 0 < μ)]
      have h1 := hkk1 k k' (fun h => hpq h.symm)
      have h2 := mul_le_mul (le_mul_of_one_le_left hd.le h1) hμ2 (by norm_num) (by positivity)
      linarith)
  rw [e, table_of_groups (by omega) hrow hmem hxlt hofrow (fun k k' hkk => ?_) g1 g2 g3 g4]
  unfold meanOf
  rw [List.length_map, List.length_map, List.length_range]
  apply div_lt_div_of_pos_right _ hpos
  rw [List.map_map, List.map_map]
  refine List.sum_lt_sum_of_ne_nil (by simp) _ _ fun i hi => ?_
  simp only [Function.comp_apply, hyc]
  have h1 : (k : ℝ) < k' := by exact_mod_cast hkk
  have h2 := hfac i (List.mem_range.1 hi)
  have h3 : (k : ℝ) * d < k' * d := mul_lt_mul_of_pos_right h1 hd
  have := mul_lt_mul_of_pos_right (show o + (k : ℝ) * d < o + k' * d by linarith) (show 0 < 1 + κ * (((i : ℝ) - N) * s) ^ 2 by linarith)
  linarith

end Discorpy
