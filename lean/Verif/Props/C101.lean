import Verif.Lemmas.BentGrid
import Mathlib.Analysis.Complex.Norm

/-! # C101: grouping the dots of a pattern seen through a lens -/

namespace Discorpy

open Spec

/-- **C101 (missing dots).** The dots of a grid seen through a lens, with any dots missing as long as neighbouring dots of a row are at
most `gap` columns apart, are grouped into the rows of the grid, if the lens bends by `ε` with `gap·ε` below the ratio, `miss` dots cover
such a gap, and `ε` is small enough to tell rows apart within `miss` columns — within `gap` stretched columns if no row ends
more than `gap` columns before another one. -/
theorem C101_missing (argsort : List ℝ → List ℕ) (hs : ArgsortSpec argsort) (T : Pt → Pt) (o : Pt) (s d ε ratio miss acc reach : ℝ) (gap : ℕ)
    (cells : List (ℤ × ℤ)) (hnd : cells.Nodup) (hd : 0 < d) (hε : 0 ≤ ε) (hr : ratio < 1)
    (hT : BendsBy ε T fun P => ∃ c ∈ cells, P = gridNode o s d c) (hgap : GapsAtMost gap cells)
    (h1 : gap * ε < ratio) (h2 : gap * (cosOf s + ε) < miss) (h3 : RowsApart s ε ratio reach)
    (hreach : miss ≤ reach ∨ gap * (cosOf s + ε) ≤ reach ∧ EndsWithin gap cells)
    (htwo : ∃ i, 2 ≤ (cells.filter fun c => decide (c.1 = i)).length) :
    ∃ lines longest, groupDotsHor argsort (cells.map fun c => T (gridNode o s d c)) s d ratio miss acc = .ok lines ∧
      (∀ i, (cells.filter fun c => decide (c.1 = i)).length ≤ longest) ∧
      (∃ i, (cells.filter fun c => decide (c.1 = i)).length = longest) ∧
      (∀ l ∈ lines, l ≠ [] ∧ ∃ i, l.Perm ((cells.filter fun c => decide (c.1 = i)).map fun c => T (gridNode o s d c)) ∧
        l.Pairwise (fun p q => p.x < q.x)) ∧
      (∀ i, 2 ≤ (cells.filter fun c => decide (c.1 = i)).length → acc * longest < (cells.filter fun c => decide (c.1 = i)).length →
        ∃ l ∈ lines, l.Perm ((cells.filter fun c => decide (c.1 = i)).map fun c => T (gridNode o s d c))) ∧
      lines.Pairwise (fun a b => ∀ p ∈ a, p ∉ b) ∧ lines.Pairwise fun a b => meanY a ≤ meanY b := by
  have hc := cosOf_pos s
  have hg0 : (0 : ℝ) ≤ gap := Nat.cast_nonneg _
  have hm0 : 0 < miss := lt_of_le_of_lt (mul_nonneg hg0 (by linarith)) h2
  have hr0 : 0 < ratio := lt_of_le_of_lt (mul_nonneg hg0 hε) h1
  have hre : 0 ≤ reach := by
    rcases hreach with h | ⟨h, -⟩
    · linarith
    · exact (mul_nonneg hg0 (by linarith)).trans h
  have hlt := rowsApart_lt h3 hε hr hre
  refine rows_named argsort hs cells (fun c => T (gridNode o s d c)) Prod.fst (mul_pos hm0 hd) (mul_pos hr0 hd) ?_ ?_ ?_ htwo
  · intro a ha b hb hle hon
    exact bent_separated hd hε hr hre hT h3 hgap hreach ha hb hle hon
  · intro a ha b hb hrow hx hno
    exact bent_next hd hε hlt hT hgap h1 h2 ha hb hrow hx hno
  · have h' : cells.Pairwise fun a b => a ≠ b := hnd
    refine h'.imp_of_mem ?_
    intro a b ha hb hne hrow hx
    have k1 := (bent_order hd hε hlt hT ha hb hrow).1
    have k2 := (bent_order hd hε hlt hT hb ha hrow.symm).1
    rw [hx] at k1 k2
    simp only [lt_self_iff_false, false_iff, not_lt] at k1 k2
    exact hne (Prod.ext hrow (le_antisymm k2 k1))

theorem mem_table {f : ℕ → ℕ → Pt} {K L : ℕ} {p : Pt} : p ∈ (tableRows f K L).flatten ↔ ∃ k < K, ∃ l < L, p = f k l := by
  unfold tableRows
  simp only [List.mem_flatten, List.mem_map, List.mem_range]
  constructor
  · rintro ⟨_, ⟨k, hk, rfl⟩, hp⟩
    obtain ⟨l, hl, rfl⟩ := List.mem_map.1 hp
    exact ⟨k, hk, l, List.mem_range.1 hl, rfl⟩
  · rintro ⟨k, hk, l, hl, rfl⟩
    exact ⟨_, ⟨k, hk, rfl⟩, List.mem_map.2 ⟨l, List.mem_range.2 hl, rfl⟩⟩

theorem map_perm_lift {α β : Type} {f : α → β} {l : List β} {m : List α} (h : l.Perm (m.map f)) : ∃ m' : List α, m'.Perm m ∧ l = m'.map f := by
  have h2 : List.Forall₂ (fun b a => b = f a) (m.map f) m := by
    rw [List.forall₂_map_left_iff]
    exact List.forall₂_same.2 fun _ _ => rfl
  obtain ⟨m', k1, k2⟩ := List.perm_comp_forall₂ h h2
  refine ⟨m', k2, ?_⟩
  have : List.Forall₂ (fun b c => b = c) l (m'.map f) := List.forall₂_map_right_iff.2 k1
  rwa [List.forall₂_eq_eq_eq] at this

/-- The indices of a complete grid. -/
def allCells (K L : ℕ) : List (ℤ × ℤ) := ((List.range K).map fun k : ℕ => (List.range L).map fun l : ℕ => ((k : ℤ), (l : ℤ))).flatten

theorem allCells_nodup (K L : ℕ) : (allCells K L).Nodup := by
  unfold allCells
  rw [List.nodup_flatten]
  constructor
  · intro l hl
    obtain ⟨k, _, rfl⟩ := List.mem_map.1 hl
    refine List.Nodup.map_on ?_ List.nodup_range
    intro a _ b _ e
    simpa using e
  · rw [List.pairwise_map]
    refine List.nodup_range.imp ?_
    intro a b hab c h1 h2
    obtain ⟨l, _, rfl⟩ := List.mem_map.1 h1
    obtain ⟨l', _, e⟩ := List.mem_map.1 h2
    simp only [Prod.mk.injEq, Nat.cast_inj] at e
    exact hab e.1.symm

theorem mem_allCells {K L : ℕ} {c : ℤ × ℤ} : c ∈ allCells K L ↔ ∃ k < K, ∃ l < L, c = (((k : ℕ) : ℤ), ((l : ℕ) : ℤ)) := by
  unfold allCells
  simp only [List.mem_flatten, List.mem_map, List.mem_range]
  constructor
  · rintro ⟨_, ⟨k, hk, rfl⟩, hp⟩
    obtain ⟨l, hl, rfl⟩ := List.mem_map.1 hp
    exact ⟨k, hk, l, List.mem_range.1 hl, rfl⟩
  · rintro ⟨k, hk, l, hl, rfl⟩
    exact ⟨_, ⟨k, hk, rfl⟩, List.mem_map.2 ⟨l, List.mem_range.2 hl, rfl⟩⟩

theorem allCells_map (K L : ℕ) (g : ℤ × ℤ → Pt) : (allCells K L).map g = (tableRows (fun k l => g (k, l)) K L).flatten := by
  unfold allCells tableRows
  rw [List.map_flatten, List.map_map]
  congr 1
  apply List.map_congr_left
  intro k _
  simp [Function.comp_def]

theorem meanY_lt {L : ℕ} (hL : 1 ≤ L) {f g : ℕ → Pt} (h : ∀ l < L, (f l).y < (g l).y) :
    meanY ((List.range L).map f) < meanY ((List.range L).map g) := by
  unfold meanY
  have hL' : (0 : ℝ) < L := by exact_mod_cast hL
  rw [List.length_map, List.length_map, List.length_range, List.map_map, List.map_map]
  refine div_lt_div_of_pos_right ?_ hL'
  refine List.sum_lt_sum _ _ (fun l hl => (h l (List.mem_range.1 hl)).le) ⟨0, List.mem_range.2 (by omega), h 0 (by omega)⟩

/-- **C101 (complete grid).** The dots of a complete grid of `K × L` dots seen through a lens, in any order, are grouped into exactly the
`K` rows, from top to bottom, each from left to right. -/
theorem C101_complete (argsort : List ℝ → List ℕ) (hs : ArgsortSpec argsort) (T : Pt → Pt) (o : Pt) (s d ε ratio miss acc : ℝ) (K L : ℕ)
    (hK : 1 ≤ K) (hL : 2 ≤ L) (hd : 0 < d) (hε : 0 ≤ ε) (hr : ratio < 1) (hacc : acc < 1)
    (hT : BendsBy ε T fun P => ∃ k < K, ∃ l < L, P = gridNode o s d (((k : ℕ) : ℤ), ((l : ℕ) : ℤ)))
    (h1 : ε < ratio) (h2 : cosOf s + ε < miss) (h3 : RowsApart s ε ratio (cosOf s + ε))
    (pts : List Pt) (hp : pts.Perm (tableRows (fun k l => T (gridNode o s d (k, l))) K L).flatten) :
    groupDotsHor argsort pts s d ratio miss acc = .ok (tableRows (fun k l => T (gridNode o s d (k, l))) K L) := by
  classical
  have hc := cosOf_pos s
  rw [← allCells_map K L fun c => T (gridNode o s d c)] at hp
  obtain ⟨cells, hperm, rfl⟩ := map_perm_lift hp
  have hnd : cells.Nodup := hperm.nodup_iff.2 (allCells_nodup K L)
  have hmem : ∀ c, c ∈ cells ↔ ∃ k < K, ∃ l < L, c = (((k : ℕ) : ℤ), ((l : ℕ) : ℤ)) := fun c => hperm.mem_iff.trans mem_allCells
  have hT' : BendsBy ε T fun P => ∃ c ∈ cells, P = gridNode o s d c := by
    rintro p q ⟨a, ha, rfl⟩ ⟨b, hb, rfl⟩
    obtain ⟨k, hk, l, hl, rfl⟩ := (hmem a).1 ha
    obtain ⟨k', hk', l', hl', rfl⟩ := (hmem b).1 hb
    exact hT _ _ ⟨k, hk, l, hl, rfl⟩ ⟨k', hk', l', hl', rfl⟩
  have hlt := rowsApart_lt h3 hε hr (by linarith)
  have hrowf : ∀ k < K, (cells.filter fun c => decide (c.1 = ((k : ℕ) : ℤ))).Perm ((List.range L).map fun l : ℕ => (((k : ℕ) : ℤ), (l : ℤ))) := by
    intro k hk
    rw [List.perm_ext_iff_of_nodup (hnd.filter _)]
    · intro c
      rw [List.mem_filter, hmem, List.mem_map, decide_eq_true_eq]
      constructor
      · rintro ⟨⟨k', hk', l, hl, rfl⟩, e⟩
        simp only at e
        exact ⟨l, List.mem_range.2 hl, by rw [e]⟩
      · rintro ⟨l, hl, rfl⟩
        exact ⟨⟨k, hk, l, List.mem_range.1 hl, rfl⟩, rfl⟩
    · refine List.Nodup.map_on ?_ List.nodup_range
      intro a _ b _ e
      simpa using e
  have hlen : ∀ k < K, (cells.filter fun c => decide (c.1 = ((k : ℕ) : ℤ))).length = L := by
    intro k hk
    rw [(hrowf k hk).length_eq]
    simp
  have hnone : ∀ i : ℤ, (¬ ∃ k < K, i = ((k : ℕ) : ℤ)) → (cells.filter fun c => decide (c.1 = i)) = [] := by
    intro i hi
    rw [List.filter_eq_nil_iff]
    intro c hc
    obtain ⟨k, hk, l, hl, rfl⟩ := (hmem c).1 hc
    simp only [decide_eq_true_eq]
    intro e
    exact hi ⟨k, hk, e.symm⟩
  obtain ⟨lines, longest, e, g1, ⟨i0, g2⟩, g3, g4, g5, g6⟩ := C101_missing argsort hs T o s d ε ratio miss acc (cosOf s + ε) 1 cells hnd hd hε hr hT'
    (by
      intro a ha b hb hrow hab hno
      obtain ⟨k, hk, l, hl, rfl⟩ := (hmem a).1 ha
      obtain ⟨k', hk', l', hl', rfl⟩ := (hmem b).1 hb
      simp only at hab hno hrow ⊢
      by_contra hbig
      exact hno (((k : ℕ) : ℤ), ((l + 1 : ℕ) : ℤ)) ((hmem _).2 ⟨k, hk, l + 1, by omega, rfl⟩) rfl ⟨by simp, by push_cast at hbig ⊢; omega⟩)
    (by rw [Nat.cast_one, one_mul]; exact h1) (by rw [Nat.cast_one, one_mul]; exact h2) h3
    (.inr ⟨by rw [Nat.cast_one, one_mul], by
      intro a ha hlast b hb
      obtain ⟨k, hk, l, hl, rfl⟩ := (hmem a).1 ha
      obtain ⟨k', hk', l', hl', rfl⟩ := (hmem b).1 hb
      have := hlast (((k : ℕ) : ℤ), ((L - 1 : ℕ) : ℤ)) ((hmem _).2 ⟨k, hk, L - 1, by omega, rfl⟩) rfl
      simp only at this ⊢
      omega⟩)
    ⟨((0 : ℕ) : ℤ), by rw [hlen 0 (by omega)]; exact hL⟩
  have hlongest : longest = L := by
    have h0 := g1 ((0 : ℕ) : ℤ)
    rw [hlen 0 (by omega)] at h0
    by_cases hi : ∃ k < K, i0 = ((k : ℕ) : ℤ)
    · obtain ⟨k, hk, rfl⟩ := hi
      rw [hlen k hk] at g2
      omega
    · rw [hnone _ hi] at g2
      simp at g2
      omega
  set f : ℕ → ℕ → Pt := fun k l => T (gridNode o s d (k, l)) with hf
  have hrowmap : ∀ k < K, ((cells.filter fun c => decide (c.1 = ((k : ℕ) : ℤ))).map fun c => T (gridNode o s d c)).Perm ((List.range L).map (f k)) := by
    intro k hk
    have := (hrowf k hk).map fun c => T (gridNode o s d c)
    rwa [List.map_map] at this
  have hsorted : ∀ k < K, ((List.range L).map (f k)).Pairwise fun p q => p.x < q.x := by
    intro k hk
    rw [List.pairwise_map]
    refine List.pairwise_lt_range.imp_of_mem ?_
    intro a b ha hb hab
    rw [List.mem_range] at ha hb
    exact (bent_order hd hε hlt hT' ((hmem _).2 ⟨k, hk, a, ha, rfl⟩) ((hmem _).2 ⟨k, hk, b, hb, rfl⟩) rfl).1.2 (by simpa using hab)
  have heq : ∀ k < K, ∀ l ∈ lines, l.Perm ((List.range L).map (f k)) → l.Pairwise (fun p q => p.x < q.x) → l = (List.range L).map (f k) := by
    intro k hk l _ hp hsort
    exact List.Perm.eq_of_pairwise (le := fun p q : Pt => p.x < q.x) (fun a b _ _ h h' => absurd (h.trans h') (lt_irrefl _)) hsort (hsorted k hk) hp
  have hrow : ∀ l ∈ lines, ∃ k < K, l = (List.range L).map (f k) := by
    intro l hl
    obtain ⟨hne, i, hp, hsort⟩ := g3 l hl
    by_cases hi : ∃ k < K, i = ((k : ℕ) : ℤ)
    · obtain ⟨k, hk, rfl⟩ := hi
      exact ⟨k, hk, heq k hk l hl (hp.trans (hrowmap k hk)) hsort⟩
    · rw [hnone _ hi] at hp
      exact absurd hp.eq_nil hne
  have hmean : ∀ k < K, ∀ k' < K, k < k' → meanY ((List.range L).map (f k)) < meanY ((List.range L).map (f k')) := by
    intro k hk k' hk' hkk
    refine meanY_lt (by omega) fun l hl => ?_
    obtain ⟨-, y1, -⟩ := bent_diff hd hε (hT' _ _ ⟨_, (hmem _).2 ⟨k', hk', l, hl, rfl⟩, rfl⟩ ⟨_, (hmem _).2 ⟨k, hk, l, hl, rfl⟩, rfl⟩) rfl rfl
    have hB : (0 : ℝ) < (((k' : ℕ) : ℤ) : ℝ) - (((k : ℕ) : ℤ) : ℝ) := by
      have : (k : ℝ) < k' := by exact_mod_cast hkk
      push_cast
      linarith
    simp only [sub_self, zero_mul, zero_add, abs_zero] at y1
    rw [abs_of_pos hB] at y1
    have := (abs_le.1 y1).1
    have hpos := mul_pos (mul_pos hd hB) (by linarith : 0 < cosOf s - ε)
    show (T _).y < (T _).y
    nlinarith
  have hinj : ∀ k < K, ∀ k' < K, (List.range L).map (f k) = (List.range L).map (f k') → k = k' := by
    intro k hk k' hk' e
    rcases lt_trichotomy k k' with h | h | h
    · exact absurd (congrArg meanY e) (hmean k hk k' hk' h).ne
    · exact h
    · exact absurd (congrArg meanY e) (hmean k' hk' k hk h).ne'
  have hlnd : lines.Nodup := by
    refine g5.imp_of_mem ?_
    rintro a b ha hb hab rfl
    obtain ⟨p, hp⟩ := List.exists_mem_of_ne_nil _ (g3 a ha).1
    exact hab p hp hp
  have hlines : lines.Perm (tableRows f K L) := by
    rw [List.perm_ext_iff_of_nodup hlnd]
    · intro l
      unfold tableRows
      rw [List.mem_map]
      constructor
      · intro hl
        obtain ⟨k, hk, e⟩ := hrow l hl
        exact ⟨k, List.mem_range.2 hk, e.symm⟩
      · rintro ⟨k, hk, rfl⟩
        rw [List.mem_range] at hk
        obtain ⟨l, hl, hpl⟩ := g4 ((k : ℕ) : ℤ) (by rw [hlen k hk]; exact hL) (by
          rw [hlen k hk, hlongest]
          have : (0 : ℝ) < L := by exact_mod_cast (by omega : 0 < L)
          nlinarith)
        obtain ⟨-, i, -, hsort⟩ := g3 l hl
        have := heq k hk l hl (hpl.trans (hrowmap k hk)) hsort
        rw [← show l = List.map (fun l => f k l) (List.range L) from this]
        exact hl
    · unfold tableRows
      exact List.Nodup.map_on (fun a ha b hb e => hinj a (List.mem_range.1 ha) b (List.mem_range.1 hb) e) List.nodup_range
  rw [e]
  congr 1
  refine List.Perm.eq_of_pairwise (le := fun a b => meanY a ≤ meanY b) ?_ g6 ?_ hlines
  · intro a b ha hb hab hba
    obtain ⟨k, hk, rfl⟩ := hrow a ha
    obtain ⟨k', hk', rfl⟩ := hrow b (hlines.mem_iff.2 hb)
    rcases lt_trichotomy k k' with h | h | h
    · exact absurd (hmean k hk k' hk' h) (not_lt.2 hba)
    · rw [h]
    · exact absurd (hmean k' hk' k hk h) (not_lt.2 hab)
  · unfold tableRows
    rw [List.pairwise_map]
    refine List.pairwise_lt_range.imp_of_mem ?_
    intro a b ha hb hab
    exact (hmean a (List.mem_range.1 ha) b (List.mem_range.1 hb) hab).le

theorem cosOf_neg (s : ℝ) : cosOf (-s) = cosOf s := by
  unfold cosOf
  rw [neg_sq]

theorem gridNode_swap (o : Pt) (s d : ℝ) (c : ℤ × ℤ) : gridNode (swapPt o) (-s) d (c.2, c.1) = swapPt (gridNode o s d c) := by
  unfold gridNode swapPt
  simp only [neg_sq, Pt.mk.injEq]
  constructor <;> ring

theorem tableRows_swap (f : ℕ → ℕ → Pt) (K L : ℕ) :
    ((tableRows f K L).flatten).Perm (tableRows (fun l k => f k l) L K).flatten := by
  have h1 := allCells_map K L fun c => f c.1.toNat c.2.toNat
  have h2 := allCells_map L K fun c => f c.2.toNat c.1.toNat
  simp only [Int.toNat_natCast] at h1 h2
  rw [← h1, ← h2]
  have := (List.perm_ext_iff_of_nodup (allCells_nodup K L) ((allCells_nodup L K).map Prod.swap_injective)).2 (by
      intro c
      rw [List.mem_map, mem_allCells]
      constructor
      · rintro ⟨k, hk, l, hl, rfl⟩
        exact ⟨_, mem_allCells.2 ⟨l, hl, k, hk, rfl⟩, rfl⟩
      · rintro ⟨_, h, rfl⟩
        obtain ⟨l, hl, k, hk, rfl⟩ := mem_allCells.1 h
        exact ⟨k, hk, l, hl, rfl⟩)
  have := this.map fun c => f c.1.toNat c.2.toNat
  rw [List.map_map] at this
  exact this

/-- **C101 (columns).** The same dots are grouped into the columns of the grid, from left to right, each from top to bottom. -/
theorem C101_columns (argsort : List ℝ → List ℕ) (hs : ArgsortSpec argsort) (T : Pt → Pt) (o : Pt) (s d ε ratio miss acc : ℝ) (K L : ℕ)
    (hK : 2 ≤ K) (hL : 1 ≤ L) (hd : 0 < d) (hε : 0 ≤ ε) (hr : ratio < 1) (hacc : acc < 1)
    (hT : BendsBy ε T fun P => ∃ k < K, ∃ l < L, P = gridNode o s d (((k : ℕ) : ℤ), ((l : ℕ) : ℤ)))
    (h1 : ε < ratio) (h2 : cosOf s + ε < miss) (h3 : RowsApart s ε ratio (cosOf s + ε))
    (pts : List Pt) (hp : pts.Perm (tableRows (fun k l => T (gridNode o s d (k, l))) K L).flatten) :
    groupDotsVer argsort pts (-s) d ratio miss acc = .ok (tableRows (fun l k => T (gridNode o s d (k, l))) L K) := by
  have hsw : ∀ p, swapPt (swapPt p) = p := fun p => rfl
  rw [C31_vertical, C101_complete argsort hs (fun p => swapPt (T (swapPt p))) (swapPt o) (-s) d ε ratio miss acc L K hL hK hd hε hr hacc
    (by
      rintro p q ⟨l, hl, k, hk, rfl⟩ ⟨l', hl', k', hk', rfl⟩
      have := hT _ _ ⟨k, hk, l, hl, rfl⟩ ⟨k', hk', l', hl', rfl⟩
      rw [gridNode_swap o s d (((k : ℕ) : ℤ), ((l : ℕ) : ℤ)), gridNode_swap o s d (((k' : ℕ) : ℤ), ((l' : ℕ) : ℤ))]
      have e : ∀ p q, ptDist (swapPt p) (swapPt q) = ptDist p q := fun p q => by
        unfold ptDist swapPt
        rw [add_comm]
      have e' : ∀ p, shift (fun p => swapPt (T (swapPt p))) (swapPt p) = swapPt (shift T p) := fun p => rfl
      rw [e', e', e, e]
      exact this)
    h1 (by rw [cosOf_neg]; exact h2) (by unfold RowsApart at *; rw [cosOf_neg, abs_neg]; exact h3)
    (pts.map swapPt)
    (by
      have := (hp.trans (tableRows_swap _ _ _)).map swapPt
      refine this.trans (List.Perm.of_eq ?_)
      unfold tableRows
      rw [List.map_flatten, List.map_map]
      congr 1
      apply List.map_congr_left
      intro l _
      simp only [Function.comp_def, List.map_map]
      apply List.map_congr_left
      intro k _
      rw [gridNode_swap o s d (((k : ℕ) : ℤ), ((l : ℕ) : ℤ)), hsw])]
  simp only [Except.map, swapLines]
  congr 1
  unfold tableRows
  rw [List.map_map]
  apply List.map_congr_left
  intro l _
  simp only [Function.comp_def, List.map_map]
  apply List.map_congr_left
  intro k _
  rw [gridNode_swap o s d (((k : ℕ) : ℤ), ((l : ℕ) : ℤ)), hsw, hsw]

/-- A point as a complex number. -/
def toC (p : Pt) : ℂ := ⟨p.x, p.y⟩

theorem ptDist_toC (p q : Pt) : ptDist p q = ‖toC p - toC q‖ := by
  rw [Complex.norm_eq_sqrt_sq_add_sq]
  rfl

theorem pow_bend {R r t : ℝ} {v w : ℂ} (n : ℕ) (hv : ‖v‖ = r) (hw : ‖w‖ = t) (h1 : r ≤ R) (h2 : t ≤ R) :
    ‖(r ^ n : ℝ) * v - (t ^ n : ℝ) * w‖ ≤ (n + 1) * R ^ n * ‖v - w‖ := by
  have hr : 0 ≤ r := hv ▸ norm_nonneg _
  have ht : 0 ≤ t := hw ▸ norm_nonneg _
  have hR : 0 ≤ R := hr.trans h1
  induction n with
  | zero => simp
  | succ n ih =>
    have e : ((r ^ (n + 1) : ℝ) : ℂ) * v - (t ^ (n + 1) : ℝ) * w = r * ((r ^ n : ℝ) * v - (t ^ n : ℝ) * w) + (r - t) * ((t ^ n : ℝ) * w) := by
      push_cast
      ring
    rw [e]
    have h3 : |r - t| ≤ ‖v - w‖ := by
      rw [← hv, ← hw]
      exact abs_norm_sub_norm_le _ _
    calc ‖r * ((r ^ n : ℝ) * v - (t ^ n : ℝ) * w) + (r - t) * ((t ^ n : ℝ) * w)‖
        ≤ ‖r * ((r ^ n : ℝ) * v - (t ^ n : ℝ) * w)‖ + ‖((r : ℂ) - t) * ((t ^ n : ℝ) * w)‖ := norm_add_le _ _
      _ = r * ‖(r ^ n : ℝ) * v - (t ^ n : ℝ) * w‖ + |r - t| * (t ^ n * t) := by
          rw [norm_mul, norm_mul, norm_mul, hw, Complex.norm_real, Complex.norm_real, ← Complex.ofReal_sub, Complex.norm_real,
            Real.norm_eq_abs, Real.norm_eq_abs, Real.norm_eq_abs, abs_of_nonneg hr, abs_of_nonneg (pow_nonneg ht n)]
      _ ≤ R * ((n + 1) * R ^ n * ‖v - w‖) + ‖v - w‖ * (R ^ n * R) := by
          refine add_le_add (mul_le_mul h1 ih (norm_nonneg _) hR) (mul_le_mul h3 ?_ (by positivity) (norm_nonneg _))
          exact mul_le_mul (pow_le_pow_left₀ ht h2 n) h2 ht (by positivity)
      _ = ((n + 1 : ℕ) + 1) * R ^ (n + 1) * ‖v - w‖ := by
          push_cast
          ring

/-- **C101 (radial model).** Within distance `R` of the centre a lens with radial coefficients `k₀, k₁, …` bends by
`|k₀ - 1| + 2·|k₁|·R + 3·|k₂|·R² + …`. -/
theorem C101_radial (c : Pt) (coefs : List ℝ) (hne : coefs ≠ []) (R : ℝ) :
    BendsBy (bendBound coefs R) (radialMap c coefs) fun P => ptDist P c ≤ R := by
  intro p q hp hq
  have key : ∀ p, toC (shift (radialMap c coefs) p) =
      ∑ i : Fin coefs.length, ((coefs[i] - if (i : ℕ) = 0 then 1 else 0 : ℝ) : ℂ) * (((ptDist p c) ^ (i : ℕ) : ℝ) * (toC p - toC c)) := by
    intro p
    have hsum : ∑ i : Fin coefs.length, (coefs[i] - if (i : ℕ) = 0 then 1 else 0) * ptDist p c ^ (i : ℕ) = radial coefs (ptDist p c) - 1 := by
      unfold radial
      simp only [sub_mul, Finset.sum_sub_distrib]
      congr 1
      have h0 : 0 < coefs.length := List.length_pos_iff.2 hne
      rw [Finset.sum_eq_single (⟨0, h0⟩ : Fin coefs.length)]
      · simp
      · intro i _ hi
        have : (i : ℕ) ≠ 0 := fun h => hi (Fin.ext h)
        simp [this]
      · simp
    have : ∀ i : Fin coefs.length, ((coefs[i] - if (i : ℕ) = 0 then 1 else 0 : ℝ) : ℂ) * (((ptDist p c) ^ (i : ℕ) : ℝ) * (toC p - toC c)) =
        (((coefs[i] - if (i : ℕ) = 0 then 1 else 0) * ptDist p c ^ (i : ℕ) : ℝ) : ℂ) * (toC p - toC c) := by
      intro i
      push_cast
      ring
    rw [Finset.sum_congr rfl fun i _ => this i, ← Finset.sum_mul, ← Complex.ofReal_sum, hsum]
    apply Complex.ext
    · simp [toC, shift, radialMap]
      ring
    · simp [toC, shift, radialMap]
      ring
  rw [ptDist_toC, key, key, ← Finset.sum_sub_distrib, ptDist_toC p q]
  unfold bendBound
  rw [Finset.sum_mul]
  refine (norm_sum_le _ _).trans (Finset.sum_le_sum fun i _ => ?_)
  rw [← mul_sub, norm_mul, Complex.norm_real, Real.norm_eq_abs]
  have := pow_bend (i : ℕ) (ptDist_toC p c).symm (ptDist_toC q c).symm hp hq
  rw [sub_sub_sub_cancel_right] at this
  calc _ ≤ |coefs[i] - if (i : ℕ) = 0 then 1 else 0| * (((i : ℕ) + 1) * R ^ (i : ℕ) * ‖toC p - toC q‖) :=
        mul_le_mul_of_nonneg_left this (abs_nonneg _)
    _ = _ := by ring

/-- **C101 (default settings).** With the default settings of the two functions, a complete upright grid of dots within distance `R` of the
centre of a lens with `|k₀ - 1| + 2·|k₁|·R + 3·|k₂|·R² + … ≤ 0.23` is grouped into exactly its rows and its columns. -/
theorem C101_default (argsort : List ℝ → List ℕ) (hs : ArgsortSpec argsort) (c o : Pt) (coefs : List ℝ) (hne : coefs ≠ []) (R d : ℝ) (K L : ℕ)
    (hK : 2 ≤ K) (hL : 2 ≤ L) (hd : 0 < d) (hin : ∀ k < K, ∀ l < L, ptDist (gridNode o 0 d (((k : ℕ) : ℤ), ((l : ℕ) : ℤ))) c ≤ R)
    (hbend : bendBound coefs R ≤ 0.23)
    (pts : List Pt) (hp : pts.Perm (tableRows (fun k l => radialMap c coefs (gridNode o 0 d (k, l))) K L).flatten) :
    groupDotsHor argsort pts 0 d 0.3 6 0.65 = .ok (tableRows (fun k l => radialMap c coefs (gridNode o 0 d (k, l))) K L) ∧
    groupDotsVer argsort pts 0 d 0.3 6 0.65 = .ok (tableRows (fun l k => radialMap c coefs (gridNode o 0 d (k, l))) L K) := by
  have hR : 0 ≤ R := by
    refine le_trans ?_ (hin 0 (by omega) 0 (by omega))
    unfold ptDist
    positivity
  have h0 : 0 ≤ bendBound coefs R := Finset.sum_nonneg fun i _ => by positivity
  have hT : BendsBy (bendBound coefs R) (radialMap c coefs)
      fun P => ∃ k < K, ∃ l < L, P = gridNode o 0 d (((k : ℕ) : ℤ), ((l : ℕ) : ℤ)) := by
    rintro p q ⟨k, hk, l, hl, rfl⟩ ⟨k', hk', l', hl', rfl⟩
    exact C101_radial c coefs hne R _ _ (hin k hk l hl) (hin k' hk' l' hl')
  have hc : cosOf 0 = 1 := by simp [cosOf]
  have h3 : RowsApart 0 (bendBound coefs R) 0.3 (cosOf 0 + bendBound coefs R) := by
    unfold RowsApart
    rw [hc, abs_zero]
    nlinarith
  refine ⟨C101_complete argsort hs _ o 0 d _ 0.3 6 0.65 K L (by omega) hL hd h0 (by norm_num) (by norm_num) hT (by linarith) (by rw [hc]; linarith)
    h3 pts hp, ?_⟩
  have := C101_columns argsort hs _ o 0 d _ 0.3 6 0.65 K L hK (by omega) hd h0 (by norm_num) (by norm_num) hT (by linarith) (by rw [hc]; linarith)
    h3 pts hp
  rwa [neg_zero] at this

/-- Non-vacuity: a 3 × 4 grid with distance 10 about the centre of the lens `1 + r/1000`, dots up to 20 from it. -/
example (pts : List Pt) (hp : pts.Perm (tableRows (fun k l => radialMap ⟨0, 0⟩ [1, 1 / 1000] (gridNode ⟨-10, -15⟩ 0 10 (k, l))) 3 4).flatten) :
    groupDotsHor refArgsort pts 0 10 0.3 6 0.65 = .ok (tableRows (fun k l => radialMap ⟨0, 0⟩ [1, 1 / 1000] (gridNode ⟨-10, -15⟩ 0 10 (k, l))) 3 4) := by
  refine (C101_default refArgsort refArgsort_spec ⟨0, 0⟩ ⟨-10, -15⟩ [1, 1 / 1000] (by simp) 20 10 3 4 (by norm_num) (by norm_num) (by norm_num) ?_ ?_
    pts hp).1
  · intro k hk l hl
    unfold ptDist gridNode
    rw [Real.sqrt_le_iff]
    refine ⟨by norm_num, ?_⟩
    have h1 : (k : ℝ) ≤ 2 := by exact_mod_cast (by omega : k ≤ 2)
    have h2 : (l : ℝ) ≤ 3 := by exact_mod_cast (by omega : l ≤ 3)
    have h3 : (0 : ℝ) ≤ k := Nat.cast_nonneg k
    have h4 : (0 : ℝ) ≤ l := Nat.cast_nonneg l
    norm_num
    nlinarith [mul_nonneg h3 (by linarith : (0 : ℝ) ≤ 2 - k), mul_nonneg h4 (by linarith : (0 : ℝ) ≤ 3 - l)]
  · have hb : bendBound [1, 1 / 1000] 20 = 0.04 := (Fin.sum_univ_two _).trans (by norm_num)
    rw [hb]
    norm_num

/-- Non-vacuity: two rows with missing dots (gaps of two columns) through the same lens. -/
example : ∃ lines, groupDotsHor refArgsort (([(1, 3), (0, 0), (0, 2), (1, 0), (0, 3), (1, 1)] : List (ℤ × ℤ)).map
      fun c => radialMap ⟨0, 0⟩ [1, 1 / 1000] (gridNode ⟨0, 0⟩ 0 10 c)) 0 10 0.3 6 0.65 = .ok lines ∧
    ∃ l ∈ lines, l.Perm (([(0, 0), (0, 2), (0, 3)] : List (ℤ × ℤ)).map fun c => radialMap ⟨0, 0⟩ [1, 1 / 1000] (gridNode ⟨0, 0⟩ 0 10 c)) := by
  have hc : cosOf 0 = 1 := by simp [cosOf]
  have hb : bendBound [1, 1 / 1000] 40 = 0.08 := (Fin.sum_univ_two _).trans (by norm_num)
  have hin : ∀ e ∈ ([(1, 3), (0, 0), (0, 2), (1, 0), (0, 3), (1, 1)] : List (ℤ × ℤ)), ptDist (gridNode ⟨0, 0⟩ 0 10 e) ⟨0, 0⟩ ≤ 40 := by
    intro e he
    simp only [List.mem_cons, List.not_mem_nil, or_false] at he
    unfold ptDist gridNode
    rw [Real.sqrt_le_iff]
    rcases he with rfl | rfl | rfl | rfl | rfl | rfl <;> norm_num
  obtain ⟨lines, longest, e, g1, ⟨i, g2⟩, g3, g4, -⟩ := C101_missing refArgsort refArgsort_spec (radialMap ⟨0, 0⟩ [1, 1 / 1000]) ⟨0, 0⟩ 0 10
    (bendBound [1, 1 / 1000] 40) 0.3 6 0.65 2.16 2 [(1, 3), (0, 0), (0, 2), (1, 0), (0, 3), (1, 1)] (by decide) (by norm_num) (by rw [hb]; norm_num)
    (by norm_num)
    (by
      rintro p q ⟨a, ha, rfl⟩ ⟨b, hb, rfl⟩
      exact C101_radial _ _ (by simp) _ _ _ (hin a ha) (hin b hb))
    (by unfold GapsAtMost; decide) (by rw [hb]; norm_num) (by rw [hb, hc]; norm_num) (by unfold RowsApart; rw [hb, hc]; norm_num)
    (.inr ⟨by rw [hb, hc]; norm_num, by unfold EndsWithin; decide⟩) ⟨0, by decide⟩
  have hlong : longest ≤ 3 := by
    rw [← g2]
    by_cases h0 : i = 0
    · subst h0; decide
    · by_cases h1 : i = 1
      · subst h1; decide
      · rw [List.filter_eq_nil_iff.2]
        · simp
        · intro c hc
          simp only [List.mem_cons, List.not_mem_nil, or_false] at hc
          rcases hc with rfl | rfl | rfl | rfl | rfl | rfl <;> simp [Ne.symm h0, Ne.symm h1]
  have hlong' : (longest : ℝ) ≤ 3 := by exact_mod_cast hlong
  obtain ⟨l, hl, hp⟩ := g4 0 (by decide) (by
    rw [show (([(1, 3), (0, 0), (0, 2), (1, 0), (0, 3), (1, 1)] : List (ℤ × ℤ)).filter fun c => decide (c.1 = 0)).length = 3 by decide]
    push_cast
    linarith)
  exact ⟨lines, e, l, hl, hp⟩

end Discorpy
