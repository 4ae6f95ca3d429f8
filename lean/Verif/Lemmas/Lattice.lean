import Verif.Spec.Lattice
import Verif.Props.C29
import Verif.Spec.Undistorted

/-! # Grouping of the points of a regular grid -/

namespace Discorpy

open Spec

theorem lattice_row_filter {y0 x0 d : ℝ} {K L : ℕ} (hd : 0 < d) {pts : List Pt} (hnd : pts.Nodup)
    (hmem : ∀ c, c ∈ pts ↔ ∃ k < K, ∃ l < L, c = ⟨y0 + (k : ℕ) * d, x0 + (l : ℕ) * d⟩) {k : ℕ} (hk : k < K) :
    (open Classical in pts.filter fun p => decide (p.y = y0 + k * d)).Perm
      ((List.range L).map fun l : ℕ => (⟨y0 + k * d, x0 + l * d⟩ : Pt)) := by
  classical
  rw [List.perm_ext_iff_of_nodup (hnd.filter _)]
  · intro c
    rw [List.mem_filter, hmem, List.mem_map, decide_eq_true_eq]
    constructor
    · rintro ⟨⟨k', hk', l, hl, rfl⟩, e⟩
      refine ⟨l, List.mem_range.2 hl, ?_⟩
      simp only at e
      rw [e]
    · rintro ⟨l, hl, rfl⟩
      exact ⟨⟨k, hk, l, List.mem_range.1 hl, rfl⟩, rfl⟩
  · refine List.Nodup.map_on ?_ List.nodup_range
    intro a _ b _ e
    simp only [Pt.mk.injEq, true_and, add_right_inj, mul_eq_mul_right_iff, Nat.cast_inj, hd.ne', or_false] at e
    exact e

/-- Grouping of a regular grid into its rows. -/
theorem group_lattice (argsort : List ℝ → List ℕ) (hs : ArgsortSpec argsort) {y0 x0 d : ℝ} {K L : ℕ} (hd : 0 < d) (hK : 1 ≤ K) (hL : 2 ≤ L)
    {pts : List Pt} (hnd : pts.Nodup) (hmem : ∀ c, c ∈ pts ↔ ∃ k < K, ∃ l < L, c = ⟨y0 + (k : ℕ) * d, x0 + (l : ℕ) * d⟩)
    {ratio miss acc : ℝ} (hr0 : 0 < ratio) (hr1 : ratio ≤ 1) (hmiss : 1 < miss) (hacc : acc < 1) :
    groupDotsHor argsort pts 0 d ratio miss acc = .ok (latticeRows y0 x0 d K L) := by
  classical
  have hcast : ∀ {a b : ℕ}, (a : ℝ) * d = b * d → a = b := by
    intro a b e
    exact_mod_cast mul_right_cancel₀ hd.ne' e
  have hon : ∀ p q : Pt, OnLine 0 d ratio miss p q ↔ |q.x - p.x| < miss * d ∧ |q.y - p.y| < ratio * d := by
    intro p q
    unfold OnLine
    simp [abs_sub_comm]
  have hlen : ∀ r : ℝ, (∃ k < K, r = y0 + (k : ℕ) * d) → (pts.filter fun p => decide (p.y = r)).length = L := by
    rintro r ⟨k, hk, rfl⟩
    rw [(lattice_row_filter hd hnd hmem hk).length_eq]
    simp
  have hnone : ∀ r : ℝ, (¬ ∃ k < K, r = y0 + (k : ℕ) * d) → (pts.filter fun p => decide (p.y = r)) = [] := by
    intro r hr
    rw [List.filter_eq_nil_iff]
    intro c hc
    obtain ⟨k, hk, l, hl, rfl⟩ := (hmem c).1 hc
    simp only [decide_eq_true_eq]
    intro e
    exact hr ⟨k, hk, e.symm⟩
  obtain ⟨lines, longest, hg, hlong, ⟨r0, hr0'⟩, hlines, hall, hpair, hsort⟩ := C64_rows argsort hs pts 0 d ratio miss acc Pt.y
    (by
      intro p hp q hq _ hpq
      left
      obtain ⟨k, hk, l, hl, rfl⟩ := (hmem p).1 hp
      obtain ⟨k', hk', l', hl', rfl⟩ := (hmem q).1 hq
      rw [hon] at hpq
      obtain ⟨_, h2⟩ := hpq
      simp only at h2 ⊢
      have h3 : |((k' : ℝ) - k) * d| < 1 * d := by
        refine lt_of_lt_of_le ?_ (mul_le_mul_of_nonneg_right hr1 hd.le)
        rwa [show ((k' : ℝ) - k) * d = y0 + k' * d - (y0 + k * d) by ring]
      rw [abs_mul, abs_of_pos hd] at h3
      have h4 := lt_of_mul_lt_mul_right h3 hd.le
      have h5 : |((k' : ℤ) - k)| < 1 := by exact_mod_cast h4
      have h6 : (k' : ℤ) - k = 0 := Int.abs_lt_one_iff.1 h5
      have : k' = k := by omega
      rw [this])
    (by
      intro p hp q hq hrow hlt hbet
      obtain ⟨k, hk, l, hl, rfl⟩ := (hmem p).1 hp
      obtain ⟨k', hk', l', hl', rfl⟩ := (hmem q).1 hq
      simp only at hrow hlt hbet
      have hll : l < l' := by
        have h1 : (l : ℝ) * d < l' * d := by linarith
        exact_mod_cast lt_of_mul_lt_mul_right h1 hd.le
      have hnext : l' = l + 1 := by
        by_contra hc
        refine hbet ⟨y0 + k * d, x0 + (l + 1 : ℕ) * d⟩ ((hmem _).2 ⟨k, hk, l + 1, by omega, rfl⟩) rfl ⟨?_, ?_⟩
        · simp only; push_cast; linarith
        · have : ((l + 1 : ℕ) : ℝ) < l' := by exact_mod_cast (by omega : l + 1 < l')
          have := mul_lt_mul_of_pos_right this hd
          simp only; linarith
      rw [hon]
      subst hnext
      simp only
      rw [← hrow]
      constructor
      · rw [show x0 + ((l + 1 : ℕ) : ℝ) * d - (x0 + l * d) = d by push_cast; ring, abs_of_pos hd]
        nlinarith
      · rw [sub_self, abs_zero]; positivity)
    (by
      have h1 : pts.Pairwise fun p q => p ≠ q := hnd
      refine h1.imp_of_mem ?_
      intro p q hp hq hne hrow hx
      apply hne
      cases p
      cases q
      simp only at hrow hx
      rw [hrow, hx])
    ⟨y0 + (0 : ℕ) * d, by rw [hlen _ ⟨0, by omega, rfl⟩]; exact hL⟩
  have hlongest : longest = L := by
    have h1 := hlong (y0 + (0 : ℕ) * d)
    rw [hlen _ ⟨0, by omega, rfl⟩] at h1
    by_cases h2 : ∃ k < K, r0 = y0 + (k : ℕ) * d
    · rw [hlen _ h2] at hr0'; omega
    · rw [hnone _ h2] at hr0'; simp at hr0'; omega
  have htwo : ∀ l ∈ lines, l ≠ [] := by
    intro l hl h0
    have := ((C29_lines argsort hs pts 0 d ratio miss acc lines hg).2 l hl).1
    rw [h0] at this
    simp at this
  -- each line is one of the rows
  have hrow : ∀ l ∈ lines, ∃ k < K, l = (List.range L).map fun l : ℕ => (⟨y0 + (k : ℕ) * d, x0 + l * d⟩ : Pt) := by
    intro l hl
    obtain ⟨r, hp, hlt⟩ := hlines l hl
    by_cases h2 : ∃ k < K, r = y0 + (k : ℕ) * d
    · obtain ⟨k, hk, rfl⟩ := h2
      refine ⟨k, hk, ?_⟩
      have hp' := hp.trans (lattice_row_filter hd hnd hmem hk)
      refine List.Perm.eq_of_pairwise (le := fun p q : Pt => p.x ≤ q.x ∧ p.y ≤ q.y) ?_ ?_ ?_ hp'
      · intro a b _ _ hab hba
        cases a
        cases b
        simp only at hab hba
        rw [le_antisymm hab.1 hba.1, le_antisymm hab.2 hba.2]
      · refine hlt.imp_of_mem ?_
        intro a b ha hb hab
        have ha' := hp'.mem_iff.1 ha
        have hb' := hp'.mem_iff.1 hb
        rw [List.mem_map] at ha' hb'
        obtain ⟨_, _, rfl⟩ := ha'
        obtain ⟨_, _, rfl⟩ := hb'
        exact ⟨hab.le, le_refl _⟩
      · rw [List.pairwise_map]
        refine List.pairwise_lt_range.imp ?_
        intro a b hab
        have : (a : ℝ) ≤ b := by exact_mod_cast hab.le
        simp only
        exact ⟨by nlinarith, le_refl _⟩
    · rw [hnone _ h2] at hp
      exact absurd hp.eq_nil (htwo l hl)
  rw [hg]
  congr 1
  -- the lines are the rows in their order
  have hmean : ∀ k : ℕ, meanY ((List.range L).map fun l : ℕ => (⟨y0 + (k : ℕ) * d, x0 + l * d⟩ : Pt)) = y0 + k * d := by
    intro k
    unfold meanY
    rw [List.map_map, show (Pt.y ∘ fun l : ℕ => (⟨y0 + (k : ℕ) * d, x0 + l * d⟩ : Pt)) = fun _ => y0 + (k : ℝ) * d from rfl,
      List.map_const', List.sum_replicate, List.length_map, List.length_range, nsmul_eq_mul]
    have : (L : ℝ) ≠ 0 := by exact_mod_cast (by omega : L ≠ 0)
    field_simp
  have hinj : ∀ k k' : ℕ, ((List.range L).map fun l : ℕ => (⟨y0 + (k : ℕ) * d, x0 + l * d⟩ : Pt)) =
      ((List.range L).map fun l : ℕ => (⟨y0 + (k' : ℕ) * d, x0 + l * d⟩ : Pt)) → k = k' := by
    intro k k' e
    have := congrArg meanY e
    rw [hmean, hmean, add_right_inj] at this
    exact hcast this
  have hlnd : lines.Nodup := by
    refine hpair.imp_of_mem ?_
    rintro a b ha hb hab rfl
    obtain ⟨p, hp⟩ := List.exists_mem_of_ne_nil _ (htwo a ha)
    exact hab p hp p hp rfl
  have hperm : lines.Perm (latticeRows y0 x0 d K L) := by
    rw [List.perm_ext_iff_of_nodup hlnd]
    · intro l
      unfold latticeRows
      rw [List.mem_map]
      constructor
      · intro hl
        obtain ⟨k, hk, e⟩ := hrow l hl
        exact ⟨k, List.mem_range.2 hk, e.symm⟩
      · rintro ⟨k, hk, rfl⟩
        have hk' := List.mem_range.1 hk
        obtain ⟨l, hl, hp⟩ := hall (y0 + (k : ℕ) * d) (by rw [hlen _ ⟨k, hk', rfl⟩]; exact hL) (by
          rw [hlen _ ⟨k, hk', rfl⟩, hlongest]
          have : (0 : ℝ) < L := by exact_mod_cast (by omega : 0 < L)
          nlinarith)
        obtain ⟨k', hk'', e⟩ := hrow l hl
        have hm := hp.trans (lattice_row_filter hd hnd hmem hk')
        have h0 : (⟨y0 + (k : ℕ) * d, x0 + (0 : ℕ) * d⟩ : Pt) ∈ l :=
          hm.mem_iff.2 (List.mem_map.2 ⟨0, List.mem_range.2 (by omega), rfl⟩)
        rw [e, List.mem_map] at h0
        obtain ⟨_, _, h1⟩ := h0
        simp only [Pt.mk.injEq, add_right_inj] at h1
        have := hcast h1.1
        rw [← this, ← e]
        exact hl
    · unfold latticeRows
      exact List.Nodup.map_on (fun a _ b _ e => hinj a b e) List.nodup_range
  refine List.Perm.eq_of_pairwise (le := fun a b => meanY a ≤ meanY b) ?_ hsort ?_ hperm
  · intro a b ha hb hab hba
    obtain ⟨k, hk, rfl⟩ := hrow a ha
    unfold latticeRows at hb
    rw [List.mem_map] at hb
    obtain ⟨k', _, rfl⟩ := hb
    rw [hmean, hmean] at hab hba
    have : k = k' := hcast (by linarith)
    rw [this]
  · unfold latticeRows
    rw [List.pairwise_map]
    refine List.pairwise_lt_range.imp ?_
    intro a b hab
    rw [hmean, hmean]
    have : (a : ℝ) ≤ b := by exact_mod_cast hab.le
    nlinarith

/-- Grouping of a regular grid into its columns. -/
theorem group_lattice_ver (argsort : List ℝ → List ℕ) (hs : ArgsortSpec argsort) {y0 x0 d : ℝ} {K L : ℕ} (hd : 0 < d) (hK : 2 ≤ K) (hL : 1 ≤ L)
    {pts : List Pt} (hnd : pts.Nodup) (hmem : ∀ c, c ∈ pts ↔ ∃ k < K, ∃ l < L, c = ⟨y0 + (k : ℕ) * d, x0 + (l : ℕ) * d⟩)
    {ratio miss acc : ℝ} (hr0 : 0 < ratio) (hr1 : ratio ≤ 1) (hmiss : 1 < miss) (hacc : acc < 1) :
    groupDotsVer argsort pts 0 d ratio miss acc = .ok (latticeCols y0 x0 d K L) := by
  have hinj : Function.Injective swapPt := by
    intro a b e
    cases a
    cases b
    simp only [swapPt, Pt.mk.injEq] at e
    rw [e.1, e.2]
  rw [C31_vertical, group_lattice (y0 := x0) (x0 := y0) (K := L) (L := K) argsort hs hd hL hK (hnd.map hinj) ?_ hr0 hr1 hmiss hacc]
  · simp [Except.map, swapLines, latticeRows, latticeCols, swapPt, Function.comp_def]
  · intro c
    rw [List.mem_map]
    constructor
    · rintro ⟨p, hp, rfl⟩
      obtain ⟨k, hk, l, hl, rfl⟩ := (hmem p).1 hp
      exact ⟨l, hl, k, hk, rfl⟩
    · rintro ⟨l, hl, k, hk, rfl⟩
      exact ⟨⟨y0 + k * d, x0 + l * d⟩, (hmem _).2 ⟨k, hk, l, hl, rfl⟩, rfl⟩

end Discorpy
