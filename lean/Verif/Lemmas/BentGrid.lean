import Verif.Spec.BentGrid
import Verif.Props.C29

/-! # Helper lemmas: grouping the dots of a bent grid -/

namespace Discorpy

open Spec

theorem onLine_refl {slope dist ratio miss : ℝ} (h1 : 0 < miss * dist) (h2 : 0 < ratio * dist) (p : Pt) : OnLine slope dist ratio miss p p := by
  unfold OnLine
  simp only [sub_self, mul_zero, abs_zero, zero_div]
  exact ⟨h1, h2⟩

/-- `C64_rows` for dots with names. -/
theorem rows_named {α ι : Type} [DecidableEq ι] (argsort : List ℝ → List ℕ) (hs : ArgsortSpec argsort) (cells : List α) (pos : α → Pt) (row : α → ι)
    {slope dist ratio miss acc : ℝ} (h1 : 0 < miss * dist) (h2 : 0 < ratio * dist)
    (hsep : ∀ a ∈ cells, ∀ b ∈ cells, (pos a).x ≤ (pos b).x → OnLine slope dist ratio miss (pos a) (pos b) →
      row a = row b ∨ ∃ e ∈ cells, row e = row a ∧ (pos a).x < (pos e).x ∧ (pos e).x < (pos b).x)
    (hnext : ∀ a ∈ cells, ∀ b ∈ cells, row a = row b → (pos a).x < (pos b).x →
      (∀ e ∈ cells, row e = row a → ¬ ((pos a).x < (pos e).x ∧ (pos e).x < (pos b).x)) → OnLine slope dist ratio miss (pos a) (pos b))
    (hx : cells.Pairwise fun a b => row a = row b → (pos a).x ≠ (pos b).x)
    (htwo : ∃ r, 2 ≤ (cells.filter fun a => decide (row a = r)).length) :
    ∃ lines longest, groupDotsHor argsort (cells.map pos) slope dist ratio miss acc = .ok lines ∧
      (∀ r, (cells.filter fun a => decide (row a = r)).length ≤ longest) ∧
      (∃ r, (cells.filter fun a => decide (row a = r)).length = longest) ∧
      (∀ l ∈ lines, l ≠ [] ∧ ∃ r, l.Perm ((cells.filter fun a => decide (row a = r)).map pos) ∧ l.Pairwise (fun p q => p.x < q.x)) ∧
      (∀ r, 2 ≤ (cells.filter fun a => decide (row a = r)).length →
        acc * longest < (cells.filter fun a => decide (row a = r)).length →
        ∃ l ∈ lines, l.Perm ((cells.filter fun a => decide (row a = r)).map pos)) ∧
      lines.Pairwise (fun a b => ∀ p ∈ a, p ∉ b) ∧
      lines.Pairwise fun a b => meanY a ≤ meanY b := by
  classical
  obtain ⟨r0, hr0⟩ := id htwo
  have : Nonempty α := by
    obtain ⟨a, -⟩ := List.exists_mem_of_length_pos (by omega : 0 < (cells.filter fun a => decide (row a = r0)).length)
    exact ⟨a⟩
  obtain ⟨row', hrow'⟩ : ∃ row' : Pt → ι, ∀ a ∈ cells, row' (pos a) = row a := by
    refine ⟨fun p => row (Function.invFunOn pos {a | a ∈ cells} p), fun a ha => ?_⟩
    have hex : ∃ b ∈ {a | a ∈ cells}, pos b = pos a := ⟨a, ha, rfl⟩
    have e := Function.invFunOn_eq hex
    have hm := Function.invFunOn_mem hex
    simp only
    rcases hsep _ hm a ha (by rw [e]) (by rw [e]; exact onLine_refl h1 h2 _) with h | ⟨b, _, _, h3, h4⟩
    · exact h
    · rw [e] at h3
      exact absurd (h3.trans h4) (lt_irrefl _)
  have hfil : ∀ r, (cells.map pos).filter (fun p => decide (row' p = r)) = (cells.filter fun a => decide (row a = r)).map pos := by
    intro r
    rw [List.filter_map]
    congr 1
    apply List.filter_congr
    intro a ha
    simp [hrow' a ha]
  have hlen : ∀ r, ((cells.map pos).filter fun p => decide (row' p = r)).length = (cells.filter fun a => decide (row a = r)).length := by
    intro r
    rw [hfil, List.length_map]
  obtain ⟨lines, longest, e, g1, g2, g3, g4, g5, g6⟩ := C64_rows argsort hs (cells.map pos) slope dist ratio miss acc row'
    (by
      simp only [List.mem_map, forall_exists_index, and_imp, forall_apply_eq_imp_iff₂]
      intro a ha b hb hab ho
      rw [hrow' a ha, hrow' b hb]
      rcases hsep a ha b hb hab ho with h | ⟨e, he, k1, k2, k3⟩
      · exact .inl h
      · exact .inr ⟨pos e, ⟨e, he, rfl⟩, (hrow' e he).trans k1, k2, k3⟩)
    (by
      simp only [List.mem_map, forall_exists_index, and_imp, forall_apply_eq_imp_iff₂]
      intro a ha b hb hab hlt hno
      rw [hrow' a ha, hrow' b hb] at hab
      refine hnext a ha b hb hab hlt fun e he hr => ?_
      have := hno e he (by rw [hrow' a ha, hrow' e he]; exact hr)
      tauto)
    (by
      rw [List.pairwise_map]
      refine hx.imp_of_mem ?_
      intro a b ha hb h hr
      rw [hrow' a ha, hrow' b hb] at hr
      exact h hr)
    ⟨r0, by rw [hlen]; exact hr0⟩
  simp only [hfil, List.length_map] at g1 g2 g3 g4
  refine ⟨lines, longest, e, g1, g2, fun l hl => ⟨?_, g3 l hl⟩, g4, g5.imp fun h p hp hq => h p hp p hq rfl, g6⟩
  intro h0
  have := ((C29_lines argsort hs _ _ _ _ _ _ lines e).2 l hl).1
  rw [h0] at this
  simp at this

theorem cosOf_pos (s : ℝ) : 0 < cosOf s := by
  unfold cosOf
  positivity

theorem cosOf_sq (s : ℝ) : cosOf s ^ 2 * (1 + s ^ 2) = 1 := by
  unfold cosOf
  rw [div_pow, Real.sq_sqrt (by positivity)]
  field_simp

theorem sum_le_of_sq {u v w : ℝ} (hw : √(u ^ 2 + v ^ 2) ≤ w) {α β : ℝ} (h : α ^ 2 + β ^ 2 ≤ 1) : |α * u + β * v| ≤ w := by
  refine le_trans (Real.abs_le_sqrt ?_) hw
  nlinarith [sq_nonneg (α * v - β * u), sq_nonneg u, sq_nonneg v]

/-- Differences of the coordinates of two dots of a bent grid. -/
theorem bent_diff {T : Pt → Pt} {o : Pt} {s d ε : ℝ} (hd : 0 < d) (hε : 0 ≤ ε) {a b : ℤ × ℤ}
    (h : ptDist (shift T (gridNode o s d b)) (shift T (gridNode o s d a)) ≤ ε * ptDist (gridNode o s d b) (gridNode o s d a))
    {A B : ℝ} (hA : A = b.2 - a.2) (hB : B = b.1 - a.1) :
    |(T (gridNode o s d b)).x - (T (gridNode o s d a)).x - d * (A - B * s) * cosOf s| ≤ ε * d * (|A| + |B|) ∧
    |(T (gridNode o s d b)).y - (T (gridNode o s d a)).y - d * (A * s + B) * cosOf s| ≤ ε * d * (|A| + |B|) ∧
    |(s * ((T (gridNode o s d b)).x - (T (gridNode o s d a)).x) - ((T (gridNode o s d b)).y - (T (gridNode o s d a)).y)) * cosOf s + d * B| ≤
      ε * d * (|A| + |B|) := by
  have hc := cosOf_sq s
  have ex : ∀ e : ℤ × ℤ, (gridNode o s d e).x = o.x + d * (e.2 - e.1 * s) * cosOf s := by
    intro e
    unfold gridNode cosOf
    ring
  have ey : ∀ e : ℤ × ℤ, (gridNode o s d e).y = o.y + d * (e.2 * s + e.1) * cosOf s := by
    intro e
    unfold gridNode cosOf
    ring
  have hP : ptDist (gridNode o s d b) (gridNode o s d a) ≤ d * (|A| + |B|) := by
    unfold ptDist
    rw [ex, ex, ey, ey]
    apply Real.sqrt_le_iff.2
    refine ⟨by positivity, ?_⟩
    have : (o.x + d * (b.2 - b.1 * s) * cosOf s - (o.x + d * (a.2 - a.1 * s) * cosOf s)) ^ 2 +
        (o.y + d * (b.2 * s + b.1) * cosOf s - (o.y + d * (a.2 * s + a.1) * cosOf s)) ^ 2 = d ^ 2 * (A ^ 2 + B ^ 2) := by
      rw [hA, hB]
      linear_combination (d ^ 2 * ((b.2 - a.2 : ℝ) ^ 2 + (b.1 - a.1 : ℝ) ^ 2)) * hc
    rw [this, mul_pow, add_sq, sq_abs, sq_abs]
    have := mul_nonneg (abs_nonneg A) (abs_nonneg B)
    nlinarith [sq_nonneg d]
  have hN := h.trans (mul_le_mul_of_nonneg_left hP hε)
  unfold ptDist shift at hN
  simp only at hN
  rw [← mul_assoc] at hN
  refine ⟨?_, ?_, ?_⟩
  · have := sum_le_of_sq hN (α := 1) (β := 0) (by norm_num)
    convert this using 2
    rw [ex, ex, hA, hB]
    ring
  · have := sum_le_of_sq hN (α := 0) (β := 1) (by norm_num)
    convert this using 2
    rw [ey, ey, hA, hB]
    ring
  · have := sum_le_of_sq hN (α := s * cosOf s) (β := -cosOf s) (by nlinarith)
    convert this using 2
    rw [ex, ex, ey, ey, hB]
    linear_combination -(d * (b.1 - a.1)) * hc

theorem onLine_cos {slope dist ratio miss : ℝ} {p q : Pt} : OnLine slope dist ratio miss p q ↔
    |q.x - p.x| < miss * dist ∧ |(slope * (q.x - p.x) - (q.y - p.y)) * cosOf slope| < ratio * dist := by
  unfold OnLine
  rw [abs_mul, abs_of_pos (cosOf_pos slope)]
  unfold cosOf
  rw [mul_one_div]

theorem rowsApart_lt {s ε ratio reach : ℝ} (h : RowsApart s ε ratio reach) (hε : 0 ≤ ε) (hr : ratio < 1) (hm : 0 ≤ reach) : ε < cosOf s := by
  unfold RowsApart at h
  have hc := cosOf_pos s
  have hs := mul_nonneg (abs_nonneg s) hc.le
  by_contra hn
  push Not at hn
  have h0 : 0 < ε := hc.trans_le hn
  nlinarith [mul_le_mul_of_nonneg_right hn (by linarith : (0 : ℝ) ≤ 1 - ratio), mul_pos h0 hc, mul_nonneg hε hm, mul_nonneg hε hs]

/-- A dot of another row close in the direction of the rows is not on a line with the first one. -/
theorem bent_apart {s d ε ratio reach A B n : ℝ} (hd : 0 < d) (hε : 0 ≤ ε) (hr : ratio < 1) (hm : 0 ≤ reach) (ha : RowsApart s ε ratio reach)
    (hB : 1 ≤ |B|) (hA : |A| * (cosOf s - ε) ≤ reach + |B| * (|s| * cosOf s + ε)) (hn : |n + d * B| ≤ ε * d * (|A| + |B|)) :
    ¬ |n| < ratio * d := by
  intro h
  have hlt := rowsApart_lt ha hε hr hm
  unfold RowsApart at ha
  have hc := cosOf_pos s
  set c := cosOf s
  have h1 : d * |B| ≤ |n| + ε * d * (|A| + |B|) := by
    have : d * |B| = |d * B| := by rw [abs_mul, abs_of_pos hd]
    rw [this]
    calc |d * B| = |(n + d * B) - n| := by ring_nf
      _ ≤ |n + d * B| + |n| := abs_sub _ _
      _ ≤ _ := by linarith
  have h2 : |B| < ratio + ε * (|A| + |B|) := by
    have : d * |B| < d * (ratio + ε * (|A| + |B|)) := by linarith
    exact lt_of_mul_lt_mul_left this hd.le
  have h3 : |B| * (1 - ε) * (c - ε) < ratio * (c - ε) + ε * (reach + |B| * (|s| * c + ε)) := by
    have e1 := mul_lt_mul_of_pos_right h2 (by linarith : 0 < c - ε)
    have e2 := mul_le_mul_of_nonneg_left hA hε
    nlinarith
  have h4 : ε * reach ≤ |B| * (ε * reach) := le_mul_of_one_le_left (mul_nonneg hε hm) hB
  have h5 : ratio * (c - ε) ≤ |B| * (ratio * (c - ε)) ∨ ratio < 0 := by
    rcases le_or_gt 0 ratio with h | h
    · exact .inl (le_mul_of_one_le_left (mul_nonneg h (by linarith)) hB)
    · exact .inr h
  rcases h5 with h5 | h5
  · have h6 : |B| * ((1 - ε) * (c - ε)) < |B| * (ratio * (c - ε) + ε * reach + ε * (|s| * c + ε)) := by linarith
    have h7 := lt_of_mul_lt_mul_left h6 (abs_nonneg B)
    nlinarith
  · have := abs_nonneg n
    nlinarith

theorem shift_self (T : Pt → Pt) (p : Pt) : ptDist (shift T p) (shift T p) = 0 := by
  unfold ptDist
  simp

section

variable {T : Pt → Pt} {o : Pt} {s d ε : ℝ} {cells : List (ℤ × ℤ)}

/-- Dots of one row are in the order of their columns. -/
theorem bent_order (hd : 0 < d) (hε : 0 ≤ ε) (hlt : ε < cosOf s) (hT : BendsBy ε T fun P => ∃ c ∈ cells, P = gridNode o s d c)
    {a b : ℤ × ℤ} (ha : a ∈ cells) (hb : b ∈ cells) (hrow : a.1 = b.1) :
    ((T (gridNode o s d a)).x < (T (gridNode o s d b)).x ↔ a.2 < b.2) ∧
      (a.2 < b.2 → (T (gridNode o s d b)).x - (T (gridNode o s d a)).x ≤ d * (b.2 - a.2) * (cosOf s + ε)) := by
  obtain ⟨h1, -, -⟩ := bent_diff hd hε (hT _ _ ⟨b, hb, rfl⟩ ⟨a, ha, rfl⟩) rfl rfl
  rw [hrow, sub_self, abs_zero, zero_mul, sub_zero, add_zero] at h1
  have h2 := abs_le.1 h1
  refine ⟨⟨fun h => ?_, fun h => ?_⟩, fun h => ?_⟩
  · by_contra hn
    push Not at hn
    have hn' : (b.2 : ℝ) ≤ a.2 := by exact_mod_cast hn
    rw [abs_of_nonpos (by linarith)] at h2
    nlinarith [mul_nonneg (mul_nonneg hd.le (by linarith : (0 : ℝ) ≤ a.2 - b.2)) (by linarith : 0 ≤ cosOf s - ε)]
  · have h' : (a.2 : ℝ) < b.2 := by exact_mod_cast h
    rw [abs_of_pos (by linarith)] at h2
    nlinarith [mul_pos (mul_pos hd (by linarith : (0 : ℝ) < b.2 - a.2)) (by linarith : 0 < cosOf s - ε)]
  · have h' : (a.2 : ℝ) < b.2 := by exact_mod_cast h
    rw [abs_of_pos (by linarith)] at h2
    nlinarith

theorem next_cell {a : ℤ × ℤ} (h : ∃ e ∈ cells, e.1 = a.1 ∧ a.2 < e.2) :
    ∃ e ∈ cells, e.1 = a.1 ∧ a.2 < e.2 ∧ ∀ e' ∈ cells, e'.1 = a.1 → ¬ (a.2 < e'.2 ∧ e'.2 < e.2) := by
  classical
  obtain ⟨e, he, hm⟩ := Finset.exists_min_image (cells.toFinset.filter fun e => e.1 = a.1 ∧ a.2 < e.2) (fun e => e.2) (by
    obtain ⟨e, he, h1, h2⟩ := h
    exact ⟨e, by simp [he, h1, h2]⟩)
  simp only [Finset.mem_filter, List.mem_toFinset] at he hm
  refine ⟨e, he.1, he.2.1, he.2.2, fun e' he' h1 h2 => ?_⟩
  have := hm e' ⟨he', h1, h2.1⟩
  omega

/-- The dots of a bent grid meet the conditions of `rows_named`. -/
theorem bent_separated {ratio miss reach : ℝ} {gap : ℕ} (hd : 0 < d) (hε : 0 ≤ ε) (hr : ratio < 1) (hm : 0 ≤ reach)
    (hT : BendsBy ε T fun P => ∃ c ∈ cells, P = gridNode o s d c) (hap : RowsApart s ε ratio reach) (hgap : GapsAtMost gap cells)
    (hreach : miss ≤ reach ∨ gap * (cosOf s + ε) ≤ reach ∧ EndsWithin gap cells)
    {a b : ℤ × ℤ} (ha : a ∈ cells) (hb : b ∈ cells) (hle : (T (gridNode o s d a)).x ≤ (T (gridNode o s d b)).x)
    (hon : OnLine s d ratio miss (T (gridNode o s d a)) (T (gridNode o s d b))) :
    a.1 = b.1 ∨ ∃ e ∈ cells, e.1 = a.1 ∧ (T (gridNode o s d a)).x < (T (gridNode o s d e)).x ∧
      (T (gridNode o s d e)).x < (T (gridNode o s d b)).x := by
  by_contra hn
  push Not at hn
  obtain ⟨hrow, hno⟩ := hn
  have hlt := rowsApart_lt hap hε hr hm
  have hc := cosOf_pos s
  rw [onLine_cos] at hon
  obtain ⟨o1, o2⟩ := hon
  obtain ⟨A, hA⟩ : ∃ A : ℝ, A = b.2 - a.2 := ⟨_, rfl⟩
  obtain ⟨B, hB⟩ : ∃ B : ℝ, B = b.1 - a.1 := ⟨_, rfl⟩
  obtain ⟨h1, -, h3⟩ := bent_diff hd hε (hT _ _ ⟨b, hb, rfl⟩ ⟨a, ha, rfl⟩) hA hB
  have hB1 : 1 ≤ |B| := by
    have : 1 ≤ |b.1 - a.1| := Int.one_le_abs (by omega)
    rw [hB]
    exact_mod_cast this
  refine bent_apart hd hε hr hm hap hB1 ?_ h3 o2
  have hs : |B * s| * cosOf s = |B| * (|s| * cosOf s) := by rw [abs_mul]; ring
  have hs1 := le_abs_self (B * s)
  have hs2 := neg_abs_le (B * s)
  have m1 := mul_le_mul_of_nonneg_right hs1 hc.le
  have m2 := mul_le_mul_of_nonneg_right hs2 hc.le
  have hB0 := abs_nonneg B
  obtain ⟨l1, l2⟩ := abs_le.1 h1
  set X := (T (gridNode o s d b)).x - (T (gridNode o s d a)).x with hX
  have hX0 : 0 ≤ X := sub_nonneg.2 hle
  have up : ∀ M, X ≤ M * d → 0 ≤ A → |A| * (cosOf s - ε) ≤ M + |B| * (|s| * cosOf s + ε) := by
    intro M hM hA0
    rw [abs_of_nonneg hA0] at l1 l2 ⊢
    have : d * (A * (cosOf s - ε)) ≤ d * (M + |B| * (|s| * cosOf s + ε)) := by
      have e : d * (A * (cosOf s - ε)) = d * (A - B * s) * cosOf s - ε * d * (A + |B|) + d * (B * s * cosOf s) + d * (ε * |B|) := by ring
      rw [e]
      have := mul_le_mul_of_nonneg_left m1 hd.le
      rw [hs] at this
      linarith
    exact le_of_mul_le_mul_left this hd
  rcases lt_or_ge A 0 with hA0 | hA0
  · rw [abs_of_neg hA0] at l1 l2 ⊢
    have : d * (-A * (cosOf s - ε)) ≤ d * (0 + |B| * (|s| * cosOf s + ε)) := by
      have e : d * (-A * (cosOf s - ε)) = -(d * (A - B * s) * cosOf s) - ε * d * (-A + |B|) - d * (B * s * cosOf s) + d * (ε * |B|) + 2 * (ε * d * -A) - 2 * (ε * d * -A) := by ring
      rw [e]
      have := mul_le_mul_of_nonneg_left m2 hd.le
      rw [neg_mul, hs] at this
      linarith
    have := le_of_mul_le_mul_left this hd
    linarith
  · rcases hreach with hr1 | ⟨hr1, hend⟩
    · refine up reach ?_ hA0
      have := (le_abs_self X).trans o1.le
      nlinarith
    · by_cases hex : ∃ e ∈ cells, e.1 = a.1 ∧ a.2 < e.2
      · obtain ⟨e, he, e1, e2, e3⟩ := next_cell hex
        have hg := hgap a ha e he e1.symm e2 e3
        obtain ⟨k1, k2⟩ := bent_order hd hε hlt hT ha he e1.symm
        have hle2 := hno e he e1 (k1.2 e2)
        refine up reach ?_ hA0
        have hg' : (e.2 : ℝ) - a.2 ≤ gap := by exact_mod_cast hg
        have := k2 e2
        have h5 : d * ((e.2 : ℝ) - a.2) * (cosOf s + ε) ≤ reach * d := by
          have := mul_le_mul_of_nonneg_right hg' (by linarith : 0 ≤ cosOf s + ε)
          nlinarith
        linarith
      · push Not at hex
        have hg := hend a ha hex b hb
        have hg' : A ≤ gap := by
          rw [hA]
          have : (b.2 : ℝ) ≤ a.2 + gap := by exact_mod_cast hg
          linarith
        rw [abs_of_nonneg hA0]
        have h5 := mul_le_mul_of_nonneg_right hg' (by linarith : 0 ≤ cosOf s - ε)
        have h6 : (gap : ℝ) * (cosOf s - ε) ≤ gap * (cosOf s + ε) := mul_le_mul_of_nonneg_left (by linarith) (Nat.cast_nonneg _)
        have h7 : 0 ≤ |B| * (|s| * cosOf s + ε) := by positivity
        linarith

theorem bent_next {ratio miss : ℝ} {gap : ℕ} (hd : 0 < d) (hε : 0 ≤ ε) (hlt : ε < cosOf s)
    (hT : BendsBy ε T fun P => ∃ c ∈ cells, P = gridNode o s d c) (hgap : GapsAtMost gap cells)
    (h1 : gap * ε < ratio) (h2 : gap * (cosOf s + ε) < miss)
    {a b : ℤ × ℤ} (ha : a ∈ cells) (hb : b ∈ cells) (hrow : a.1 = b.1) (hx : (T (gridNode o s d a)).x < (T (gridNode o s d b)).x)
    (hno : ∀ e ∈ cells, e.1 = a.1 → ¬ ((T (gridNode o s d a)).x < (T (gridNode o s d e)).x ∧
      (T (gridNode o s d e)).x < (T (gridNode o s d b)).x)) :
    OnLine s d ratio miss (T (gridNode o s d a)) (T (gridNode o s d b)) := by
  obtain ⟨k1, k2⟩ := bent_order hd hε hlt hT ha hb hrow
  have hab := k1.1 hx
  have hg := hgap a ha b hb hrow hab fun e he her hbet => hno e he her
    ⟨(bent_order hd hε hlt hT ha he her.symm).1.2 hbet.1, (bent_order hd hε hlt hT he hb (her.trans hrow)).1.2 hbet.2⟩
  have hg' : (b.2 : ℝ) - a.2 ≤ gap := by exact_mod_cast hg
  have hab' : (a.2 : ℝ) < b.2 := by exact_mod_cast hab
  have hc := cosOf_pos s
  rw [onLine_cos]
  obtain ⟨-, -, h3⟩ := bent_diff hd hε (hT _ _ ⟨b, hb, rfl⟩ ⟨a, ha, rfl⟩) rfl rfl
  constructor
  · rw [abs_of_pos (by linarith)]
    refine lt_of_le_of_lt (k2 hab) ?_
    have := mul_le_mul_of_nonneg_right hg' (by linarith : 0 ≤ cosOf s + ε)
    nlinarith
  · rw [hrow, sub_self, mul_zero, add_zero, abs_zero, add_zero, abs_of_pos (by linarith : (0 : ℝ) < b.2 - a.2)] at h3
    refine lt_of_le_of_lt h3 ?_
    have := mul_le_mul_of_nonneg_right hg' hε
    nlinarith

end

end Discorpy
