import Verif.Spec.LineRows
import Verif.Props.C29

/-! # Curves seen along parallel scan lines: the grouping of their points -/

namespace Discorpy
open Spec

theorem filter_label {A : ℕ → Pt → Prop} {row : Pt → ℕ} {ls : List ℕ} {g : List Pt} (k : ℕ)
    (h : List.Forall₂ (fun k p => row p = k ∧ A k p) ls g) (hn : ls.Nodup) :
    (k ∉ ls → g.filter (fun p => decide (row p = k)) = []) ∧
      (k ∈ ls → ∃ p, A k p ∧ g.filter (fun p => decide (row p = k)) = [p]) := by
  induction h with
  | nil => simp
  | @cons a p ls g hap _ ih =>
    rw [List.nodup_cons] at hn
    obtain ⟨i1, i2⟩ := ih hn.2
    by_cases hk : a = k
    · subst hk
      refine ⟨fun h => absurd List.mem_cons_self h, fun _ => ⟨p, hap.2, ?_⟩⟩
      rw [List.filter_cons, if_pos (by simpa using hap.1), i1 hn.1]
    · have : ¬ row p = k := by rw [hap.1]; exact hk
      rw [List.filter_cons, if_neg (by simpa using this), List.mem_cons]
      exact ⟨fun h => i1 fun h' => h (Or.inr h'), fun h => i2 (h.resolve_left fun e => hk e.symm)⟩

theorem column_filter {A : ℕ → ℝ → Pt → Prop} {row : Pt → ℕ} {labels : ℝ → List ℕ} {starts : List ℝ} {groups : List (List Pt)} (k : ℕ)
    (h : List.Forall₂ (fun i g => List.Forall₂ (fun k p => row p = k ∧ A k i p) (labels i) g) starts groups)
    (hn : ∀ i, (labels i).Nodup) :
    List.Forall₂ (fun i p => A k i p) (starts.filter fun i => decide (k ∈ labels i))
      (groups.flatten.filter fun p => decide (row p = k)) := by
  induction h with
  | nil => simp
  | @cons i g starts groups hig _ ih =>
    rw [List.flatten_cons, List.filter_append, List.filter_cons]
    obtain ⟨f1, f2⟩ := filter_label k hig (hn i)
    by_cases hk : k ∈ labels i
    · obtain ⟨p, hp, e⟩ := f2 hk
      rw [if_pos (by simpa using hk), e, List.singleton_append]
      exact List.Forall₂.cons hp ih
    · rw [if_neg (by simpa using hk), f1 hk, List.nil_append]
      exact ih

theorem columns_pairwise {A : ℕ → ℝ → Pt → Prop} {row : Pt → ℕ} {labels : ℝ → List ℕ} {starts : List ℝ} {groups : List (List Pt)}
    (h : List.Forall₂ (fun i g => List.Forall₂ (fun k p => row p = k ∧ A k i p) (labels i) g) starts groups)
    (hn : ∀ i, (labels i).Nodup) (hA : ∀ k i p, A k i p → p.x = i) (hst : starts.Pairwise (· < ·)) :
    (∀ p ∈ groups.flatten, ∃ i ∈ starts, ∃ k ∈ labels i, row p = k ∧ A k i p) ∧
      groups.flatten.Pairwise fun p q => row p = row q → p.x < q.x := by
  induction h with
  | nil => simp
  | @cons i g starts groups hig _ ih =>
    rw [List.pairwise_cons] at hst
    obtain ⟨i1, i2⟩ := ih hst.2
    have hg : ∀ p ∈ g, ∃ k ∈ labels i, row p = k ∧ A k i p := by
      intro p hp
      obtain ⟨j, hj, rfl⟩ := List.getElem_of_mem hp
      rw [List.forall₂_iff_get] at hig
      exact ⟨_, List.get_mem (labels i) ⟨j, by rw [hig.1]; exact hj⟩, hig.2 j (by rw [hig.1]; exact hj) hj⟩
    rw [List.flatten_cons]
    refine ⟨fun p hp => ?_, List.pairwise_append.2 ⟨?_, i2, ?_⟩⟩
    · rcases List.mem_append.1 hp with hp | hp
      · exact ⟨i, List.mem_cons_self, hg p hp⟩
      · obtain ⟨i', m, rest⟩ := i1 p hp
        exact ⟨i', List.mem_cons_of_mem _ m, rest⟩
    · have : (g.map row) = labels i := by
        rw [← List.forall₂_eq_eq_eq, List.forall₂_map_left_iff]
        exact (hig.imp fun _ _ h => h.1).flip
      have hnd : (g.map row).Pairwise (· ≠ ·) := by rw [this]; exact hn i
      rw [List.pairwise_map] at hnd
      exact hnd.imp fun h e => absurd e h
    · intro p hp q hq _
      obtain ⟨_, _, _, h1⟩ := hg p hp
      obtain ⟨i', m, _, _, _, h2⟩ := i1 q hq
      rw [hA _ _ _ h1, hA _ _ _ h2]
      exact hst.1 _ m

theorem onLine_zero {dist ratio miss : ℝ} {p q : Pt} :
    OnLine 0 dist ratio miss p q ↔ |q.x - p.x| < miss * dist ∧ |q.y - p.y| < ratio * dist := by
  unfold OnLine
  rw [zero_mul, zero_sub, abs_neg]
  norm_num

theorem abs_scaled {q a b c d : ℝ} (hq : 0 < q) (h1 : |a * q - c| < q / 2) (h2 : |b * q - d| < q / 2) :
    |c - d| < q * (|b - a| + 1) ∧ q * |b - a| < |d - c| + q := by
  have e : (b - a) * q = (b * q - d) - (a * q - c) + (d - c) := by ring
  have e2 : |b - a| * q = |(b - a) * q| := by rw [abs_mul, abs_of_pos hq]
  constructor
  · have : |c - d| ≤ |a * q - c| + |b * q - d| + |(b - a) * q| := by
      have e3 : c - d = -(a * q - c) + (b * q - d) - (b - a) * q := by ring
      rw [e3]
      calc _ ≤ |-(a * q - c) + (b * q - d)| + |(b - a) * q| := abs_sub _ _
        _ ≤ |-(a * q - c)| + |b * q - d| + |(b - a) * q| := by gcongr; exact abs_add_le _ _
        _ = _ := by rw [abs_neg]
    rw [← e2] at this
    linarith
  · have : |(b - a) * q| ≤ |b * q - d| + |a * q - c| + |d - c| := by
      rw [e]
      calc _ ≤ |(b * q - d) - (a * q - c)| + |d - c| := abs_add_le _ _
        _ ≤ _ := by gcongr; exact abs_sub _ _
    rw [← e2] at this
    linarith

open Classical in
/-- The points of curves seen along parallel scan lines are grouped into the curves. -/
theorem curves_grouped {argsort : List ℝ → List ℕ} (hs : ArgsortSpec argsort) {starts : List ℝ} (hst : starts.Pairwise (· < ·))
    {groups : List (List Pt)} {K : ℕ} {curve : ℕ → ℝ → ℝ} {seen : ℕ → ℝ → Prop} {q dist ratio miss acc : ℝ} {sub : Bool}
    {prof : ℝ → ℝ → ℝ} (hq : 0 < q)
    (hreach : 0 < miss * dist) (hrd : 0 ≤ ratio * dist)
    (hG : List.Forall₂ (fun i g => List.Forall₂ (fun k p => IsPointOf Pt.x Pt.y q sub prof curve k i p)
      ((List.range K).filter fun k => decide (seen k i)) g) starts groups)
    (hap : CurvesApart starts K curve seen (miss * dist) (q * (ratio * dist + 1)))
    (hco : CurvesContinue starts K curve seen (miss * dist) (q * (ratio * dist - 1)))
    (htwo : ∃ k < K, 2 ≤ (seenAt starts seen k).length) :
    ∃ lines ks, groupDotsHor argsort groups.flatten 0 dist ratio miss acc = .ok lines ∧ ks.Nodup ∧
      List.Forall₂ (fun k l => k < K ∧ 2 ≤ (seenAt starts seen k).length ∧ IsFound Pt.x Pt.y q sub prof starts curve seen k l) ks lines ∧
      (∀ k < K, 2 ≤ (seenAt starts seen k).length →
        (∀ k' < K, acc * (seenAt starts seen k').length < (seenAt starts seen k).length) → k ∈ ks) ∧
      lines.Pairwise fun a b => meanY a ≤ meanY b := by
  obtain ⟨near, hnear⟩ : ∃ near : Pt → ℕ → Prop, near = fun p k => k < K ∧ seen k p.x ∧ |p.y * q - curve k p.x| < q / 2 := ⟨_, rfl⟩
  obtain ⟨row, hrow⟩ : ∃ row : Pt → ℕ, row = fun p => if h : ∃ k, near p k then h.choose else K := ⟨_, rfl⟩
  have hmemst : ∀ {k i}, k ∈ (List.range K).filter (fun k => decide (seen k i)) ↔ k < K ∧ seen k i := by
    intro k i
    rw [List.mem_filter, List.mem_range, decide_eq_true_eq]
  have uniq : ∀ p k k', p.x ∈ starts → near p k → near p k' → k = k' := by
    intro p k k' hp h1 h2
    rw [hnear] at h1 h2
    by_contra hne
    rcases hap k h1.1 k' h2.1 hne p.x hp p.x hp h1.2.1 h2.2.1 le_rfl (by linarith) with h | ⟨j, _, h3, h4, _⟩
    · have := (abs_scaled hq h1.2.2 h2.2.2).1
      rw [sub_self, abs_zero, zero_add, mul_one] at this
      nlinarith
    · linarith
  have hrowk : ∀ p k, p.x ∈ starts → near p k → row p = k := by
    intro p k hp hk
    have hex : ∃ k, near p k := ⟨k, hk⟩
    rw [hrow]
    simp only [dif_pos hex]
    exact uniq p _ _ hp hex.choose_spec hk
  have hG' : List.Forall₂ (fun i g => List.Forall₂ (fun k p => row p = k ∧ (IsPointOf Pt.x Pt.y q sub prof curve k i p ∧ seen k i))
      ((List.range K).filter fun k => decide (seen k i)) g) starts groups := by
    rw [List.forall₂_iff_get] at hG ⊢
    refine ⟨hG.1, fun n hn hn' => ?_⟩
    have := hG.2 n hn hn'
    rw [List.forall₂_iff_get] at this ⊢
    refine ⟨this.1, fun m hm hm' => ?_⟩
    have a0 := this.2 m hm hm'
    obtain ⟨a1, a2, a3⟩ := a0
    have hk := hmemst.1 (List.get_mem _ ⟨m, hm⟩)
    refine ⟨hrowk _ _ ?_ ?_, ⟨a1, a2, a3⟩, hk.2⟩
    · rw [a1]; exact List.get_mem _ _
    · rw [hnear]
      simp only
      rw [a1]
      exact ⟨hk.1, hk.2, a2⟩
  have hnd : ∀ i : ℝ, ((List.range K).filter fun k => decide (seen k i)).Nodup := fun i => List.nodup_range.filter _
  obtain ⟨hmem, hpw⟩ := columns_pairwise (A := fun k i p => IsPointOf Pt.x Pt.y q sub prof curve k i p ∧ seen k i) hG' hnd
    (fun _ _ _ h => h.1.1) hst
  have hfil : ∀ k < K, List.Forall₂ (fun i p => IsPointOf Pt.x Pt.y q sub prof curve k i p ∧ seen k i) (seenAt starts seen k)
      (groups.flatten.filter fun p => decide (row p = k)) := by
    intro k hk
    have := column_filter (A := fun k i p => IsPointOf Pt.x Pt.y q sub prof curve k i p ∧ seen k i) k hG' hnd
    have e : (starts.filter fun i => decide (k ∈ (List.range K).filter fun k => decide (seen k i))) = seenAt starts seen k := by
      unfold seenAt
      refine List.filter_congr fun i _ => ?_
      rw [decide_eq_decide, hmemst]
      exact and_iff_right hk
    rw [e] at this
    exact this
  have hex : ∀ k < K, ∀ j ∈ starts, seen k j → ∃ r ∈ groups.flatten, row r = k ∧ r.x = j := by
    intro k hk j hj hsj
    have hf := hfil k hk
    have hjm : j ∈ seenAt starts seen k := List.mem_filter.2 ⟨hj, by simpa using hsj⟩
    obtain ⟨n, hn, rfl⟩ := List.getElem_of_mem hjm
    rw [List.forall₂_iff_get] at hf
    have hn' : n < (groups.flatten.filter fun p => decide (row p = k)).length := by rw [← hf.1]; exact hn
    have hr := List.mem_filter.1 (List.get_mem (groups.flatten.filter fun p => decide (row p = k)) ⟨n, hn'⟩)
    exact ⟨_, hr.1, by simpa using hr.2, (hf.2 n hn hn').1.1⟩
  have hlt : ∀ p ∈ groups.flatten, row p < K := by
    intro p hp
    obtain ⟨i, _, k, hk, h1, _⟩ := hmem p hp
    rw [h1]
    exact (hmemst.1 hk).1
  obtain ⟨k0, hk0, h20⟩ := htwo
  obtain ⟨lines, longest, e, g1, ⟨r0, g2⟩, g3, g4, g5, g6⟩ := C64_rows argsort hs groups.flatten 0 dist ratio miss acc row
    (by
      intro p hp p' hp' hle hon
      rw [onLine_zero] at hon
      obtain ⟨i, hi, k, hk, r1, ⟨x1, n1, _⟩, s1⟩ := hmem p hp
      obtain ⟨i', hi', k', hk', r2, ⟨x2, n2, _⟩, s2⟩ := hmem p' hp'
      rw [r1, r2]
      by_cases hkk : k = k'
      · exact Or.inl hkk
      · right
        rw [x1, x2] at hle hon
        rw [abs_of_nonneg (by linarith)] at hon
        rcases hap k (hmemst.1 hk).1 k' (hmemst.1 hk').1 hkk i hi i' hi' s1 s2 hle hon.1 with h | ⟨j, hj, h1, h2, h3⟩
        · have := (abs_scaled hq n1 n2).1
          have : q * (|p'.y - p.y| + 1) < q * (ratio * dist + 1) := by
            apply mul_lt_mul_of_pos_left _ hq
            linarith [hon.2]
          linarith
        · obtain ⟨r, m, h4, h5⟩ := hex k (hmemst.1 hk).1 j hj h3
          exact ⟨r, m, h4, by rw [h5, x1]; exact h1, by rw [h5, x2]; exact h2⟩)
    (by
      intro p hp p' hp' hrr hlt' hno
      obtain ⟨i, hi, k, hk, r1, ⟨x1, n1, _⟩, s1⟩ := hmem p hp
      obtain ⟨i', hi', k', hk', r2, ⟨x2, n2, _⟩, s2⟩ := hmem p' hp'
      rw [r1, r2] at hrr
      subst hrr
      rw [x1, x2] at hlt'
      obtain ⟨c1, c2⟩ := hco k (hmemst.1 hk).1 i hi i' hi' s1 s2 hlt' (by
        intro j hj hsj hb
        obtain ⟨r, m, h4, h5⟩ := hex k (hmemst.1 hk).1 j hj hsj
        exact hno r m (by rw [h4, r1]) ⟨by rw [h5, x1]; exact hb.1, by rw [h5, x2]; exact hb.2⟩)
      rw [onLine_zero, x1, x2, abs_of_nonneg (by linarith)]
      refine ⟨c1, ?_⟩
      have := (abs_scaled hq n1 n2).2
      have : q * |p'.y - p.y| < q * (ratio * dist) := by linarith
      exact lt_of_mul_lt_mul_left this hq.le)
    (hpw.imp fun h e => (h e).ne)
    ⟨k0, by rw [← (hfil k0 hk0).length_eq]; exact h20⟩
  have h2l := fun l hl => ((C29_lines argsort hs _ _ _ _ _ _ lines e).2 l hl).1
  have hlab : ∀ l ∈ lines, ∃ k, k < K ∧ (∀ p ∈ l, row p = k) ∧ 2 ≤ (seenAt starts seen k).length ∧
      IsFound Pt.x Pt.y q sub prof starts curve seen k l := by
    intro l hl
    obtain ⟨r, k1, k2⟩ := g3 l hl
    have hall : ∀ p ∈ l, row p = r := fun p hp => by simpa using (List.mem_filter.1 (k1.mem_iff.1 hp)).2
    have hrK : r < K := by
      obtain ⟨p, hp⟩ := List.exists_mem_of_length_pos (by have := h2l l hl; omega : 0 < l.length)
      rw [← hall p hp]
      exact hlt p (List.mem_filter.1 (k1.mem_iff.1 hp)).1
    have hsort : (groups.flatten.filter fun p => decide (row p = r)).Pairwise fun p q => p.x < q.x := by
      have := hpw.sublist (List.filter_sublist (p := fun p => decide (row p = r)))
      refine this.imp_of_mem fun {a b} ha hb h => h ?_
      have h1 := (List.mem_filter.1 ha).2
      have h2 := (List.mem_filter.1 hb).2
      rw [decide_eq_true_eq] at h1 h2
      rw [h1, h2]
    have el : l = groups.flatten.filter fun p => decide (row p = r) :=
      List.Perm.eq_of_pairwise (le := fun p q : Pt => p.x < q.x) (fun a b _ _ hab hba => absurd hab (lt_asymm hba)) k2 hsort k1
    have hf := hfil r hrK
    refine ⟨r, hrK, hall, ?_, ?_⟩
    · rw [hf.length_eq, ← el]; exact h2l l hl
    · unfold IsFound
      rw [el]
      exact hf.imp fun _ _ h => h.1
  choose! f hf using hlab
  refine ⟨lines, lines.map f, e, ?_, ?_, ?_, g6⟩
  · unfold List.Nodup
    rw [List.pairwise_map]
    refine g5.imp_of_mem fun {a b} ha hb h hab => ?_
    obtain ⟨p, hp⟩ := List.exists_mem_of_length_pos (by have := h2l a ha; omega : 0 < a.length)
    obtain ⟨p', hp'⟩ := List.exists_mem_of_length_pos (by have := h2l b hb; omega : 0 < b.length)
    exact h p hp p' hp' (by rw [(hf a ha).2.1 p hp, (hf b hb).2.1 p' hp', hab])
  · rw [List.forall₂_map_left_iff, List.forall₂_same]
    exact fun l hl => ⟨(hf l hl).1, (hf l hl).2.2⟩
  · intro k hk h2 hacc
    have hlen := (hfil k hk).length_eq
    have hr0 : r0 < K := by
      by_contra hcon
      have : (groups.flatten.filter fun p => decide (row p = r0)) = [] := by
        rw [List.filter_eq_nil_iff]
        intro p hp
        rw [decide_eq_true_eq]
        intro h
        exact hcon (h ▸ hlt p hp)
      rw [this, List.length_nil] at g2
      have := g1 k
      rw [← hlen] at this
      omega
    obtain ⟨l, hl, hperm⟩ := g4 k (by rw [← hlen]; exact h2) (by
      rw [← hlen, ← g2, ← (hfil r0 hr0).length_eq]
      exact hacc r0 hr0)
    refine List.mem_map.2 ⟨l, hl, ?_⟩
    obtain ⟨p, hp⟩ := List.exists_mem_of_length_pos (by have := h2l l hl; omega : 0 < l.length)
    rw [← (hf l hl).2.1 p hp]
    simpa using (List.mem_filter.1 (hperm.mem_iff.1 hp)).2

end Discorpy
