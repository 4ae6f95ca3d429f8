import Verif.Model.IntProfile
import Verif.Spec.IntProfile
import Verif.Lemmas.Ranking

/-! # Lemmas about background normalization of integer profiles -/

namespace Discorpy

open Spec

theorem fancyIndex_map {α β : Type} (f : α → β) (l : List α) (idx : List ℕ) : (fancyIndex l idx).map f = fancyIndex (l.map f) idx := by
  unfold fancyIndex
  rw [List.map_filterMap]
  congr 1
  funext i
  simp

theorem fancyIndex_getElem? {α : Type} {l : List α} {idx : List ℕ} (h : ∀ i ∈ idx, i < l.length) (k : ℕ) :
    (fancyIndex l idx)[k]? = idx[k]?.bind fun i => l[i]? := by
  induction idx generalizing k with
  | nil => simp [fancyIndex]
  | cons i idx ih =>
    have hi := h i (List.mem_cons_self ..)
    have e : fancyIndex l (i :: idx) = l[i] :: fancyIndex l idx := by
      simp [fancyIndex, hi]
    rw [e]
    cases k with
    | zero => simp [hi]
    | succ k => simpa using ih (fun j hj => h j (List.mem_cons_of_mem _ hj)) k

theorem wholePart_unique {v : ℝ} {m n : ℤ} (h1 : IsTrunc v m) (h2 : IsTrunc v n) : m = n := by
  rcases le_or_gt 0 v with h | h
  · obtain ⟨a, b⟩ := h1.1 h
    obtain ⟨c, d⟩ := h2.1 h
    have e1 : (m : ℝ) < n + 1 := by linarith
    have e2 : (n : ℝ) < m + 1 := by linarith
    have e1' : m < n + 1 := by exact_mod_cast e1
    have e2' : n < m + 1 := by exact_mod_cast e2
    omega
  · obtain ⟨a, b⟩ := h1.2 h
    obtain ⟨c, d⟩ := h2.2 h
    have e1 : (m : ℝ) - 1 < n := by linarith
    have e2 : (n : ℝ) - 1 < m := by linarith
    have e1' : m - 1 < n := by exact_mod_cast e1
    have e2' : n - 1 < m := by exact_mod_cast e2
    omega

theorem isTrunc_truncInt (v : ℝ) : IsTrunc v (truncInt v) := by
  unfold truncInt
  constructor
  · intro h
    rw [if_pos h]
    exact ⟨Int.floor_le v, Int.lt_floor_add_one v⟩
  · intro h
    rw [if_neg (not_le.2 h)]
    exact ⟨by linarith [Int.ceil_lt_add_one v], Int.le_ceil v⟩

theorem isTrunc_small {v : ℝ} (h : |v| < 1) : IsTrunc v 0 := by
  rw [abs_lt] at h
  exact ⟨fun h0 => by push_cast; exact ⟨h0, by linarith⟩, fun h0 => by push_cast; exact ⟨by linarith, h0.le⟩⟩

theorem normBackgroundInt_ok {E : Ext} (hpf : PolyfitSpec E.pf) (has : ArgsortSpec E.argsort) {l : List ℤ} (hn : 5 ≤ l.length) :
    ∃ a b rank outF outI, normBackground E (l.map fun v : ℤ => (v : ℝ)) = .ok outF ∧ normBackgroundInt E l = .ok outI ∧
      IsRanking (l.map fun v : ℤ => (v : ℝ)) rank ∧ 0 ≤ a ∧
      (∀ s : List ℝ, s.Perm (l.map fun v : ℤ => (v : ℝ)) → s.Pairwise (· ≤ ·) → IsLsqHorLine (middleSamples s) a b) ∧
      IsFlattened (l.map fun v : ℤ => (v : ℝ)) rank a b outF ∧ IsFlattenedInt l rank a b outI := by
  set L := l.map fun v : ℤ => (v : ℝ) with hL
  have hn : 5 ≤ L.length := by rw [hL, List.length_map]; exact hn
  set n := L.length with hnl
  set order := E.argsort L with horder
  have hop : order.Perm (List.range n) := has.perm L
  have hol : order.length = n := by rw [hop.length_eq]; simp
  have homem : ∀ k ∈ order, k < L.length := fun k hk => List.mem_range.1 (hop.mem_iff.1 hk)
  set sorted := fancyIndex L order with hsorted
  have hsp : sorted.Perm L := by
    have := has.fancy_perm L id
    rwa [List.map_id] at this
  have hss : sorted.Pairwise (· ≤ ·) := by
    have := has.fancy_sorted L id
    rwa [List.map_id] at this
  have hsl : sorted.length = n := hsp.length_eq
  have hsm : sorted = order.map fun i => L.getD i 0 := fancyIndex_eq_map homem
  obtain ⟨p, hp, q, hq, hpq⟩ := middleSamples_two (v := sorted) (by omega)
  have hmne : middleSamples sorted ≠ [] := List.ne_nil_of_mem hp
  obtain ⟨a, b, e, hl⟩ := hpf.lsqHor (middleSamples sorted) hmne 0 0
  simp only [sub_zero, mul_zero, add_zero] at e hl
  have ha : 0 ≤ a := by
    refine lsqHor_rising hl ⟨p, hp, q, hq, hpq⟩ fun p hp q hq hx => ?_
    obtain ⟨i, hi, _, _, rfl⟩ := mem_middleSamples.1 hp
    obtain ⟨j, hj, _, _, rfl⟩ := mem_middleSamples.1 hq
    simp only at hx
    have hij : i ≤ j := by exact_mod_cast hx
    rcases Nat.lt_or_eq_of_le hij with h | h
    · exact List.pairwise_iff_getElem.1 hss i j hi hj h
    · subst h
      exact le_rfl
  set inv := E.argsort (order.map fun k : ℕ => (k : ℝ)) with hinv
  have hip : inv.Perm (List.range n) := by
    have := has.perm (order.map fun k : ℕ => (k : ℝ))
    rwa [List.length_map, hol] at this
  have hil : inv.length = n := by rw [hip.length_eq]; simp
  have himem : ∀ k ∈ inv, k < n := fun k hk => List.mem_range.1 (hip.mem_iff.1 hk)
  set xs := (List.range n).map fun i : ℕ => (i : ℝ) with hxs
  set fit := xs.map fun x => a * x + b with hfit
  have hfl : fit.length = n := by simp [hfit, hxs]
  have hfg : ∀ k (h : k < fit.length), fit[k] = a * k + b := by intro k h; simp [hfit, hxs]
  set sorted' := List.zipWith (fun s f => if f ≥ b ∧ f ≤ a * ((n : ℝ) - 1) + b then f else s) sorted fit with hsorted'
  have hs'eq : sorted' = fit := by
    apply List.ext_getElem
    · simp [hsorted', hsl, hfl]
    · intro k h1 h2
      simp only [hsorted', List.getElem_zipWith]
      rw [if_pos]
      rw [hfg]
      have hk : k < n := by omega
      have hk1 : (k : ℝ) ≤ n - 1 := by
        have : (k : ℝ) + 1 ≤ n := by exact_mod_cast hk
        linarith
      have hk0 : (0 : ℝ) ≤ k := by positivity
      have h3 := mul_nonneg ha hk0
      have h4 := mul_le_mul_of_nonneg_left hk1 ha
      exact ⟨by linarith, by linarith⟩
  have hbck : fancyIndex sorted' inv = inv.map fun k : ℕ => a * (k : ℝ) + b := by
    rw [hs'eq, fancyIndex_eq_map (by rw [hfl]; exact himem)]
    apply List.map_congr_left
    intro k hk
    have hk' : k < fit.length := by rw [hfl]; exact himem k hk
    rw [List.getD_eq_getElem?_getD, List.getElem?_eq_getElem hk', Option.getD_some, hfg]
  have hmean : npMean (fit.map abs) = .ok ((∑ k ∈ Finset.range n, |a * k + b|) / n) := by
    rw [npMean_ok (by rw [Ne, List.map_eq_nil_iff, ← List.length_eq_zero_iff]; omega), List.length_map, hfl]
    congr 2
    rw [hfit, hxs, List.map_map, List.map_map]
    rw [Finset.sum_range, ← Fin.sum_ofFn]
    congr 1
    apply List.ext_getElem
    · simp
    · intro k h1 h2
      simp
  set nmean := (∑ k ∈ Finset.range n, |a * (k : ℝ) + b|) / n with hnm
  have hfx : npSlice xs (n / 4) (n - n / 4 - 1) = (middleSamples sorted).map fun p => p.x := by
    rw [middleSamples_x, hsl]
    rfl
  have hfy : npSlice sorted (n / 4) (n - n / 4 - 1) = (middleSamples sorted).map fun p => p.y := by
    rw [middleSamples_y, hsl]
    rfl
  have hcond : ¬ (∀ x ∈ (middleSamples sorted).map fun p => p.x, x = 0) := by
    intro hall
    apply hpq
    rw [hall p.x (List.mem_map.2 ⟨p, hp, rfl⟩), hall q.x (List.mem_map.2 ⟨q, hq, rfl⟩)]
  have hbI : fancyIndex (List.zipWith (fun s f => if f ≥ b ∧ f ≤ a * ((n : ℝ) - 1) + b then truncInt f else s) (fancyIndex l order) fit) inv =
      inv.map fun k : ℕ => truncInt (a * (k : ℝ) + b) := by
    have e : List.zipWith (fun s f => if f ≥ b ∧ f ≤ a * ((n : ℝ) - 1) + b then truncInt f else s) (fancyIndex l order) fit =
        fit.map truncInt := by
      have hl0 : (fancyIndex l order).length = n := by
        rw [← hsl, hsorted, hL, ← fancyIndex_map, List.length_map]
      apply List.ext_getElem
      · simp [hl0, hfl]
      · intro k h1 h2
        simp only [List.getElem_zipWith, List.getElem_map]
        rw [if_pos]
        rw [hfg]
        have hk : k < n := by simpa [hfl] using h2
        have hk1 : (k : ℝ) ≤ n - 1 := by
          have : (k : ℝ) + 1 ≤ n := by exact_mod_cast hk
          linarith
        have hk0 : (0 : ℝ) ≤ k := by positivity
        have h3 := mul_nonneg ha hk0
        have h4 := mul_le_mul_of_nonneg_left hk1 ha
        exact ⟨by linarith, by linarith⟩
    rw [e]
    apply List.ext_getElem?
    intro k
    rw [fancyIndex_getElem? (by simpa [hfl] using himem)]
    rw [List.getElem?_map]
    rcases hk : inv[k]? with _ | i
    · rfl
    · have hi : i < fit.length := by rw [hfl]; exact himem i (List.mem_of_getElem? hk)
      simp only [Option.bind_some, Option.map_some, List.getElem?_map, List.getElem?_eq_getElem hi, hfg]
  have hnl' : l.length = n := by rw [hnl, hL, List.length_map]
  have hI : normBackgroundInt E l = .ok (List.zipWith (fun v b : ℤ => if b ≠ 0 then (v : ℝ) / b else nmean) l
      (inv.map fun k : ℕ => truncInt (a * (k : ℝ) + b))) := by
    unfold normBackgroundInt
    simp only [hnl', ← hL, ← hxs, ← horder, fancyIndex_map, ← hsorted, floor_quarter, hfx, hfy]
    rw [if_neg (by simpa using hmne), if_neg hcond, e]
    simp only
    rw [← hfit, hmean, ok_bind, ← hinv, hbI]
  have hFt : normBackground E L = .ok (List.zipWith (fun v b => if b ≠ 0 then v / b else nmean) L (inv.map fun k : ℕ => a * (k : ℝ) + b)) := by
    unfold normBackground
    simp only [← hnl, ← hxs, ← horder, ← hsorted, floor_quarter, hfx, hfy]
    rw [if_neg (by simpa using hmne), if_neg hcond, e]
    simp only
    rw [← hfit, hmean, ok_bind, ← hinv, ← hsorted', hbck]
  refine ⟨a, b, fun i => inv.getD i 0, _, _, hFt, hI, ⟨?_, ?_, ?_⟩, ha, ?_, ⟨?_, ?_, ?_⟩, ⟨?_, ?_, ?_⟩⟩
  · intro i hi
    rw [List.getD_eq_getElem?_getD, List.getElem?_eq_getElem (by omega : i < inv.length), Option.getD_some]
    exact himem _ (List.getElem_mem _)
  · intro i hi j hj hij
    rw [List.getD_eq_getElem?_getD, List.getElem?_eq_getElem (by omega : i < inv.length), Option.getD_some,
      List.getD_eq_getElem?_getD, List.getElem?_eq_getElem (by omega : j < inv.length), Option.getD_some] at hij
    have hnd : inv.Nodup := hip.nodup_iff.2 List.nodup_range
    exact (List.Nodup.getElem_inj_iff hnd).1 hij
  · intro i hi j hj hij
    obtain ⟨hi1, hi2, hi3⟩ := argsort_inverse has hop hinv (i := i) (by omega)
    obtain ⟨hj1, hj2, hj3⟩ := argsort_inverse has hop hinv (i := j) (by omega)
    rw [List.getD_eq_getElem?_getD, List.getElem?_eq_getElem hi1, Option.getD_some, List.getD_eq_getElem?_getD,
      List.getElem?_eq_getElem hj1, Option.getD_some]
    by_contra hle
    push Not at hle
    have si : sorted[inv[i]]'(by omega) = L.getD i 0 := by
      simp only [hsm, List.getElem_map]
      rw [List.getElem?_eq_getElem (by omega : inv[i] < order.length), Option.some.injEq] at hi2
      rw [hi2]
    have sj : sorted[inv[j]]'(by omega) = L.getD j 0 := by
      simp only [hsm, List.getElem_map]
      rw [List.getElem?_eq_getElem (by omega : inv[j] < order.length), Option.some.injEq] at hj2
      rw [hj2]
    have : sorted[inv[j]]'(by omega) ≤ sorted[inv[i]]'(by omega) := by
      rcases Nat.lt_or_eq_of_le hle with h | h
      · exact List.pairwise_iff_getElem.1 hss _ _ _ _ h
      · simp [h]
    rw [si, sj] at this
    linarith
  · intro s hs1 hs2
    have : s = sorted := List.Perm.eq_of_pairwise (fun _ _ _ _ => le_antisymm) hs2 hss (hs1.trans hsp.symm)
    rw [this]
    exact hl
  · simp [hil, hnl]
  · intro i hi hne
    have hi' : i < inv.length := by omega
    simp only [List.getD_eq_getElem?_getD, List.getElem?_eq_getElem hi', Option.getD_some] at hne ⊢
    rw [List.getElem?_zipWith, List.getElem?_eq_getElem hi, List.getElem?_map, List.getElem?_eq_getElem hi']
    simp [hne]
  · intro i hi hz
    have hi' : i < inv.length := by omega
    simp only [List.getD_eq_getElem?_getD, List.getElem?_eq_getElem hi', Option.getD_some] at hz ⊢
    rw [List.getElem?_zipWith, List.getElem?_eq_getElem hi, List.getElem?_map, List.getElem?_eq_getElem hi']
    simp [hz, hnm, hnl]
  · simp [hil, hnl']
  · intro i v z hv hz hz0
    have hi : i < inv.length := by rw [hil, ← hnl']; exact (List.getElem?_eq_some_iff.1 hv).1
    simp only [List.getD_eq_getElem?_getD, List.getElem?_eq_getElem hi, Option.getD_some] at hz
    have ez : truncInt (a * (inv[i] : ℝ) + b) = z := wholePart_unique (isTrunc_truncInt _) hz
    rw [List.getElem?_zipWith, hv, List.getElem?_map, List.getElem?_eq_getElem hi]
    simp [ez, hz0]
  · intro i hi' hz
    have hi : i < inv.length := by omega
    simp only [List.getD_eq_getElem?_getD, List.getElem?_eq_getElem hi, Option.getD_some] at hz
    have ez : truncInt (a * (inv[i] : ℝ) + b) = 0 := wholePart_unique (isTrunc_truncInt _) (isTrunc_small hz)
    rw [List.getElem?_zipWith, List.getElem?_eq_getElem hi', List.getElem?_map, List.getElem?_eq_getElem hi]
    simp [ez, hnm, hnl']

end Discorpy
