import Verif.Model.LinePattern
import Verif.Spec.Ranking
import Verif.Lemmas.Threshold
import Verif.Lemmas.Fit
import Verif.Lemmas.Except
import Verif.Lemmas.Array

/-! # Lemmas about background normalization of profiles -/

namespace Discorpy

open Spec

theorem fancyIndex_eq_map {l : List ℝ} {idx : List ℕ} (h : ∀ i ∈ idx, i < l.length) : fancyIndex l idx = idx.map fun i => l.getD i 0 := by
  unfold fancyIndex
  induction idx with
  | nil => rfl
  | cons i idx ih =>
    have hi := h i (List.mem_cons_self ..)
    rw [List.filterMap_cons, List.getElem?_eq_getElem hi, List.map_cons, ih fun j hj => h j (List.mem_cons_of_mem _ hj),
      List.getD_eq_getElem?_getD, List.getElem?_eq_getElem hi]
    rfl

theorem pairwise_perm_range {l : List ℕ} {n : ℕ} (hp : l.Perm (List.range n)) (hs : l.Pairwise (· ≤ ·)) : l = List.range n :=
  List.Perm.eq_of_pairwise (fun _ _ _ _ => le_antisymm) hs ((List.pairwise_lt_range).imp le_of_lt) hp

/-- The second sorting inverts the first one. -/
theorem argsort_inverse {argsort : List ℝ → List ℕ} (ha : ArgsortSpec argsort) {order : List ℕ} {n : ℕ} (hp : order.Perm (List.range n))
    {inv : List ℕ} (hinv : inv = argsort (order.map fun k : ℕ => (k : ℝ))) {i : ℕ} (hi : i < n) :
    ∃ h : i < inv.length, order[inv[i]]? = some i ∧ inv[i] < n := by
  have hlen : order.length = n := by rw [hp.length_eq]; simp
  have hip : inv.Perm (List.range n) := by
    have := ha.perm (order.map fun k : ℕ => (k : ℝ))
    rwa [List.length_map, hlen, ← hinv] at this
  have hmem : ∀ k ∈ inv, k < order.length := by
    intro k hk
    rw [hlen]
    exact List.mem_range.1 (hip.mem_iff.1 hk)
  have hs := ha.sorted (order.map fun k : ℕ => (k : ℝ))
  rw [← hinv] at hs
  have e : (inv.map fun k => (order.map fun k : ℕ => (k : ℝ)).getD k 0) = (inv.map fun k => order.getD k 0).map fun k : ℕ => (k : ℝ) := by
    rw [List.map_map]
    apply List.map_congr_left
    intro k hk
    have := hmem k hk
    simp [List.getD_eq_getElem?_getD, List.getElem?_eq_getElem this]
  rw [e, List.pairwise_map] at hs
  have hs' : (inv.map fun k => order.getD k 0).Pairwise (· ≤ ·) := hs.imp fun h => by exact_mod_cast h
  have hperm : (inv.map fun k => order.getD k 0).Perm (List.range n) := by
    have h1 : (inv.map fun k => order.getD k 0).Perm ((List.range n).map fun k => order.getD k 0) := hip.map _
    have h2 : ((List.range n).map fun k => order.getD k 0) = order := by
      apply List.ext_getElem
      · simp [hlen]
      · intro k h1 h2
        simp [List.getD_eq_getElem?_getD, List.getElem?_eq_getElem h2]
    rw [h2] at h1
    exact h1.trans hp
  have hr := pairwise_perm_range hperm hs'
  have hil : inv.length = n := by rw [hip.length_eq]; simp
  refine ⟨by omega, ?_, ?_⟩
  · have hk := hmem _ (List.getElem_mem (by omega : i < inv.length))
    have hi' := congrArg (fun l => l[i]?) hr
    simp only [List.getElem?_map, List.getElem?_eq_getElem (by omega : i < inv.length), Option.map_some,
      List.getElem?_range hi, Option.some.injEq, List.getD_eq_getElem?_getD, List.getElem?_eq_getElem hk, Option.getD_some] at hi'
    rw [List.getElem?_eq_getElem hk, hi']
  · have := hmem _ (List.getElem_mem (by omega : i < inv.length))
    omega

theorem floor_quarter (n : ℕ) : ⌊(0.25 : ℝ) * n⌋₊ = n / 4 := by
  rw [show (0.25 : ℝ) * n = (n : ℝ) / (4 : ℕ) by norm_num; ring]
  rw [Nat.floor_eq_iff (by positivity)]
  have h1 := Nat.div_mul_le_self n 4
  have h2 := Nat.lt_div_mul_add (a := n) (b := 4) (by norm_num)
  have h1' : ((n / 4 : ℕ) : ℝ) * 4 ≤ n := by exact_mod_cast h1
  have h2' : (n : ℝ) < ((n / 4 : ℕ) : ℝ) * 4 + 4 := by exact_mod_cast h2
  constructor
  · push_cast; linarith
  · push_cast; linarith

theorem normBackground_ok {E : Ext} (hpf : PolyfitSpec E.pf) (has : ArgsortSpec E.argsort) {l : List ℝ} (hn : 5 ≤ l.length) :
    ∃ a b rank out, normBackground E l = .ok out ∧ IsRanking l rank ∧ 0 ≤ a ∧
      (∀ s : List ℝ, s.Perm l → s.Pairwise (· ≤ ·) → IsLsqHorLine (middleSamples s) a b) ∧ IsFlattened l rank a b out := by
  set n := l.length with hnl
  set order := E.argsort l with horder
  have hop : order.Perm (List.range n) := has.perm l
  have hol : order.length = n := by rw [hop.length_eq]; simp
  have homem : ∀ k ∈ order, k < l.length := fun k hk => List.mem_range.1 (hop.mem_iff.1 hk)
  set sorted := fancyIndex l order with hsorted
  have hsp : sorted.Perm l := by
    have := has.fancy_perm l id
    rwa [List.map_id] at this
  have hss : sorted.Pairwise (· ≤ ·) := by
    have := has.fancy_sorted l id
    rwa [List.map_id] at this
  have hsl : sorted.length = n := hsp.length_eq
  have hsm : sorted = order.map fun i => l.getD i 0 := fancyIndex_eq_map homem
  obtain ⟨p, hp, q, hq, hpq⟩ := middleSamples_two (v := sorted) (by omega)
  have hmne : middleSamples sorted ≠ [] := List.ne_nil_of_mem hp
  obtain ⟨a, b, e, hl⟩ := hpf.lsqHor (middleSamples sorted) hmne 0 0
  simp only [sub_zero, mul_zero, add_zero] at e hl
  have ha : 0 ≤ a := by
    refine lsqHor_rising hl ⟨p, hp, q, hq, hpq⟩ fun p hp q hq hx => ?_
    obtain ⟨i, hi, _, _, rfl⟩ := mem_middleSamples.1 hp
    obtain ⟨j, hj, _, _, rfl⟩ := mem_middleSamples.1 hq
    simp only at hx
    have hij : i ≤ j := by exact_mod_cast hx
    rcases Nat.lt_or_eq_of_le hij with h | h
    · exact List.pairwise_iff_getElem.1 hss i j hi hj h
    · subst h
      exact le_rfl
  set inv := E.argsort (order.map fun k : ℕ => (k : ℝ)) with hinv
  have hip : inv.Perm (List.range n) := by
    have := has.perm (order.map fun k : ℕ => (k : ℝ))
    rwa [List.length_map, hol] at this
  have hil : inv.length = n := by rw [hip.length_eq]; simp
  have himem : ∀ k ∈ inv, k < n := fun k hk => List.mem_range.1 (hip.mem_iff.1 hk)
  set xs := (List.range n).map fun i : ℕ => (i : ℝ) with hxs
  set fit := xs.map fun x => a * x + b with hfit
  have hfl : fit.length = n := by simp [hfit, hxs]
  have hfg : ∀ k (h : k < fit.length), fit[k] = a * k + b := by intro k h; simp [hfit, hxs]
  set sorted' := List.zipWith (fun s f => if f ≥ b ∧ f ≤ a * ((n : ℝ) - 1) + b then f else s) sorted fit with hsorted'
  have hs'eq : sorted' = fit := by
    apply List.ext_getElem
    · simp [hsorted', hsl, hfl]
    · intro k h1 h2
      simp only [hsorted', List.getElem_zipWith]
      rw [if_pos]
      rw [hfg]
      have hk : k < n := by omega
      have hk1 : (k : ℝ) ≤ n - 1 := by
        have : (k : ℝ) + 1 ≤ n := by exact_mod_cast hk
        linarith
      have hk0 : (0 : ℝ) ≤ k := by positivity
      have h3 := mul_nonneg ha hk0
      have h4 := mul_le_mul_of_nonneg_left hk1 ha
      exact ⟨by linarith, by linarith⟩
  have hbck : fancyIndex sorted' inv = inv.map fun k : ℕ => a * (k : ℝ) + b := by
    rw [hs'eq, fancyIndex_eq_map (by rw [hfl]; exact himem)]
    apply List.map_congr_left
    intro k hk
    have hk' : k < fit.length := by rw [hfl]; exact himem k hk
    rw [List.getD_eq_getElem?_getD, List.getElem?_eq_getElem hk', Option.getD_some, hfg]
  have hmean : npMean (fit.map abs) = .ok ((∑ k ∈ Finset.range n, |a * k + b|) / n) := by
    rw [npMean_ok (by rw [Ne, List.map_eq_nil_iff, ← List.length_eq_zero_iff]; omega), List.length_map, hfl]
    congr 2
    rw [hfit, hxs, List.map_map, List.map_map]
    rw [Finset.sum_range, ← Fin.sum_ofFn]
    congr 1
    apply List.ext_getElem
    · simp
    · intro k h1 h2
      simp
  set nmean := (∑ k ∈ Finset.range n, |a * (k : ℝ) + b|) / n with hnm
  refine ⟨a, b, fun i => inv.getD i 0, List.zipWith (fun v b => if b ≠ 0 then v / b else nmean) l (inv.map fun k : ℕ => a * (k : ℝ) + b),
    ?_, ⟨?_, ?_, ?_⟩, ha, ?_, ⟨?_, ?_, ?_⟩⟩
  · have hfx : npSlice xs (n / 4) (n - n / 4 - 1) = (middleSamples sorted).map fun p => p.x := by
      rw [middleSamples_x, hsl]
      rfl
    have hfy : npSlice sorted (n / 4) (n - n / 4 - 1) = (middleSamples sorted).map fun p => p.y := by
      rw [middleSamples_y, hsl]
      rfl
    unfold normBackground
    simp only [← hnl, ← hxs, ← horder, ← hsorted, floor_quarter, hfx, hfy]
    rw [if_neg (by simpa using hmne), if_neg, e]
    · simp only
      rw [← hfit, hmean, ok_bind, ← hinv, ← hsorted', hbck]
    · intro hall
      apply hpq
      rw [hall p.x (List.mem_map.2 ⟨p, hp, rfl⟩), hall q.x (List.mem_map.2 ⟨q, hq, rfl⟩)]
  · intro i hi
    rw [List.getD_eq_getElem?_getD, List.getElem?_eq_getElem (by omega : i < inv.length), Option.getD_some]
    exact himem _ (List.getElem_mem _)
  · intro i hi j hj hij
    rw [List.getD_eq_getElem?_getD, List.getElem?_eq_getElem (by omega : i < inv.length), Option.getD_some,
      List.getD_eq_getElem?_getD, List.getElem?_eq_getElem (by omega : j < inv.length), Option.getD_some] at hij
    have hnd : inv.Nodup := hip.nodup_iff.2 List.nodup_range
    exact (List.Nodup.getElem_inj_iff hnd).1 hij
  · intro i hi j hj hij
    obtain ⟨hi1, hi2, hi3⟩ := argsort_inverse has hop hinv (i := i) (by omega)
    obtain ⟨hj1, hj2, hj3⟩ := argsort_inverse has hop hinv (i := j) (by omega)
    rw [List.getD_eq_getElem?_getD, List.getElem?_eq_getElem hi1, Option.getD_some, List.getD_eq_getElem?_getD,
      List.getElem?_eq_getElem hj1, Option.getD_some]
    by_contra hle
    push Not at hle
    have si : sorted[inv[i]]'(by omega) = l.getD i 0 := by
      simp only [hsm, List.getElem_map]
      rw [List.getElem?_eq_getElem (by omega : inv[i] < order.length), Option.some.injEq] at hi2
      rw [hi2]
    have sj : sorted[inv[j]]'(by omega) = l.getD j 0 := by
      simp only [hsm, List.getElem_map]
      rw [List.getElem?_eq_getElem (by omega : inv[j] < order.length), Option.some.injEq] at hj2
      rw [hj2]
    have : sorted[inv[j]]'(by omega) ≤ sorted[inv[i]]'(by omega) := by
      rcases Nat.lt_or_eq_of_le hle with h | h
      · exact List.pairwise_iff_getElem.1 hss _ _ _ _ h
      · simp [h]
    rw [si, sj] at this
    linarith
  · intro s hs1 hs2
    have : s = sorted := List.Perm.eq_of_pairwise (fun _ _ _ _ => le_antisymm) hs2 hss (hs1.trans hsp.symm)
    rw [this]
    exact hl
  · simp [hil, hnl]
  · intro i hi hne
    have hi' : i < inv.length := by omega
    simp only [List.getD_eq_getElem?_getD, List.getElem?_eq_getElem hi', Option.getD_some] at hne ⊢
    rw [List.getElem?_zipWith, List.getElem?_eq_getElem hi, List.getElem?_map, List.getElem?_eq_getElem hi']
    simp [hne]
  · intro i hi hz
    have hi' : i < inv.length := by omega
    simp only [List.getD_eq_getElem?_getD, List.getElem?_eq_getElem hi', Option.getD_some] at hz ⊢
    rw [List.getElem?_zipWith, List.getElem?_eq_getElem hi, List.getElem?_map, List.getElem?_eq_getElem hi']
    simp [hz, hnm, hnl]

end Discorpy
