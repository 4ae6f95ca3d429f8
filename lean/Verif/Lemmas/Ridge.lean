import Verif.Props.C43
import Verif.Spec.Ridge

/-! # Helper lemmas: ridges in a profile -/

namespace Discorpy
open Spec

section ridge
variable {cs : List ℝ} {φ : ℝ → ℝ → ℝ} {w s top : ℝ} {h : ℝ → ℝ} {r : ℕ}

theorem ridge_nonneg (R : Ridges cs φ w h) (t : ℝ) : 0 ≤ h t := by
  by_cases hc : ∀ c ∈ cs, w ≤ |t - c|
  · exact (R.off t hc).ge
  · push Not at hc
    obtain ⟨c, hc, hl⟩ := hc
    rw [R.on c hc t hl]
    exact (R.pos c hc _ (abs_nonneg _) hl).le

theorem apart_abs {d : ℝ} (hd : 0 < d) (ha : PlacesApart cs d) {c c' : ℝ} (hc : c ∈ cs) (hc' : c' ∈ cs) (hne : c ≠ c') : d ≤ |c' - c| := by
  rw [PlacesApart, List.pairwise_iff_getElem] at ha
  obtain ⟨i, hi, rfl⟩ := List.getElem_of_mem hc
  obtain ⟨j, hj, rfl⟩ := List.getElem_of_mem hc'
  rcases lt_trichotomy i j with hij | hij | hij
  · have := ha i j hi hj hij
    exact (by linarith : d ≤ cs[j] - cs[i]).trans (le_abs_self _)
  · subst hij; exact absurd rfl hne
  · have := ha j i hj hi hij
    rw [abs_sub_comm]
    exact (by linarith : d ≤ cs[i] - cs[j]).trans (le_abs_self _)

/-- In the window of a sample next to `c` there is no other ridge. -/
theorem window_alone (hS : Searchable cs φ w s top r) {c : ℝ} (hc : c ∈ cs) {i j : ℕ} (hi : |(i : ℝ) - c| ≤ 1 / 2) (h1 : i ≤ j + r)
    (h2 : j ≤ i + r) {c' : ℝ} (hc' : c' ∈ cs) (hne : c ≠ c') : w ≤ |(j : ℝ) - c'| := by
  have hd := apart_abs (by have := hS.wide; positivity) hS.apart hc hc' hne
  have h1' : (i : ℝ) ≤ j + r := by exact_mod_cast h1
  have h2' : (j : ℝ) ≤ i + r := by exact_mod_cast h2
  have hij : |(j : ℝ) - i| ≤ r := abs_le.2 ⟨by linarith, by linarith⟩
  have e : c' - c = ((i : ℝ) - c) + ((j : ℝ) - i) - ((j : ℝ) - c') := by ring
  have h3 := abs_sub (((i : ℝ) - c) + ((j : ℝ) - i)) ((j : ℝ) - c')
  have h4 := abs_add_le ((i : ℝ) - c) ((j : ℝ) - i)
  rw [e] at hd
  linarith

/-- The value in the window of a sample next to `c`. -/
theorem window_value (R : Ridges cs φ w h) (hS : Searchable cs φ w s top r) {c : ℝ} (hc : c ∈ cs) {i j : ℕ}
    (hi : |(i : ℝ) - c| ≤ 1 / 2) (h1 : i ≤ j + r) (h2 : j ≤ i + r) : w ≤ |(j : ℝ) - c| → h j = 0 := by
  intro hw
  refine R.off _ fun c' hc' => ?_
  by_cases hne : c = c'
  · rw [← hne]; exact hw
  · exact window_alone hS hc hi h1 h2 hc' hne

/-- Nearer samples of the same ridge are brighter. -/
theorem window_mono (R : Ridges cs φ w h) (hS : Searchable cs φ w s top r) {c : ℝ} (hc : c ∈ cs) {i j k : ℕ}
    (hi : |(i : ℝ) - c| ≤ 1 / 2) (h1 : i ≤ j + r) (h2 : j ≤ i + r) (hjk : |(k : ℝ) - c| ≤ |(j : ℝ) - c|) : h j ≤ h k := by
  by_cases hw : w ≤ |(j : ℝ) - c|
  · rw [window_value R hS hc hi h1 h2 hw]
    exact ridge_nonneg R _
  · push Not at hw
    rw [R.on c hc _ hw, R.on c hc _ (hjk.trans_lt hw)]
    rcases lt_or_eq_of_le hjk with hl | he
    · exact (R.falls c hc _ _ (abs_nonneg _) hl hw).le
    · rw [he]

theorem window_lt (R : Ridges cs φ w h) (hS : Searchable cs φ w s top r) {c : ℝ} (hc : c ∈ cs) {i j k : ℕ}
    (hi : |(i : ℝ) - c| ≤ 1 / 2) (h1 : i ≤ j + r) (h2 : j ≤ i + r) (hk : |(k : ℝ) - c| < w) (hjk : |(k : ℝ) - c| < |(j : ℝ) - c|) :
    h j < h k := by
  by_cases hw : w ≤ |(j : ℝ) - c|
  · rw [window_value R hS hc hi h1 h2 hw, R.on c hc _ hk]
    exact R.pos c hc _ (abs_nonneg _) hk
  · push Not at hw
    rw [R.on c hc _ hw, R.on c hc _ hk]
    exact R.falls c hc _ _ (abs_nonneg _) hjk hw

/-- At most `r + 1` of the samples of the window belong to the ridge. -/
theorem window_count (hw : 2 * w ≤ r + 1) (c : ℝ) (a : ℕ) :
    ((List.range (2 * r + 1)).filter fun k => decide (|((a + k : ℕ) : ℝ) - c| < w)).length ≤ r + 1 := by
  classical
  have hn : ((List.range (2 * r + 1)).filter fun k => decide (|((a + k : ℕ) : ℝ) - c| < w)).Nodup := List.nodup_range.filter _
  rw [← List.toFinset_card_of_nodup hn]
  have hinj : Function.Injective fun k : ℕ => ((a + k : ℕ) : ℤ) := by intro x y hxy; simp only at hxy; omega
  rw [← Finset.card_image_of_injective _ hinj]
  have hsub : (((List.range (2 * r + 1)).filter fun k => decide (|((a + k : ℕ) : ℝ) - c| < w)).toFinset.image
      fun k : ℕ => ((a + k : ℕ) : ℤ)) ⊆ Finset.Icc (⌊c - w⌋ + 1) (⌊c - w⌋ + 1 + r) := by
    intro z hz
    rw [Finset.mem_image] at hz
    obtain ⟨k, hk, rfl⟩ := hz
    rw [List.mem_toFinset, List.mem_filter, decide_eq_true_eq, abs_lt] at hk
    have hk := hk.2
    rw [Finset.mem_Icc]
    constructor
    · have : ⌊c - w⌋ < ((a + k : ℕ) : ℤ) := Int.floor_lt.2 (by push_cast at hk ⊢; linarith [hk.1])
      omega
    · have h1 := Int.lt_floor_add_one (c - w)
      have : ((a + k : ℕ) : ℤ) < ⌊c - w⌋ + 1 + (r + 1) := by
        have : (((a + k : ℕ) : ℤ) : ℝ) < ((⌊c - w⌋ + 1 + (r + 1) : ℤ) : ℝ) := by push_cast at hk ⊢; linarith [hk.2]
        exact_mod_cast this
      omega
  refine (Finset.card_le_card hsub).trans ?_
  rw [Int.card_Icc]
  omega

theorem topMean_const {ws : List ℝ} {m : ℝ} (hr : 0 < r) (hlen : r ≤ ws.length) (hle : ∀ x ∈ ws, x ≤ m)
    (hcount : (ws.filter fun x => decide (x ≠ m)).length + r ≤ ws.length) : TopMean ws r m := by
  classical
  have hperm := List.filter_append_perm (fun x => decide (x ≠ m)) ws
  set A := ws.filter fun x => decide (x ≠ m)
  set B := ws.filter fun x => !decide (x ≠ m) with hB
  have hBm : ∀ x ∈ B, x = m := by
    intro x hx
    rw [hB, List.mem_filter] at hx
    simpa using hx.2
  have hl : A.length + B.length = ws.length := by rw [← hperm.length_eq, List.length_append]
  refine ⟨A ++ B.take (B.length - r), B.drop (B.length - r), ?_, ?_, ?_, ?_⟩
  · rw [List.append_assoc, List.take_append_drop]; exact hperm.symm
  · rw [List.length_drop]; omega
  · intro a ha b hb
    rw [hBm b (List.mem_of_mem_drop hb)]
    rw [List.mem_append] at ha
    rcases ha with ha | ha
    · exact hle a (List.mem_of_mem_filter ha)
    · rw [hBm a (List.mem_of_mem_take ha)]
  · have e : B.drop (B.length - r) = List.replicate r m := by
      rw [List.eq_replicate_iff]
      exact ⟨by rw [List.length_drop]; omega, fun b hb => hBm b (List.mem_of_mem_drop hb)⟩
    rw [e, List.sum_replicate, nsmul_eq_mul, mul_div_cancel_left₀]
    exact_mod_cast hr.ne'

/-- The samples that stand out: those next to a ridge. `f` are the samples subtracted from their maximum `M`. -/
theorem ridge_minimum (R : Ridges cs φ w h) (hS : Searchable cs φ w s top r) (hs : 0 ≤ s) (hr : 0 < r) {M : ℝ} (hMt : M ≤ top)
    {l : List ℝ} (hmax : ∀ x ∈ l, x ≤ M) (hl : ∀ k, k + 1 < l.length → l[k]? = some (h k)) {i : ℕ} (h1 : r ≤ i)
    (h2 : i + r + 1 < l.length) :
    ((∀ j, i ≤ j + r → j ≤ i + r → l.getD j 0 ≤ l.getD i 0) ∧
        ∃ m, TopMean (around (fun k => M - l.getD k 0) r i) r m ∧ s < contrast (M - l.getD i 0) m) ↔
      ∃ c ∈ cs, |(i : ℝ) - c| ≤ 1 / 2 := by
  classical
  have hg : ∀ k, k + 1 < l.length → l.getD k 0 = h k := by
    intro k hk
    rw [List.getD_eq_getElem?_getD, hl k hk, Option.getD_some]
  have hM : ∀ k, k + 1 < l.length → h k ≤ M := fun k hk => hmax _ (List.mem_of_getElem? (hl k hk))
  have ea : around (fun k => M - l.getD k 0) r i = around (fun k => M - h k) r i := by
    unfold around
    apply List.map_congr_left
    intro k hk
    rw [List.mem_range] at hk
    simp only
    rw [hg _ (by omega)]
  have hlen : (around (fun k : ℕ => M - h k) r i).length = 2 * r + 1 := by simp [around]
  have hle : ∀ x ∈ around (fun k : ℕ => M - h k) r i, x ≤ M := by
    intro x hx
    obtain ⟨j, -, -, rfl⟩ := (mem_around h1).1 hx
    linarith [ridge_nonneg R (j : ℝ)]
  rw [ea, hg i (by omega)]
  constructor
  · rintro ⟨hmx, m, hm, hcon⟩
    have hmx' : ∀ j : ℕ, i ≤ j + r → j ≤ i + r → h j ≤ h i := by
      intro j hj1 hj2
      rw [← hg j (by omega)]; exact hmx j hj1 hj2
    by_cases hoff : ∀ c ∈ cs, w ≤ |(i : ℝ) - c|
    · exfalso
      have h0 := R.off _ hoff
      have hM' : TopMean (around (fun k : ℕ => M - h k) r i) r M := by
        refine topMean_const hr (by omega) hle ?_
        have : (around (fun k : ℕ => M - h k) r i).filter (fun x => decide (x ≠ M)) = [] := by
          rw [List.filter_eq_nil_iff]
          intro x hx
          obtain ⟨j, hj1, hj2, rfl⟩ := (mem_around h1).1 hx
          have e : h j = 0 := le_antisymm (h0 ▸ hmx' j hj1 hj2) (ridge_nonneg R _)
          simp [e]
        rw [this, List.length_nil]; omega
      rw [topMean_unique (by omega) hm hM', h0, sub_zero] at hcon
      unfold contrast at hcon
      split_ifs at hcon
      · linarith
      · rw [sub_self, abs_zero, zero_div] at hcon; linarith
    · push Not at hoff
      obtain ⟨c, hc, hcw⟩ := hoff
      refine ⟨c, hc, ?_⟩
      by_contra hlt
      push Not at hlt
      have hne : ∀ j : ℕ, i ≤ j + r → j ≤ i + r → ¬ |(j : ℝ) - c| < |(i : ℝ) - c| := by
        intro j hj1 hj2 hlt'
        have h3 := hmx' j hj1 hj2
        rw [R.on c hc _ hcw, R.on c hc _ (hlt'.trans hcw)] at h3
        exact absurd (R.falls c hc _ _ (abs_nonneg _) hlt' hcw) (not_lt.2 h3)
      rcases le_total (i : ℝ) c with hic | hic
      · rw [abs_of_nonpos (by linarith)] at hlt
        refine hne (i + 1) (by omega) (by omega) ?_
        rw [abs_of_nonpos (by linarith : (i : ℝ) - c ≤ 0), abs_lt]
        push_cast
        constructor <;> linarith
      · rw [abs_of_nonneg (by linarith)] at hlt
        refine hne (i - 1) (by omega) (by omega) ?_
        rw [abs_of_nonneg (by linarith : 0 ≤ (i : ℝ) - c), abs_lt]
        have e : ((i - 1 : ℕ) : ℝ) = (i : ℝ) - 1 := by rw [Nat.cast_sub (by omega)]; simp
        rw [e]
        constructor <;> linarith
  · rintro ⟨c, hc, hcd⟩
    have hiw : |(i : ℝ) - c| < w := hcd.trans_lt hS.wide
    refine ⟨?_, M, ?_, ?_⟩
    · intro j hj1 hj2
      rw [hg j (by omega)]
      by_cases hji : j = i
      · rw [hji]
      · refine window_mono R hS hc hcd hj1 hj2 ?_
        have : (1 : ℝ) ≤ |(j : ℝ) - i| := by
          have : (1 : ℤ) ≤ |(j : ℤ) - i| := Int.one_le_abs (by omega)
          exact_mod_cast this
        have e : (j : ℝ) - i = ((j : ℝ) - c) - ((i : ℝ) - c) := by ring
        have h3 := abs_sub ((j : ℝ) - c) ((i : ℝ) - c)
        rw [← e] at h3
        linarith
    · refine topMean_const hr (by omega) hle ?_
      have hcount := window_count hS.narrow c (i - r)
      have hsub : ((around (fun k : ℕ => M - h k) r i).filter fun x => decide (x ≠ M)).length ≤
          ((List.range (2 * r + 1)).filter fun k => decide (|((i - r + k : ℕ) : ℝ) - c| < w)).length := by
        unfold around
        rw [List.filter_map, List.length_map, ← List.countP_eq_length_filter, ← List.countP_eq_length_filter]
        refine List.countP_mono_left ?_
        intro k hk hne
        rw [List.mem_range] at hk
        simp only [Function.comp, decide_eq_true_eq] at hne ⊢
        by_contra hw
        push Not at hw
        exact hne (by rw [window_value R hS hc hcd (by omega) (by omega) hw, sub_zero])
      rw [hlen]; omega
    · have hv : φ c (1 / 2) ≤ h i := by
        rw [R.on c hc _ hiw]
        rcases lt_or_eq_of_le hcd with hl' | he
        · exact (R.falls c hc _ _ (abs_nonneg _) hl' hS.wide).le
        · rw [he]
      have hp : 0 < h i := by
        rw [R.on c hc _ hiw]; exact R.pos c hc _ (abs_nonneg _) hiw
      have hMp : 0 < M := hp.trans_le (hM i (by omega))
      unfold contrast
      rw [if_neg hMp.ne', show M - h i - M = -h i by ring, abs_neg, abs_of_pos hp, abs_of_pos hMp, lt_div_iff₀ hMp]
      calc s * M ≤ s * top := mul_le_mul_of_nonneg_left hMt hs
        _ < φ c (1 / 2) := hS.clear c hc
        _ ≤ h i := hv

end ridge

/-- The vertex of the parabola through three samples around an extremum. -/
theorem locate_value {pf : PolyfitFn} (hpf : PolyfitSpec pf) {u v w : ℝ} (h1 : v ≤ u) (h2 : v ≤ w) (h3 : v < u ∨ v < w) :
    locateSubpixelPoint pf [u, v, w] "min" = .ok (1 + (u - w) / (2 * (u - 2 * v + w))) := by
  have hd : 0 < u - 2 * v + w := by rcases h3 with h | h <;> linarith
  obtain ⟨k, hk, _⟩ := locate_pos (l := [u, v, w]) (by simp) "min"
  rw [locate_eq (by simp) (fit_triple hpf u v w), hk, ok_bind]
  have e : -((4 * v - 3 * u - w) / 2) / (2 * ((u - 2 * v + w) / 2)) = 1 + (u - w) / (2 * (u - 2 * v + w)) := by
    have hs := hd.ne'
    generalize hd : u - 2 * v + w = d at hs ⊢
    have hw : w = d - u + 2 * v := by linarith
    subst hw
    field_simp
    ring
  have hlt : |(u - w) / (2 * (u - 2 * v + w))| ≤ 1 / 2 := by
    rw [abs_div, div_le_iff₀ (by positivity), abs_mul, abs_two, abs_of_pos hd, abs_le]
    constructor <;> linarith
  rw [if_pos (by simpa using hd.ne')]
  simp only
  rw [e]
  have hb := abs_le.1 hlt
  rw [if_pos ⟨by linarith, by simp only [List.length_cons, List.length_nil]; push_cast; linarith⟩]

/-- The refined positions, if no extremum is flat. -/
theorem extrema_sub (E : Ext) (hpf : PolyfitSpec E.pf) (l : List ℝ) (radius : ℤ) (s : ℝ) (hn : 4 ≤ l.length)
    (hne : ∀ i ∈ extremaIdx l (usedRadius radius l.length) s, l.getD i 0 < l.getD (i - 1) 0 ∨ l.getD i 0 < l.getD (i + 1) 0) :
    getLocalExtremaPoints E l "min" radius s false false true none =
      .ok ((extremaIdx l (usedRadius radius l.length) s).map fun i : ℕ => (i : ℝ) + (l.getD (i - 1) 0 - l.getD (i + 1) 0) /
        (2 * (l.getD (i - 1) 0 - 2 * l.getD i 0 + l.getD (i + 1) 0))) := by
  obtain ⟨flags, h1, h2⟩ := flags_eq l (usedRadius_pos hn (radius := radius)) s
  have hpt : ∀ i ∈ extremaIdx l (usedRadius radius l.length) s,
      (do let s ← locateSubpixelPoint E.pf (npSlice l (sliceBound l.length ((i : ℤ) - 1)) (sliceBound l.length ((i : ℤ) + 2))) "min"
          return (((i : ℤ) : ℝ) - 1 + s) : Except PyErr ℝ) = .ok ((i : ℝ) + (l.getD (i - 1) 0 - l.getD (i + 1) 0) /
        (2 * (l.getD (i - 1) 0 - 2 * l.getD i 0 + l.getD (i + 1) 0))) := by
    intro i hi
    have hnei := hne i hi
    rw [mem_extremaIdx] at hi
    obtain ⟨ha, hb, hc, _⟩ := hi
    have hr := usedRadius_pos hn (radius := radius)
    have hw := npSlice_around l (r := 1) (i := i) (by omega) (by omega)
    have e1 : sliceBound l.length ((i : ℤ) - 1) = i - 1 := by unfold sliceBound; rw [if_neg (by omega)]; omega
    have e2 : sliceBound l.length ((i : ℤ) + 2) = i + 1 + 1 := by unfold sliceBound; rw [if_neg (by omega)]; omega
    have e3 : around (fun k => l.getD k 0) 1 i = [l.getD (i - 1) 0, l.getD i 0, l.getD (i + 1) 0] := by
      have : i - 1 + 1 = i := by omega
      have h' : i - 1 + 2 = i + 1 := by omega
      simp [around, List.range_succ, this, h']
    rw [e1, e2, hw, e3, locate_value hpf (hc (i - 1) (by omega) (by omega)) (hc (i + 1) (by omega) (by omega)) hnei, ok_bind]
    simp only [pure, Except.pure]
    congr 1
    push_cast
    ring
  have hall : ((extremaIdx l (usedRadius radius l.length) s).map fun i : ℕ => (i : ℤ)).mapM (fun i : ℤ => (do
      let s ← locateSubpixelPoint E.pf (npSlice l (sliceBound l.length (i - 1)) (sliceBound l.length (i + 2))) "min"
      return ((i : ℝ) - 1 + s) : Except PyErr ℝ)) = .ok ((extremaIdx l (usedRadius radius l.length) s).map fun i : ℕ => (i : ℝ) +
        (l.getD (i - 1) 0 - l.getD (i + 1) 0) / (2 * (l.getD (i - 1) 0 - 2 * l.getD i 0 + l.getD (i + 1) 0))) := by
    rw [mapM_ok_iff, List.forall₂_map_left_iff, List.forall₂_map_right_iff, List.forall₂_same]
    exact hpt
  unfold getLocalExtremaPoints
  simp only [Bool.false_eq_true, if_false, if_true, String.reduceEq, ok_bind]
  unfold usedRadius at h1 h2 hall ⊢
  rw [h1, ok_bind, h2]
  exact hall

theorem getD_sub {l : List ℝ} (M : ℝ) {k : ℕ} (hk : k < l.length) : (l.map fun x => M - x).getD k 0 = M - l.getD k 0 := by
  simp [List.getD_eq_getElem?_getD, List.getElem?_eq_getElem hk]

theorem mem_extremaIdx_sub {l : List ℝ} {M s : ℝ} {r i : ℕ} :
    i ∈ extremaIdx (l.map fun x => M - x) r s ↔ r ≤ i ∧ i + r + 1 < l.length ∧
      (∀ j, i ≤ j + r → j ≤ i + r → l.getD j 0 ≤ l.getD i 0) ∧
      ∃ m, TopMean (around (fun k => M - l.getD k 0) r i) r m ∧ s < contrast (M - l.getD i 0) m := by
  rw [mem_extremaIdx, List.length_map]
  refine and_congr_right fun h1 => and_congr_right fun h2 => ?_
  have ea : around (fun k => (l.map fun x => M - x).getD k 0) r i = around (fun k => M - l.getD k 0) r i := by
    unfold around
    apply List.map_congr_left
    intro k hk
    rw [List.mem_range] at hk
    simp only
    rw [getD_sub M (by omega)]
  unfold Minimum
  rw [ea]
  simp only
  rw [getD_sub M (by omega : i < l.length)]
  refine and_congr_left fun _ => forall_congr' fun j => forall_congr' fun hj1 => forall_congr' fun hj2 => ?_
  rw [getD_sub M (by omega)]
  constructor <;> intro h <;> linarith

/-- Strictly increasing lists with the same entries are equal. -/
theorem increasing_ext {l l' : List ℕ} (h : l.Pairwise (· < ·)) (h' : l'.Pairwise (· < ·)) (he : ∀ i, i ∈ l ↔ i ∈ l') : l = l' := by
  have hp : l.Perm l' := (List.perm_ext_iff_of_nodup (h.imp fun hab => hab.ne) (h'.imp fun hab => hab.ne)).2 he
  exact List.Perm.eq_of_pairwise (le := (· < ·)) (fun a b _ _ hab hba => absurd hab (by omega)) h h' hp

end Discorpy
