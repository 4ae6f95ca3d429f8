import Verif.Lemmas.BentRows
import Verif.Model.Fisheye
import Verif.Props.C32
import Verif.Props.C33
import Verif.Props.C76
import Verif.Props.C80

/-! # Helper lemmas for the fisheye scripts -/

namespace Discorpy

open Spec

/-! ## The mask -/

theorem mask_fits {rot : Mat ℝ → ℝ → Mat ℝ} {height width : ℕ} {hc vc left right top bot : ℝ} {mask : Mat ℝ}
    (h : makeParabolaMask rot height width hc vc (.seq [left, right]) (.seq [top, bot]) 0 = .ok mask) :
    0 < height ∧ 0 < width ∧ left + right ≤ width ∧ top + bot ≤ height := by
  unfold makeParabolaMask at h
  have e1 : (Margin.seq [top, bot]).pair = .ok (top, bot) := rfl
  have e2 : (Margin.seq [left, right]).pair = .ok (left, right) := rfl
  rw [e1, ok_bind] at h
  simp only at h
  rw [e2, ok_bind] at h
  simp only at h
  split_ifs at h with h1 h2 h3 h4
  · exact absurd rfl h4
  · push Not at h1 h2 h3
    exact ⟨by omega, by omega, h1, h2⟩

/-- The points left by the mask. -/
theorem kept_of_ok {rot : Mat ℝ → ℝ → Mat ℝ} {height width : ℕ} {left right top bot : ℝ} {points kept : List Pt}
    (h : removePointsMask rot points height width 0.4 0.3 (.seq [left, right]) (.seq [top, bot]) 0 = .ok kept) :
    kept.Sublist points ∧ (∀ p, p ∈ kept ↔ p ∈ points ∧ InsideMask height width top bot left right p) ∧
    (open Classical in kept = points.filter fun p => decide (InsideMask height width top bot left right p)) := by
  classical
  obtain ⟨mask, hm, -⟩ := bind_ok_iff.1 (show (makeParabolaMask rot height width 0.4 0.3 _ _ 0 >>= _) = _ from h)
  obtain ⟨f1, f2, f3, f4⟩ := mask_fits hm
  obtain ⟨m', e, s1, s2, s3⟩ := (C33_mask rot height width f1 f2 0.4 0.3 (.seq [left, right]) (.seq [top, bot]) top bot left right rfl rfl).2 f3 f4
  rw [hm] at e
  cases e
  have hb : ∀ p ∈ points, ∀ n m : ℤ, IsTrunc p.y n → IsTrunc p.x m → -(height : ℤ) ≤ n ∧ n < height ∧ -(width : ℤ) ≤ m ∧ m < width := by
    intro p hp n m hn hm'
    by_contra hc
    rw [C34_out_of_frame rot points height width 0.4 0.3 _ _ 0 mask hm s1 s2 p hp n m hn hm' (by omega)] at h
    cases h
  obtain ⟨k, e, k1, k2, k3⟩ := C34_points rot points height width 0.4 0.3 _ _ 0 mask hm s1 s2 hb
  rw [h] at e
  cases e
  have k4 : ∀ p, p ∈ kept ↔ p ∈ points ∧ InsideMask height width top bot left right p := by
    intro p
    rw [k2 p]
    refine and_congr_right fun _ => ⟨?_, ?_⟩
    · rintro ⟨i, hi, j, hj, t1, t2, t3⟩
      exact ⟨i, hi, j, hj, t1, t2, (s3 i j).2.1 t3⟩
    · rintro ⟨i, hi, j, hj, t1, t2, t3⟩
      exact ⟨i, hi, j, hj, t1, t2, (s3 i j).2.2 t3⟩
  refine ⟨k1, k4, ?_⟩
  rw [k3]
  refine List.filter_congr fun p hp => ?_
  rw [decide_eq_decide, k4]
  exact ⟨fun h => h.2, fun h => ⟨hp, h⟩⟩

/-- Points inside the mask all stay. -/
theorem kept_all (rot : Mat ℝ → ℝ → Mat ℝ) {height width : ℕ} {left right top bot : ℝ} {points : List Pt} (hw : left + right ≤ width)
    (hh : top + bot ≤ height) (h0 : 0 < height) (w0 : 0 < width) (h : ∀ p ∈ points, InsideMask height width top bot left right p) :
    removePointsMask rot points height width 0.4 0.3 (.seq [left, right]) (.seq [top, bot]) 0 = .ok points := by
  classical
  obtain ⟨mask, hm, s1, s2, s3⟩ := (C33_mask rot height width h0 w0 0.4 0.3 (.seq [left, right]) (.seq [top, bot]) top bot left right rfl rfl).2 hw hh
  obtain ⟨k, e, -, -, -⟩ := C34_points rot points height width 0.4 0.3 _ _ 0 mask hm s1 s2 (by
    intro p hp n m hn hm'
    obtain ⟨i, hi, j, hj, t1, t2, -⟩ := h p hp
    have := isTrunc_unique hn t1
    have := isTrunc_unique hm' t2
    omega)
  rw [e, (kept_of_ok e).2.2, List.filter_eq_self.2]
  intro p hp
  simpa using h p hp

/-! ## The pattern -/

theorem mem_tableRows {f : ℕ → ℕ → Pt} {K L : ℕ} {line : List Pt} (h : line ∈ tableRows f K L) : ∃ k < K, line = (List.range L).map (f k) := by
  obtain ⟨k, hk, rfl⟩ := List.mem_map.1 h
  exact ⟨k, List.mem_range.1 hk, rfl⟩

/-- The distances of the lines of a family from the centre. -/
noncomputable def offsets (o d : ℝ) (K : ℕ) : List ℝ := (List.range K).map fun k : ℕ => o + k * d

theorem offsets_length (o d : ℝ) (K : ℕ) : (offsets o d K).length = K := by simp [offsets]

theorem offsets_arith (o d : ℝ) (K : ℕ) : IsArith (offsets o d K) o d := by
  intro i v h
  unfold offsets at h
  rw [List.getElem?_map] at h
  obtain ⟨k, hk, rfl⟩ := Option.map_eq_some_iff.1 h
  obtain ⟨-, rfl⟩ := List.getElem?_eq_some_iff.1 hk
  simp

theorem offsets_nodup (o : ℝ) {d : ℝ} (hd : 0 < d) (K : ℕ) : (offsets o d K).Nodup := by
  refine List.nodup_range.map fun a b h => ?_
  have h' : (a : ℝ) * d = b * d := add_left_cancel h
  exact_mod_cast mul_right_cancel₀ hd.ne' h'

theorem bent_table {along across : Pt → ℝ} {c : Pt} {κ o d s : ℝ} {N : ℕ} (K : ℕ) (dot : ℕ → ℕ → Pt)
    (h1 : ∀ k i, along (dot k i) = along c + ((i : ℝ) - N) * s)
    (h2 : ∀ k i, across (dot k i) = across c + (o + k * d) * (1 + κ * (((i : ℝ) - N) * s) ^ 2)) (hs : 0 < s) (hN : 1 ≤ N) :
    List.Forall₂ (IsBentLine along across c κ) (offsets o d K) (tableRows dot K (2 * N + 1)) := by
  unfold offsets tableRows
  rw [List.forall₂_map_left_iff, List.forall₂_map_right_iff, List.forall₂_same]
  intro k _
  have hm : ∀ i < 2 * N + 1, dot k i ∈ (List.range (2 * N + 1)).map fun l => dot k l := fun i hi =>
    List.mem_map.2 ⟨i, List.mem_range.2 hi, rfl⟩
  refine ⟨fun p hp => ?_, dot k 0, hm _ (by omega), dot k 1, hm _ (by omega), dot k 2, hm _ (by omega), ?_⟩
  · obtain ⟨i, _, rfl⟩ := List.mem_map.1 hp
    rw [h1, h2]
    ring
  · rw [h1, h1, h1]
    push_cast
    refine ⟨fun h => ?_, fun h => ?_, fun h => ?_⟩ <;> linarith

theorem bent_pattern (c : Pt) {κ o d s κ' o' d' s' : ℝ} {K N K' N' : ℕ} (hs : 0 < s) (hN : 1 ≤ N) (hs' : 0 < s') (hN' : 1 ≤ N') :
    IsBentPattern c κ κ' (offsets o d K) (offsets o' d' K') (tableRows (bentRowDot c κ o d s N) K (2 * N + 1))
      (tableRows (bentColDot c κ' o' d' s' N') K' (2 * N' + 1)) :=
  ⟨bent_table K _ (fun _ _ => rfl) (fun _ _ => rfl) hs hN, bent_table K' _ (fun _ _ => rfl) (fun _ _ => rfl) hs' hN'⟩

theorem family_signs {κ o d s : ℝ} {K N : ℕ} (h : IsFisheyeFamily κ o d s K N) : BothSigns (offsets o d K) := by
  have h4 := h.lines
  refine ⟨⟨o + ((K - 1 : ℕ) : ℝ) * d, List.mem_map.2 ⟨K - 1, List.mem_range.2 (by omega), rfl⟩, ?_⟩, o,
    List.mem_map.2 ⟨0, List.mem_range.2 (by omega), by simp⟩, h.below⟩
  rw [Nat.cast_sub (by omega)]
  simpa using h.above

theorem family_clear {κ o d s : ℝ} {K N : ℕ} (h : IsFisheyeFamily κ o d s K N) : (0 : ℝ) ∉ offsets o d K := by
  intro h0
  obtain ⟨k, hk, e⟩ := List.mem_map.1 h0
  exact h.clear k (List.mem_range.1 hk) e

theorem turn_zero {a : ℝ} (ha : a = 0) (p : Pt) : turn a p = p := by
  subst ha
  unfold turn
  simp

/-- Rows are found. -/
theorem fisheye_rows {pf : PolyfitFn} (hpf : PolyfitSpec pf) {argsort : List ℝ → List ℕ} (hs : ArgsortSpec argsort) (c : Pt) {κ o d s : ℝ} {K N : ℕ}
    (h : IsFisheyeFamily κ o d s K N) {dots : List Pt} (hp : dots.Perm (tableRows (bentRowDot c κ o d s N) K (2 * N + 1)).flatten) :
    groupPolyfitHor pf argsort dots 0 d 0.1 3 0.65 0.5 2 = .ok (tableRows (bentRowDot c κ o d s N) K (2 * N + 1)) := by
  refine bentRows_found (mk := fun t u => ⟨u, t⟩) hpf hs (fun _ _ => rfl) (fun _ _ => rfl) (turn_zero (by simp)) (fun B row' hB h1 h2 h3 h4 => ?_)
    (by have := h.lines; omega) h.dots (h.step.trans_le h.close) h.step h.close h.small h.bend h.middle _ (fun k i => rfl) _ _ hp
  classical
  have := coarse_hor hs hB h1 h2 (fun p hp => by convert h3 p hp) (fun p hp q hq => by convert h4 p hp q hq)
  convert this

/-- Columns are found. -/
theorem fisheye_columns {pf : PolyfitFn} (hpf : PolyfitSpec pf) {argsort : List ℝ → List ℕ} (hs : ArgsortSpec argsort) (c : Pt) {κ o d s : ℝ} {K N : ℕ}
    (h : IsFisheyeFamily κ o d s K N) {dots : List Pt} (hp : dots.Perm (tableRows (bentColDot c κ o d s N) K (2 * N + 1)).flatten) :
    groupPolyfitVer pf argsort dots 0 d 0.1 3 0.65 0.5 2 = .ok (tableRows (bentColDot c κ o d s N) K (2 * N + 1)) := by
  refine bentRows_found (mk := fun t u => ⟨t, u⟩) hpf hs (fun _ _ => rfl) (fun _ _ => rfl) (turn_zero (by simp)) (fun B row' hB h1 h2 h3 h4 => ?_)
    (by have := h.lines; omega) h.dots (h.step.trans_le h.close) h.step h.close h.small h.bend h.middle _ (fun k i => rfl) _ _ hp
  classical
  have := coarse_ver hs hB h1 h2 (fun p hp => by convert h3 p hp) (fun p hp q hq => by convert h4 p hp q hq)
  convert this

/-- Dots on parabolas are not removed. -/
theorem rows_kept {pf : PolyfitFn} (hpf : PolyfitSpec pf) {c : Pt} {κ : ℝ} {us : List ℝ} {lines : List (List Pt)}
    (h : List.Forall₂ (IsBentLine Pt.x Pt.y c κ) us lines) (h0 : us ≠ []) (slope : ℝ) {residual : ℝ} (hr : 0 < residual) :
    removeResidualHor pf lines slope residual = .ok lines := by
  have key : ∀ l ∈ lines, ∃ u, IsBentLine Pt.x Pt.y c κ u l := fun l hl => by
    obtain ⟨u, -, hu⟩ := forall₂_right h hl
    exact ⟨u, hu⟩
  refine C32_exact pf hpf lines ?_ (fun l hl => ?_) slope residual hr (fun l hl => ?_)
  · rintro rfl
    exact h0 (List.length_eq_zero_iff.1 h.length_eq)
  · obtain ⟨u, hu⟩ := key l hl
    obtain ⟨p, hp, -⟩ := hu.three
    exact List.ne_nil_of_mem hp
  · obtain ⟨u, hu⟩ := key l hl
    refine ⟨u * κ, -2 * u * κ * c.x, c.y + u + u * κ * c.x ^ 2, fun p hp => ?_⟩
    rw [hu.on p hp]
    ring

theorem columns_kept {pf : PolyfitFn} (hpf : PolyfitSpec pf) {c : Pt} {κ : ℝ} {us : List ℝ} {lines : List (List Pt)}
    (h : List.Forall₂ (IsBentLine Pt.y Pt.x c κ) us lines) (h0 : us ≠ []) (slope : ℝ) {residual : ℝ} (hr : 0 < residual) :
    removeResidualVer pf lines slope residual = .ok lines := by
  have h' : List.Forall₂ (IsBentLine Pt.x Pt.y ⟨c.x, c.y⟩ κ) us (swapLines lines) := by
    unfold swapLines
    rw [List.forall₂_map_right_iff]
    refine h.imp fun u l hl => ⟨fun p hp => ?_, ?_⟩
    · obtain ⟨q, hq, rfl⟩ := List.mem_map.1 hp
      exact hl.on q hq
    · obtain ⟨p, hp, q, hq, r, hr, t⟩ := hl.three
      exact ⟨_, List.mem_map_of_mem hp, _, List.mem_map_of_mem hq, _, List.mem_map_of_mem hr, t⟩
  rw [C32_vertical, rows_kept hpf h' h0 slope hr]
  simp [Except.map, swapLines, Function.comp_def, swapPt]

theorem bend_pos {κ o d s : ℝ} {K N : ℕ} (h : IsFisheyeFamily κ o d s K N) {i : ℕ} (hi : i < 2 * N + 1) :
    0 < 1 + κ * (((i : ℝ) - N) * s) ^ 2 := by
  have h1 : |(i : ℝ) - N| ≤ N := by
    have : (i : ℝ) ≤ 2 * N := by exact_mod_cast (by omega : i ≤ 2 * N)
    have : (0 : ℝ) ≤ i := Nat.cast_nonneg i
    rw [abs_le]
    constructor <;> linarith
  have h2 : (((i : ℝ) - N) * s) ^ 2 ≤ (N * s) ^ 2 := by
    rw [← sq_abs (((i : ℝ) - N) * s), abs_mul, abs_of_pos h.step]
    exact pow_le_pow_left₀ (mul_nonneg (abs_nonneg _) h.step.le) (mul_le_mul_of_nonneg_right h1 h.step.le) 2
  have h3 := mul_le_mul_of_nonneg_left h2 (abs_nonneg κ)
  have h4 := h.bend
  have h5 := mul_le_mul_of_nonneg_right (neg_abs_le κ) (sq_nonneg (((i : ℝ) - N) * s))
  linarith

theorem bentSum_flat {us : List ℝ} {lines : List (List Pt)} (h : us.length = lines.length) (g : Pt → ℝ) :
    bentSum us lines (fun _ p => g p) = (lines.flatten.map g).sum := by
  unfold bentSum
  induction lines generalizing us with
  | nil => simp
  | cons l lines ih =>
    cases us with
    | nil => simp at h
    | cons u us =>
      rw [List.zip_cons_cons, List.map_cons, List.sum_cons, ih (by simpa using h), List.flatten_cons, List.map_append, List.sum_append]

/-- The coarse centre of a bent pattern exists unless the averaged lines are parallel. -/
theorem coarse_bent {pf : PolyfitFn} (hpf : PolyfitSpec pf) {c : Pt} {κ o d κ' o' d' : ℝ} {K K' : ℕ} {hor ver : List (List Pt)}
    (h : IsBentPattern c κ κ' (offsets o d K) (offsets o' d' K') hor ver) (hK : 2 ≤ K) (hK' : 2 ≤ K')
    (hpar : ∀ k l : ℕ, κ * c.x * (2 * o + (2 * k + 1) * d) * (κ' * c.y * (2 * o' + (2 * l + 1) * d')) ≠ 1) :
    ∃ a, findCodCoarse pf hor ver = .ok a := by
  have eh := bent_fitHor hpf h.hor 0 0
  have ev := bent_fitVer hpf h.ver 0 0
  obtain ⟨k, e1, hk, -⟩ := signChange_ok (coefs := (offsets o d K).map (bentPara κ (0 - c.x) (c.y - 0))) (by simpa [offsets_length] using hK)
  obtain ⟨m, e2, hm, -⟩ := signChange_ok (coefs := (offsets o' d' K').map (bentPara κ' (0 - c.y) (c.x - 0))) (by simpa [offsets_length] using hK')
  rw [List.length_map, offsets_length] at hk hm
  have get : ∀ (o d κ e f : ℝ) (K k : ℕ), k < K → ((offsets o d K).map (bentPara κ e f))[k]? = some (bentPara κ e f (o + k * d)) := by
    intro o d κ e f K k hk
    simp [offsets, hk]
  rw [findCodCoarse_eq eh ev e1 e2 (get _ _ _ _ _ _ _ (by omega)) (get _ _ _ _ _ _ _ hk) (get _ _ _ _ _ _ _ (by omega)) (get _ _ _ _ _ _ _ hm), if_neg]
  · exact ⟨_, rfl⟩
  · simp only [bentPara]
    intro hc
    refine hpar k m (Eq.trans ?_ hc)
    push_cast
    ring

end Discorpy
