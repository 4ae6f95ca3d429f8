import Verif.Lemmas.GridPara
import Verif.Lemmas.Tilted
import Verif.Lemmas.Vanish
import Verif.Spec.Spacing
import Verif.Lemmas.Undistorted

/-! # Helper lemmas: line spacings -/

namespace Discorpy

open Spec

theorem gaps_eq (l : List ℝ) : (npDiff l).map (fun t => |t|) = gaps l := by
  rw [npDiff_eq_range, List.map_map]
  rfl

theorem lineDist_spacing (scale : ScaleOpt) {l : List ℝ} (h : 2 ≤ l.length) : ∃ d, lineDist scale l = .ok d ∧ IsSpacing l d scale := by
  have hne : gaps l ≠ [] := by rw [← gaps_eq]; simpa using npDiff_ne_nil h
  have hlen : ((gaps l).length : ℝ) ≠ 0 := by simpa using hne
  have hm : (gaps l).sum / (gaps l).length * (gaps l).length = (gaps l).sum := by field_simp
  unfold lineDist
  rw [gaps_eq]
  cases scale with
  | max => obtain ⟨m, e, h1, h2⟩ := npMax_ok hne; exact ⟨m, e, h1, h2⟩
  | min => obtain ⟨m, e, h1, h2⟩ := npMin_ok hne; exact ⟨m, e, h1, h2⟩
  | median =>
    obtain ⟨m, e⟩ := npMedian_ok hne
    exact ⟨m, e, isMedian_of_npMedian (f := id) (by simpa using e)⟩
  | mean => exact ⟨_, npMean_ok hne, hm⟩
  | float s =>
    simp only
    rw [npMean_ok hne]
    exact ⟨_, rfl, _, hm, rfl⟩

theorem combineDist_eq (scale : ScaleOpt) (equalDist : Bool) (dh dv : ℝ) :
    combineDist scale equalDist dh dv = commonSpacing equalDist dh dv scale := by
  unfold combineDist commonSpacing
  cases equalDist <;> cases scale <;> simp <;> ring

theorem funcOptPers_eq {l : List ℝ} {pos : ℕ} (hp : pos < l.length) (d : ℝ) : funcOptPers l[pos] pos l d = spacingError l pos d := by
  unfold funcOptPers spacingError
  congr 1
  apply List.ext_getElem
  · simp
  · intro i h1 h2
    simp only [List.length_mapIdx] at h1
    simp only [List.getElem_mapIdx, List.getElem_map, List.getElem_range, List.getD_eq_getElem?_getD,
      List.getElem?_eq_getElem h1, List.getElem?_eq_getElem hp, Option.getD_some]
    ring

/-- A sum of squares of linear functions has a smallest value. -/
theorem sumSq_min (l : List (ℝ × ℝ)) : ∃ m, ∀ x : ℝ, (l.map fun p => (p.1 * m + p.2) ^ 2).sum ≤ (l.map fun p => (p.1 * x + p.2) ^ 2).sum := by
  have expand : ∀ x : ℝ, (l.map fun p => (p.1 * x + p.2) ^ 2).sum =
      (l.map fun p => p.1 ^ 2).sum * x ^ 2 + 2 * (l.map fun p => p.1 * p.2).sum * x + (l.map fun p => p.2 ^ 2).sum := by
    intro x
    induction l with
    | nil => simp
    | cons p l ih => simp only [List.map_cons, List.sum_cons, ih]; ring
  have hA : 0 ≤ (l.map fun p => p.1 ^ 2).sum := List.sum_nonneg (by
    intro y hy; obtain ⟨p, _, rfl⟩ := List.mem_map.1 hy; positivity)
  rcases hA.eq_or_lt with h0 | hpos
  · have hz : ∀ p ∈ l, p.1 = 0 := sum_sq_eq_zero (f := fun p : ℝ × ℝ => p.1) h0.symm.le
    refine ⟨0, fun x => le_of_eq ?_⟩
    congr 1
    apply List.map_congr_left
    intro p hp
    rw [hz p hp]; ring
  · refine ⟨-(l.map fun p => p.1 * p.2).sum / (l.map fun p => p.1 ^ 2).sum, fun x => ?_⟩
    rw [expand, expand]
    generalize (l.map fun p => p.1 ^ 2).sum = A at *
    generalize (l.map fun p => p.1 * p.2).sum = B at *
    generalize (l.map fun p => p.2 ^ 2).sum = C at *
    have : A * x ^ 2 + 2 * B * x + C - (A * (-B / A) ^ 2 + 2 * B * (-B / A) + C) = (A * x + B) ^ 2 / A := by
      field_simp; ring
    have : 0 ≤ (A * x + B) ^ 2 / A := by positivity
    linarith

theorem spacingError_min (l : List ℝ) (pos : ℕ) : ∃ m, ∀ x, spacingError l pos m ≤ spacingError l pos x := by
  obtain ⟨m, h⟩ := sumSq_min ((List.range l.length).map fun i : ℕ => ((i : ℝ) - pos, l.getD pos 0 - l.getD i 0))
  refine ⟨m, fun x => ?_⟩
  have := h x
  rw [List.map_map, List.map_map] at this
  unfold spacingError
  convert this using 3
  · ext i; simp only [Function.comp_apply]; ring
  · ext i; simp only [Function.comp_apply]; ring

theorem central_window {α : Type} (l : List α) (pos n : ℕ) :
    npSlice l (window pos l.length n).1 (window pos l.length n).2 = central l pos n := by
  unfold npSlice window central
  simp only
  have e1 : (max (0 : ℤ) ((pos : ℤ) - (n : ℤ))).toNat = pos - n := by omega
  have e2 : (min (l.length : ℤ) ((pos : ℤ) + (n : ℤ) + 1)).toNat = min l.length (pos + n + 1) := by omega
  rw [e1, e2]
  conv_rhs => rw [List.take_eq_take_min, min_comm]

/-- The number of lines used at each side of the middle one. -/
theorem numUse_nat (h v : ℕ) : (Min.min (Max.max (((h / 2 : ℕ) : ℤ) - 1) 1) (Max.max (((v / 2 : ℕ) : ℤ) - 1) 1)) =
    ((min (max (h / 2 - 1) 1) (max (v / 2 - 1) 1) : ℕ) : ℤ) := by omega

theorem central_length {α : Type} (l : List α) {n : ℕ} (hn : 1 ≤ n) (h : 2 ≤ l.length) : 2 ≤ (central l (l.length / 2) n).length := by
  unfold central
  rw [List.length_drop, List.length_take]
  omega

theorem optDistPers_ok (minimize : (ℝ → ℝ) → ℝ → ℝ) (optimizing : Bool) (d : ℝ) {pos : ℕ} {l : List ℝ} (hp : pos < l.length) :
    ∃ e, optDistPers minimize optimizing d pos l = .ok e ∧ (optimizing = false → e = d) ∧
      (optimizing = true → ExactMin minimize → ∀ x, spacingError l pos e ≤ spacingError l pos x) := by
  unfold optDistPers
  cases optimizing with
  | false => exact ⟨d, rfl, fun _ => rfl, fun h => by simp at h⟩
  | true =>
    simp only [if_true]
    unfold optimizeInterceptPers
    rw [npGet_of_lt hp]
    refine ⟨_, rfl, fun h => by simp at h, fun _ hm x => ?_⟩
    have hf : funcOptPers l[pos] pos l = spacingError l pos := by ext d; exact funcOptPers_eq hp d
    rw [hf]
    exact hm _ _ (spacingError_min l pos) x

/-- The undistorted intercepts. -/
theorem calcUndistorInterceptPers_values {pf : PolyfitFn} (minimize : (ℝ → ℝ) → ℝ → ℝ) {hor ver : List (List Pt)} {ch cv : List Lin}
    (e : generateLinearCoef pf hor ver 0 0 = .ok (ch, cv)) (l1 : ch.length = hor.length) (l2 : cv.length = ver.length)
    (h2 : 2 ≤ hor.length) (v2 : 2 ≤ ver.length) (equalDist : Bool) (scale : ScaleOpt) (optimizing : Bool) :
    ∃ eh ev dh dv : ℝ, (dh, dv) = commonSpacing equalDist eh ev scale ∧
      (optimizing = false →
        IsSpacing (central (ch.map Lin.b) (hor.length / 2) (min (max (hor.length / 2 - 1) 1) (max (ver.length / 2 - 1) 1))) eh scale ∧
        IsSpacing (central (cv.map Lin.b) (ver.length / 2) (min (max (hor.length / 2 - 1) 1) (max (ver.length / 2 - 1) 1))) ev scale) ∧
      (optimizing = true → ExactMin minimize →
        (∀ x, spacingError (ch.map Lin.b) (hor.length / 2) eh ≤ spacingError (ch.map Lin.b) (hor.length / 2) x) ∧
        (∀ x, spacingError (cv.map Lin.b) (ver.length / 2) ev ≤ spacingError (cv.map Lin.b) (ver.length / 2) x)) ∧
      calcUndistorInterceptPers pf minimize hor ver equalDist scale optimizing =
        .ok ((List.range hor.length).map fun i : ℕ => (ch.map Lin.b).getD (hor.length / 2) 0 + ((i : ℝ) - (hor.length / 2 : ℕ)) * dh,
          (List.range ver.length).map fun i : ℕ => (cv.map Lin.b).getD (ver.length / 2) 0 + ((i : ℝ) - (ver.length / 2 : ℕ)) * dv) := by
  have m1 : (ch.map Lin.b).length = hor.length := by rw [List.length_map, l1]
  have m2 : (cv.map Lin.b).length = ver.length := by rw [List.length_map, l2]
  set n := min (max (hor.length / 2 - 1) 1) (max (ver.length / 2 - 1) 1) with hn
  have n1 : 1 ≤ n := by omega
  obtain ⟨d1, e1, s1⟩ := lineDist_spacing scale (l := central (ch.map Lin.b) (hor.length / 2) n) (by
    have := central_length (ch.map Lin.b) n1 (by omega); rwa [m1] at this)
  obtain ⟨d2, e2, s2⟩ := lineDist_spacing scale (l := central (cv.map Lin.b) (ver.length / 2) n) (by
    have := central_length (cv.map Lin.b) n1 (by omega); rwa [m2] at this)
  have p1 : hor.length / 2 < (ch.map Lin.b).length := by omega
  have p2 : ver.length / 2 < (cv.map Lin.b).length := by omega
  obtain ⟨eh, o1, o1', o1''⟩ := optDistPers_ok minimize optimizing d1 p1
  obtain ⟨ev, o2, o2', o2''⟩ := optDistPers_ok minimize optimizing d2 p2
  refine ⟨eh, ev, (commonSpacing equalDist eh ev scale).1, (commonSpacing equalDist eh ev scale).2, rfl, ?_, ?_, ?_⟩
  · intro h; rw [o1' h, o2' h]; exact ⟨s1, s2⟩
  · intro h hm; exact ⟨o1'' h hm, o2'' h hm⟩
  unfold calcUndistorInterceptPers
  rw [e]
  simp only [ok_bind]
  rw [numUse_nat, ← hn]
  have w1 := central_window (ch.map Lin.b) (hor.length / 2) n
  have w2 := central_window (cv.map Lin.b) (ver.length / 2) n
  rw [m1] at w1
  rw [m2] at w2
  rw [w1, w2, e1, ok_bind, e2, ok_bind, o1, ok_bind, o2, ok_bind, combineDist_eq, interceptsPers_eq p1, ok_bind, interceptsPers_eq p2,
    ok_bind, m1, m2]
  congr 2
  · apply List.map_congr_left; intro i _
    rw [List.getD_eq_getElem?_getD, List.getElem?_eq_getElem p1, Option.getD_some]; ring
  · apply List.map_congr_left; intro i _
    rw [List.getD_eq_getElem?_getD, List.getElem?_eq_getElem p2, Option.getD_some]; ring

theorem commonSlope_ok {pf : PolyfitFn} (hpf : PolyfitSpec pf) {ch cv : List Lin} (nh : ch ≠ []) (nv : cv ≠ []) :
    ∃ a0, commonSlope pf ch cv = .ok a0 ∧ IsCommonSlope ch cv a0 := by
  obtain ⟨k, m, e1, h1⟩ := hpf.lsqHor (ch.map fun q => (⟨q.a, q.b⟩ : Pt)) (by simpa using nh) 0 0
  obtain ⟨k', m', e2, h2⟩ := hpf.lsqHor (cv.map fun q => (⟨-q.a, q.b⟩ : Pt)) (by simpa using nv) 0 0
  simp only [List.map_map, Function.comp_def, sub_zero, mul_zero, add_zero] at e1 e2 h1 h2
  unfold commonSlope
  rw [if_neg (by simp [nh, nv])]
  have e1' : Lin.ofList (pf (ch.map Lin.b) (ch.map Lin.a) 1) = .ok ⟨k, m⟩ := by
    rw [show pf (ch.map Lin.b) (ch.map Lin.a) 1 = [k, m] from e1]; rfl
  have e2' : Lin.ofList (pf (cv.map Lin.b) (cv.map fun q => -q.a) 1) = .ok ⟨k', m'⟩ := by
    rw [show pf (cv.map Lin.b) (cv.map fun q => -q.a) 1 = [k', m'] from e2]; rfl
  rw [e1', e2']
  simp only [ok_bind]
  split
  · rename_i hk
    have hne : k - k' ≠ 0 := by intro h; rw [h] at hk; norm_num at hk
    refine ⟨_, rfl, k, m, k', m', h1, h2, fun _ => ⟨(m' - m) / (k - k'), ?_, ?_⟩, fun h => absurd hk (by rw [ge_iff_le]; linarith)⟩
    · field_simp; ring
    · field_simp; ring
  · rename_i hk
    refine ⟨_, rfl, k, m, k', m', h1, h2, fun h => absurd h hk, fun _ => by ring⟩

theorem commonSlope_const {pf : PolyfitFn} (hpf : PolyfitSpec pf) {ch cv : List Lin} {s : ℝ} (hh : ∀ q ∈ ch, q.a = s)
    (hv : ∀ q ∈ cv, q.a = -s) (h2 : ∃ x ∈ ch, ∃ y ∈ ch, x.b ≠ y.b) (v2 : ∃ x ∈ cv, ∃ y ∈ cv, x.b ≠ y.b) :
    commonSlope pf ch cv = .ok s := by
  have nh : ch ≠ [] := by obtain ⟨x, hx, _⟩ := h2; exact List.ne_nil_of_mem hx
  have nv : cv ≠ [] := by obtain ⟨x, hx, _⟩ := v2; exact List.ne_nil_of_mem hx
  unfold commonSlope
  rw [if_neg (by simp [nh, nv]), hpf.lin_exact (a := 0) (b := s) (fun q hq => by rw [hh q hq]; ring) h2,
    hpf.lin_exact (a := 0) (b := s) (fun q hq => by rw [hv q hq]; ring) v2]
  simp only [ok_bind]
  rw [if_neg (by norm_num)]
  congr 1
  ring

/-- With at least two intercepts the best equidistant spacing is unique. -/
theorem spacingError_unique {l : List ℝ} {pos : ℕ} (hl : 2 ≤ l.length) {d d' : ℝ}
    (h : ∀ x, spacingError l pos d ≤ spacingError l pos x) (h' : ∀ x, spacingError l pos d' ≤ spacingError l pos x) : d = d' := by
  have par : ∀ L : List ℕ, (L.map fun i : ℕ => (l.getD pos 0 + ((i : ℝ) - pos) * ((d + d') / 2) - l.getD i 0) ^ 2).sum =
      ((L.map fun i : ℕ => (l.getD pos 0 + ((i : ℝ) - pos) * d - l.getD i 0) ^ 2).sum +
        (L.map fun i : ℕ => (l.getD pos 0 + ((i : ℝ) - pos) * d' - l.getD i 0) ^ 2).sum) / 2 -
        (L.map fun i : ℕ => (((i : ℝ) - pos) * ((d - d') / 2)) ^ 2).sum := by
    intro L
    induction L with
    | nil => simp
    | cons i L ih => simp only [List.map_cons, List.sum_cons, ih]; ring
  have hm := h ((d + d') / 2)
  have h1 := h d'
  have h2 := h' d
  unfold spacingError at hm h1 h2
  rw [par] at hm
  have hz : ((List.range l.length).map fun i : ℕ => (((i : ℝ) - pos) * ((d - d') / 2)) ^ 2).sum ≤ 0 := by linarith
  have hz' := sum_sq_eq_zero (f := fun i : ℕ => (((i : ℝ) - pos) * ((d - d') / 2))) hz
  have k0 := hz' 0 (by simp; omega)
  have k1 := hz' 1 (by simp; omega)
  push_cast at k0 k1
  linarith

end Discorpy
