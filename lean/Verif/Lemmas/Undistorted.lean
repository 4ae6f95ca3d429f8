import Verif.Lemmas.Array
import Verif.Lemmas.Transform
import Verif.Model.Proc
import Verif.Spec.Undistorted
import Mathlib.LinearAlgebra.Vandermonde

/-! # Helper lemmas: undistorted intercepts and the radial systems -/

namespace Discorpy

open Spec

/-- Reference minimiser. -/
noncomputable def refMinimize (f : ℝ → ℝ) (x0 : ℝ) : ℝ := by
  classical exact if h : ∃ m, ∀ x, f m ≤ f x then h.choose else x0

theorem refMinimize_exact : ExactMin refMinimize := by
  intro f x0 h x
  unfold refMinimize
  rw [dif_pos h]
  exact h.choose_spec x

theorem length_three {l : List ℝ} (h : l.length = 3) : ∃ a b c, l = [a, b, c] := by
  match l, h with
  | [a, b, c], _ => exact ⟨a, b, c, rfl⟩

theorem fitPara {pf : PolyfitFn} (hpf : PolyfitSpec pf) {line : List Pt} (hne : line ≠ []) (along across : Pt → ℝ)
    (ta ca : ℝ) :
    ∃ q, Para.ofList (pf (line.map fun p => along p - ta) (line.map fun p => across p - ca) 2) = .ok q ∧
      IsLsqPara along across ta ca line q.a q.b q.c := by
  have hl : (line.map fun p => along p - ta).length = (line.map fun p => across p - ca).length := by simp
  have hne' : (line.map fun p => along p - ta) ≠ [] := by simpa using hne
  obtain ⟨a, b, c, e⟩ := length_three (hpf.length _ _ 2 hl hne')
  refine ⟨⟨a, b, c⟩, by rw [e]; rfl, ?_⟩
  intro a' b' c'
  have hm := hpf.minimal _ _ 2 hl hne' [a', b', c'] rfl
  rw [e] at hm
  unfold fitError at hm
  rw [List.zip_map', List.map_map, List.map_map] at hm
  simpa only [Function.comp_def, polyval_three] using hm

theorem paraHor_ok {pf : PolyfitFn} (hpf : PolyfitSpec pf) {line : List Pt} (hne : line ≠ []) (xc yc : ℝ) :
    ∃ q, paraHor pf xc yc line = .ok q ∧ IsLsqPara Pt.x Pt.y xc yc line q.a q.b q.c := by
  obtain ⟨q, e, h⟩ := fitPara hpf hne Pt.x Pt.y xc yc
  exact ⟨q, by rw [paraHor, if_neg hne, e], h⟩

theorem paraVer_ok {pf : PolyfitFn} (hpf : PolyfitSpec pf) {line : List Pt} (hne : line ≠ []) (xc yc : ℝ) :
    ∃ q, paraVer pf xc yc line = .ok q ∧ IsLsqPara Pt.y Pt.x yc xc line q.a q.b q.c := by
  obtain ⟨q, e, h⟩ := fitPara hpf hne Pt.y Pt.x yc xc
  exact ⟨q, by rw [paraVer, if_neg hne, e], h⟩

/-- A quadratic with three different zeros is zero. -/
theorem quad_zero {a b c x y z : ℝ} (hx : a * x ^ 2 + b * x + c = 0) (hy : a * y ^ 2 + b * y + c = 0)
    (hz : a * z ^ 2 + b * z + c = 0) (hxy : x ≠ y) (hxz : x ≠ z) (hyz : y ≠ z) : a = 0 ∧ b = 0 ∧ c = 0 := by
  have h1 : a * (x + y) + b = 0 := by
    have : (x - y) * (a * (x + y) + b) = 0 := by linear_combination hx - hy
    exact (mul_eq_zero.1 this).resolve_left (sub_ne_zero.2 hxy)
  have h2 : a * (x + z) + b = 0 := by
    have : (x - z) * (a * (x + z) + b) = 0 := by linear_combination hx - hz
    exact (mul_eq_zero.1 this).resolve_left (sub_ne_zero.2 hxz)
  have ha : a = 0 := by
    have : (y - z) * a = 0 := by linear_combination h1 - h2
    exact (mul_eq_zero.1 this).resolve_left (sub_ne_zero.2 hyz)
  subst ha
  have hb : b = 0 := by linarith
  subst hb
  exact ⟨rfl, rfl, by linarith⟩

/-- Least-squares parabola of dots on a parabola with three different positions. -/
theorem lsqPara_exact {along across : Pt → ℝ} {ta ca : ℝ} {line : List Pt} {a b c a' b' c' : ℝ}
    (h : IsLsqPara along across ta ca line a b c)
    (hon : ∀ p ∈ line, across p - ca = a' * (along p - ta) ^ 2 + b' * (along p - ta) + c')
    (h3 : ∃ p ∈ line, ∃ q ∈ line, ∃ r ∈ line, along p ≠ along q ∧ along p ≠ along r ∧ along q ≠ along r) :
    a = a' ∧ b = b' ∧ c = c' := by
  have h0 := h a' b' c'
  have hz : (line.map fun p => (a' * (along p - ta) ^ 2 + b' * (along p - ta) + c' - (across p - ca)) ^ 2).sum = 0 := by
    apply List.sum_eq_zero
    intro x hx
    obtain ⟨p, hp, rfl⟩ := List.mem_map.1 hx
    rw [hon p hp]; ring
  rw [hz] at h0
  have hall := sum_sq_eq_zero (f := fun p : Pt => a * (along p - ta) ^ 2 + b * (along p - ta) + c - (across p - ca)) h0
  obtain ⟨p, hp, q, hq, r, hr, h1, h2, h3⟩ := h3
  have e : ∀ p ∈ line, (a - a') * (along p - ta) ^ 2 + (b - b') * (along p - ta) + (c - c') = 0 := by
    intro p hp
    have h1 := hall p hp
    have h2 := hon p hp
    linear_combination h1 + h2
  obtain ⟨x, y, z⟩ := quad_zero (e p hp) (e q hq) (e r hr) (fun h => h1 (by linarith)) (fun h => h2 (by linarith))
    (fun h => h3 (by linarith))
  exact ⟨by linarith, by linarith, by linarith⟩

theorem npSign_pos {x : ℝ} (h : 0 < x) : npSign x = 1 := by rw [npSign, if_neg (not_lt.2 h.le), if_pos h]
theorem npSign_neg {x : ℝ} (h : x < 0) : npSign x = -1 := by rw [npSign, if_pos h]

/-- Signed distance in lines, for increasing (`s = 1`) or decreasing (`s = -1`) intercepts. -/
theorem sign_dist {inter : List ℝ} {s : ℝ} (hs : s = 1 ∨ s = -1) (hm : inter.Pairwise fun a b => s * a < s * b) {pos : ℕ}
    (hp : pos < inter.length) (hmin : ∀ y ∈ inter, |inter[pos]| ≤ |y|) {i : ℕ} (hi : i < inter.length) :
    npSign inter[i] * |(i : ℝ) - pos| = s * ((i : ℝ) - pos) := by
  have hlt := List.pairwise_iff_getElem.1 hm
  have hmi := hmin _ (List.getElem_mem hi)
  rcases lt_trichotomy i pos with h | h | h
  · have h1 := hlt i pos hi hp h
    have hc : (i : ℝ) < pos := by exact_mod_cast h
    rw [abs_of_neg (by linarith)]
    rcases hs with rfl | rfl
    · have : inter[i] < 0 := by
        by_contra hn
        push Not at hn
        rw [abs_of_nonneg hn, abs_of_nonneg (by linarith)] at hmi
        linarith
      rw [npSign_neg this]; ring
    · have : 0 < inter[i] := by
        by_contra hn
        push Not at hn
        rw [abs_of_nonpos hn, abs_of_nonpos (by linarith)] at hmi
        linarith
      rw [npSign_pos this]; ring
  · subst h; simp
  · have h1 := hlt pos i hp hi h
    have hc : (pos : ℝ) < i := by exact_mod_cast h
    rw [abs_of_pos (by linarith)]
    rcases hs with rfl | rfl
    · have : 0 < inter[i] := by
        by_contra hn
        push Not at hn
        rw [abs_of_nonpos hn, abs_of_nonpos (by linarith)] at hmi
        linarith
      rw [npSign_pos this]
    · have : inter[i] < 0 := by
        by_contra hn
        push Not at hn
        rw [abs_of_nonneg hn, abs_of_nonneg (by linarith)] at hmi
        linarith
      rw [npSign_neg this]

theorem strictlyMonotone_sign {l : List ℝ} (h : StrictlyMonotone l) :
    ∃ s : ℝ, (s = 1 ∨ s = -1) ∧ l.Pairwise fun a b => s * a < s * b := by
  rcases h with h | h
  · exact ⟨1, .inl rfl, h.imp (by intro a b h; simpa using h)⟩
  · exact ⟨-1, .inr rfl, h.imp (by intro a b h; simpa using h)⟩

theorem window_length {α : Type} (l : List α) {pos : ℕ} (hp : pos < l.length) (numUse : ℤ) (hu : 1 ≤ numUse)
    (h2 : 2 ≤ l.length) :
    2 ≤ (npSlice l (window pos l.length numUse).1 (window pos l.length numUse).2).length := by
  simp only [npSlice, window, List.length_drop, List.length_take]
  omega

/-- The closed form of one direction. -/
theorem undistorted_eq (minimize : (ℝ → ℝ) → ℝ → ℝ) {inter : List ℝ} (hm : StrictlyMonotone inter) {numUse : ℤ}
    (hu : 1 ≤ numUse) (h2 : 2 ≤ inter.length) (optimizing : Bool) :
    ∃ (pos : ℕ) (hp : pos < inter.length) (s : ℝ) (d : ℝ), (∀ y ∈ inter, |inter[pos]| ≤ |y|) ∧ (s = 1 ∨ s = -1) ∧
      (inter.Pairwise fun a b => s * a < s * b) ∧
      npMean ((npDiff (npSlice inter (window pos inter.length numUse).1 (window pos inter.length numUse).2)).map
        fun t => |t|) = .ok d ∧
      undistorted minimize inter numUse optimizing = .ok (inter.mapIdx fun i _ =>
        inter[pos] + ((i : ℝ) - pos) * (s * (if optimizing then minimize (funcOpt inter[pos] pos inter) d else d))) := by
  have hne : inter.map (fun c => |c|) ≠ [] := by
    intro h; rw [List.map_eq_nil_iff] at h; rw [h] at h2; simp at h2
  obtain ⟨pos, e, hp, hmin, -⟩ := npArgmin_ok hne
  rw [List.length_map] at hp
  have hmin' : ∀ y ∈ inter, |inter[pos]| ≤ |y| := by
    intro y hy
    have := hmin |y| (List.mem_map.2 ⟨y, hy, rfl⟩)
    simpa using this
  obtain ⟨s, hs, hms⟩ := strictlyMonotone_sign hm
  have hw := window_length inter hp numUse hu h2
  have hne2 : (npDiff (npSlice inter (window pos inter.length numUse).1 (window pos inter.length numUse).2)).map
        (fun t => |t|) ≠ [] := by
    rw [ne_eq, List.map_eq_nil_iff]; exact npDiff_ne_nil hw
  refine ⟨pos, hp, s, _, hmin', hs, hms, npMean_ok hne2, ?_⟩
  unfold undistorted
  rw [e, ok_bind]
  simp only
  rw [npMean_ok hne2, ok_bind, npGet_of_lt hp, ok_bind]
  congr 1
  apply List.ext_getElem?
  intro i
  simp only [List.getElem?_mapIdx]
  by_cases hi : i < inter.length
  · simp only [List.getElem?_eq_getElem hi, Option.map_some, Option.some.injEq]
    have := sign_dist hs hms hp hmin' hi
    rw [← mul_assoc, this]; ring
  · simp [not_lt.1 hi]

theorem arith_strict {l : List ℝ} {c0 δ : ℝ} (h : IsArith l c0 δ) (hδ : δ ≠ 0) : StrictlyMonotone l := by
  have key : ∀ i j (hi : i < l.length) (hj : j < l.length), i < j → l[j] - l[i] = ((j : ℝ) - i) * δ := by
    intro i j hi hj _
    rw [h i _ (List.getElem?_eq_getElem hi), h j _ (List.getElem?_eq_getElem hj)]; ring
  rcases lt_or_gt_of_ne hδ with hd | hd
  · right
    rw [List.pairwise_iff_getElem]
    intro i j hi hj hij
    have := key i j hi hj hij
    have hc : (i : ℝ) < j := by exact_mod_cast hij
    nlinarith
  · left
    rw [List.pairwise_iff_getElem]
    intro i j hi hj hij
    have := key i j hi hj hij
    have hc : (i : ℝ) < j := by exact_mod_cast hij
    nlinarith

theorem arith_diff {l : List ℝ} {c0 δ : ℝ} (h : IsArith l c0 δ) {a b : ℕ} :
    ∀ t ∈ npDiff (npSlice l a b), t = δ := by
  intro t ht
  obtain ⟨i, x, y, hx, hy, rfl⟩ := npDiff_mem ht
  rw [h _ _ (npSlice_getElem? hx), h _ _ (npSlice_getElem? hy)]
  push_cast; ring

theorem undistorted_exact (minimize : (ℝ → ℝ) → ℝ → ℝ) {inter : List ℝ} {c0 δ : ℝ} (h : IsArith inter c0 δ) (hδ : δ ≠ 0)
    {numUse : ℤ} (hu : 1 ≤ numUse) (h2 : 2 ≤ inter.length) (optimizing : Bool)
    (hmin : optimizing = true → ExactMin minimize) : undistorted minimize inter numUse optimizing = .ok inter := by
  obtain ⟨pos, hp, s, d, hm, hs, hms, hd, e⟩ := undistorted_eq minimize (arith_strict h hδ) hu h2 optimizing
  have hw := window_length inter hp numUse hu h2
  rw [npMean_const (v := |δ|) (by rw [ne_eq, List.map_eq_nil_iff]; exact npDiff_ne_nil hw) (by
    intro x hx
    obtain ⟨t, ht, rfl⟩ := List.mem_map.1 hx
    rw [arith_diff h t ht])] at hd
  have hd' : |δ| = d := by simpa using hd
  have hsδ : s * |δ| = δ := by
    have h01 := List.pairwise_iff_getElem.1 hms 0 1 (by omega) (by omega) (by omega)
    rw [h 0 _ (List.getElem?_eq_getElem (by omega)), h 1 _ (List.getElem?_eq_getElem (by omega))] at h01
    push_cast at h01
    rcases hs with rfl | rfl
    · rw [abs_of_pos (by linarith)]; ring
    · rw [abs_of_neg (by linarith)]; ring
  have hval : ∀ i (hi : i < inter.length), inter[i] = inter[pos] + ((i : ℝ) - pos) * δ := by
    intro i hi
    rw [h i _ (List.getElem?_eq_getElem hi), h pos _ (List.getElem?_eq_getElem hp)]; ring
  have hopt : (if optimizing then minimize (funcOpt inter[pos] pos inter) d else d) = |δ| := by
    cases optimizing with
    | false => simp [hd']
    | true =>
      simp only [if_true]
      have hterm : ∀ x : ℝ, funcOpt inter[pos] pos inter x = (inter.mapIdx fun i _ => (((i : ℝ) - pos) * (s * x - δ)) ^ 2).sum := by
        intro x
        unfold funcOpt
        congr 1
        apply List.ext_getElem?
        intro i
        simp only [List.getElem?_mapIdx]
        by_cases hi : i < inter.length
        · simp only [List.getElem?_eq_getElem hi, Option.map_some, Option.some.injEq]
          rw [sign_dist hs hms hp hm hi, hval i hi]; ring
        · simp [not_lt.1 hi]
      have h0 : funcOpt inter[pos] pos inter |δ| = 0 := by
        rw [hterm, hsδ]
        apply List.sum_eq_zero
        intro x hx
        obtain ⟨i, hi, rfl⟩ := List.mem_mapIdx.1 hx
        ring
      have hnn : ∀ x, 0 ≤ funcOpt inter[pos] pos inter x := by
        intro x
        rw [hterm]
        apply List.sum_nonneg
        intro y hy
        obtain ⟨i, hi, rfl⟩ := List.mem_mapIdx.1 hy
        positivity
      have hle := hmin rfl (funcOpt inter[pos] pos inter) d ⟨|δ|, fun x => by rw [h0]; exact hnn x⟩ |δ|
      rw [h0] at hle
      generalize minimize (funcOpt inter[pos] pos inter) d = x at *
      rw [hterm] at hle
      obtain ⟨j, hj, hjp⟩ : ∃ j, j < inter.length ∧ j ≠ pos := by
        by_cases h0 : pos = 0
        · exact ⟨1, by omega, by omega⟩
        · exact ⟨0, by omega, by omega⟩
      have hz := sum_sq_eq_zero (l := inter.zipIdx) (f := fun q : ℝ × ℕ => ((q.2 : ℝ) - pos) * (s * x - δ)) (by
        rw [List.mapIdx_eq_zipIdx_map] at hle
        simpa [Function.comp_def] using hle) (inter[j], j) (by
          rw [List.mem_zipIdx_iff_getElem?]; simp [hj])
      simp only [mul_eq_zero] at hz
      have hne : ((j : ℝ) - pos) ≠ 0 := sub_ne_zero.2 (by exact_mod_cast hjp)
      have hsx : s * x = δ := by linarith [hz.resolve_left hne]
      have hss : s * s = 1 := by rcases hs with rfl | rfl <;> norm_num
      calc x = (s * s) * x := by rw [hss, one_mul]
        _ = s * δ := by rw [mul_assoc, hsx]
        _ = s * (s * |δ|) := by rw [hsδ]
        _ = |δ| := by rw [← mul_assoc, hss, one_mul]
  rw [e, hopt]
  congr 1
  apply List.ext_getElem?
  intro i
  simp only [List.getElem?_mapIdx]
  by_cases hi : i < inter.length
  · simp only [List.getElem?_eq_getElem hi, Option.map_some, Option.some.injEq]
    rw [hsδ, ← hval i hi]
  · simp [not_lt.1 hi]

/-- Rows `(1, r, r², …) · v = 1` are solved exactly. -/
theorem solve_ones {lstsq : LstsqFn} (h : LstsqSpec lstsq) {n : ℕ} (hn : 1 ≤ n) {rows : List (List ℝ × ℝ)} (hne : rows ≠ [])
    (hr : ∀ q ∈ rows, ∃ r, q = (powers r n, 1)) :
    ∃ v, lstsqChecked lstsq rows = .ok v ∧ v.length = n ∧ ∀ r, (powers r n, (1 : ℝ)) ∈ rows → radial v r = 1 := by
  have hA : rows.map Prod.fst ≠ [] := by simpa using hne
  have hl : (rows.map Prod.fst).length = (rows.map Prod.snd).length := by simp
  have hrl : ∀ r ∈ rows.map Prod.fst, r.length = n := by
    intro r hr'
    obtain ⟨q, hq, rfl⟩ := List.mem_map.1 hr'
    obtain ⟨r, e⟩ := hr q hq
    rw [e]; exact powers_length _ _
  have hlen := h.length _ _ _ hA hl hrl
  refine ⟨_, by rw [lstsqChecked, if_neg hne], hlen, ?_⟩
  have hz : (rows.map Prod.fst).zip (rows.map Prod.snd) = rows := by rw [List.zip_map']; simp
  have hid : (1 :: List.replicate (n - 1) (0 : ℝ)).length = n := by simp; omega
  have hs := h.solves hA hl hrl hid (by
    rw [hz]
    intro q hq
    obtain ⟨r, e⟩ := hr q hq
    rw [e]
    simp only
    have := rowDot_powers r (1 :: List.replicate (n - 1) (0 : ℝ))
    rw [hid] at this
    rw [this, ← polySum_eq_radial, polySum_one])
  rw [hz] at hs
  intro r hmem
  have := hs _ hmem
  simp only at this
  rw [← hlen, rowDot_powers] at this
  exact this

/-- `n` different radii determine a model of `n` coefficients. -/
theorem radial_one_unique {v : List ℝ} (hn : 1 ≤ v.length) (rs : List ℝ) (hrs : rs.Nodup) (hl : rs.length = v.length)
    (h : ∀ r ∈ rs, radial v r = 1) : v = 1 :: List.replicate (v.length - 1) 0 := by
  have hz := Matrix.eq_zero_of_forall_index_sum_mul_pow_eq_zero (R := ℝ) (n := v.length)
    (f := fun j => rs[j]) (v := fun i => v[i] - if i = ⟨0, hn⟩ then 1 else 0)
    (by
      intro a b hab
      exact Fin.ext ((List.Nodup.getElem_inj_iff hrs).1 hab))
    (by
      intro j
      have := h rs[j] (List.getElem_mem _)
      unfold radial at this
      simp only [sub_mul, Finset.sum_sub_distrib, this, ite_mul, one_mul, zero_mul]
      simp)
  apply List.ext_getElem
  · simp; omega
  intro i hi _
  have := congrFun hz ⟨i, hi⟩
  simp only [Fin.mk.injEq, Pi.zero_apply, Fin.getElem_fin] at this
  rcases i with _ | i
  · simp at this ⊢; linarith
  · simp at this ⊢; linarith

end Discorpy
