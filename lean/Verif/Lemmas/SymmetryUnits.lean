import Verif.Lemmas.SymmetryFit
import Verif.Lemmas.FitUnique
import Verif.Lemmas.Spacing

/-! # Helper lemmas: fits and intercepts in other units of length -/

namespace Discorpy

open Spec

/-- The polynomial `β·p(x / α)`. -/
noncomputable def rescale (α β : ℝ) : List ℝ → List ℝ
  | [] => []
  | a :: p => β * a / α ^ p.length :: rescale α β p

theorem rescale_length (α β : ℝ) (p : List ℝ) : (rescale α β p).length = p.length := by
  induction p with
  | nil => rfl
  | cons a p ih => simp [rescale, ih]

theorem polyval_rescale {α : ℝ} (hα : α ≠ 0) (β : ℝ) (p : List ℝ) (x : ℝ) : polyval (rescale α β p) (α * x) = β * polyval p x := by
  induction p with
  | nil => simp [rescale]
  | cons a p ih =>
    rw [rescale, polyval_cons, polyval_cons, ih, rescale_length, mul_pow]
    field_simp

/-- Scaled data have the scaled fit. -/
theorem fit_scale {pf : PolyfitFn} (hpf : PolyfitSpec pf) {xs ys : List ℝ} {n : ℕ} (hl : xs.length = ys.length) (hne : xs ≠ []) {α β : ℝ} (hα : α ≠ 0)
    (hβ : β ≠ 0) : ∀ x ∈ xs, polyval (pf (xs.map fun x => α * x) (ys.map fun y => β * y) n) (α * x) = β * polyval (pf xs ys n) x := by
  have err : ∀ r : List ℝ, fitError (xs.map fun x => α * x) (ys.map fun y => β * y) r = β ^ 2 * fitError xs ys (rescale α⁻¹ β⁻¹ r) := by
    intro r
    unfold fitError
    rw [List.zip_map, List.map_map, ← List.sum_map_mul_left]
    congr 1
    refine List.map_congr_left fun z _ => ?_
    have := polyval_rescale (inv_ne_zero hα) β⁻¹ r (α * z.1)
    rw [← mul_assoc, inv_mul_cancel₀ hα, one_mul] at this
    simp only [Function.comp_apply, Prod.map_fst, Prod.map_snd]
    rw [this]
    field_simp
  have inv : ∀ r : List ℝ, fitError xs ys (rescale α⁻¹ β⁻¹ (rescale α β r)) = fitError xs ys r := by
    intro r
    unfold fitError
    congr 1
    refine List.map_congr_left fun z _ => ?_
    have h1 := polyval_rescale (inv_ne_zero hα) β⁻¹ (rescale α β r) (α * z.1)
    rw [polyval_rescale hα, ← mul_assoc, inv_mul_cancel₀ hα, one_mul, ← mul_assoc, inv_mul_cancel₀ hβ, one_mul] at h1
    rw [h1]
  intro x hx
  rw [hpf.unique (by simpa using hl) (by simpa using hne) (q := rescale α β (pf xs ys n)) (by rw [rescale_length, hpf.length xs ys n hl hne]) ?_ (α * x)
    (List.mem_map.2 ⟨x, hx, rfl⟩), polyval_rescale hα]
  intro r hr
  rw [err, err, inv]
  exact mul_le_mul_of_nonneg_left (hpf.minimal xs ys n hl hne _ (by rw [rescale_length, hr])) (sq_nonneg _)

theorem fit_scale_para {pf : PolyfitFn} (hpf : PolyfitSpec pf) {xs ys : List ℝ} (hl : xs.length = ys.length) {α β : ℝ} (hα : α ≠ 0)
    (hβ : β ≠ 0) {a b c : ℝ} (h : pf xs ys 2 = [a, b, c]) {x0 x1 x2 : ℝ} (m0 : x0 ∈ xs) (m1 : x1 ∈ xs) (m2 : x2 ∈ xs) (d1 : x0 ≠ x1) (d2 : x0 ≠ x2) (d3 : x1 ≠ x2) :
    pf (xs.map fun x => α * x) (ys.map fun y => β * y) 2 = [β * a / α ^ 2, β * b / α, β * c] := by
  have hne : xs ≠ [] := List.ne_nil_of_mem m0
  have hv := fit_scale hpf (n := 2) hl hne hα hβ
  have hlen := hpf.length (xs.map fun x => α * x) (ys.map fun y => β * y) 2 (by simpa using hl) (by simpa using hne)
  have e : [β * a / α ^ 2, β * b / α, β * c] = rescale α β [a, b, c] := by simp [rescale]
  have hu := polyval_unique (p := pf (xs.map fun x => α * x) (ys.map fun y => β * y) 2) (q := rescale α β [a, b, c]) hlen (by simp [rescale]) {α * x0, α * x1, α * x2}
    (by
      rw [Finset.card_insert_of_notMem, Finset.card_pair]
      · simpa [hα] using d3
      · simp [hα, d1, d2])
    (by
      intro t ht
      simp only [Finset.mem_insert, Finset.mem_singleton] at ht
      rcases ht with rfl | rfl | rfl
      · rw [hv _ m0, polyval_rescale hα, h]
      · rw [hv _ m1, polyval_rescale hα, h]
      · rw [hv _ m2, polyval_rescale hα, h])
  rw [e]
  exact quadratic_coefs_eq hlen (by simp [rescale]) (hu 0) (hu 1) (hu 2)

theorem fit_scale_line {pf : PolyfitFn} (hpf : PolyfitSpec pf) {xs ys : List ℝ} (hl : xs.length = ys.length) {α β : ℝ} (hα : α ≠ 0)
    (hβ : β ≠ 0) {a b : ℝ} (h : pf xs ys 1 = [a, b]) {x0 x1 : ℝ} (m0 : x0 ∈ xs) (m1 : x1 ∈ xs) (d1 : x0 ≠ x1) :
    pf (xs.map fun x => α * x) (ys.map fun y => β * y) 1 = [β * a / α, β * b] := by
  have hne : xs ≠ [] := List.ne_nil_of_mem m0
  have hv := fit_scale hpf (n := 1) hl hne hα hβ
  have hlen := hpf.length (xs.map fun x => α * x) (ys.map fun y => β * y) 1 (by simpa using hl) (by simpa using hne)
  have e : [β * a / α, β * b] = rescale α β [a, b] := by simp [rescale]
  have hu := polyval_unique (p := pf (xs.map fun x => α * x) (ys.map fun y => β * y) 1) (q := rescale α β [a, b]) hlen (by simp [rescale]) {α * x0, α * x1}
    (by
      rw [Finset.card_pair]
      simpa [hα] using d1)
    (by
      intro t ht
      simp only [Finset.mem_insert, Finset.mem_singleton] at ht
      rcases ht with rfl | rfl
      · rw [hv _ m0, polyval_rescale hα, h]
      · rw [hv _ m1, polyval_rescale hα, h])
  rw [e]
  exact linear_coefs_eq hlen (by simp [rescale]) (hu 0) (hu 1)

/-! ## Array functions -/

theorem map_mapIdx' {α β γ : Type} (f : ℕ → α → β) (g : β → γ) (l : List α) : (l.mapIdx f).map g = l.mapIdx fun i a => g (f i a) :=
  List.ext_getElem (by simp) fun i h1 h2 => by simp

theorem mapIdx_map' {α β γ : Type} (f : ℕ → β → γ) (g : α → β) (l : List α) : (l.map g).mapIdx f = l.mapIdx fun i a => f i (g a) :=
  List.ext_getElem (by simp) fun i h1 h2 => by simp

theorem mul_sum_list (a : ℝ) (l : List ℝ) : a * l.sum = (l.map fun x => a * x).sum := by
  rw [List.sum_map_mul_left, List.map_id']

theorem npSign_scale {σ s : ℝ} (hσ : σ = 1 ∨ σ = -1) (hs : 0 < s) (x : ℝ) : npSign (σ * s * x) = σ * npSign x := by
  rcases lt_trichotomy x 0 with h | rfl | h
  · rcases hσ with rfl | rfl
    · rw [one_mul, npSign_neg (mul_neg_of_pos_of_neg hs h), npSign_neg h, one_mul]
    · rw [npSign_pos (by nlinarith), npSign_neg h]; norm_num
  · simp [npSign]
  · rcases hσ with rfl | rfl
    · rw [one_mul, npSign_pos (mul_pos hs h), npSign_pos h, one_mul]
    · rw [npSign_neg (by nlinarith), npSign_pos h]; norm_num

theorem npArgmin_scale {s : ℝ} (hs : 0 < s) (l : List ℝ) : npArgmin (l.map fun x => s * x) = npArgmin l := by
  classical
  unfold npArgmin
  simp only [List.map_eq_nil_iff]
  split_ifs
  · rfl
  · rw [List.findIdx_map]
    congr 2
    funext x
    simp [Function.comp_apply, mul_le_mul_iff_right₀ hs]

theorem npDiff_scale (e : ℝ) (l : List ℝ) : npDiff (l.map fun x => e * x) = (npDiff l).map fun x => e * x := by
  unfold npDiff
  rw [← List.map_tail, List.zipWith_map, List.map_zipWith]
  simp only [mul_sub]

theorem abs_scale {σ s : ℝ} (hσ : σ = 1 ∨ σ = -1) (hs : 0 < s) (x : ℝ) : |σ * s * x| = s * |x| := by
  rw [abs_mul, abs_mul, abs_of_pos hs]
  rcases hσ with rfl | rfl <;> simp

theorem npMean_scale {s : ℝ} {l : List ℝ} {d : ℝ} (h : npMean l = .ok d) : npMean (l.map fun x => s * x) = .ok (s * d) := by
  unfold npMean at h ⊢
  simp only [List.map_eq_nil_iff]
  split_ifs at h ⊢
  cases h
  rw [List.sum_map_mul_left, List.length_map, List.map_id', mul_div_assoc]

/-- The same line is found where the sign of the curvature changes. -/
theorem signChange_scale {σ : ℝ} (hσ : σ = 1 ∨ σ = -1) {ψ : Para → Para} (hψ : ∀ q, npSign (ψ q).a = σ * npSign q.a) (ch : List Para) :
    signChange (ch.map ψ) = signChange ch := by
  unfold signChange
  have e : (ch.map ψ).map (fun q => npSign q.a) = (ch.map fun q => npSign q.a).map fun x => σ * x := by
    simp [Function.comp_def, hψ]
  rw [e, npDiff_scale, List.map_map]
  have : ((fun t : ℝ => |t|) ∘ fun x : ℝ => σ * x) = fun t => |t| := by
    funext x
    rcases hσ with rfl | rfl <;> simp
  rw [this]

theorem missingInDir_scale {pf : PolyfitFn} (hpf : PolyfitSpec pf) {σ s : ℝ} (hσ : σ = 1 ∨ σ = -1) (hs : 0 < s) {ψ : Para → Para} (hψ : ∀ q, (ψ q).c = σ * s * q.c)
    (ch : List Para) (threshold : ℝ) : missingInDir pf (ch.map ψ) threshold = missingInDir pf ch threshold := by
  classical
  have ed : lineDistances (ch.map ψ) = (lineDistances ch).map fun p => (p.1, s * p.2) := by
    unfold lineDistances
    have e : (ch.map ψ).map Para.c = (ch.map Para.c).map fun x => σ * s * x := by
      simp [Function.comp_def, hψ]
    rw [e, npDiff_scale, List.map_map, map_mapIdx']
    have : ((fun t : ℝ => |t|) ∘ fun x : ℝ => σ * s * x) = (fun x => s * x) ∘ fun t : ℝ => |t| := by
      funext x
      simp only [Function.comp_apply, abs_scale hσ hs]
    rw [this, ← List.map_map, mapIdx_map']
  unfold missingInDir
  rw [ed]
  simp only [List.map_eq_nil_iff]
  split_ifs with hd
  · rfl
  set D := lineDistances ch
  have hl : (D.map Prod.fst).length = (D.map Prod.snd).length := by simp
  have hne : D.map Prod.fst ≠ [] := by simpa using hd
  have hv := fit_scale hpf (n := 2) hl hne one_ne_zero hs.ne'
  rw [show ((D.map Prod.fst).map fun x => 1 * x) = D.map Prod.fst by simp [Function.comp_def], List.map_map] at hv
  simp only [one_mul] at hv
  have e1 : (D.map fun p => (p.1, s * p.2)).map Prod.fst = D.map Prod.fst := by simp [Function.comp_def]
  have e2 : (D.map fun p => (p.1, s * p.2)).map Prod.snd = D.map ((fun y => s * y) ∘ Prod.snd) := by simp [Function.comp_def]
  rw [e1, e2]
  obtain ⟨a, b, c, h1⟩ := List.length_eq_three.1 (hpf.length (D.map Prod.fst) (D.map Prod.snd) 2 hl hne)
  obtain ⟨a', b', c', h2⟩ := List.length_eq_three.1 (hpf.length (D.map Prod.fst) (D.map ((fun y => s * y) ∘ Prod.snd)) 2 (by simp) hne)
  rw [h1, h2] at hv
  rw [h1, h2]
  simp only [Para.ofList, ok_bind]
  have val : ∀ p ∈ D, a' * p.1 ^ 2 + b' * p.1 + c' = s * (a * p.1 ^ 2 + b * p.1 + c) := by
    intro p hp
    have := hv p.1 (List.mem_map.2 ⟨p, hp, rfl⟩)
    simp only [polyval, List.foldl_cons, List.foldl_nil] at this
    linear_combination this
  have c1 : (∃ p ∈ D.map (fun p => (p.1, s * p.2)), a' * p.1 ^ 2 + b' * p.1 + c' = 0 ∧ p.2 = 0) ↔ ∃ p ∈ D, a * p.1 ^ 2 + b * p.1 + c = 0 ∧ p.2 = 0 := by
    simp only [List.mem_map, exists_exists_and_eq_and]
    refine exists_congr fun p => and_congr_right fun hp => ?_
    rw [val p hp]
    simp [hs.ne']
  have c2 : (∃ p ∈ D.map (fun p => (p.1, s * p.2)), a' * p.1 ^ 2 + b' * p.1 + c' = 0) ↔ ∃ p ∈ D, a * p.1 ^ 2 + b * p.1 + c = 0 := by
    simp only [List.mem_map, exists_exists_and_eq_and]
    refine exists_congr fun p => and_congr_right fun hp => ?_
    rw [val p hp]
    simp [hs.ne']
  have c3 : (∃ p ∈ D.map (fun p => (p.1, s * p.2)), |(p.2 - (a' * p.1 ^ 2 + b' * p.1 + c')) / (a' * p.1 ^ 2 + b' * p.1 + c')| > threshold) ↔
      ∃ p ∈ D, |(p.2 - (a * p.1 ^ 2 + b * p.1 + c)) / (a * p.1 ^ 2 + b * p.1 + c)| > threshold := by
    simp only [List.mem_map, exists_exists_and_eq_and]
    refine exists_congr fun p => and_congr_right fun hp => ?_
    rw [val p hp, ← mul_sub, mul_div_mul_left _ _ hs.ne']
  simp only [c1, c2, c3]

/-- Both minimisers of a sum of squares of linear functions give the same values. -/
theorem sumSq_values {L : List (ℝ × ℝ)} {d d' : ℝ} (h : ∀ x, (L.map fun p => (p.1 * d + p.2) ^ 2).sum ≤ (L.map fun p => (p.1 * x + p.2) ^ 2).sum)
    (h' : ∀ x, (L.map fun p => (p.1 * d' + p.2) ^ 2).sum ≤ (L.map fun p => (p.1 * x + p.2) ^ 2).sum) : ∀ p ∈ L, p.1 * d = p.1 * d' := by
  have par : (L.map fun p : ℝ × ℝ => (p.1 * ((d + d') / 2) + p.2) ^ 2).sum =
      ((L.map fun p => (p.1 * d + p.2) ^ 2).sum + (L.map fun p => (p.1 * d' + p.2) ^ 2).sum) / 2 - (L.map fun p : ℝ × ℝ => (p.1 * ((d - d') / 2)) ^ 2).sum := by
    clear h h'
    induction L with
    | nil => simp
    | cons p L ih => simp only [List.map_cons, List.sum_cons, ih]; ring
  have h1 := h ((d + d') / 2)
  have h2 := h' d
  rw [par] at h1
  have hz := sum_sq_eq_zero (f := fun p : ℝ × ℝ => p.1 * ((d - d') / 2)) (l := L) (by linarith [h d'])
  intro p hp
  have := hz p hp
  linarith

theorem funcOpt_eq (c0 : ℝ) (pos : ℕ) (inter : List ℝ) (d : ℝ) :
    funcOpt c0 pos inter d = ((inter.mapIdx fun i c => (npSign c * |(i : ℝ) - pos|, c0 - c)).map fun p => (p.1 * d + p.2) ^ 2).sum := by
  unfold funcOpt
  rw [map_mapIdx']
  congr 1
  apply List.ext_getElem (by simp)
  intro i h1 h2
  simp only [List.getElem_mapIdx]
  ring

/-- The undistorted intercepts in other units. -/
theorem undistorted_scale {minimize : (ℝ → ℝ) → ℝ → ℝ} {σ s : ℝ} (hσ : σ = 1 ∨ σ = -1) (hs : 0 < s) {inter : List ℝ} {numUse : ℤ} {optimizing : Bool}
    (hmin : optimizing = true → ExactMin minimize) {u : List ℝ} (h : undistorted minimize inter numUse optimizing = .ok u) :
    undistorted minimize (inter.map fun x => σ * s * x) numUse optimizing = .ok (u.map fun x => σ * s * x) := by
  have hσ2 : σ * σ = 1 := by rcases hσ with rfl | rfl <;> norm_num
  unfold undistorted at h ⊢
  rw [bind_ok_iff] at h
  obtain ⟨pos, e1, h⟩ := h
  simp only [bind_ok_iff] at h
  obtain ⟨d, e2, c0, e3, h⟩ := h
  cases h
  have hc : (inter.map fun x => σ * s * x).map (fun c => |c|) = (inter.map fun c => |c|).map fun x => s * x := by
    simp only [List.map_map, Function.comp_def, abs_scale hσ hs]
  rw [hc, npArgmin_scale hs, e1, ok_bind]
  simp only [List.length_map]
  have hsl : npSlice (inter.map fun x => σ * s * x) (window pos inter.length numUse).1 (window pos inter.length numUse).2 =
      (npSlice inter (window pos inter.length numUse).1 (window pos inter.length numUse).2).map fun x => σ * s * x := by
    simp [npSlice, List.map_take, List.map_drop]
  have hd : ((npDiff (npSlice (inter.map fun x => σ * s * x) (window pos inter.length numUse).1 (window pos inter.length numUse).2)).map fun t => |t|) =
      ((npDiff (npSlice inter (window pos inter.length numUse).1 (window pos inter.length numUse).2)).map fun t => |t|).map fun x => s * x := by
    rw [hsl, npDiff_scale]
    simp only [List.map_map, Function.comp_def, abs_scale hσ hs]
  rw [hd, npMean_scale e2, ok_bind]
  rw [npGet_ok_iff] at e3
  have e3' : npGet (inter.map fun x => σ * s * x) pos = .ok (σ * s * c0) := by
    rw [npGet_ok_iff, List.getElem?_map, e3]
    rfl
  rw [e3', ok_bind]
  congr 1
  rw [mapIdx_map', map_mapIdx']
  -- the terms that depend on the distance between the lines
  have key : ∀ i (hi : i < inter.length), npSign inter[i] * |(i : ℝ) - pos| *
      (if optimizing = true then minimize (funcOpt (σ * s * c0) pos (inter.map fun x => σ * s * x)) (s * d) else s * d) =
      npSign inter[i] * |(i : ℝ) - pos| * (s * (if optimizing = true then minimize (funcOpt c0 pos inter) d else d)) := by
    intro i hi
    cases optimizing with
    | false => rfl
    | true =>
      have hmin := hmin rfl
      simp only [if_true]
      have scale : ∀ x, funcOpt (σ * s * c0) pos (inter.map fun x => σ * s * x) x = s ^ 2 * funcOpt c0 pos inter (x / s) := by
        intro x
        unfold funcOpt
        rw [mapIdx_map', mul_sum_list, map_mapIdx']
        congr 1
        apply List.ext_getElem (by simp)
        intro i h1 h2
        simp only [List.getElem_mapIdx, npSign_scale hσ hs]
        have : σ * npSign (inter[i]'(by simpa using h1)) * |(i : ℝ) - pos| * x + σ * s * c0 - σ * s * (inter[i]'(by simpa using h1)) =
            σ * (s * (npSign (inter[i]'(by simpa using h1)) * |(i : ℝ) - pos| * (x / s) + c0 - inter[i]'(by simpa using h1))) := by
          field_simp
        rw [this, mul_pow, sq σ, hσ2, one_mul, mul_pow]
      set L := inter.mapIdx fun i c => (npSign c * |(i : ℝ) - pos|, c0 - c) with hL
      obtain ⟨m, hm⟩ := sumSq_min L
      have m1 := hmin (funcOpt c0 pos inter) d ⟨m, fun x => by rw [funcOpt_eq, funcOpt_eq]; exact hm x⟩
      have m2 := hmin (funcOpt (σ * s * c0) pos (inter.map fun x => σ * s * x)) (s * d) ⟨s * m, fun x => by
        rw [scale, scale, mul_div_cancel_left₀ _ hs.ne', funcOpt_eq, funcOpt_eq]
        exact mul_le_mul_of_nonneg_left (hm _) (sq_nonneg _)⟩
      set D := minimize (funcOpt c0 pos inter) d
      set D' := minimize (funcOpt (σ * s * c0) pos (inter.map fun x => σ * s * x)) (s * d)
      have m2' : ∀ x, funcOpt c0 pos inter (D' / s) ≤ funcOpt c0 pos inter x := by
        intro x
        have := m2 (s * x)
        rw [scale, scale, mul_div_cancel_left₀ _ hs.ne'] at this
        exact le_of_mul_le_mul_left this (by positivity)
      have := sumSq_values (L := L) (d := D' / s) (d' := D) (fun x => by rw [← funcOpt_eq, ← funcOpt_eq]; exact m2' x)
        (fun x => by rw [← funcOpt_eq, ← funcOpt_eq]; exact m1 x) (npSign inter[i] * |(i : ℝ) - pos|, c0 - inter[i])
        (by rw [hL, List.mem_mapIdx]; exact ⟨i, hi, rfl⟩)
      simp only at this
      have h3 : D' / s * s = D' := div_mul_cancel₀ _ hs.ne'
      linear_combination s * this - npSign inter[i] * |(i : ℝ) - pos| * h3
  apply List.ext_getElem (by simp)
  intro i h1 h2
  have hi : i < inter.length := by simpa using h1
  simp only [List.getElem_mapIdx, npSign_scale hσ hs]
  have := key i hi
  linear_combination σ * this

end Discorpy
