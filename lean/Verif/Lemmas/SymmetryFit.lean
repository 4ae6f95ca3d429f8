import Verif.Spec.Symmetry
import Verif.Props.C92

/-! # Helper lemmas: the fits of transposed, mirrored and scaled lines -/

namespace Discorpy

open Spec

theorem radial_getD (l : List ℝ) (r : ℝ) : radial l r = ∑ i ∈ Finset.range l.length, l.getD i 0 * r ^ i := by
  rw [radial, Finset.sum_range]
  exact Finset.sum_congr rfl fun i _ => by simp

theorem radial_model (T : Units) (k : List ℝ) (r : ℝ) : radial (T.model k) (T.unit * r) = radial k r := by
  have hp := T.pos.ne'
  rw [radial_getD, radial_getD, Units.model, List.length_mapIdx]
  refine Finset.sum_congr rfl fun i hi => ?_
  have hi' : i < k.length := Finset.mem_range.1 hi
  simp only [List.getD_eq_getElem?_getD, List.getElem?_mapIdx, List.getElem?_eq_getElem hi', Option.map_some, Option.getD_some]
  rw [mul_pow]
  field_simp

/-- The coefficients of the model in the old unit of length. -/
noncomputable def unmodel (s : ℝ) (k : List ℝ) : List ℝ := k.mapIdx fun i a => a * s ^ i

theorem radial_unmodel (s : ℝ) (k : List ℝ) (r : ℝ) : radial (unmodel s k) r = radial k (s * r) := by
  rw [radial_getD, radial_getD, unmodel, List.length_mapIdx]
  refine Finset.sum_congr rfl fun i hi => ?_
  have hi' : i < k.length := Finset.mem_range.1 hi
  simp only [List.getD_eq_getElem?_getD, List.getElem?_mapIdx, List.getElem?_eq_getElem hi', Option.map_some, Option.getD_some]
  rw [mul_pow]
  ring

/-- Two minimisers of the same sum of squares have the same values at the data. -/
theorem min_same_values {data : List (ℝ × ℝ)} {n : ℕ} {k k' : List ℝ} (hk : k.length = n) (hk' : k'.length = n)
    (h : ∀ w : List ℝ, w.length = n → (data.map fun d => (radial k d.1 - d.2) ^ 2).sum ≤ (data.map fun d => (radial w d.1 - d.2) ^ 2).sum)
    (h' : (data.map fun d => (radial k' d.1 - d.2) ^ 2).sum ≤ (data.map fun d => (radial k d.1 - d.2) ^ 2).sum) :
    ∀ d ∈ data, radial k' d.1 = radial k d.1 := by
  have hm := h (between (1 / 2) k k') (by rw [between_length (by rw [hk, hk']), hk])
  have e : (data.map fun d => (radial (between (1 / 2) k k') d.1 - d.2) ^ 2).sum =
      ((data.map fun d => (radial k d.1 - d.2) ^ 2).sum + (data.map fun d => (radial k' d.1 - d.2) ^ 2).sum) / 2 -
        (data.map fun d => (radial k' d.1 - radial k d.1) ^ 2).sum / 4 := by
    have : ∀ d : ℝ × ℝ, radial (between (1 / 2) k k') d.1 = radial k d.1 + 1 / 2 * (radial k' d.1 - radial k d.1) :=
      fun d => radial_between (by rw [hk, hk']) _
    clear hm h h'
    induction data with
    | nil => simp
    | cons a l ih =>
      simp only [List.map_cons, List.sum_cons]
      rw [ih, this a]
      ring
  have hz : (data.map fun d => (radial k' d.1 - radial k d.1) ^ 2).sum ≤ 0 := by
    rw [e] at hm
    linarith
  intro d hd
  have hle := List.single_le_sum (l := data.map fun d => (radial k' d.1 - radial k d.1) ^ 2) (by
    intro x hx
    obtain ⟨y, _, rfl⟩ := List.mem_map.1 hx
    positivity) _ (List.mem_map.2 ⟨d, hd, rfl⟩)
  have : (radial k' d.1 - radial k d.1) ^ 2 = 0 := le_antisymm (hle.trans hz) (sq_nonneg _)
  have := pow_eq_zero_iff (two_ne_zero) |>.1 this
  linarith

/-- The least-squares models of data with scaled radii, in any order, have the same values. -/
theorem lsq_same_values {lstsq lstsq' : LstsqFn} (h : LstsqSpec lstsq) (h' : LstsqSpec lstsq') (n : ℕ) {s : ℝ} (hs : 0 < s) {data data' : List (ℝ × ℝ)}
    (hp : data'.Perm data) (hne : data ≠ []) :
    ∃ k k', lstsqChecked lstsq (data.map fun d => (powers d.1 n, d.2)) = .ok k ∧
      lstsqChecked lstsq' (data'.map fun d => (powers (s * d.1) n, d.2)) = .ok k' ∧ k.length = n ∧ k'.length = n ∧
      ∀ d ∈ data, radial k' (s * d.1) = radial k d.1 := by
  have hne' : data'.map (fun d => (s * d.1, d.2)) ≠ [] := by
    intro h0
    rw [List.map_eq_nil_iff] at h0
    rw [h0] at hp
    exact hne (List.Perm.nil_eq hp).symm
  obtain ⟨k, e, hk, hmin⟩ := lstsq_powers_min h n hne
  obtain ⟨k', e', hk', hmin'⟩ := lstsq_powers_min h' n hne'
  rw [List.map_map] at e'
  refine ⟨k, k', e, e', hk, hk', fun d hd => ?_⟩
  rw [← radial_unmodel]
  have perm : ∀ f : ℝ × ℝ → ℝ, (data'.map f).sum = (data.map f).sum := fun f => (hp.map f).sum_eq
  refine min_same_values hk (k' := unmodel s k') (by simp [unmodel, hk']) hmin ?_ d hd
  simp only [radial_unmodel]
  have := hmin' (unmodel s⁻¹ k) (by simp [unmodel, hk])
  simp only [List.map_map, Function.comp_def, radial_unmodel] at this
  rw [perm, perm] at this
  refine this.trans (le_of_eq ?_)
  congr 1
  apply List.map_congr_left
  intro d _
  rw [← mul_assoc, inv_mul_cancel₀ hs.ne', one_mul]

/-- Rows of the transformed dots. -/
theorem rowsOf_samples {ρ ρ' δ : Type} {row : Para → ℝ → ℝ → Pt → Except PyErr ρ} {row' : Para → ℝ → ℝ → Pt → Except PyErr ρ'}
    {along along' : Pt → ℝ} {S : Para → ℝ → Pt → δ} {G : δ → ρ} {G' : δ → ρ'} {ψ : Para → Para} {e : ℝ → ℝ} {φ : Pt → Pt}
    (H : ∀ q u p x, row q u (along p) p = .ok x → x = G (S q u p) ∧ row' (ψ q) (e u) (along' (φ p)) (φ p) = .ok (G' (S q u p)))
    {coefs : List Para} {uc : List ℝ} {lines : List (List Pt)} {R : List ρ} (h : rowsOf row along coefs uc lines = .ok R) :
    R = (samplesOf coefs uc lines S).map G ∧
      rowsOf row' along' (coefs.map ψ) (uc.map e) (lines.map fun l => l.map φ) = .ok ((samplesOf coefs uc lines S).map G') := by
  unfold rowsOf at h
  rw [bind_ok_iff] at h
  obtain ⟨r, hr, h⟩ := h
  cases h
  have hz : List.zip (List.zip (coefs.map ψ) (uc.map e)) (lines.map fun l => l.map φ) =
      (List.zip (List.zip coefs uc) lines).map fun z => ((ψ z.1.1, e z.1.2), z.2.map φ) := by
    rw [List.zip_map, List.zip_map]
    rfl
  have inner : ∀ (q : Para) (u : ℝ) (l : List Pt) (x : List ρ), l.mapM (fun p => row q u (along p) p) = .ok x →
      x = l.map (fun p => G (S q u p)) ∧ (l.map φ).mapM (fun p => row' (ψ q) (e u) (along' p) p) = .ok (l.map fun p => G' (S q u p)) := by
    intro q u l x hx
    rw [mapM_ok_iff] at hx
    rw [mapM_ok_iff]
    induction hx with
    | nil => exact ⟨rfl, .nil⟩
    | cons ha _ ih =>
      obtain ⟨a1, a2⟩ := H _ _ _ _ ha
      exact ⟨by rw [List.map_cons, ← a1, ← ih.1], .cons a2 ih.2⟩
  have outer : ∀ (Z : List ((Para × ℝ) × List Pt)) (x : List (List ρ)), Z.mapM (fun z => z.2.mapM fun p => row z.1.1 z.1.2 (along p) p) = .ok x →
      x = Z.map (fun z => z.2.map fun p => G (S z.1.1 z.1.2 p)) ∧
      (Z.map fun z => ((ψ z.1.1, e z.1.2), z.2.map φ)).mapM (fun z => z.2.mapM fun p => row' z.1.1 z.1.2 (along' p) p) =
        .ok (Z.map fun z => z.2.map fun p => G' (S z.1.1 z.1.2 p)) := by
    intro Z x hx
    rw [mapM_ok_iff] at hx
    rw [mapM_ok_iff]
    induction hx with
    | nil => exact ⟨rfl, .nil⟩
    | cons ha _ ih =>
      obtain ⟨a1, a2⟩ := inner _ _ _ _ ha
      exact ⟨by rw [List.map_cons, ← a1, ← ih.1], .cons a2 ih.2⟩
  obtain ⟨o1, o2⟩ := outer _ _ hr
  constructor
  · rw [o1, samplesOf_map]
    rfl
  · unfold rowsOf
    rw [hz, o2, ok_bind, samplesOf_map]
    rfl

/-- The data of a shifted dot, forward. -/
noncomputable def forwardData (along : Pt → ℝ) (q : Para) (u : ℝ) (p : Pt) : List (ℝ × ℝ) :=
  if u = 0 then [] else [(√(p.x * p.x + p.y * p.y), u / (q.a * along p * along p + q.c))]

/-- The data of a shifted dot, backward. -/
noncomputable def backwardData (along : Pt → ℝ) (q : Para) (u : ℝ) (p : Pt) : ℝ × ℝ :=
  (√(p.x * p.x + p.y * p.y) / ((q.a * along p * along p + q.c) / u), (q.a * along p * along p + q.c) / u)

theorem forwardRow_rel {n : ℕ} {along along' : Pt → ℝ} {ψ : Para → Para} {φ : Pt → Pt} {s e : ℝ} (he : e ≠ 0)
    (h1 : ∀ p : Pt, √((φ p).x * (φ p).x + (φ p).y * (φ p).y) = s * √(p.x * p.x + p.y * p.y))
    (h2 : ∀ (q : Para) (p : Pt), (ψ q).a * along' (φ p) * along' (φ p) + (ψ q).c = e * (q.a * along p * along p + q.c)) (q : Para) (u : ℝ) (p : Pt)
    (x : List (List ℝ × ℝ)) (h : forwardRow n q u (along p) p = .ok x) :
    x = (forwardData along q u p).map (fun d => (powers d.1 n, d.2)) ∧
      forwardRow n (ψ q) (e * u) (along' (φ p)) (φ p) = .ok ((forwardData along q u p).map fun d => (powers (s * d.1) n, d.2)) := by
  unfold forwardRow at h ⊢
  unfold forwardData
  by_cases hu : u = 0
  · simp [hu] at h ⊢
    exact h
  · have heu : e * u ≠ 0 := mul_ne_zero he hu
    rw [if_pos hu] at h
    rw [if_pos heu, if_neg hu]
    simp only [h1, h2]
    by_cases hd : q.a * along p * along p + q.c = 0
    · simp [finDiv, hd] at h
    · rw [finDiv_ok hd, ok_bind, if_pos (div_ne_zero hu hd)] at h
      rw [finDiv_ok (mul_ne_zero he hd), ok_bind, mul_div_mul_left _ _ he, if_pos (div_ne_zero hu hd)]
      cases h
      exact ⟨rfl, rfl⟩

theorem backwardRow_rel {n : ℕ} {along along' : Pt → ℝ} {ψ : Para → Para} {φ : Pt → Pt} {s e : ℝ} (he : e ≠ 0)
    (h1 : ∀ p : Pt, √((φ p).x * (φ p).x + (φ p).y * (φ p).y) = s * √(p.x * p.x + p.y * p.y))
    (h2 : ∀ (q : Para) (p : Pt), (ψ q).a * along' (φ p) * along' (φ p) + (ψ q).c = e * (q.a * along p * along p + q.c)) (q : Para) (u : ℝ) (p : Pt)
    (x : List ℝ × ℝ) (h : backwardRow n q u (along p) p = .ok x) :
    x = (powers (backwardData along q u p).1 n, (backwardData along q u p).2) ∧
      backwardRow n (ψ q) (e * u) (along' (φ p)) (φ p) = .ok (powers (s * (backwardData along q u p).1) n, (backwardData along q u p).2) := by
  unfold backwardRow at h ⊢
  unfold backwardData
  simp only [h1, h2] at h ⊢
  by_cases hu : u = 0
  · simp [hu, finDiv] at h
  · rw [finDiv_ok hu, ok_bind] at h
    rw [finDiv_ok (mul_ne_zero he hu), ok_bind, mul_div_mul_left _ _ he]
    by_cases hn : n ≤ 1
    · rw [if_pos hn] at h ⊢
      cases h
      interval_cases n <;> simp [powers]
    · rw [if_neg hn] at h ⊢
      by_cases hd : (q.a * along p * along p + q.c) / u = 0
      · simp [finDiv, hd] at h
      · rw [finDiv_ok hd, ok_bind] at h ⊢
        cases h
        exact ⟨rfl, by rw [mul_div_assoc]⟩

/-- As many different radii as coefficients determine a model. -/
theorem radial_determined {k k' : List ℝ} (hl : k'.length = k.length) {rs : List ℝ} (hrs : rs.Nodup) (hn : rs.length = k.length)
    (h : ∀ r ∈ rs, radial k' r = radial k r) : k' = k := by
  have hz := Matrix.eq_zero_of_forall_index_sum_mul_pow_eq_zero (R := ℝ) (n := k.length)
    (f := fun j : Fin k.length => rs[j]) (v := fun i : Fin k.length => k'[i]'(by omega) - k[i])
    (by
      intro a b hab
      exact Fin.ext ((List.Nodup.getElem_inj_iff hrs).1 hab))
    (by
      intro j
      have := h rs[j] (List.getElem_mem _)
      rw [radial_getD, radial_getD, hl, Finset.sum_range, Finset.sum_range] at this
      simp only [sub_mul, Finset.sum_sub_distrib]
      rw [sub_eq_zero]
      convert this using 2 with i _ i _
      · simp [hl]
      · simp)
  apply List.ext_getElem hl
  intro i h1 h2
  have := congrFun hz ⟨i, h2⟩
  simp only [Pi.zero_apply, sub_eq_zero] at this
  exact this

theorem forRows_forward {n : ℕ} {along along' : Pt → ℝ} {ψ : Para → Para} {φ : Pt → Pt} {s e : ℝ} (he : e ≠ 0)
    (h1 : ∀ p : Pt, √((φ p).x * (φ p).x + (φ p).y * (φ p).y) = s * √(p.x * p.x + p.y * p.y))
    (h2 : ∀ (q : Para) (p : Pt), (ψ q).a * along' (φ p) * along' (φ p) + (ψ q).c = e * (q.a * along p * along p + q.c))
    {coefs : List Para} {uc : List ℝ} {lines : List (List Pt)} {R : List (List (List ℝ × ℝ))} (h : rowsOf (forwardRow n) along coefs uc lines = .ok R) :
    R.flatten = (samplesOf coefs uc lines (forwardData along)).flatten.map (fun d => (powers d.1 n, d.2)) ∧
      ∃ R', rowsOf (forwardRow n) along' (coefs.map ψ) (uc.map fun u => e * u) (lines.map fun l => l.map φ) = .ok R' ∧
        R'.flatten = (samplesOf coefs uc lines (forwardData along)).flatten.map fun d => (powers (s * d.1) n, d.2) := by
  obtain ⟨a, b⟩ := rowsOf_samples (row' := forwardRow n) (along' := along') (S := forwardData along) (G := fun d => d.map fun d => (powers d.1 n, d.2))
    (G' := fun d => d.map fun d => (powers (s * d.1) n, d.2)) (ψ := ψ) (e := fun u => e * u) (φ := φ)
    (fun q u p x hx => forwardRow_rel he h1 h2 q u p x hx) h
  exact ⟨by rw [a, List.map_flatten], _, b, by rw [List.map_flatten]⟩

theorem forRows_backward {n : ℕ} {along along' : Pt → ℝ} {ψ : Para → Para} {φ : Pt → Pt} {s e : ℝ} (he : e ≠ 0)
    (h1 : ∀ p : Pt, √((φ p).x * (φ p).x + (φ p).y * (φ p).y) = s * √(p.x * p.x + p.y * p.y))
    (h2 : ∀ (q : Para) (p : Pt), (ψ q).a * along' (φ p) * along' (φ p) + (ψ q).c = e * (q.a * along p * along p + q.c))
    {coefs : List Para} {uc : List ℝ} {lines : List (List Pt)} {R : List (List ℝ × ℝ)} (h : rowsOf (backwardRow n) along coefs uc lines = .ok R) :
    R = (samplesOf coefs uc lines (backwardData along)).map (fun d => (powers d.1 n, d.2)) ∧
      rowsOf (backwardRow n) along' (coefs.map ψ) (uc.map fun u => e * u) (lines.map fun l => l.map φ) =
        .ok ((samplesOf coefs uc lines (backwardData along)).map fun d => (powers (s * d.1) n, d.2)) :=
  rowsOf_samples (row' := backwardRow n) (along' := along') (S := backwardData along) (G := fun d => (powers d.1 n, d.2))
    (G' := fun d => (powers (s * d.1) n, d.2)) (ψ := ψ) (e := fun u => e * u) (φ := φ)
    (fun q u p x hx => backwardRow_rel he h1 h2 q u p x hx) h

/-- The radii of the forward data. -/
theorem forwardRadius_mem {along : Pt → ℝ} {ch : List Para} {us : List ℝ} {lines : List (List Pt)} {xc yc r : ℝ} (hl : ch.length = lines.length)
    (h : ForwardRadius us lines ⟨yc, xc⟩ r) : ∃ v, (r, v) ∈ (samplesOf ch us (lines.map (shiftLine xc yc)) (forwardData along)).flatten := by
  obtain ⟨i, u, dots, e1, e2, hu, p, hp, rfl⟩ := h
  have hi : i < ch.length := by
    rw [hl]
    exact (List.getElem?_eq_some_iff.1 e2).1
  refine ⟨u / (ch[i].a * along ⟨p.y - yc, p.x - xc⟩ * along ⟨p.y - yc, p.x - xc⟩ + ch[i].c), ?_⟩
  refine List.mem_flatten.2 ⟨_, mem_samplesOf (line := shiftLine xc yc dots) (p := ⟨p.y - yc, p.x - xc⟩) (List.getElem?_eq_getElem hi) e1 (by rw [List.getElem?_map, e2]; rfl)
    (List.mem_map.2 ⟨p, hp, rfl⟩), ?_⟩
  rw [forwardData, if_neg hu, List.mem_singleton, ← shift_radius]

/-- The radii of the backward data. -/
theorem backwardRadius_mem {along : Pt → ℝ} {ch : List Para} {us : List ℝ} {lines : List (List Pt)} {xc yc r : ℝ}
    (ha : ∀ p : Pt, along ⟨p.y - yc, p.x - xc⟩ = along p - along ⟨yc, xc⟩)
    (h : BackwardRadius along ch us lines ⟨yc, xc⟩ r) : ∃ v, (r, v) ∈ samplesOf ch us (lines.map (shiftLine xc yc)) (backwardData along) := by
  obtain ⟨i, q, u, dots, e0, e1, e2, p, hp, rfl⟩ := h
  refine ⟨(q.a * along ⟨p.y - yc, p.x - xc⟩ * along ⟨p.y - yc, p.x - xc⟩ + q.c) / u, ?_⟩
  have := mem_samplesOf (s := backwardData along) (line := shiftLine xc yc dots) (p := ⟨p.y - yc, p.x - xc⟩) e0 e1 (by rw [List.getElem?_map, e2]; rfl)
    (List.mem_map.2 ⟨p, hp, rfl⟩)
  rw [backwardData] at this
  convert this using 2
  rw [← shift_radius, bent, ha, sq, mul_assoc]

end Discorpy
