import Verif.Spec.Calibration
import Verif.Props.C92
import Verif.Props.C99

/-!
# C121: a calibration that can succeed does succeed
-/

namespace Discorpy

open Spec

theorem sum_sq_le {α : Type} (l : List α) (d : α → ℝ) : (l.map d).sum ^ 2 ≤ l.length * (l.map fun x => d x ^ 2).sum := by
  induction l with
  | nil => simp
  | cons x l ih =>
    simp only [List.map_cons, List.sum_cons, List.length_cons, Nat.cast_add, Nat.cast_one]
    set s := (l.map d).sum
    set q := (l.map fun x => d x ^ 2).sum
    have hq : 0 ≤ q := List.sum_nonneg (by
      intro y hy
      obtain ⟨z, _, rfl⟩ := List.mem_map.1 hy
      positivity)
    rcases Nat.eq_zero_or_pos l.length with h | h
    · rw [h] at ih ⊢
      have : s = 0 := by
        have h1 : s ^ 2 ≤ 0 := by simpa using ih
        exact pow_eq_zero_iff (two_ne_zero) |>.1 (le_antisymm h1 (sq_nonneg _))
      rw [this]
      simp
      nlinarith
    · have hn : (1 : ℝ) ≤ l.length := by exact_mod_cast h
      have h2 : 2 * d x * s ≤ l.length * d x ^ 2 + q := by
        have h3 : (l.length : ℝ) * (2 * d x * s) ≤ l.length * (l.length * d x ^ 2 + q) := by nlinarith [sq_nonneg (l.length * d x - s)]
        exact le_of_mul_le_mul_left h3 (by linarith)
      nlinarith

/-- The inequality of Minkowski for `R·d + η`. -/
theorem sum_shift_le {α : Type} (l : List α) (d : α → ℝ) {R η t : ℝ} (hR : 0 ≤ R) (hη : 0 ≤ η) (ht : 0 ≤ t)
    (h : (l.map fun x => d x ^ 2).sum ≤ l.length * t ^ 2) : (l.map fun x => (R * d x + η) ^ 2).sum ≤ l.length * (R * t + η) ^ 2 := by
  have e : (l.map fun x => (R * d x + η) ^ 2).sum = R ^ 2 * (l.map fun x => d x ^ 2).sum + 2 * R * η * (l.map d).sum + l.length * η ^ 2 := by
    clear h
    induction l with
    | nil => simp
    | cons x l ih =>
      simp only [List.map_cons, List.sum_cons, List.length_cons, Nat.cast_add, Nat.cast_one, ih]
      ring
  have hs := sum_sq_le l d
  have hn : (0 : ℝ) ≤ l.length := Nat.cast_nonneg _
  have h1 : (l.map d).sum ≤ l.length * t := by
    refine abs_le_of_sq_le_sq' ?_ (by positivity) |>.2
    nlinarith
  have h2 : R ^ 2 * (l.map fun x => d x ^ 2).sum ≤ R ^ 2 * (l.length * t ^ 2) := mul_le_mul_of_nonneg_left h (by positivity)
  have h3 : 2 * R * η * (l.map d).sum ≤ 2 * R * η * (l.length * t) := mul_le_mul_of_nonneg_left h1 (by positivity)
  rw [e]
  nlinarith

/-- A dot moved by the model `k`, seen from a straight line near to where the model `k'` moves it. -/
theorem off_line {along across : Pt → ℝ} (h1 : ∀ c k p, along (radialMap c k p) = along c + radial k (ptDist p c) * (along p - along c))
    (h2 : ∀ c k p, across (radialMap c k p) = across c + radial k (ptDist p c) * (across p - across c)) {c p : Pt} {k k' : List ℝ} {a b R η u : ℝ}
    (h : |a * along (radialMap c k' p) + b - across (radialMap c k' p)| ≤ η) (hR : |across p - across c - a * (along p - along c)| ≤ R)
    (h0 : u = 0 → across p - across c = a * (along p - along c)) :
    (a * along (radialMap c k p) + b - across (radialMap c k p)) ^ 2 ≤ (R * √(forwardDifference c k k' u p) + η) ^ 2 := by
  have hR0 : 0 ≤ R := (abs_nonneg _).trans hR
  have hη : 0 ≤ η := (abs_nonneg _).trans h
  have e : a * along (radialMap c k p) + b - across (radialMap c k p) = (a * along (radialMap c k' p) + b - across (radialMap c k' p)) -
      (radial k (ptDist p c) - radial k' (ptDist p c)) * (across p - across c - a * (along p - along c)) := by
    rw [h1, h1, h2, h2]
    ring
  have hd : |(radial k (ptDist p c) - radial k' (ptDist p c)) * (across p - across c - a * (along p - along c))| ≤ R * √(forwardDifference c k k' u p) := by
    unfold forwardDifference
    split_ifs with hu
    · rw [h0 hu]
      simp
    · rw [Real.sqrt_sq_eq_abs, abs_mul, mul_comm]
      exact mul_le_mul_of_nonneg_right hR (abs_nonneg _)
  have h3 : |a * along (radialMap c k p) + b - across (radialMap c k p)| ≤ R * √(forwardDifference c k k' u p) + η := by
    rw [e]
    refine (abs_sub _ _).trans ?_
    linarith
  rw [← sq_abs (a * along (radialMap c k p) + b - across (radialMap c k p))]
  exact pow_le_pow_left₀ (abs_nonneg _) h3 2

theorem best_line {pf : PolyfitFn} (hpf : PolyfitSpec pf) (along across : Pt → ℝ) (l : List Pt) :
    ∃ g : ℝ × ℝ, ∀ a b, (l.map fun p => (g.1 * along p + g.2 - across p) ^ 2).sum ≤ (l.map fun p => (a * along p + b - across p) ^ 2).sum := by
  rcases eq_or_ne l [] with rfl | h
  · exact ⟨(0, 0), by simp⟩
  obtain ⟨a, b, _, hl⟩ := hpf.lsqHor (l.map fun p => (⟨across p, along p⟩ : Pt)) (by simpa using h) 0 0
  refine ⟨(a, b), fun a' b' => ?_⟩
  have := hl a' b'
  simpa [Function.comp_def] using this

/-- The dots moved by the model `k` and straight lines, one for each line of dots. -/
theorem model_off {pf : PolyfitFn} (hpf : PolyfitSpec pf) {along across : Pt → ℝ}
    (h1 : ∀ c k p, along (radialMap c k p) = along c + radial k (ptDist p c) * (along p - along c))
    (h2 : ∀ c k p, across (radialMap c k p) = across c + radial k (ptDist p c) * (across p - across c)) {c : Pt} {k k' : List ℝ} {R η t : ℝ}
    (hR : 0 ≤ R) (hη : 0 ≤ η) (ht : 0 ≤ t) {paras : List Para} {us : List ℝ} {lines : List (List Pt)} (l1 : paras.length = lines.length)
    (l2 : us.length = lines.length) (hs : Straightens along across c k' R η us lines)
    (hd : sumDots paras us lines (fun _ => forwardDifference c k k') ≤ numDots lines * t ^ 2) :
    ∃ guess : List Pt → ℝ × ℝ, ((lines.map fun l => l.map (radialMap c k)).map fun l =>
      (l.map fun p => ((guess l).1 * along p + (guess l).2 - across p) ^ 2).sum).sum ≤ numDots lines * (R * t + η) ^ 2 := by
  choose g hg using best_line hpf along across
  refine ⟨g, ?_⟩
  obtain ⟨Z, hZ⟩ : ∃ Z, Z = List.zip (List.zip paras us) lines := ⟨_, rfl⟩
  have hmap : Z.map Prod.snd = lines := by
    rw [hZ]
    exact List.map_snd_zip (by simp [l1, l2])
  have hst : ∀ z ∈ Z, ∃ a b : ℝ, ∀ p ∈ z.2, |a * along (radialMap c k' p) + b - across (radialMap c k' p)| ≤ η ∧
      |across p - across c - a * (along p - along c)| ≤ R ∧ (z.1.2 = 0 → across p - across c = a * (along p - along c)) := by
    intro z hz
    rw [hZ, List.mem_iff_getElem?] at hz
    obtain ⟨i, hi⟩ := hz
    obtain ⟨⟨q, u⟩, line⟩ := z
    rw [List.getElem?_zip_eq_some, List.getElem?_zip_eq_some] at hi
    exact hs i u line hi.1.2 hi.2
  -- all dots in one list
  obtain ⟨L, hL⟩ : ∃ L : List (ℝ × Pt), L = (Z.map fun z => z.2.map fun p => (z.1.2, p)).flatten := ⟨_, rfl⟩
  have hlen : L.length = numDots lines := by
    rw [hL, numDots, ← hmap]
    simp [List.length_flatten, Function.comp_def]
  have hsum : ∀ f : ℝ → Pt → ℝ, (Z.map fun z => (z.2.map fun p => f z.1.2 p).sum).sum = (L.map fun x => f x.1 x.2).sum := by
    intro f
    rw [hL]
    clear hL hlen hst hmap hZ
    induction Z with
    | nil => simp
    | cons z Z ih =>
      rw [List.map_cons, List.sum_cons, ih, List.map_cons, List.flatten_cons, List.map_append, List.sum_append, List.map_map]
      rfl
  have hd' : (L.map fun x => √(forwardDifference c k k' x.1 x.2) ^ 2).sum ≤ L.length * t ^ 2 := by
    have e : (L.map fun x => √(forwardDifference c k k' x.1 x.2) ^ 2) = L.map fun x => forwardDifference c k k' x.1 x.2 := by
      refine List.map_congr_left fun x _ => Real.sq_sqrt ?_
      unfold forwardDifference
      split_ifs <;> positivity
    rw [e, ← hsum (forwardDifference c k k'), hlen, hZ]
    exact hd
  have hfin := sum_shift_le L (fun x => √(forwardDifference c k k' x.1 x.2)) hR hη ht hd'
  rw [hlen, ← hsum fun u p => (R * √(forwardDifference c k k' u p) + η) ^ 2] at hfin
  refine le_trans ?_ hfin
  rw [← hmap, List.map_map, List.map_map]
  refine List.sum_le_sum fun z hz => ?_
  obtain ⟨a, b, hab⟩ := hst z hz
  simp only [Function.comp_apply]
  refine (hg _ a b).trans ?_
  rw [List.map_map]
  exact List.sum_le_sum fun p hp => off_line h1 h2 (hab p hp).1 (hab p hp).2.1 (hab p hp).2.2

/-- **C121 (forward model).** Suppose that some model `k'` with as many coefficients as asked for sends the fitted curves to the undistorted lines with a
relative error of at most `ε`, and moves the dots of each line to within `η` of a straight line. If `ε` and `η` are small, then the rows (columns)
corrected with the model that `calc_coef_forward` returns pass `check_distortion`. -/
theorem C121_forward (pf : PolyfitFn) (hpf : PolyfitSpec pf) (argsort : List ℝ → List ℕ) (has : ArgsortSpec argsort) (lstsq : LstsqFn)
    (hls : LstsqSpec lstsq) (minimize : (ℝ → ℝ) → ℝ → ℝ) (hor ver : List (List Pt))
    (hh : ∀ l ∈ hor, l ≠ []) (hv : ∀ l ∈ ver, l ≠ []) (h4 : 4 ≤ hor.length) (v4 : 4 ≤ ver.length) (xc yc : ℝ)
    (numFact : ℤ) (hn : numFact ≤ 32767) (optimizing : Bool) (threshold : ℝ) :
    ∃ ch cv : List Para, List.Forall₂ (fun l q => IsLsqPara Pt.x Pt.y xc yc l q.a q.b q.c) hor ch ∧
      List.Forall₂ (fun l q => IsLsqPara Pt.y Pt.x yc xc l q.a q.b q.c) ver cv ∧
      (StrictlyMonotone (ch.map Para.c) → StrictlyMonotone (cv.map Para.c) →
        ∃ uh uv warned, IsEquidistantFit (ch.map Para.c) uh ∧ IsEquidistantFit (cv.map Para.c) uv ∧
          calcUndistorIntercept pf minimize hor ver xc yc optimizing threshold = .ok (uh, uv, warned) ∧
          (ForDots ch uh hor (fun q u p => u ≠ 0 → bent q (p.x - xc) ≠ 0) →
           ForDots cv uv ver (fun q u p => u ≠ 0 → bent q (p.y - yc) ≠ 0) →
           (∃ u ∈ uh, u ≠ 0) →
           ∃ k, calcCoefForward pf lstsq minimize hor ver xc yc numFact optimizing threshold = .ok (k, warned) ∧
             (k.length : ℤ) = max numFact 1 ∧
             ∀ (k' : List ℝ) (ε R η : ℝ), k'.length = k.length → 0 ≤ ε → 0 ≤ R → 0 ≤ η →
               ForDots ch uh hor (fun q u p => |radial k' (ptDist p ⟨yc, xc⟩) * bent q (p.x - xc) - u| ≤ ε * |bent q (p.x - xc)|) →
               ForDots cv uv ver (fun q u p => |radial k' (ptDist p ⟨yc, xc⟩) * bent q (p.y - yc) - u| ≤ ε * |bent q (p.y - yc)|) →
               (Straightens Pt.x Pt.y ⟨yc, xc⟩ k' R η uh hor →
                 (R * (ε * √(1 + numDots ver / numDots hor)) + η) ^ 2 ≤ 0.15 →
                 ∃ out, calcResidualHor pf argsort (unwarpLineForward id hor xc yc k) xc yc = .ok out ∧ checkDistortion out = .ok false) ∧
               (Straightens Pt.y Pt.x ⟨yc, xc⟩ k' R η uv ver →
                 (R * (ε * √(1 + numDots hor / numDots ver)) + η) ^ 2 ≤ 0.15 →
                 ∃ out, calcResidualVer pf argsort (unwarpLineForward id ver xc yc k) xc yc = .ok out ∧ checkDistortion out = .ok false))) := by
  obtain ⟨ch, cv, f1, f2, H⟩ := C92_error pf hpf lstsq hls minimize hor ver hh hv h4 v4 xc yc numFact hn optimizing threshold
  refine ⟨ch, cv, f1, f2, fun m1 m2 => ?_⟩
  obtain ⟨uh, uv, w, g1, g2, eu, H⟩ := H m1 m2
  refine ⟨uh, uv, w, g1, g2, eu, fun d1 d2 hu => ?_⟩
  obtain ⟨k, e, hk, ht⟩ := H d1 d2 hu
  refine ⟨k, e, hk, fun k' ε R η hl hε hR hη e1 e2 => ?_⟩
  have hsum := ht k' ε hl hε e1 e2
  have fl : ∀ lines : List (List Pt), lines.flatten.length = numDots lines := by
    intro lines
    simp [numDots, List.length_flatten]
  have pos : ∀ lines : List (List Pt), 4 ≤ lines.length → (∀ l ∈ lines, l ≠ []) → (0 : ℝ) < numDots lines := by
    intro lines h4 hl
    obtain ⟨l, hm⟩ := List.exists_mem_of_ne_nil lines (by rintro rfl; simp at h4)
    have h1 := List.single_le_sum (l := lines.map List.length) (fun _ _ => Nat.zero_le _) l.length (List.mem_map_of_mem hm)
    have h2 := List.length_pos_iff.2 (hl l hm)
    have : 0 < numDots lines := by unfold numDots; omega
    exact_mod_cast this
  have nn : ∀ (cs : List Para) (us : List ℝ) (lines : List (List Pt)), 0 ≤ sumDots cs us lines (fun _ => forwardDifference ⟨yc, xc⟩ k k') := by
    intro cs us lines
    refine sumDots_nonneg fun q u p => ?_
    unfold forwardDifference
    split_ifs <;> positivity
  have hph := pos hor h4 hh
  have hpv := pos ver v4 hv
  rw [fl, fl] at hsum
  push_cast at hsum
  have s1 : ∀ a b : ℝ, 0 < a → 0 < b → a * (ε * √(1 + b / a)) ^ 2 = (a + b) * ε ^ 2 := by
    intro a b ha hb
    rw [mul_pow, Real.sq_sqrt (by positivity)]
    field_simp
  have shape : ∀ lines : List (List Pt), 4 ≤ lines.length → (∀ l ∈ lines, l ≠ []) → unwarpLineForward id lines xc yc k ≠ [] ∧
      (∀ l ∈ unwarpLineForward id lines xc yc k, l ≠ []) ∧ unwarpLineForward id lines xc yc k = lines.map (fun l => l.map (radialMap ⟨yc, xc⟩ k)) ∧
      numDots (unwarpLineForward id lines xc yc k) = numDots lines := by
    intro lines h4 hl
    have e : unwarpLineForward id lines xc yc k = lines.map (fun l => l.map (radialMap ⟨yc, xc⟩ k)) := unwarpLineForward_eq id lines xc yc k
    rw [e]
    refine ⟨?_, ?_, rfl, by simp [numDots, Function.comp_def]⟩
    · rintro h
      rw [List.map_eq_nil_iff] at h
      simp [h] at h4
    · intro l hm
      obtain ⟨l', hm', rfl⟩ := List.mem_map.1 hm
      simpa using hl l' hm'
  constructor
  · intro hs hb
    obtain ⟨a1, a2, a3, a4⟩ := shape hor h4 hh
    obtain ⟨out, eo, _, ho⟩ := C99_hor pf hpf argsort has _ xc yc a1 a2
    obtain ⟨g, hg⟩ := model_off hpf (along := Pt.x) (across := Pt.y) (fun _ _ _ => rfl) (fun _ _ _ => rfl) (c := ⟨yc, xc⟩) (k := k) hR hη
      (t := ε * √(1 + numDots ver / numDots hor)) (by positivity) (paras := ch) f1.length_eq.symm
      (by rw [g1.1, List.length_map, f1.length_eq]) hs (by
        rw [s1 _ _ hph hpv]
        linarith [nn cv uv ver])
    refine ⟨out, eo, (ho g).2 ?_⟩
    rw [a4, a3]
    refine hg.trans ?_
    rw [mul_comm]
    exact mul_le_mul_of_nonneg_right hb hph.le
  · intro hs hb
    obtain ⟨a1, a2, a3, a4⟩ := shape ver v4 hv
    obtain ⟨out, eo, _, ho⟩ := C99_ver pf hpf argsort has _ xc yc a1 a2
    obtain ⟨g, hg⟩ := model_off hpf (along := Pt.y) (across := Pt.x) (fun _ _ _ => rfl) (fun _ _ _ => rfl) (c := ⟨yc, xc⟩) (k := k) hR hη
      (t := ε * √(1 + numDots hor / numDots ver)) (by positivity) (paras := cv) f2.length_eq.symm
      (by rw [g2.1, List.length_map, f2.length_eq]) hs (by
        rw [s1 _ _ hpv hph]
        linarith [nn ch uh hor])
    refine ⟨out, eo, (ho g).2 ?_⟩
    rw [a4, a3]
    refine hg.trans ?_
    rw [mul_comm]
    exact mul_le_mul_of_nonneg_right hb hpv.le

theorem radialMap_unit3 (c p : Pt) : radialMap c [1, 0, 0] p = p := by
  have h : ∀ r : ℝ, radial [1, 0, 0] r = 1 := fun r => by simp [radial, Fin.sum_univ_succ]
  unfold radialMap
  rw [h]
  simp

theorem bent20_error {u t : ℝ} (r : ℝ) (ht : t ^ 2 ≤ 1) :
    |radial [1, 0, 0] r * bent (bentPara 0.05 0 0 u) t - u| ≤ 1 / 21 * |bent (bentPara 0.05 0 0 u) t| := by
  have h1 : radial [1, 0, 0] r = 1 := by simp [radial, Fin.sum_univ_succ]
  rw [bent_bentPara, h1, show 1 * (u * (1 + 0.05 * t ^ 2)) - u = u * (0.05 * t ^ 2) by ring, abs_mul u, abs_mul u,
    abs_of_nonneg (by positivity : (0 : ℝ) ≤ 0.05 * t ^ 2), abs_of_nonneg (by positivity : (0 : ℝ) ≤ 1 + 0.05 * t ^ 2)]
  nlinarith [abs_nonneg u, mul_nonneg (abs_nonneg u) (sub_nonneg.2 ht)]

/-- Four lines in each direction around (3, 5), bent by 5 %. The model `[1, 0, 0]` (no correction) meets the requirements with `ε = 1 / 21`,
`R = 3.15` and `η = 0.075`, so the model found by `calc_coef_forward` gives rows and columns that pass. -/
example : ∃ k, calcCoefForward refPolyfit refLstsq refMinimize ([-3, -1, 1, 3].map (bentRow 0.05)) ([-3, -1, 1, 3].map (bentCol 0.05)) 5 3 3 true 0.3 =
      .ok (k, false) ∧
    (∃ out, calcResidualHor refPolyfit refArgsort (unwarpLineForward id ([-3, -1, 1, 3].map (bentRow 0.05)) 5 3 k) 5 3 = .ok out ∧
      checkDistortion out = .ok false) ∧
    (∃ out, calcResidualVer refPolyfit refArgsort (unwarpLineForward id ([-3, -1, 1, 3].map (bentCol 0.05)) 5 3 k) 5 3 = .ok out ∧
      checkDistortion out = .ok false) := by
  have hb := bent_example 0.05 0.05 [-3, -1, 1, 3] [-3, -1, 1, 3]
  obtain ⟨ch, cv, f1, f2, H⟩ := C121_forward refPolyfit refPolyfit_spec refArgsort refArgsort_spec refLstsq refLstsq_spec refMinimize
    (([-3, -1, 1, 3] : List ℝ).map (bentRow 0.05)) (([-3, -1, 1, 3] : List ℝ).map (bentCol 0.05)) (by simp [bentRow]) (by simp [bentCol]) (by simp) (by simp) 5 3 3 (by norm_num) true 0.3
  obtain rfl := forall₂_bent hb.hor f1
  obtain rfl := forall₂_bent hb.ver f2
  rw [bentPara_map_c] at H
  obtain ⟨uh, uv, w, _, _, eu, H⟩ := H (arith_strict arith4 (by norm_num)) (arith_strict arith4 (by norm_num))
  rw [show calcUndistorIntercept refPolyfit refMinimize ([-3, -1, 1, 3].map (bentRow 0.05)) ([-3, -1, 1, 3].map (bentCol 0.05)) 5 3 true 0.3 = _ from
    bent_intercepts refPolyfit_spec refMinimize hb arith4 arith4 (by norm_num) (by norm_num) (by simp) (by simp) true (fun _ => refMinimize_exact)
      (by norm_num)] at eu
  simp only [Except.ok.injEq, Prod.mk.injEq] at eu
  obtain ⟨rfl, rfl, rfl⟩ := eu
  have dots : ∀ (f : ℝ → List Pt) (i : ℕ) (q : Para) (u : ℝ) (l : List Pt), (([-3, -1, 1, 3] : List ℝ).map (bentPara 0.05 0 0))[i]? = some q →
      ([-3, -1, 1, 3] : List ℝ)[i]? = some u → (([-3, -1, 1, 3] : List ℝ).map f)[i]? = some l → q = bentPara 0.05 0 0 u ∧ l = f u := by
    intro f i q u l a1 a2 a3
    rw [List.getElem?_map, a2] at a1 a3
    exact ⟨(Option.some.inj a1).symm, (Option.some.inj a3).symm⟩
  have hrow : ∀ {u : ℝ} {p : Pt}, p ∈ bentRow 0.05 u → (p.x - 5) ^ 2 ≤ 1 := by
    intro u p hp
    simp only [bentRow, List.map_cons, List.map_nil, List.mem_cons, List.not_mem_nil, or_false] at hp
    rcases hp with rfl | rfl | rfl <;> norm_num
  have hcol : ∀ {u : ℝ} {p : Pt}, p ∈ bentCol 0.05 u → (p.y - 3) ^ 2 ≤ 1 := by
    intro u p hp
    simp only [bentCol, List.map_cons, List.map_nil, List.mem_cons, List.not_mem_nil, or_false] at hp
    rcases hp with rfl | rfl | rfl <;> norm_num
  obtain ⟨k, e, hk, hk'⟩ := H
    (fun i q u l a1 a2 a3 p hp hu => by
      obtain ⟨rfl, rfl⟩ := dots _ i q u l a1 a2 a3
      rw [bent_bentPara]
      exact mul_ne_zero hu (by positivity))
    (fun i q u l a1 a2 a3 p hp hu => by
      obtain ⟨rfl, rfl⟩ := dots _ i q u l a1 a2 a3
      rw [bent_bentPara]
      exact mul_ne_zero hu (by positivity)) ⟨-3, by simp, by norm_num⟩
  have hfin := hk' [1, 0, 0] (1 / 21) 3.15 0.075 (by simp; omega) (by norm_num) (by norm_num) (by norm_num)
    (fun i q u l a1 a2 a3 p hp => by
      obtain ⟨rfl, rfl⟩ := dots _ i q u l a1 a2 a3
      exact bent20_error _ (hrow hp))
    (fun i q u l a1 a2 a3 p hp => by
      obtain ⟨rfl, rfl⟩ := dots _ i q u l a1 a2 a3
      exact bent20_error _ (hcol hp))
  have h2 : √(2 : ℝ) ≤ 1.5 := by
    rw [Real.sqrt_le_left (by norm_num)]
    norm_num
  have mem : ∀ {i : ℕ} {u : ℝ}, ([-3, -1, 1, 3] : List ℝ)[i]? = some u → u = -3 ∨ u = -1 ∨ u = 1 ∨ u = 3 := by
    intro i u h
    simpa using List.mem_of_getElem? h
  refine ⟨k, e, hfin.1 ?_ ?_, hfin.2 ?_ ?_⟩
  · intro i u l a2 a3
    rw [List.getElem?_map, a2] at a3
    obtain rfl := Option.some.inj a3
    refine ⟨0, 3 + u * 1.025, fun p hp => ?_⟩
    rw [radialMap_unit3]
    simp only [bentRow, List.map_cons, List.map_nil, List.mem_cons, List.not_mem_nil, or_false] at hp
    rcases mem a2 with rfl | rfl | rfl | rfl <;> rcases hp with rfl | rfl | rfl <;> norm_num [abs_le]
  · have : (1 : ℝ) + numDots ([-3, -1, 1, 3].map (bentCol 0.05)) / numDots ([-3, -1, 1, 3].map (bentRow 0.05)) = 2 := by
      norm_num [numDots, bentRow, bentCol]
    rw [this]
    nlinarith [Real.sqrt_nonneg (2 : ℝ)]
  · intro i u l a2 a3
    rw [List.getElem?_map, a2] at a3
    obtain rfl := Option.some.inj a3
    refine ⟨0, 5 + u * 1.025, fun p hp => ?_⟩
    rw [radialMap_unit3]
    simp only [bentCol, List.map_cons, List.map_nil, List.mem_cons, List.not_mem_nil, or_false] at hp
    rcases mem a2 with rfl | rfl | rfl | rfl <;> rcases hp with rfl | rfl | rfl <;> norm_num [abs_le]
  · have : (1 : ℝ) + numDots ([-3, -1, 1, 3].map (bentRow 0.05)) / numDots ([-3, -1, 1, 3].map (bentCol 0.05)) = 2 := by
      norm_num [numDots, bentRow, bentCol]
    rw [this]
    nlinarith [Real.sqrt_nonneg (2 : ℝ)]

end Discorpy
