import Verif.Lemmas.RadialFit

/-! # C25: coarse centre of distortion -/

namespace Discorpy

open Spec

/-- Curvature signs at neighbouring lines differ most at lines `k`, `k + 1` (the first such pair). -/
def IsSignChange (coefs : List Para) (k : ℕ) : Prop :=
  ∃ q q', coefs[k]? = some q ∧ coefs[k + 1]? = some q' ∧
    (∀ (j : ℕ) (r r' : Para), coefs[j]? = some r → coefs[j + 1]? = some r' →
      |npSign r'.a - npSign r.a| ≤ |npSign q'.a - npSign q.a|) ∧
    ∀ (j : ℕ) (r r' : Para), j < k → coefs[j]? = some r → coefs[j + 1]? = some r' →
      |npSign r'.a - npSign r.a| < |npSign q'.a - npSign q.a|

theorem diff_getElem? {l : List ℝ} {i : ℕ} (h : i + 1 < l.length) : (npDiff l)[i]? = some (l[i + 1] - l[i]) := by
  unfold npDiff
  rw [List.getElem?_zipWith, List.getElem?_eq_getElem (by omega), List.getElem?_tail, List.getElem?_eq_getElem h]

theorem signChange_ok {coefs : List Para} (h : 2 ≤ coefs.length) :
    ∃ k, signChange coefs = .ok (k + 1) ∧ k + 1 < coefs.length ∧ IsSignChange coefs k := by
  set ds := (npDiff (coefs.map fun q => npSign q.a)).map (fun t => |t|) with hds
  have hlen : ds.length = coefs.length - 1 := by simp [hds, npDiff]
  have hne : ds ≠ [] := by rw [← List.length_pos_iff]; omega
  obtain ⟨k, e, hk, hmax, hfirst⟩ := npArgmax_ok hne
  have hval : ∀ j (hj : j < ds.length), ds[j] = |npSign (coefs[j + 1]'(by omega)).a - npSign (coefs[j]'(by omega)).a| := by
    intro j hj
    have h1 : ds[j]? = some ds[j] := List.getElem?_eq_getElem hj
    have h2 : ds[j]? = some |npSign (coefs[j + 1]'(by omega)).a - npSign (coefs[j]'(by omega)).a| := by
      rw [hds, List.getElem?_map, diff_getElem? (by simp; omega)]
      simp
    exact Option.some.inj (h1.symm.trans h2)
  refine ⟨k, by unfold signChange; rw [← hds, e]; rfl, by omega, coefs[k], coefs[k + 1], List.getElem?_eq_getElem (by omega), List.getElem?_eq_getElem (by omega), ?_, ?_⟩
  · intro j r r' hr hr'
    obtain ⟨hj, rfl⟩ := List.getElem?_eq_some_iff.1 hr
    obtain ⟨hj', rfl⟩ := List.getElem?_eq_some_iff.1 hr'
    have := hmax _ (List.getElem_mem (l := ds) (n := j) (by omega))
    rwa [hval, hval] at this
  · intro j r r' hjk hr hr'
    obtain ⟨hj, rfl⟩ := List.getElem?_eq_some_iff.1 hr
    obtain ⟨hj', rfl⟩ := List.getElem?_eq_some_iff.1 hr'
    obtain ⟨y, hy, hlt⟩ := hfirst j hjk
    have := hlt.trans_le (hmax y hy)
    rwa [hval, hval] at this

theorem findCodCoarse_eq {pf : PolyfitFn} {hor ver : List (List Pt)} {ch cv : List Para} {a b : List (List Pt)}
    (eh : paraFitHor pf hor 0 0 = .ok (ch, a)) (ev : paraFitVer pf ver 0 0 = .ok (cv, b)) {k m : ℕ}
    (hk : signChange ch = .ok (k + 1)) (hm : signChange cv = .ok (m + 1)) {h0 h1 v0 v1 : Para} (e1 : ch[k]? = some h0)
    (e2 : ch[k + 1]? = some h1) (e3 : cv[m]? = some v0) (e4 : cv[m + 1]? = some v1) :
    findCodCoarse pf hor ver = if (h0.b + h1.b) / 2 * ((v0.b + v1.b) / 2) = 1 then .error .nonFinite else
      .ok ⟨((h0.c + h1.c) / 2 + (v0.c + v1.c) / 2 * ((h0.b + h1.b) / 2)) / (1 - (h0.b + h1.b) / 2 * ((v0.b + v1.b) / 2)),
        ((v0.c + v1.c) / 2 + (h0.c + h1.c) / 2 * ((v0.b + v1.b) / 2)) / (1 - (h0.b + h1.b) / 2 * ((v0.b + v1.b) / 2))⟩ := by
  unfold findCodCoarse
  rw [eh, ok_bind]
  simp only
  rw [ev, ok_bind]
  simp only
  rw [hk, hm]
  simp only [ok_bind, Nat.add_sub_cancel, npGet_ok_iff.2 e1, npGet_ok_iff.2 e2, npGet_ok_iff.2 e3, npGet_ok_iff.2 e4]
  have half : ∀ t : ℝ, t * 0.5 = t / 2 := by intro t; norm_num; ring
  simp only [half]
  by_cases h : (h0.b + h1.b) / 2 * ((v0.b + v1.b) / 2) = 1
  · rw [if_pos h, finDiv, if_pos (by rw [h]; ring)]; rfl
  · rw [if_neg h, finDiv_ok (sub_ne_zero.2 (Ne.symm h)), ok_bind, finDiv_ok (sub_ne_zero.2 (Ne.symm h)), ok_bind]

/-- **C25.** With at least two non-empty lines per direction the coarse centre is computed from the averages, over the two
neighbouring lines where the sign of the curvature changes most (the first such pair), of the fitted intercepts and
slopes: it is the only point on both averaged lines, unless these are parallel. -/
theorem C25_crossing (pf : PolyfitFn) (hpf : PolyfitSpec pf) (hor ver : List (List Pt)) (hh : ∀ l ∈ hor, l ≠ [])
    (hv : ∀ l ∈ ver, l ≠ []) (h2 : 2 ≤ hor.length) (v2 : 2 ≤ ver.length) :
    ∃ (ch cv : List Para) (k m : ℕ) (h0 h1 v0 v1 : Para),
      List.Forall₂ (fun l q => IsLsqPara Pt.x Pt.y 0 0 l q.a q.b q.c) hor ch ∧
      List.Forall₂ (fun l q => IsLsqPara Pt.y Pt.x 0 0 l q.a q.b q.c) ver cv ∧
      IsSignChange ch k ∧ IsSignChange cv m ∧
      ch[k]? = some h0 ∧ ch[k + 1]? = some h1 ∧ cv[m]? = some v0 ∧ cv[m + 1]? = some v1 ∧
      ((h0.b + h1.b) / 2 * ((v0.b + v1.b) / 2) ≠ 1 → ∃ c, findCodCoarse pf hor ver = .ok c ∧
        ∀ p, p = c ↔ onHorLine ((h0.b + h1.b) / 2) ((h0.c + h1.c) / 2) p ∧ onVerLine ((v0.b + v1.b) / 2) ((v0.c + v1.c) / 2) p) ∧
      ((h0.b + h1.b) / 2 * ((v0.b + v1.b) / 2) = 1 → findCodCoarse pf hor ver = .error .nonFinite) := by
  obtain ⟨ch, eh, fh⟩ := paraFitHor_ok hpf hh 0 0
  obtain ⟨cv, ev, fv⟩ := paraFitVer_ok hpf hv 0 0
  have lh := fh.length_eq
  have lv := fv.length_eq
  obtain ⟨k, hk, hkl, sk⟩ := signChange_ok (coefs := ch) (by omega)
  obtain ⟨m, hm, hml, sm⟩ := signChange_ok (coefs := cv) (by omega)
  have e1 := List.getElem?_eq_getElem (l := ch) (i := k) (by omega)
  have e2 := List.getElem?_eq_getElem (l := ch) (i := k + 1) (by omega)
  have e3 := List.getElem?_eq_getElem (l := cv) (i := m) (by omega)
  have e4 := List.getElem?_eq_getElem (l := cv) (i := m + 1) (by omega)
  have e := findCodCoarse_eq eh ev hk hm e1 e2 e3 e4
  refine ⟨ch, cv, k, m, _, _, _, _, fh, fv, sk, sm, e1, e2, e3, e4, ?_, ?_⟩
  · intro hne
    rw [if_neg hne] at e
    refine ⟨_, e, ?_⟩
    generalize (ch[k].b + ch[k + 1].b) / 2 = sh at *
    generalize (cv[m].b + cv[m + 1].b) / 2 = sv at *
    generalize (ch[k].c + ch[k + 1].c) / 2 = ih at *
    generalize (cv[m].c + cv[m + 1].c) / 2 = iv at *
    have hd : 1 - sh * sv ≠ 0 := sub_ne_zero.2 (Ne.symm hne)
    intro p
    constructor
    · rintro rfl
      unfold onHorLine onVerLine
      constructor
      · simp only
        have hx := div_mul_cancel₀ (iv + ih * sv) hd
        generalize (iv + ih * sv) / (1 - sh * sv) = x at *
        rw [div_eq_iff hd]
        linear_combination -sh * hx
      · simp only
        have hy := div_mul_cancel₀ (ih + iv * sh) hd
        generalize (ih + iv * sh) / (1 - sh * sv) = y at *
        rw [div_eq_iff hd]
        linear_combination -sv * hy
    · rintro ⟨h1, h2⟩
      unfold onHorLine at h1
      unfold onVerLine at h2
      rcases p with ⟨y, x⟩
      simp only at h1 h2
      refine (Pt.mk.injEq _ _ _ _).mpr ⟨?_, ?_⟩
      · rw [eq_div_iff hd]; linear_combination h1 + sh * h2
      · rw [eq_div_iff hd]; linear_combination h2 + sv * h1
  · intro h
    rw [if_pos h] at e
    exact e

/-- Least-squares parabolas with three different positions are unique. -/
theorem lsqPara_unique {along across : Pt → ℝ} {ta ca : ℝ} {line : List Pt} {a b c a' b' c' : ℝ}
    (h : IsLsqPara along across ta ca line a b c) (h' : IsLsqPara along across ta ca line a' b' c')
    (h3 : ∃ p ∈ line, ∃ q ∈ line, ∃ r ∈ line, along p ≠ along q ∧ along p ≠ along r ∧ along q ≠ along r) :
    a = a' ∧ b = b' ∧ c = c' := by
  have e1 := h ((a + a') / 2) ((b + b') / 2) ((c + c') / 2)
  have e2 := h' ((a + a') / 2) ((b + b') / 2) ((c + c') / 2)
  have key : ∀ l : List Pt, (l.map fun p => (((a - a') / 2) * (along p - ta) ^ 2 + ((b - b') / 2) * (along p - ta) + (c - c') / 2) ^ 2).sum =
      ((l.map fun p => (a * (along p - ta) ^ 2 + b * (along p - ta) + c - (across p - ca)) ^ 2).sum +
      (l.map fun p => (a' * (along p - ta) ^ 2 + b' * (along p - ta) + c' - (across p - ca)) ^ 2).sum) / 2 -
      (l.map fun p => ((a + a') / 2 * (along p - ta) ^ 2 + (b + b') / 2 * (along p - ta) + (c + c') / 2 - (across p - ca)) ^ 2).sum := by
    intro l
    induction l with
    | nil => simp
    | cons p l ih => simp only [List.map_cons, List.sum_cons, ih]; ring
  have hz := sum_sq_eq_zero (l := line)
    (f := fun p => ((a - a') / 2) * (along p - ta) ^ 2 + ((b - b') / 2) * (along p - ta) + (c - c') / 2) (by
      rw [key]; linarith)
  obtain ⟨p, hp, q, hq, r, hr, h1, h2, h3⟩ := h3
  obtain ⟨x, y, z⟩ := quad_zero (hz p hp) (hz q hq) (hz r hr) (fun h => h1 (by linarith)) (fun h => h2 (by linarith))
    (fun h => h3 (by linarith))
  exact ⟨by linarith, by linarith, by linarith⟩

/-- The least-squares parabola of the opposite dots. -/
theorem lsqPara_opposite {along across : Pt → ℝ} {o : Pt → Pt} {x0 y0 : ℝ} (ho : ∀ p, along (o p) = 2 * x0 - along p)
    (ho' : ∀ p, across (o p) = 2 * y0 - across p) {line line' : List Pt} (hp : line'.Perm (line.map o)) {a b c : ℝ}
    (h : IsLsqPara along across 0 0 line a b c) :
    IsLsqPara along across 0 0 line' (-a) (4 * a * x0 + b) (2 * y0 - 4 * a * x0 ^ 2 - 2 * b * x0 - c) := by
  intro a' b' c'
  have hm := h (-a') (4 * a' * x0 + b') (2 * y0 - 4 * a' * x0 ^ 2 - 2 * b' * x0 - c')
  rw [(hp.map _).sum_eq, (hp.map _).sum_eq, List.map_map, List.map_map]
  refine le_of_eq_of_le (congrArg List.sum (List.map_congr_left fun p _ => ?_))
    (hm.trans_eq (congrArg List.sum (List.map_congr_left fun p _ => ?_)))
  · simp only [Function.comp, ho, ho']; ring
  · simp only [Function.comp, ho, ho']; ring

/-- A symmetric family: `2k` lines, line `2k - 1 - i` has the opposite dots of line `i`. -/
structure IsSymmetricFamily (along : Pt → ℝ) (c : Pt) (lines : List (List Pt)) (k : ℕ) : Prop where
  pos : 1 ≤ k
  len : lines.length = 2 * k
  opp : ∀ (i : ℕ) (l l' : List Pt), i < k → lines[i]? = some l → lines[2 * k - 1 - i]? = some l' →
    l'.Perm (l.map (oppositePt c))
  three : ∀ l ∈ lines, ∃ p ∈ l, ∃ q ∈ l, ∃ r ∈ l, along p ≠ along q ∧ along p ≠ along r ∧ along q ≠ along r

/-- The lines before the middle are curved the same way (their least-squares curvature has the sign `s`). -/
def CurvedAs (along across : Pt → ℝ) (s : ℝ) (lines : List (List Pt)) (k : ℕ) : Prop :=
  ∀ (i : ℕ) (l : List Pt), i < k → lines[i]? = some l → ∀ a b c, IsLsqPara along across 0 0 l a b c → 0 < s * a

theorem npSign_mul_abs {s a : ℝ} (h : 0 < s * a) : npSign a = npSign s ∧ npSign s ≠ 0 := by
  rcases lt_trichotomy s 0 with hs | hs | hs
  · have : a < 0 := by by_contra hn; push Not at hn; nlinarith
    rw [npSign_neg this, npSign_neg hs]; norm_num
  · rw [hs] at h; simp at h
  · have : 0 < a := by by_contra hn; push Not at hn; nlinarith
    rw [npSign_pos this, npSign_pos hs]; norm_num

theorem npSign_neg_eq (a : ℝ) : npSign (-a) = -npSign a := by
  rcases lt_trichotomy a 0 with h | h | h
  · rw [npSign_neg h, npSign_pos (by linarith)]; norm_num
  · rw [h]; simp [npSign]
  · rw [npSign_pos h, npSign_neg (by linarith)]

/-- In a symmetric family the pair selected is the middle one, and its parabolas are opposite. -/
theorem symmetric_pair {along across : Pt → ℝ} {c : Pt} {x0 y0 : ℝ} (ho : ∀ p, along (oppositePt c p) = 2 * x0 - along p)
    (ho' : ∀ p, across (oppositePt c p) = 2 * y0 - across p) {lines : List (List Pt)} {k : ℕ}
    (hs : IsSymmetricFamily along c lines k) {s : ℝ} (hc : CurvedAs along across s lines k) {coefs : List Para}
    (hf : List.Forall₂ (fun l q => IsLsqPara along across 0 0 l q.a q.b q.c) lines coefs) {j : ℕ}
    (hj : IsSignChange coefs j) :
    j = k - 1 ∧ ∃ q q', coefs[j]? = some q ∧ coefs[j + 1]? = some q' ∧ q'.a = -q.a ∧ q'.b = 4 * q.a * x0 + q.b ∧
      q'.c = 2 * y0 - 4 * q.a * x0 ^ 2 - 2 * q.b * x0 - q.c := by
  have hlen : coefs.length = 2 * k := by rw [← hf.length_eq, hs.len]
  have hk := hs.pos
  have hlsq : ∀ (i : ℕ) (h1 : i < lines.length) (h2 : i < coefs.length),
      IsLsqPara along across 0 0 lines[i] coefs[i].a coefs[i].b coefs[i].c := by
    intro i h1 h2
    exact (List.forall₂_iff_get.1 hf).2 i h1 h2
  have hopp : ∀ i (hi : i < k), (coefs[2 * k - 1 - i]'(by omega)).a = -(coefs[i]'(by omega)).a ∧
      (coefs[2 * k - 1 - i]'(by omega)).b = 4 * (coefs[i]'(by omega)).a * x0 + (coefs[i]'(by omega)).b ∧
      (coefs[2 * k - 1 - i]'(by omega)).c = 2 * y0 - 4 * (coefs[i]'(by omega)).a * x0 ^ 2 - 2 * (coefs[i]'(by omega)).b * x0 - (coefs[i]'(by omega)).c := by
    intro i hi
    have l1 : i < lines.length := by rw [hs.len]; omega
    have l2 : 2 * k - 1 - i < lines.length := by rw [hs.len]; omega
    have hperm := hs.opp i _ _ hi (List.getElem?_eq_getElem l1) (List.getElem?_eq_getElem l2)
    exact lsqPara_unique (hlsq _ l2 (by omega)) (lsqPara_opposite ho ho' hperm (hlsq i l1 (by omega)))
      (hs.three _ (List.getElem_mem l2))
  have hsign : ∀ i (hi : i < k), npSign (coefs[i]'(by omega)).a = npSign s := by
    intro i hi
    have l1 : i < lines.length := by rw [hs.len]; omega
    exact (npSign_mul_abs (hc i _ hi (List.getElem?_eq_getElem l1) _ _ _ (hlsq i l1 (by omega)))).1
  have hs0 : npSign s ≠ 0 := by
    have l1 : 0 < lines.length := by rw [hs.len]; omega
    exact (npSign_mul_abs (hc 0 _ hk (List.getElem?_eq_getElem l1) _ _ _ (hlsq 0 l1 (by omega)))).2
  have hsign' : ∀ i (h1 : k ≤ i) (h2 : i < 2 * k), npSign (coefs[i]'(by omega)).a = -npSign s := by
    intro i h1 h2
    have := (hopp (2 * k - 1 - i) (by omega)).1
    have e : 2 * k - 1 - (2 * k - 1 - i) = i := by omega
    simp only [e] at this
    rw [this, npSign_neg_eq, hsign _ (by omega)]
  obtain ⟨q, q', hq, hq', hmax, -⟩ := hj
  obtain ⟨hj1, rfl⟩ := List.getElem?_eq_some_iff.1 hq
  obtain ⟨hj2, rfl⟩ := List.getElem?_eq_some_iff.1 hq'
  have hmid := hmax (k - 1) _ _ (List.getElem?_eq_getElem (by omega)) (List.getElem?_eq_getElem (by omega))
  have ek : k - 1 + 1 = k := by omega
  simp only [ek] at hmid
  rw [hsign (k - 1) (by omega), hsign' k le_rfl (by omega)] at hmid
  have hpos : 0 < |-npSign s - npSign s| := by
    rw [abs_pos]; intro h; apply hs0; linarith
  have hjk : j = k - 1 := by
    by_contra hne
    rcases lt_or_gt_of_ne hne with h | h
    · rw [hsign j (by omega), hsign (j + 1) (by omega), sub_self, abs_zero] at hmid
      linarith
    · rw [hsign' j (by omega) (by omega), hsign' (j + 1) (by omega) (by omega), sub_self, abs_zero] at hmid
      linarith
  refine ⟨hjk, _, _, hq, hq', ?_⟩
  have := hopp j (by omega)
  have e : 2 * k - 1 - j = j + 1 := by omega
  simpa only [e] using this

/-- **C25** (symmetric patterns). For a dot pattern that is symmetric about the point `c`, with an even number of lines per
direction whose curvature has one sign before the middle (hence the other one after it), the coarse centre is exactly `c`,
unless the two middle directions are parallel. Here `b + 2·a·x0` is the slope of a least-squares parabola at `c`. -/
theorem C25_symmetric (pf : PolyfitFn) (hpf : PolyfitSpec pf) (hor ver : List (List Pt)) (c : Pt) (k m : ℕ) (s t : ℝ)
    (hh : IsSymmetricFamily Pt.x c hor k) (hv : IsSymmetricFamily Pt.y c ver m)
    (ch : CurvedAs Pt.x Pt.y s hor k) (cv : CurvedAs Pt.y Pt.x t ver m)
    (hpar : ∀ l l', hor[k - 1]? = some l → ver[m - 1]? = some l' → ∀ a b i a' b' i', IsLsqPara Pt.x Pt.y 0 0 l a b i →
      IsLsqPara Pt.y Pt.x 0 0 l' a' b' i' → (b + 2 * a * c.x) * (b' + 2 * a' * c.y) ≠ 1) :
    findCodCoarse pf hor ver = .ok c := by
  have k1 := hh.pos
  have m1 := hv.pos
  have lh := hh.len
  have lv := hv.len
  have hne : ∀ (along : Pt → ℝ) (lines : List (List Pt)) (j : ℕ), IsSymmetricFamily along c lines j → ∀ l ∈ lines, l ≠ [] := by
    intro along lines j hs l hl h0
    obtain ⟨p, hp, _⟩ := hs.three l hl
    rw [h0] at hp; simp at hp
  obtain ⟨coh, cov, j, j', h0, h1, v0, v1, fh, fv, sh, sv, e1, e2, e3, e4, hok, -⟩ :=
    C25_crossing pf hpf hor ver (hne _ _ _ hh) (hne _ _ _ hv) (by omega) (by omega)
  obtain ⟨rfl, q, q', eq, eq', a1, a2, a3⟩ := symmetric_pair (x0 := c.x) (y0 := c.y) (fun _ => rfl) (fun _ => rfl) hh ch fh sh
  obtain ⟨rfl, r, r', er, er', b1, b2, b3⟩ := symmetric_pair (x0 := c.y) (y0 := c.x) (fun _ => rfl) (fun _ => rfl) hv cv fv sv
  rw [e1] at eq; rw [e2] at eq'; rw [e3] at er; rw [e4] at er'
  obtain rfl := Option.some.inj eq
  obtain rfl := Option.some.inj eq'
  obtain rfl := Option.some.inj er
  obtain rfl := Option.some.inj er'
  have i1 : k - 1 < hor.length := by omega
  have i2 : m - 1 < ver.length := by omega
  have q1 := (List.forall₂_iff_get.1 fh).2 (k - 1) i1 (by rw [← fh.length_eq]; exact i1)
  have q2 := (List.forall₂_iff_get.1 fv).2 (m - 1) i2 (by rw [← fv.length_eq]; exact i2)
  obtain ⟨_, g1⟩ := List.getElem?_eq_some_iff.1 e1
  obtain ⟨_, g2⟩ := List.getElem?_eq_some_iff.1 e3
  simp only [List.get_eq_getElem, g1, g2] at q1 q2
  have hp := hpar _ _ (List.getElem?_eq_getElem i1) (List.getElem?_eq_getElem i2) _ _ _ _ _ _ q1 q2
  have s1 : (h0.b + h1.b) / 2 = h0.b + 2 * h0.a * c.x := by rw [a2]; ring
  have s2 : (v0.b + v1.b) / 2 = v0.b + 2 * v0.a * c.y := by rw [b2]; ring
  obtain ⟨c', ec, hc⟩ := hok (by rw [s1, s2]; exact hp)
  rw [ec]
  congr 1
  symm
  apply (hc c).2
  constructor
  · unfold onHorLine; rw [s1, a3]; ring
  · unfold onVerLine; rw [s2, b3]; ring

/-- A barrel-shaped pattern around `(x, y) = (3, 2)`: two lines of three dots per direction. -/
def barrelHor : List (List Pt) := [[⟨2, 2⟩, ⟨1, 3⟩, ⟨2, 4⟩], [⟨2, 4⟩, ⟨3, 3⟩, ⟨2, 2⟩]]

/-- Its vertical lines. -/
def barrelVer : List (List Pt) := [[⟨1, 3⟩, ⟨2, 2⟩, ⟨3, 3⟩], [⟨3, 3⟩, ⟨2, 4⟩, ⟨1, 3⟩]]

/-- Non-vacuity: the coarse centre of the barrel-shaped pattern is found exactly. -/
example : findCodCoarse refPolyfit barrelHor barrelVer = .ok ⟨2, 3⟩ := by
  have th : ∀ l ∈ barrelHor, ∃ p ∈ l, ∃ q ∈ l, ∃ r ∈ l, p.x ≠ q.x ∧ p.x ≠ r.x ∧ q.x ≠ r.x := by
    intro l hl
    simp only [barrelHor, List.mem_cons, List.not_mem_nil, or_false] at hl
    rcases hl with rfl | rfl
    · exact ⟨⟨2, 2⟩, by simp, ⟨1, 3⟩, by simp, ⟨2, 4⟩, by simp, by norm_num⟩
    · exact ⟨⟨2, 4⟩, by simp, ⟨3, 3⟩, by simp, ⟨2, 2⟩, by simp, by norm_num⟩
  have tv : ∀ l ∈ barrelVer, ∃ p ∈ l, ∃ q ∈ l, ∃ r ∈ l, p.y ≠ q.y ∧ p.y ≠ r.y ∧ q.y ≠ r.y := by
    intro l hl
    simp only [barrelVer, List.mem_cons, List.not_mem_nil, or_false] at hl
    rcases hl with rfl | rfl
    · exact ⟨⟨1, 3⟩, by simp, ⟨2, 2⟩, by simp, ⟨3, 3⟩, by simp, by norm_num⟩
    · exact ⟨⟨3, 3⟩, by simp, ⟨2, 4⟩, by simp, ⟨1, 3⟩, by simp, by norm_num⟩
  have lh : ∀ a b c, IsLsqPara Pt.x Pt.y 0 0 [⟨2, 2⟩, ⟨1, 3⟩, ⟨2, 4⟩] a b c → a = 1 ∧ b = -6 ∧ c = 10 := by
    intro a b c h
    exact lsqPara_exact h (by simp; norm_num) (th _ (by simp [barrelHor]))
  have lv : ∀ a b c, IsLsqPara Pt.y Pt.x 0 0 [⟨1, 3⟩, ⟨2, 2⟩, ⟨3, 3⟩] a b c → a = 1 ∧ b = -4 ∧ c = 6 := by
    intro a b c h
    exact lsqPara_exact h (by simp; norm_num) (tv _ (by simp [barrelVer]))
  apply C25_symmetric refPolyfit refPolyfit_spec barrelHor barrelVer ⟨2, 3⟩ 1 1 1 1
  · refine ⟨le_rfl, rfl, ?_, th⟩
    intro i l l' hi h1 h2
    obtain rfl : i = 0 := by omega
    simp [barrelHor] at h1 h2
    subst h1 h2
    apply List.Perm.of_eq
    simp [oppositePt]; norm_num
  · refine ⟨le_rfl, rfl, ?_, tv⟩
    intro i l l' hi h1 h2
    obtain rfl : i = 0 := by omega
    simp [barrelVer] at h1 h2
    subst h1 h2
    apply List.Perm.of_eq
    simp [oppositePt]; norm_num
  · intro i l hi h1 a b c h
    obtain rfl : i = 0 := by omega
    simp [barrelHor] at h1
    subst h1
    rw [(lh a b c h).1]; norm_num
  · intro i l hi h1 a b c h
    obtain rfl : i = 0 := by omega
    simp [barrelVer] at h1
    subst h1
    rw [(lv a b c h).1]; norm_num
  · intro l l' h1 h2 a b i a' b' i' h h'
    simp [barrelHor] at h1
    simp [barrelVer] at h2
    subst h1 h2
    rw [(lh a b i h).1, (lh a b i h).2.1]
    norm_num

example := C25_crossing refPolyfit refPolyfit_spec barrelHor barrelVer (by simp [barrelHor]) (by simp [barrelVer]) (by simp [barrelHor]) (by simp [barrelVer])

end Discorpy
