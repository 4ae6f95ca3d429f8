import Verif.Spec.Verdict
import Verif.Lemmas.Threshold
import Verif.Props.C12
import Verif.Props.C95

/-! # C99 — what the distortion check tells -/

namespace Discorpy

open Spec

theorem table_sum {lines : List (List Pt)} {c : Pt} {out : List (ℝ × ℝ)} (h : IsResidualTable IsLsqHorLine onHorLine lines c out)
    (guess : List Pt → ℝ × ℝ) : (out.map fun r => r.2 ^ 2).sum ≤ offLinesHor lines guess := by
  obtain ⟨table, t1, t2, t3, _⟩ := h
  rw [(t3.map _).sum_eq, List.map_map, offLinesHor, ← t1]
  clear t1 t3
  induction table with
  | nil => simp
  | cons l table ih =>
    simp only [List.flatten_cons, List.map_append, List.sum_append, List.map_cons, List.sum_cons]
    refine add_le_add ?_ (ih fun m hm => t2 m (List.mem_cons_of_mem _ hm))
    obtain ⟨a, b, hab, hd⟩ := t2 l (by simp)
    refine le_trans ?_ (hab (guess (l.map Prod.fst)).1 (guess (l.map Prod.fst)).2)
    rw [List.map_map]
    refine List.sum_le_sum fun e he => ?_
    have h1 := (hd e he).2
    have h2 := h1.2 ⟨a * e.1.x + b, e.1.x⟩ rfl
    have h0 : 0 ≤ e.2.2 := by
      obtain ⟨⟨q, _, hq⟩, _⟩ := h1
      rw [← hq]
      exact Real.sqrt_nonneg _
    have e3 : ptDist e.1 ⟨a * e.1.x + b, e.1.x⟩ ^ 2 = (a * e.1.x + b - e.1.y) ^ 2 := by
      unfold ptDist
      rw [Real.sq_sqrt (by positivity)]
      ring
    show e.2.2 ^ 2 ≤ (a * e.1.x + b - e.1.y) ^ 2
    rw [← e3]
    exact pow_le_pow_left₀ h0 h2 2

theorem offLines_swap (lines : List (List Pt)) (guess : List Pt → ℝ × ℝ) :
    offLinesHor (swapLines lines) (fun l => guess (l.map swapPt)) = offLinesVer lines guess := by
  unfold offLinesHor offLinesVer swapLines
  simp only [List.map_map, Function.comp_def]
  have : ∀ p : Pt, swapPt (swapPt p) = p := fun _ => rfl
  simp only [this, List.map_id']
  rfl

theorem count_le_sum (out : List (ℝ × ℝ)) : ((out.filter fun r => decide (1 < r.2)).length : ℝ) ≤ (out.map fun r => r.2 ^ 2).sum := by
  induction out with
  | nil => simp
  | cons r out ih =>
    rw [List.filter_cons, List.map_cons, List.sum_cons]
    split_ifs with h
    · have h1 : 1 < r.2 := by simpa using h
      rw [List.length_cons]
      push_cast
      nlinarith
    · nlinarith [sq_nonneg r.2]

/-- **C99 (any lines).** However straight lines are chosen, one for each line of dots: the squared residuals add up to no more than the squared
distances (measured along the other axis) of the dots from them, and unless the mean of the latter is above 0.15 the verdict is "no distortion". -/
theorem C99_hor (pf : List ℝ → List ℝ → ℕ → List ℝ) (hpf : PolyfitSpec pf) (argsort : List ℝ → List ℕ) (has : ArgsortSpec argsort)
    (lines : List (List Pt)) (xc yc : ℝ) (hne : lines ≠ []) (hl : ∀ l ∈ lines, l ≠ []) :
    ∃ out, calcResidualHor pf argsort lines xc yc = .ok out ∧ out.length = numDots lines ∧
      ∀ guess, (out.map fun r => r.2 ^ 2).sum ≤ offLinesHor lines guess ∧
        (offLinesHor lines guess ≤ 0.15 * numDots lines → checkDistortion out = .ok false) := by
  obtain ⟨out, e, ht, hlen, _⟩ := C12_residual_hor pf hpf argsort has lines xc yc hne hl
  refine ⟨out, e, hlen, fun guess => ⟨table_sum ht guess, fun h => ?_⟩⟩
  have hout : out ≠ [] := by
    rintro rfl
    obtain ⟨l, hm⟩ := List.exists_mem_of_ne_nil _ hne
    rw [List.length_nil] at hlen
    have := List.sum_eq_zero_iff.1 hlen.symm l.length (List.mem_map.2 ⟨l, hm, rfl⟩)
    exact hl l hm (List.length_eq_zero_iff.1 this)
  obtain ⟨b, hb, hiff⟩ := C14_check_iff out hout
  rw [hb]
  cases b with
  | false => rfl
  | true =>
    have h1 := hiff.1 rfl
    have h2 := count_le_sum out
    have h3 := table_sum ht guess
    rw [hlen] at h1
    unfold numDots at h
    norm_num at h h1
    linarith

/-- **C99 (any lines, vertical).** -/
theorem C99_ver (pf : List ℝ → List ℝ → ℕ → List ℝ) (hpf : PolyfitSpec pf) (argsort : List ℝ → List ℕ) (has : ArgsortSpec argsort)
    (lines : List (List Pt)) (xc yc : ℝ) (hne : lines ≠ []) (hl : ∀ l ∈ lines, l ≠ []) :
    ∃ out, calcResidualVer pf argsort lines xc yc = .ok out ∧ out.length = numDots lines ∧
      ∀ guess, (out.map fun r => r.2 ^ 2).sum ≤ offLinesVer lines guess ∧
        (offLinesVer lines guess ≤ 0.15 * numDots lines → checkDistortion out = .ok false) := by
  have hn : numDots (swapLines lines) = numDots lines := by
    simp [numDots, swapLines, Function.comp_def]
  obtain ⟨out, e, h1, h2⟩ := C99_hor pf hpf argsort has (swapLines lines) yc xc (by simpa [swapLines] using hne) (by
    intro l hm
    obtain ⟨l0, h0, rfl⟩ := List.mem_map.1 hm
    simpa using hl l0 h0)
  refine ⟨out, by rw [C13_ver_eq_hor_transposed]; exact e, by rw [h1, hn], fun guess => ?_⟩
  have := h2 fun l => guess (l.map swapPt)
  rwa [offLines_swap, hn] at this

/-- A moved dot of a straight line. -/
theorem moved_off {a b d : ℝ} {p q : Pt} (hp : onHorLine a b p) (hd : ptDist p q ≤ d) : (a * q.x + b - q.y) ^ 2 ≤ (a ^ 2 + 1) * d ^ 2 := by
  have h0 : 0 ≤ ptDist p q := Real.sqrt_nonneg _
  have h1 : ptDist p q ^ 2 ≤ d ^ 2 := pow_le_pow_left₀ h0 hd 2
  have h2 : ptDist p q ^ 2 = (p.x - q.x) ^ 2 + (p.y - q.y) ^ 2 := by
    unfold ptDist
    rw [Real.sq_sqrt (by positivity)]
  have h3 : a * q.x + b - q.y = (p.y - q.y) - a * (p.x - q.x) := by
    unfold onHorLine at hp
    rw [hp]; ring
  rw [h3]
  have : ((p.y - q.y) - a * (p.x - q.x)) ^ 2 ≤ (a ^ 2 + 1) * ((p.x - q.x) ^ 2 + (p.y - q.y) ^ 2) := by
    nlinarith [sq_nonneg ((p.x - q.x) + a * (p.y - q.y))]
  nlinarith [sq_nonneg a]

theorem moved_sum {d s : ℝ} {lines lines' : List (List Pt)} (h : MovedBy d lines lines') (hs : 0 ≤ s)
    (hst : ∀ l ∈ lines, ∃ a b, (a ^ 2 + 1) * d ^ 2 ≤ s ∧ ∀ p ∈ l, onHorLine a b p) :
    ∃ guess, offLinesHor lines' guess ≤ s * numDots lines' := by
  have key : ∀ l' ∈ lines', ∃ g : ℝ × ℝ, (l'.map fun p => (g.1 * p.x + g.2 - p.y) ^ 2).sum ≤ s * l'.length := by
    intro l' hl'
    obtain ⟨l, hm, hll⟩ : ∃ l ∈ lines, List.Forall₂ (fun p q => ptDist p q ≤ d) l l' := by
      induction h with
      | nil => simp at hl'
      | @cons a b _ _ hab _ ih =>
        rcases List.mem_cons.1 hl' with rfl | hc
        · exact ⟨a, by simp, hab⟩
        · obtain ⟨l, h1, h2⟩ := ih (fun m hm => hst m (List.mem_cons_of_mem _ hm)) hc
          exact ⟨l, List.mem_cons_of_mem _ h1, h2⟩
    obtain ⟨a, b, hab, hon⟩ := hst l hm
    refine ⟨(a, b), ?_⟩
    clear hm hl'
    induction hll with
    | nil => simp
    | @cons p q _ _ hpq _ ih =>
      simp only [List.map_cons, List.sum_cons, List.length_cons]
      have h1 := moved_off (hon p (by simp)) hpq
      have h2 := ih fun r hr => hon r (List.mem_cons_of_mem _ hr)
      push_cast
      linarith
  choose! g hg using key
  refine ⟨g, ?_⟩
  clear h
  unfold offLinesHor numDots
  induction lines' with
  | nil => simp
  | cons l ls ih =>
    simp only [List.map_cons, List.sum_cons]
    have h1 := hg l (by simp)
    have h2 := ih fun m hm => hg m (List.mem_cons_of_mem _ hm)
    push_cast at h2 ⊢
    linarith

theorem moved_shape {d : ℝ} {lines lines' : List (List Pt)} (h : MovedBy d lines lines') (hne : lines ≠ []) (hl : ∀ l ∈ lines, l ≠ []) :
    lines' ≠ [] ∧ ∀ l ∈ lines', l ≠ [] := by
  induction h with
  | nil => exact absurd rfl hne
  | @cons a b l l' hab hrest ih =>
    refine ⟨by simp, fun m hm => ?_⟩
    rcases List.mem_cons.1 hm with rfl | hc
    · rintro rfl
      cases hab
      exact hl [] (by simp) rfl
    · refine (ih ?_ fun n hn => hl n (List.mem_cons_of_mem _ hn)).2 m hc
      rintro rfl
      cases hrest
      simp at hc

/-- **C99 (moved dots).** If every dot is at most `d` away from its place on a straight line of slope `a`, with `(a² + 1)·d² ≤ 0.15` (for level lines
`d ≤ 0.387` pixels), the verdict is "no distortion", whatever the number of dots and lines and the given centre. -/
theorem C99_moved (pf : List ℝ → List ℝ → ℕ → List ℝ) (hpf : PolyfitSpec pf) (argsort : List ℝ → List ℕ) (has : ArgsortSpec argsort)
    (lines lines' : List (List Pt)) (d : ℝ) (h : MovedBy d lines lines') (hne : lines ≠ []) (hl : ∀ l ∈ lines, l ≠ [])
    (hst : ∀ l ∈ lines, ∃ a b, (a ^ 2 + 1) * d ^ 2 ≤ 0.15 ∧ ∀ p ∈ l, onHorLine a b p) (xc yc : ℝ) :
    ∃ out, calcResidualHor pf argsort lines' xc yc = .ok out ∧ checkDistortion out = .ok false := by
  obtain ⟨hne', hl'⟩ := moved_shape h hne hl
  obtain ⟨out, e, _, h2⟩ := C99_hor pf hpf argsort has lines' xc yc hne' hl'
  obtain ⟨g, hg⟩ := moved_sum h (by norm_num : (0 : ℝ) ≤ 0.15) hst
  exact ⟨out, e, (h2 g).2 hg⟩

/-- **C99 (moved dots, vertical).** -/
theorem C99_moved_ver (pf : List ℝ → List ℝ → ℕ → List ℝ) (hpf : PolyfitSpec pf) (argsort : List ℝ → List ℕ) (has : ArgsortSpec argsort)
    (lines lines' : List (List Pt)) (d : ℝ) (h : MovedBy d lines lines') (hne : lines ≠ []) (hl : ∀ l ∈ lines, l ≠ [])
    (hst : ∀ l ∈ lines, ∃ a b, (a ^ 2 + 1) * d ^ 2 ≤ 0.15 ∧ ∀ p ∈ l, onVerLine a b p) (xc yc : ℝ) :
    ∃ out, calcResidualVer pf argsort lines' xc yc = .ok out ∧ checkDistortion out = .ok false := by
  rw [C13_ver_eq_hor_transposed]
  refine C99_moved pf hpf argsort has (swapLines lines) _ d ?_ (by simpa [swapLines] using hne) ?_ ?_ yc xc
  · unfold MovedBy swapLines
    rw [List.forall₂_map_left_iff, List.forall₂_map_right_iff]
    refine h.imp fun l l' hll => ?_
    rw [List.forall₂_map_left_iff, List.forall₂_map_right_iff]
    refine hll.imp fun p q hpq => ?_
    have : ptDist (swapPt p) (swapPt q) = ptDist p q := by
      unfold ptDist swapPt
      simp only
      rw [add_comm]
    rw [this]
    exact hpq
  · intro l hm
    obtain ⟨l0, h0, rfl⟩ := List.mem_map.1 hm
    simpa using hl l0 h0
  · intro l hm
    obtain ⟨l0, h0, rfl⟩ := List.mem_map.1 hm
    obtain ⟨a, b, hab, hon⟩ := hst l0 h0
    refine ⟨a, b, hab, fun p hp => ?_⟩
    obtain ⟨p0, hp0, rfl⟩ := List.mem_map.1 hp
    exact hon p0 hp0

/-- Bending a dot and unwarping it moves it along the ray from the centre. -/
theorem unbend_dist (c : Pt) (k f : List ℝ) (p : Pt) (hk : 0 ≤ radial k (ptDist p c)) :
    ptDist p (radialMap c f (radialMap c k p)) =
      |radial f (radial k (ptDist p c) * ptDist p c) * (radial k (ptDist p c) * ptDist p c) - ptDist p c| := by
  set r := ptDist p c with hr
  set s := radial k r with hs
  have hr0 : 0 ≤ r := Real.sqrt_nonneg _
  have hrr : r ^ 2 = (p.x - c.x) ^ 2 + (p.y - c.y) ^ 2 := by
    rw [hr, ptDist, Real.sq_sqrt (by positivity)]
  have h1 : ptDist (radialMap c k p) c = s * r := by
    have : ptDist (radialMap c k p) c = √((s * r) ^ 2) := by
      rw [ptDist, mul_pow, hrr]
      congr 1
      simp only [radialMap, ← hr, ← hs]
      ring
    rw [this, Real.sqrt_sq (by positivity)]
  set t := radial f (s * r) with ht
  have h2 : ptDist p (radialMap c f (radialMap c k p)) = √((t * (s * r) - r) ^ 2) := by
    rw [ptDist]
    congr 1
    have ex : (radialMap c f (radialMap c k p)).x = c.x + t * (s * (p.x - c.x)) := by
      show c.x + radial f (ptDist (radialMap c k p) c) * ((radialMap c k p).x - c.x) = _
      rw [h1, ← ht]
      show c.x + t * (c.x + radial k (ptDist p c) * (p.x - c.x) - c.x) = _
      rw [← hr, ← hs]
      ring
    have ey : (radialMap c f (radialMap c k p)).y = c.y + t * (s * (p.y - c.y)) := by
      show c.y + radial f (ptDist (radialMap c k p) c) * ((radialMap c k p).y - c.y) = _
      rw [h1, ← ht]
      show c.y + t * (c.y + radial k (ptDist p c) * (p.y - c.y) - c.y) = _
      rw [← hr, ← hs]
      ring
    rw [ex, ey, show (t * (s * r) - r) ^ 2 = (t * s - 1) ^ 2 * r ^ 2 by ring, hrr]
    ring
  rw [h2, Real.sqrt_sq_eq_abs]

/-- **C99 (a good model passes).** Straight lines are bent by a lens `k`, and the bent dots are unwarped by `unwarp_line_forward` with the model `f`. If
at each dot the model is wrong by at most `d` in radius, and `(a² + 1)·d² ≤ 0.15` for the slopes of the lines, the verdict on the unwarped lines
is "no distortion". -/
theorem C99_model (pf : List ℝ → List ℝ → ℕ → List ℝ) (hpf : PolyfitSpec pf) (argsort : List ℝ → List ℕ) (has : ArgsortSpec argsort)
    (lines : List (List Pt)) (hne : lines ≠ []) (hl : ∀ l ∈ lines, l ≠ []) (c : Pt) (k f : List ℝ) (d : ℝ)
    (hk : ∀ l ∈ lines, ∀ p ∈ l, 0 ≤ radial k (ptDist p c) ∧
      |radial f (radial k (ptDist p c) * ptDist p c) * (radial k (ptDist p c) * ptDist p c) - ptDist p c| ≤ d)
    (hst : ∀ l ∈ lines, ∃ a b, (a ^ 2 + 1) * d ^ 2 ≤ 0.15 ∧ ∀ p ∈ l, onHorLine a b p) (xc yc : ℝ) :
    ∃ out, calcResidualHor pf argsort (unwarpLineForward id (lines.map fun l => l.map (radialMap c k)) c.x c.y f) xc yc = .ok out ∧
      checkDistortion out = .ok false := by
  refine C99_moved pf hpf argsort has lines _ d ?_ hne hl hst xc yc
  unfold MovedBy unwarpLineForward
  rw [List.map_map, List.forall₂_map_right_iff, List.forall₂_same]
  intro l hm
  simp only [Function.comp_def, List.map_map]
  rw [List.forall₂_map_right_iff, List.forall₂_same]
  intro p hp
  obtain ⟨h0, h1⟩ := hk l hm p hp
  rw [← unbend_dist c k f p h0] at h1
  convert h1 using 2
  simp only [id_eq, polySum_eq_radial, ← sq]
  rfl

/-- **C99 (centre).** The verdict does not depend on the centre given to the residual functions, if each line has dots at two different places. -/
theorem C99_centre (pf : List ℝ → List ℝ → ℕ → List ℝ) (hpf : PolyfitSpec pf) (argsort : List ℝ → List ℕ) (has : ArgsortSpec argsort)
    (lines : List (List Pt)) (hne : lines ≠ []) (hl : ∀ l ∈ lines, ∃ p ∈ l, ∃ q ∈ l, p.x ≠ q.x) (xc yc xc' yc' : ℝ) :
    ∃ out out', calcResidualHor pf argsort lines xc yc = .ok out ∧ calcResidualHor pf argsort lines xc' yc' = .ok out' ∧
      (out.map Prod.snd).Perm (out'.map Prod.snd) ∧ checkDistortion out = checkDistortion out' := by
  have hl0 : ∀ l ∈ lines, l ≠ [] := by
    rintro l hm rfl
    obtain ⟨p, hp, _⟩ := hl _ hm
    simp at hp
  obtain ⟨out, e, ht, -, -⟩ := C12_residual_hor pf hpf argsort has lines xc yc hne hl0
  obtain ⟨out', e', ht', -, -⟩ := C12_residual_hor pf hpf argsort has lines xc' yc' hne hl0
  have hperm : (out.map Prod.snd).Perm (out'.map Prod.snd) := by
    obtain ⟨t, t1, t2, t3, _⟩ := ht
    obtain ⟨t', t1', t2', t3', _⟩ := ht'
    refine (t3.map Prod.snd).trans (List.Perm.trans ?_ (t3'.map Prod.snd).symm)
    apply List.Perm.of_eq
    clear t3 t3' e e' hne hl0
    induction lines generalizing t t' with
    | nil =>
      rw [List.map_eq_nil_iff] at t1 t1'
      rw [t1, t1']
    | cons l lines ih =>
      obtain ⟨r, t, rfl⟩ : ∃ r s, t = r :: s := List.exists_cons_of_ne_nil (by rintro rfl; simp at t1)
      obtain ⟨r', t', rfl⟩ : ∃ r s, t' = r :: s := List.exists_cons_of_ne_nil (by rintro rfl; simp at t1')
      rw [List.map_cons, List.cons.injEq] at t1 t1'
      rw [List.flatten_cons, List.flatten_cons, List.map_append, List.map_append, List.map_append, List.map_append]
      congr 1
      · obtain ⟨a, b, hab, hd⟩ := t2 r (by simp)
        obtain ⟨a', b', hab', hd'⟩ := t2' r' (by simp)
        rw [t1.1] at hab
        rw [t1'.1] at hab'
        obtain ⟨rfl, rfl⟩ := lsqHor_unique hab hab' (hl l (by simp))
        have e1 : ∀ (r : List (Pt × ℝ × ℝ)) (c : Pt), (∀ e ∈ r, e.2.1 = ptDist e.1 c ∧ IsDistTo (onHorLine a b) e.1 e.2.2) →
            (r.map Prod.snd).map Prod.snd = (r.map Prod.fst).map fun p => |a * p.x - p.y + b| / √(a ^ 2 + 1) := by
          intro r c hr
          rw [List.map_map, List.map_map]
          refine List.map_congr_left fun e he => ?_
          exact IsDistTo.unique (hr e he).2 (isDistTo_horLine a b e.1)
        rw [e1 r _ hd, e1 r' _ hd', t1.1, t1'.1]
      · exact ih (fun m hm => hl m (List.mem_cons_of_mem _ hm)) t t1.2 (fun m hm => t2 m (List.mem_cons_of_mem _ hm)) t' t1'.2
          fun m hm => t2' m (List.mem_cons_of_mem _ hm)
  refine ⟨out, out', e, e', hperm, ?_⟩
  unfold checkDistortion
  simp only [hperm.length_eq, (hperm.filter _).length_eq]

/-- **C99 (two dots).** Lines of two dots at different places always get the verdict "no distortion", however bent the pattern is. -/
theorem C99_two (pf : List ℝ → List ℝ → ℕ → List ℝ) (hpf : PolyfitSpec pf) (argsort : List ℝ → List ℕ) (has : ArgsortSpec argsort)
    (lines : List (List Pt)) (hne : lines ≠ []) (hl : ∀ l ∈ lines, ∃ p q, l = [p, q] ∧ p.x ≠ q.x) (xc yc : ℝ) :
    ∃ out, calcResidualHor pf argsort lines xc yc = .ok out ∧ checkDistortion out = .ok false := by
  refine C99_moved pf hpf argsort has lines lines 0 ?_ hne ?_ ?_ xc yc
  · unfold MovedBy
    rw [List.forall₂_same]
    intro l _
    rw [List.forall₂_same]
    intro p _
    simp [ptDist]
  · rintro l hm rfl
    obtain ⟨p, q, h, _⟩ := hl _ hm
    simp at h
  · intro l hm
    obtain ⟨p, q, rfl, h⟩ := hl l hm
    have hd : p.x - q.x ≠ 0 := sub_ne_zero.2 h
    refine ⟨(p.y - q.y) / (p.x - q.x), p.y - (p.y - q.y) / (p.x - q.x) * p.x, by norm_num, ?_⟩
    intro s hs
    simp only [List.mem_cons, List.not_mem_nil, or_false] at hs
    unfold onHorLine
    rcases hs with rfl | rfl
    · ring
    · field_simp
      ring

/-- A case of `C99_model`: a level line bent by `k = 1 + r/1000` and unwarped with the model 1 (no correction at all) is wrong by `r²/1000`, which is
at most 0.1 for radii up to 10. -/
example : ∀ l ∈ [[(⟨0, -10⟩ : Pt), ⟨0, 0⟩, ⟨0, 10⟩]], ∀ p ∈ l, 0 ≤ radial [1, 1 / 1000] (ptDist p ⟨0, 0⟩) ∧
    |radial [1] (radial [1, 1 / 1000] (ptDist p ⟨0, 0⟩) * ptDist p ⟨0, 0⟩) * (radial [1, 1 / 1000] (ptDist p ⟨0, 0⟩) * ptDist p ⟨0, 0⟩) -
      ptDist p ⟨0, 0⟩| ≤ 0.1 := by
  intro l hl p hp
  obtain rfl : l = [⟨0, -10⟩, ⟨0, 0⟩, ⟨0, 10⟩] := by simpa using hl
  have h0 : 0 ≤ ptDist p ⟨0, 0⟩ := Real.sqrt_nonneg _
  have h1 : ptDist p ⟨0, 0⟩ ≤ 10 := by
    unfold ptDist
    rw [Real.sqrt_le_left (by norm_num)]
    simp only [List.mem_cons, List.not_mem_nil, or_false] at hp
    rcases hp with rfl | rfl | rfl <;> norm_num
  generalize ptDist p ⟨0, 0⟩ = r at h0 h1
  have e1 : radial [1, 1 / 1000] r = 1 + 1 / 1000 * r := by
    rw [← polySum_eq_radial]
    simp [polySum]
  have e2 : ∀ t, radial [1] t = 1 := by
    intro t
    rw [← polySum_eq_radial]
    simp [polySum]
  rw [e1, e2]
  refine ⟨by positivity, ?_⟩
  rw [abs_of_nonneg (by nlinarith)]
  norm_num
  nlinarith

example : ∀ l ∈ [[(⟨0, -10⟩ : Pt), ⟨0, 0⟩, ⟨0, 10⟩]], ∃ a b : ℝ, (a ^ 2 + 1) * 0.1 ^ 2 ≤ 0.15 ∧ ∀ p ∈ l, onHorLine a b p := by
  intro l hl
  obtain rfl : l = [⟨0, -10⟩, ⟨0, 0⟩, ⟨0, 10⟩] := by simpa using hl
  exact ⟨0, 0, by norm_num, by simp [onHorLine]⟩

/-- One level line and one upright line of three dots. -/
example (xc yc : ℝ) := C99_hor refPolyfit refPolyfit_spec refArgsort refArgsort_spec [[⟨0, -10⟩, ⟨1, 0⟩, ⟨0, 10⟩]] xc yc (by simp) (by simp)
example (xc yc : ℝ) := C99_ver refPolyfit refPolyfit_spec refArgsort refArgsort_spec [[⟨-10, 0⟩, ⟨0, 1⟩, ⟨10, 0⟩]] xc yc (by simp) (by simp)
/-- A level line whose middle dot is moved by 0.1. -/
example (xc yc : ℝ) := C99_moved refPolyfit refPolyfit_spec refArgsort refArgsort_spec [[⟨0, -10⟩, ⟨0, 0⟩, ⟨0, 10⟩]] [[⟨0, -10⟩, ⟨0.1, 0⟩, ⟨0, 10⟩]] 0.1
  (.cons (.cons (by norm_num [ptDist]) (.cons (by
    have : √((0.1 : ℝ) ^ 2) = 0.1 := Real.sqrt_sq (by norm_num)
    norm_num [ptDist] at this ⊢
    rw [this]) (.cons (by norm_num [ptDist]) .nil))) .nil) (by simp) (by simp) (by
    intro l hl
    obtain rfl : l = [⟨0, -10⟩, ⟨0, 0⟩, ⟨0, 10⟩] := by simpa using hl
    exact ⟨0, 0, by norm_num, by simp [onHorLine]⟩) xc yc
example := C99_centre refPolyfit refPolyfit_spec refArgsort refArgsort_spec [[⟨0, -10⟩, ⟨1, 0⟩, ⟨0, 10⟩]] (by simp) (by norm_num) 1 2 3 4
example (xc yc : ℝ) := C99_two refPolyfit refPolyfit_spec refArgsort refArgsort_spec [[⟨0, -10⟩, ⟨7, 10⟩]] (by simp)
  (fun l hl => ⟨⟨0, -10⟩, ⟨7, 10⟩, by simpa using hl, by norm_num⟩) xc yc
example (xc yc : ℝ) := C99_moved_ver refPolyfit refPolyfit_spec refArgsort refArgsort_spec [[⟨-10, 0⟩, ⟨0, 0⟩, ⟨10, 0⟩]] [[⟨-10, 0⟩, ⟨0.1, 0⟩, ⟨10, 0⟩]] 0.1
  (.cons (.cons (by norm_num [ptDist]) (.cons (by
    have : √((0.1 : ℝ) ^ 2) = 0.1 := Real.sqrt_sq (by norm_num)
    norm_num [ptDist] at this ⊢
    rw [this]) (.cons (by norm_num [ptDist]) .nil))) .nil) (by simp) (by simp) (by
    intro l hl
    obtain rfl : l = [⟨-10, 0⟩, ⟨0, 0⟩, ⟨10, 0⟩] := by simpa using hl
    exact ⟨0, 0, by norm_num, by simp [onVerLine]⟩) xc yc

end Discorpy
