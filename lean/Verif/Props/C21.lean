import Verif.Lemmas.Grid
import Verif.Lemmas.Sort
import Verif.Spec.Rect

/-! # C21: four source and target points -/

namespace Discorpy

open Spec

theorem rect_aux (a t : ℝ) : √((t / (1 + a ^ 2)) ^ 2 + (a * (t / (1 + a ^ 2))) ^ 2) = |t| / √(1 + a ^ 2) := by
  have hpos : 0 < 1 + a ^ 2 := by positivity
  have e : (t / (1 + a ^ 2)) ^ 2 + (a * (t / (1 + a ^ 2))) ^ 2 = (|t| / √(1 + a ^ 2)) ^ 2 := by
    rw [div_pow, div_pow, sq_abs, Real.sq_sqrt hpos.le]
    field_simp
  rw [e, Real.sqrt_sq (by positivity)]

theorem rect_half (a d : ℝ) : 2 * |d * 0.5 / Real.cos (Real.arctan a)| = |d| * √(1 + a ^ 2) := by
  have hpos : 0 < 1 + a ^ 2 := by positivity
  have hs : 0 < √(1 + a ^ 2) := Real.sqrt_pos.2 hpos
  rw [Real.cos_arctan, abs_div, abs_mul, abs_of_pos (a := (0.5 : ℝ)) (by norm_num),
    abs_of_pos (a := 1 / √(1 + a ^ 2)) (by positivity)]
  field_simp
  norm_num
  ring

theorem rectCorners_isRect (a bh bv h v : ℝ) :
    IsRect (rectCorners a bh bv h v).1 (rectCorners a bh bv h v).2.1 (rectCorners a bh bv h v).2.2.1
      (rectCorners a bh bv h v).2.2.2 h v := by
  have hpos : 0 < 1 + a ^ 2 := by positivity
  have hs : 0 < √(1 + a ^ 2) := Real.sqrt_pos.2 hpos
  have eh := rect_half a h
  have ev := rect_half a v
  unfold rectCorners
  simp only
  generalize |h * 0.5 / Real.cos (Real.arctan a)| = H at *
  generalize |v * 0.5 / Real.cos (Real.arctan a)| = V at *
  have hH : 0 ≤ H := by have : 0 ≤ |h| * √(1 + a ^ 2) := by positivity
                        linarith
  have hV : 0 ≤ V := by have : 0 ≤ |v| * √(1 + a ^ 2) := by positivity
                        linarith
  refine ⟨?_, ?_, ?_, ?_, ?_, ?_, ?_⟩
  · simp only; field_simp; ring
  · simp only; field_simp; ring
  · simp only; field_simp; ring
  · unfold ptDist
    have := rect_aux a (2 * H)
    rw [abs_of_nonneg (by positivity), show 2 * H / √(1 + a ^ 2) = _ by rw [eh, mul_div_assoc, div_self hs.ne', mul_one]] at this
    rw [← this]
    congr 1
    simp only
    field_simp
    ring
  · unfold ptDist
    have := rect_aux a (2 * V)
    rw [abs_of_nonneg (by positivity), show 2 * V / √(1 + a ^ 2) = _ by rw [ev, mul_div_assoc, div_self hs.ne', mul_one]] at this
    rw [← this]
    congr 1
    simp only
    field_simp
    ring
  · simp only
    have : -a * ((a * (bv + H) + (bh - V)) / (1 + a ^ 2)) + (bv + H) - (-a * ((a * (bv - H) + (bh - V)) / (1 + a ^ 2)) + (bv - H))
        = 2 * H / (1 + a ^ 2) := by field_simp; ring
    have h2 : 0 ≤ 2 * H / (1 + a ^ 2) := by positivity
    linarith
  · simp only
    rw [div_le_div_iff_of_pos_right hpos]
    linarith

theorem dist2_eq (p q : Pt) : dist2 p q = ptDist p q := rfl

/-- The points as `(y, x)`. -/
theorem flip_map (xy : Bool) (points : List Pt) :
    (if xy then points.map fun p => (⟨p.x, p.y⟩ : Pt) else points) = points.map (if xy then swapPt else id) := by
  cases xy
  · simp
  · rfl

/-- **C21.** If the four points are, in any order, a top pair `p1`, `p2` (left, right) and a bottom pair `p3`, `p4`
(left, right), the sources are `[p1, p2, p3, p4]` and the targets are a rectangle with the promised sides; a square of
the promised size with `equal_dist=True`. Only the slopes dividing by a coordinate difference need `p1.y ≠ p3.y` etc.,
which follows from the ordering. -/
theorem C21_rectangle (argsort : List ℝ → List ℕ) (ha : ArgsortSpec argsort) (points : List Pt) (xy : Bool)
    (p1 p2 p3 p4 : Pt) (hperm : (points.map (if xy then swapPt else id)).Perm [p1, p2, p3, p4])
    (h13 : p1.y < p3.y) (h14 : p1.y < p4.y) (h23 : p2.y < p3.y) (h24 : p2.y < p4.y) (h12 : p1.x < p2.x)
    (h34 : p3.x < p4.x) (equalDist : Bool) (scale : ScaleOpt) :
    ∃ q1 q2 q3 q4, generate4SourceTarget argsort points xy equalDist scale = .ok ([p1, p2, p3, p4], [q1, q2, q3, q4]) ∧
      (equalDist = false → IsRect q1 q2 q3 q4 (sideFor scale (ptDist p1 p2) (ptDist p3 p4))
        (sideFor scale (ptDist p1 p3) (ptDist p2 p4))) ∧
      (equalDist = true →
        let s := squareFor scale (sideFor scale (ptDist p1 p2) (ptDist p3 p4)) (sideFor scale (ptDist p1 p3) (ptDist p2 p4))
        IsRect q1 q2 q3 q4 s s) := by
  set pts := points.map (if xy then swapPt else id) with hpts
  have hs := ha.fancy_sorted pts Pt.y
  have hp := (ha.fancy_perm pts Pt.y).trans hperm
  obtain ⟨ht, hd⟩ := sorted_take_drop Pt.y (A := [p1, p2]) (B := [p3, p4]) hs hp (by simp [h13, h14, h23, h24])
  have e12 := sorted_pair Pt.x (ha.fancy_sorted _ Pt.x) ((ha.fancy_perm _ Pt.x).trans ht) h12
  have e34 := sorted_pair Pt.x (ha.fancy_sorted _ Pt.x) ((ha.fancy_perm _ Pt.x).trans hd) h34
  have hlen : pts.length = 4 := by simpa using hperm.length_eq
  unfold generate4SourceTarget
  simp only [List.length_cons, List.length_nil, Nat.zero_add, Nat.reduceAdd] at e12 e34
  rw [flip_map, ← hpts]
  simp only [hlen, ne_eq, not_true_eq_false, if_false, e12, e34]
  rw [finDiv_ok (sub_ne_zero.2 h12.ne), ok_bind, finDiv_ok (sub_ne_zero.2 h34.ne), ok_bind,
    finDiv_ok (sub_ne_zero.2 h13.ne), ok_bind, finDiv_ok (sub_ne_zero.2 h24.ne), ok_bind]
  refine ⟨_, _, _, _, rfl, ?_, ?_⟩
  · rintro rfl
    convert rectCorners_isRect _ _ _ _ _ using 1 <;> cases scale <;>
      simp only [sideFor, sideLengths, dist2_eq, Bool.false_eq_true, if_false] <;> ring
  · rintro rfl
    convert rectCorners_isRect _ _ _ _ _ using 1 <;> cases scale <;>
      simp only [sideFor, squareFor, sideLengths, dist2_eq, if_true, max_comm, min_comm] <;> ring

theorem rectCorners_at (a y x w z : ℝ) (hw : 0 ≤ w) (hz : 0 ≤ z) :
    rectCorners a (y - a * x + z * (1 + a ^ 2) / 2) (x + a * y + w * (1 + a ^ 2) / 2) (w * √(1 + a ^ 2)) (z * √(1 + a ^ 2)) =
      (⟨y, x⟩, ⟨y + a * w, x + w⟩, ⟨y + z, x - a * z⟩, ⟨y + a * w + z, x + w - a * z⟩) := by
  have hpos : 0 < 1 + a ^ 2 := by positivity
  have key : ∀ t : ℝ, 0 ≤ t → |t * √(1 + a ^ 2) * 0.5 / Real.cos (Real.arctan a)| = t * (1 + a ^ 2) / 2 := by
    intro t ht
    have := rect_half a (t * √(1 + a ^ 2))
    rw [abs_of_nonneg (a := t * √(1 + a ^ 2)) (by positivity)] at this
    have hq := Real.mul_self_sqrt hpos.le
    have : t * √(1 + a ^ 2) * √(1 + a ^ 2) = t * (1 + a ^ 2) := by rw [mul_assoc, hq]
    linarith
  unfold rectCorners
  simp only [key w hw, key z hz]
  have e1 : (a * (x + a * y + w * (1 + a ^ 2) / 2 - w * (1 + a ^ 2) / 2) + (y - a * x + z * (1 + a ^ 2) / 2 - z * (1 + a ^ 2) / 2)) /
      (1 + a ^ 2) = y := by field_simp; ring
  have e2 : (a * (x + a * y + w * (1 + a ^ 2) / 2 + w * (1 + a ^ 2) / 2) + (y - a * x + z * (1 + a ^ 2) / 2 - z * (1 + a ^ 2) / 2)) /
      (1 + a ^ 2) = y + a * w := by field_simp; ring
  have e3 : (a * (x + a * y + w * (1 + a ^ 2) / 2 - w * (1 + a ^ 2) / 2) + (y - a * x + z * (1 + a ^ 2) / 2 + z * (1 + a ^ 2) / 2)) /
      (1 + a ^ 2) = y + z := by field_simp; ring
  have e4 : (a * (x + a * y + w * (1 + a ^ 2) / 2 + w * (1 + a ^ 2) / 2) + (y - a * x + z * (1 + a ^ 2) / 2 + z * (1 + a ^ 2) / 2)) /
      (1 + a ^ 2) = y + a * w + z := by field_simp; ring
  rw [e1, e2, e3, e4]
  simp only [Prod.mk.injEq, Pt.mk.injEq, true_and]
  refine ⟨?_, ?_, ?_, ?_⟩ <;> ring

theorem sign_mean (a : ℝ) : npSign ((a + a) * 0.5) * (|(a + a) * 0.5| + |(-a + -a) * 0.5|) * 0.5 = a := by
  have e1 : (a + a) * 0.5 = a := by ring
  have e2 : (-a + -a) * 0.5 = -a := by ring
  rw [e1, e2, abs_neg]
  unfold npSign
  split
  · rename_i h; rw [abs_of_neg h]; ring
  · split
    · rename_i h; rw [abs_of_pos h]; ring
    · rename_i h1 h2
      have : a = 0 := by linarith [not_lt.1 h1, not_lt.1 h2]
      rw [this]; simp

/-- **C21** (fixed point). The corners of a rectangle, of any orientation with the top pair above the bottom pair, are
their own targets, for every scale option but a factor different from 1. -/
theorem C21_fixed (argsort : List ℝ → List ℕ) (ha : ArgsortSpec argsort) (points : List Pt) (xy : Bool)
    (p1 p2 p3 p4 : Pt) (hperm : (points.map (if xy then swapPt else id)).Perm [p1, p2, p3, p4])
    (h14 : p1.y < p4.y) (h23 : p2.y < p3.y) (h12 : p1.x < p2.x) (h v : ℝ) (hr : IsRect p1 p2 p3 p4 h v)
    (hv : p1.y < p3.y) (scale : ScaleOpt) (hs : ∀ f, scale = .float f → f = 1) :
    generate4SourceTarget argsort points xy false scale = .ok ([p1, p2, p3, p4], [p1, p2, p3, p4]) := by
  set pts := points.map (if xy then swapPt else id) with hpts
  have h24 : p2.y < p4.y := by linarith [hr.paraY]
  have h34 : p3.x < p4.x := by linarith [hr.paraX]
  have hso := ha.fancy_sorted pts Pt.y
  have hp := (ha.fancy_perm pts Pt.y).trans hperm
  obtain ⟨ht, hd⟩ := sorted_take_drop Pt.y (A := [p1, p2]) (B := [p3, p4]) hso hp (by simp [hv, h14, h23, h24])
  have e12 := sorted_pair Pt.x (ha.fancy_sorted _ Pt.x) ((ha.fancy_perm _ Pt.x).trans ht) h12
  have e34 := sorted_pair Pt.x (ha.fancy_sorted _ Pt.x) ((ha.fancy_perm _ Pt.x).trans hd) h34
  have hlen : pts.length = 4 := by simpa using hperm.length_eq
  unfold generate4SourceTarget
  simp only [List.length_cons, List.length_nil, Nat.zero_add, Nat.reduceAdd] at e12 e34
  rw [flip_map, ← hpts]
  simp only [hlen, ne_eq, not_true_eq_false, if_false, e12, e34]
  rw [finDiv_ok (sub_ne_zero.2 h12.ne), ok_bind, finDiv_ok (sub_ne_zero.2 h34.ne), ok_bind,
    finDiv_ok (sub_ne_zero.2 hv.ne), ok_bind, finDiv_ok (sub_ne_zero.2 h24.ne), ok_bind]
  obtain ⟨y1, x1⟩ := p1
  obtain ⟨y2, x2⟩ := p2
  obtain ⟨y3, x3⟩ := p3
  obtain ⟨y4, x4⟩ := p4
  have hx := hr.paraX
  have hy := hr.paraY
  have hpe := hr.perp
  simp only at hx hy hpe h12 h34 h14 h23 h24 hv ⊢
  obtain ⟨w, rfl⟩ : ∃ w, x2 = x1 + w := ⟨x2 - x1, by ring⟩
  obtain ⟨z, rfl⟩ : ∃ z, y3 = y1 + z := ⟨y3 - y1, by ring⟩
  have hw : 0 < w := by linarith
  have hz : 0 < z := by linarith
  obtain ⟨a, rfl⟩ : ∃ a, y2 = y1 + a * w := ⟨(y2 - y1) / w, by field_simp; ring⟩
  have e3 : x3 = x1 - a * z := by
    have : w * (x3 - x1 + a * z) = 0 := by linear_combination hpe
    have := (mul_eq_zero.1 this).resolve_left hw.ne'
    linarith
  subst e3
  have e4x : x4 = x1 + w - a * z := by linarith
  have e4y : y4 = y1 + a * w + z := by linarith
  subst e4x e4y
  have q12 : (y1 - (y1 + a * w)) / (x1 - (x1 + w)) = a := by
    rw [div_eq_iff (by linarith)]; ring
  have q34 : (y1 + z - (y1 + a * w + z)) / (x1 - a * z - (x1 + w - a * z)) = a := by
    rw [div_eq_iff (by linarith)]; ring
  have q13 : (x1 - (x1 - a * z)) / (y1 - (y1 + z)) = -a := by
    rw [div_eq_iff (by linarith)]; ring
  have q24 : (x1 + w - (x1 + w - a * z)) / (y1 + a * w - (y1 + a * w + z)) = -a := by
    rw [div_eq_iff (by linarith)]; ring
  rw [q12, q34, q13, q24, sign_mean]
  have hd : ∀ t : ℝ, 0 < t → √(t ^ 2 + (a * t) ^ 2) = t * √(1 + a ^ 2) := by
    intro t ht
    rw [show t ^ 2 + (a * t) ^ 2 = t ^ 2 * (1 + a ^ 2) by ring, Real.sqrt_mul (by positivity), Real.sqrt_sq ht.le]
  have d12 : dist2 ⟨y1, x1⟩ ⟨y1 + a * w, x1 + w⟩ = w * √(1 + a ^ 2) := by
    rw [← hd w hw]; unfold dist2; congr 1; simp only; ring
  have d34 : dist2 ⟨y1 + z, x1 - a * z⟩ ⟨y1 + a * w + z, x1 + w - a * z⟩ = w * √(1 + a ^ 2) := by
    rw [← hd w hw]; unfold dist2; congr 1; simp only; ring
  have d13 : dist2 ⟨y1, x1⟩ ⟨y1 + z, x1 - a * z⟩ = z * √(1 + a ^ 2) := by
    rw [← hd z hz]; unfold dist2; congr 1; simp only; ring
  have d24 : dist2 ⟨y1 + a * w, x1 + w⟩ ⟨y1 + a * w + z, x1 + w - a * z⟩ = z * √(1 + a ^ 2) := by
    rw [← hd z hz]; unfold dist2; congr 1; simp only; ring
  rw [d12, d34, d13, d24]
  have hside : sideLengths scale false (w * √(1 + a ^ 2)) (z * √(1 + a ^ 2)) (z * √(1 + a ^ 2)) (w * √(1 + a ^ 2)) =
      (w * √(1 + a ^ 2), z * √(1 + a ^ 2)) := by
    have dbl : ∀ t : ℝ, (t + t) * 0.5 = t := fun t => by ring
    cases scale with
    | float f => rw [hs f rfl]; simp only [sideLengths, Bool.false_eq_true, if_false, dbl, mul_one]
    | _ => simp [sideLengths, dbl]
  rw [hside]
  have hbh : (y1 - a * x1 + (y1 + z - a * (x1 - a * z))) * 0.5 = y1 - a * x1 + z * (1 + a ^ 2) / 2 := by ring
  have hbv : (x1 - -a * y1 + (x1 + w - -a * (y1 + a * w))) * 0.5 = x1 + a * y1 + w * (1 + a ^ 2) / 2 := by ring
  simp only
  rw [hbh, hbv, rectCorners_at a y1 x1 w z hw.le hz.le]

/-- **C21** (error). Anything but four points is rejected. -/
theorem C21_error (argsort : List ℝ → List ℕ) (points : List Pt) (xy equalDist : Bool) (scale : ScaleOpt)
    (h : points.length ≠ 4) : generate4SourceTarget argsort points xy equalDist scale = .error .valueError := by
  unfold generate4SourceTarget
  cases xy <;> simp [h]

/-- **C21** (sources, no assumption). Whenever the function succeeds, the sources are the given points, reordered. -/
theorem C21_sources (argsort : List ℝ → List ℕ) (ha : ArgsortSpec argsort) (points : List Pt) (xy equalDist : Bool)
    (scale : ScaleOpt) (src tgt : List Pt)
    (h : generate4SourceTarget argsort points xy equalDist scale = .ok (src, tgt)) :
    src.Perm (points.map (if xy then swapPt else id)) ∧ tgt.length = 4 := by
  unfold generate4SourceTarget at h
  rw [flip_map] at h
  set pts := points.map (if xy then swapPt else id) with hpts
  simp only at h
  split at h
  · cases h
  · split at h
    · rename_i p1 p2 p3 p4 e12 e34
      simp only [bind_ok_iff] at h
      obtain ⟨_, _, _, _, _, _, _, _, h⟩ := h
      simp only [Except.ok.injEq, Prod.mk.injEq] at h
      obtain ⟨rfl, rfl⟩ := h
      refine ⟨?_, rfl⟩
      have h1 := ha.fancy_perm (List.take 2 (fancyIndex pts (argsort (pts.map Pt.y)))) Pt.x
      have h2 := ha.fancy_perm (List.drop 2 (fancyIndex pts (argsort (pts.map Pt.y)))) Pt.x
      rw [e12] at h1
      rw [e34] at h2
      have := h1.append h2
      rw [List.take_append_drop] at this
      exact this.trans (ha.fancy_perm pts Pt.y)
    · cases h

/-- Non-vacuity: a tilted quadrangle given out of order. -/
example : ∃ q1 q2 q3 q4, generate4SourceTarget refArgsort [⟨9, 12⟩, ⟨0, 1⟩, ⟨8, 0⟩, ⟨1, 10⟩] false true .mean =
    .ok ([⟨0, 1⟩, ⟨1, 10⟩, ⟨8, 0⟩, ⟨9, 12⟩], [q1, q2, q3, q4]) := by
  obtain ⟨q1, q2, q3, q4, h, _⟩ := C21_rectangle refArgsort refArgsort_spec [⟨9, 12⟩, ⟨0, 1⟩, ⟨8, 0⟩, ⟨1, 10⟩] false
    ⟨0, 1⟩ ⟨1, 10⟩ ⟨8, 0⟩ ⟨9, 12⟩ (by
      simp only [Bool.false_eq_true, if_false, List.map_id]
      refine (List.Perm.swap _ _ _).trans (.cons _ ?_)
      refine List.Perm.trans (l₂ := [⟨8, 0⟩, ⟨9, 12⟩, ⟨1, 10⟩]) (.swap _ _ _) ?_
      refine List.Perm.trans (l₂ := [⟨8, 0⟩, ⟨1, 10⟩, ⟨9, 12⟩]) (.cons _ (.swap _ _ _)) ?_
      exact .swap _ _ _) (by norm_num) (by norm_num) (by norm_num) (by norm_num) (by norm_num) (by norm_num) true .mean
  exact ⟨q1, q2, q3, q4, h⟩

/-- Non-vacuity of the fixed point: a tilted rectangle. -/
example : IsRect ⟨0, 0⟩ ⟨1, 4⟩ ⟨8, -2⟩ ⟨9, 2⟩ (√17) (√68) := by
  constructor <;> norm_num [ptDist, abs_of_nonneg]

example := C21_fixed refArgsort refArgsort_spec [⟨0, 0⟩, ⟨1, 4⟩, ⟨8, -2⟩, ⟨9, 2⟩] false ⟨0, 0⟩ ⟨1, 4⟩ ⟨8, -2⟩ ⟨9, 2⟩ (by simp) (by norm_num) (by norm_num)
  (by norm_num) (√17) (√68) (by constructor <;> norm_num [ptDist, abs_of_nonneg]) (by norm_num) .mean (by simp)

example := C21_error refArgsort [⟨0, 0⟩, ⟨1, 4⟩, ⟨8, -2⟩] true true .mean (by simp)

example : ∃ src tgt : List Pt, generate4SourceTarget refArgsort [⟨0, 0⟩, ⟨1, 4⟩, ⟨8, -2⟩, ⟨9, 2⟩] false false .mean = .ok (src, tgt) ∧
    src.Perm [⟨0, 0⟩, ⟨1, 4⟩, ⟨8, -2⟩, ⟨9, 2⟩] := by
  have h := C21_fixed refArgsort refArgsort_spec [⟨0, 0⟩, ⟨1, 4⟩, ⟨8, -2⟩, ⟨9, 2⟩] false ⟨0, 0⟩ ⟨1, 4⟩ ⟨8, -2⟩ ⟨9, 2⟩ (by simp) (by norm_num) (by norm_num)
    (by norm_num) (√17) (√68) (by constructor <;> norm_num [ptDist, abs_of_nonneg]) (by norm_num) .mean (by simp)
  exact ⟨_, _, h, (C21_sources refArgsort refArgsort_spec _ _ _ _ _ _ h).1⟩

end Discorpy
