import Verif.Props.C96
import Verif.Spec.Motion

/-! # C126 — turned images and cameras -/

namespace Discorpy

open Spec

/-- The image turned by a quarter turn is the transposed one, mirrored upside down. -/
theorem isQuarterTurn_iff (m m' : Mat ℝ) :
    IsQuarterTurn m m' ↔ ∃ t : Mat ℝ, IsTransposed m t ∧ IsMirrored true false t m' := by
  constructor
  · rintro ⟨h1, h2, h3⟩
    exact ⟨⟨m.width, m.height, fun j i => m.get i j⟩, ⟨rfl, rfl, fun i _ j _ => rfl⟩, h1, h2, fun j hj i hi => h3 i hi j hj⟩
  · rintro ⟨t, ⟨t1, t2, t3⟩, h1, h2, h3⟩
    refine ⟨h1.trans t1, h2.trans t2, fun i hi j hj => ?_⟩
    have := h3 j (by omega) i (by omega)
    simp only [mirrorIndex, if_true, Bool.false_eq_true, if_false] at this
    rw [← t1, this, t3 i hi j hj]

/-- **C126 (image).** Correcting an image turned by a quarter turn, with the centre turned likewise, gives the turned correction. -/
theorem C126_image (B B' : Boundary) (m m' : Mat ℝ) (h : IsQuarterTurn m m') (hh : m.height ≤ 2 ^ 24) (hw : m.width ≤ 2 ^ 24) (xc yc : ℝ)
    (f : List ℝ) :
    IsQuarterTurn (unwarpImageBackward (linearInterp B) id m xc yc f)
      (unwarpImageBackward (linearInterp B') id m' yc ((m.width : ℝ) - 1 - xc) f) := by
  obtain ⟨t, ht, hm⟩ := (isQuarterTurn_iff m m').1 h
  refine (isQuarterTurn_iff _ _).2 ⟨_, C95_image B B id coordRounding_id m t ht hh hw xc yc f, ?_⟩
  have := C96_image B B' true false t m' hm yc xc f
  rwa [mirrorCoord, mirrorCoord, if_neg (by simp), if_pos rfl, ht.1] at this

/-- **C126 (symmetric image).** A square image which looks the same after a quarter turn still does after the correction about its middle. -/
theorem C126_symmetric (B : Boundary) (m : Mat ℝ) (h : IsQuarterTurn m m) (hh : m.height ≤ 2 ^ 24) (f : List ℝ) :
    IsQuarterTurn (unwarpImageBackward (linearInterp B) id m (((m.width : ℝ) - 1) / 2) (((m.height : ℝ) - 1) / 2) f)
      (unwarpImageBackward (linearInterp B) id m (((m.width : ℝ) - 1) / 2) (((m.height : ℝ) - 1) / 2) f) := by
  have e : m.height = m.width := h.1
  have := C126_image B B m m h hh (e ▸ hh) (((m.width : ℝ) - 1) / 2) (((m.height : ℝ) - 1) / 2) f
  rw [e, show (m.width : ℝ) - 1 - ((m.width : ℝ) - 1) / 2 = ((m.width : ℝ) - 1) / 2 by ring] at this
  rwa [e]

/-- **C126 (four turns).** Four quarter turns give the image back, so that every one of the four positions of the camera is covered. -/
theorem C126_four (m m1 m2 m3 m4 : Mat ℝ) (h1 : IsQuarterTurn m m1) (h2 : IsQuarterTurn m1 m2) (h3 : IsQuarterTurn m2 m3) (h4 : IsQuarterTurn m3 m4) :
    m4.height = m.height ∧ m4.width = m.width ∧ ∀ i < m.height, ∀ j < m.width, m4.get i j = m.get i j := by
  obtain ⟨a1, b1, e1⟩ := h1
  obtain ⟨a2, b2, e2⟩ := h2
  obtain ⟨a3, b3, e3⟩ := h3
  obtain ⟨a4, b4, e4⟩ := h4
  refine ⟨by omega, by omega, fun i hi j hj => ?_⟩
  rw [← e1 i hi j hj, ← e2 (m.width - 1 - j) (by omega) i (by omega), ← e3 (m1.width - 1 - i) (by omega) (m.width - 1 - j) (by omega),
    ← e4 (m2.width - 1 - (m.width - 1 - j)) (by omega) (m1.width - 1 - i) (by omega)]
  congr 1 <;> omega

/-- **C126 (forward).** `unwarp_image_forward` does not follow quarter turns: halves are rounded to even numbers and of two pixels moved to the
same place the later one wins. In an image of 1 × 2 pixels with the centre at the left pixel and the model 1/2 the right pixel is moved to column
0.5, rounded to 0; in the turned image it is moved to row 0.5, rounded to 0 as well, but the centre is at row 1 now. -/
theorem C126_forward_fails : ∃ (m m' : Mat ℝ) (xc yc : ℝ) (f : List ℝ) (out out' : Mat ℝ), 0 < m.height ∧ 0 < m.width ∧ IsQuarterTurn m m' ∧
    unwarpImageForward m xc yc f = .ok out ∧ unwarpImageForward m' yc ((m.width : ℝ) - 1 - xc) f = .ok out' ∧ ¬ IsQuarterTurn out out' := by
  obtain ⟨out, e, a1, a2, H⟩ := C11_forward_scatter ⟨1, 2, fun _ j => (j + 1 : ℕ)⟩ 0 0 [1 / 2] (by norm_num) (by norm_num)
  obtain ⟨out', e', b1, b2, H'⟩ := C11_forward_scatter ⟨2, 1, fun i _ => (2 - i : ℕ)⟩ 0 1 [1 / 2] (by norm_num) (by norm_num)
  have v : out.get 0 0 = 2 := by
    have := (H (0, 0) (by norm_num) (by norm_num)).2 (0, 1) (by norm_num) (by norm_num) ?_ ?_
    · norm_num at this
      exact this
    · constructor
      · left; norm_num [radialMap, radial, clampTo, ptDist]
      · right; norm_num [radialMap, radial, clampTo, ptDist]
    · rintro ⟨a, b⟩ ha hb hlt
      simp only [RowMajorLT] at ha hb hlt
      omega
  have v' : out'.get 1 0 = 1 := by
    have := (H' (1, 0) (by norm_num) (by norm_num)).2 (1, 0) (by norm_num) (by norm_num) ?_ ?_
    · norm_num at this
      exact this
    · constructor <;> left <;> norm_num [radialMap, radial, clampTo, ptDist]
    · rintro ⟨a, b⟩ ha hb hlt
      simp only [RowMajorLT] at ha hb hlt
      omega
  refine ⟨_, ⟨2, 1, fun i _ => (2 - i : ℕ)⟩, 0, 0, _, out, out', by norm_num, by norm_num, ⟨rfl, rfl, fun i hi j hj => ?_⟩, e, ?_, fun h => ?_⟩
  · simp only at hi hj ⊢
    congr 1
    omega
  · rw [show (((2 : ℕ) : ℝ) - 1 - 0) = 1 by norm_num]
    exact e'
  · have := h.2.2 0 (by rw [a1]; norm_num) 0 (by rw [a2]; norm_num)
    rw [a2] at this
    norm_num [v, v'] at this

theorem Spec.Motion.radius (T : Motion) (p c : Pt) :
    ((T.pt p).x - (T.pt c).x) * ((T.pt p).x - (T.pt c).x) + ((T.pt p).y - (T.pt c).y) * ((T.pt p).y - (T.pt c).y) =
      (p.x - c.x) * (p.x - c.x) + (p.y - c.y) * (p.y - c.y) := by
  simp only [Motion.pt]
  linear_combination (p.y - c.y) ^ 2 * T.unitY + (p.x - c.x) ^ 2 * T.unitX + 2 * (p.y - c.y) * (p.x - c.x) * T.orth

theorem Spec.Motion.along (T : Motion) (p c : Pt) (g : ℝ) :
    (⟨(T.pt c).y + g * ((T.pt p).y - (T.pt c).y), (T.pt c).x + g * ((T.pt p).x - (T.pt c).x)⟩ : Pt) =
      T.pt ⟨c.y + g * (p.y - c.y), c.x + g * (p.x - c.x)⟩ := by
  simp only [Motion.pt, Pt.mk.injEq]
  constructor <;> ring

/-- **C126 (lines).** The corrections of lines of dots by a radial model follow every rigid motion of the dots and the centre: rotations by any
angle, reflections and shifts. -/
theorem C126_lines (minimize : (ℝ → ℝ) → ℝ → ℝ) (T : Motion) (lines : List (List Pt)) (c : Pt) (f : List ℝ) :
    unwarpLineForward id (T.lines lines) (T.pt c).x (T.pt c).y f = T.lines (unwarpLineForward id lines c.x c.y f) ∧
    unwarpLineBackward minimize id (T.lines lines) (T.pt c).x (T.pt c).y f = T.lines (unwarpLineBackward minimize id lines c.x c.y f) := by
  constructor
  · simp only [unwarpLineForward, Motion.lines, List.map_map]
    refine List.map_congr_left fun l _ => ?_
    simp only [Function.comp_apply, List.map_map]
    refine List.map_congr_left fun p _ => ?_
    simp only [Function.comp_apply, T.radius, id]
    exact T.along p c _
  · simp only [unwarpLineBackward, Motion.lines, List.map_map]
    refine List.map_congr_left fun l _ => ?_
    simp only [Function.comp_apply, List.map_map]
    refine List.map_congr_left fun p _ => ?_
    simp only [Function.comp_apply, T.radius, id]
    exact T.along p c _

/-! ## Concrete cases -/

/-- An image of 2 rows and 3 columns, turned. -/
def turnBefore : Mat ℝ := ⟨2, 3, fun i j => (10 * i + j : ℕ)⟩

def turnAfter : Mat ℝ := ⟨3, 2, fun i j => (10 * j + (2 - i) : ℕ)⟩

theorem turn_isQuarterTurn : IsQuarterTurn turnBefore turnAfter := by
  refine ⟨rfl, rfl, fun i hi j hj => ?_⟩
  simp only [turnBefore, turnAfter] at hi hj ⊢
  have h : 2 - (3 - 1 - j) = j := by omega
  rw [h]

/-- The top right pixel 2 becomes the top left one; the centre (x, y) = (2, 0.5) becomes (0.5, 0). -/
example (B : Boundary) : turnAfter.get 0 0 = 2 ∧ turnBefore.get 0 2 = 2 ∧
    IsQuarterTurn (unwarpImageBackward (linearInterp B) id turnBefore 2 0.5 [1, 0.1])
      (unwarpImageBackward (linearInterp B) id turnAfter 0.5 0 [1, 0.1]) := by
  refine ⟨by norm_num [turnAfter], by norm_num [turnBefore], ?_⟩
  have := C126_image B B _ _ turn_isQuarterTurn (by norm_num [turnBefore]) (by norm_num [turnBefore]) 2 0.5 [1, 0.1]
  rwa [show ((turnBefore.width : ℕ) : ℝ) - 1 - 2 = 0 by norm_num [turnBefore]] at this

/-- A cross of 3 × 3 pixels stays symmetric; an image with one marked corner is not symmetric. -/
example (B : Boundary) : IsQuarterTurn (unwarpImageBackward (linearInterp B) id ⟨3, 3, fun i j => if i = 1 ∨ j = 1 then 1 else 0⟩ 1 1 [1, 0.1])
      (unwarpImageBackward (linearInterp B) id ⟨3, 3, fun i j => if i = 1 ∨ j = 1 then 1 else 0⟩ 1 1 [1, 0.1]) ∧
    ¬ IsQuarterTurn (⟨2, 2, fun i j => if i = 0 ∧ j = 0 then 1 else 0⟩ : Mat ℝ) ⟨2, 2, fun i j => if i = 0 ∧ j = 0 then 1 else 0⟩ := by
  constructor
  · have h : IsQuarterTurn (⟨3, 3, fun i j => if i = 1 ∨ j = 1 then 1 else 0⟩ : Mat ℝ) ⟨3, 3, fun i j => if i = 1 ∨ j = 1 then 1 else 0⟩ := by
      refine ⟨rfl, rfl, fun i hi j hj => ?_⟩
      simp only at hi hj ⊢
      have e : (3 - 1 - j = 1 ∨ i = 1) ↔ (i = 1 ∨ j = 1) := by omega
      simp only [e]
    have := C126_symmetric B _ h (by norm_num) [1, 0.1]
    norm_num at this ⊢
    exact this
  · rintro ⟨_, _, h⟩
    have := h 0 (by norm_num) 0 (by norm_num)
    norm_num at this

/-- The rotation with cosine 0.6 and sine 0.8, and a shift. -/
noncomputable def someTurn : Motion := ⟨0.6, -0.8, 0.8, 0.6, 10, -20, by norm_num, by norm_num, by norm_num⟩

/-- The dot (x, y) = (5, 0) at distance 5 from the centre (0, 0) is moved to (10, 0) by the model 1 + r / 5; turned, (-17, 6) moves to (-14, 2). -/
example : unwarpLineForward id [[⟨0, 5⟩]] 0 0 [1, 1 / 5] = [[⟨0, 10⟩]] ∧ someTurn.pt ⟨0, 5⟩ = ⟨6, -17⟩ ∧
    unwarpLineForward id [[⟨6, -17⟩]] (-20) 10 [1, 1 / 5] = [[⟨2, -14⟩]] := by
  have e : unwarpLineForward id [[⟨0, 5⟩]] 0 0 [1, 1 / 5] = [[⟨0, 10⟩]] := by
    have s : √(25 : ℝ) = 5 := by rw [show (25 : ℝ) = 5 ^ 2 by norm_num]; exact Real.sqrt_sq (by norm_num)
    norm_num [unwarpLineForward, polySum, s]
  have p : someTurn.pt ⟨0, 5⟩ = ⟨6, -17⟩ := by norm_num [someTurn, Motion.pt]
  refine ⟨e, p, ?_⟩
  have := (C126_lines (fun _ r => r) someTurn [[⟨0, 5⟩]] ⟨0, 0⟩ [1, 1 / 5]).1
  rw [e] at this
  norm_num [someTurn, Motion.pt, Motion.lines] at this ⊢
  exact this

end Discorpy
