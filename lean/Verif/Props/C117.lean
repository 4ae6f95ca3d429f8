import Verif.Lemmas.Shift
import Verif.Props.C52
import Verif.Props.C116

/-! # C117: the pattern at another place in the image -/

namespace Discorpy

open Spec

/-- **C117 (rows).** Moved dots are grouped into the moved rows: the same dots, in the same order (no two dots have the same x). -/
theorem C117_rows (argsort argsort' : List ℝ → List ℕ) (hs : ArgsortSpec argsort) (hs' : ArgsortSpec argsort') (dots : List Pt)
    (hd : ∀ p ∈ dots, ∀ q ∈ dots, p.x = q.x → p = q) (slope dist ratio miss acc dx dy : ℝ) :
    groupDotsHor argsort' (dots.map (movePt dx dy)) slope dist ratio miss acc =
      (groupDotsHor argsort dots slope dist ratio miss acc).map fun lines => moveDots lines dx dy := by
  unfold groupDotsHor
  by_cases h0 : dots = []
  · simp [h0, Except.map]
  rw [if_neg h0, if_neg (by simpa using h0), argsort_move hs hs' dx dy hd]
  simp only
  rw [groupLoop_map _ _ (movePt dx dy) (fun p q => checkDotOnLine_move slope dist ratio miss dx dy p q) _ _ le_rfl]
  set lines := groupLoop (checkDotOnLine slope dist ratio miss) (fancyIndex dots (argsort (dots.map Pt.x))) with hl
  have hne : ∀ l ∈ lines, l ≠ [] := groupLoop_ne_nil _ _ _ le_rfl
  have e1 : lineLengths (lines.map fun l => l.map (movePt dx dy)) = lineLengths lines := by simp [lineLengths, Function.comp_def]
  rw [e1]
  cases npMax (lineLengths lines) with
  | error e => rfl
  | ok longest =>
    simp only [ok_bind, Except.map]
    rw [List.filter_map, ← sortLines_move Pt.y dx dy dy (fun p => rfl) (fun l hm => hne l (List.mem_filter.1 hm).1), moveDots_eq]
    simp [Function.comp_def]

/-- **C117 (columns).** The same for columns (no two dots have the same y). -/
theorem C117_columns (argsort argsort' : List ℝ → List ℕ) (hs : ArgsortSpec argsort) (hs' : ArgsortSpec argsort') (dots : List Pt)
    (hd : ∀ p ∈ dots, ∀ q ∈ dots, p.y = q.y → p = q) (slope dist ratio miss acc dx dy : ℝ) :
    groupDotsVer argsort' (dots.map (movePt dx dy)) slope dist ratio miss acc =
      (groupDotsVer argsort dots slope dist ratio miss acc).map fun lines => moveDots lines dx dy := by
  unfold groupDotsVer
  by_cases h0 : dots = []
  · simp [h0, Except.map]
  rw [if_neg h0, if_neg (by simpa using h0)]
  simp only
  rw [flip_move, argsort_move hs hs' dy dx (by
    intro a ha b hb e
    obtain ⟨p, hm, rfl⟩ := List.mem_map.1 ha
    obtain ⟨q, hq, rfl⟩ := List.mem_map.1 hb
    rw [hd p hm q hq e])]
  rw [groupLoop_map _ _ (movePt dy dx) (fun p q => checkDotOnLine_move slope dist ratio miss dy dx p q) _ _ le_rfl]
  have hf := flipDots_move dy dx (groupLoop (checkDotOnLine slope dist ratio miss) (fancyIndex (dots.map flipPt) (argsort ((dots.map flipPt).map Pt.x))))
  rw [moveDots_eq] at hf
  rw [hf]
  set lines := (groupLoop (checkDotOnLine slope dist ratio miss) (fancyIndex (dots.map flipPt) (argsort ((dots.map flipPt).map Pt.x)))).map
    fun l => l.map flipPt with hl
  have hne : ∀ l ∈ lines, l ≠ [] := by
    intro l hm
    obtain ⟨m, hm', rfl⟩ := List.mem_map.1 hm
    simpa using groupLoop_ne_nil _ _ _ le_rfl m hm'
  have e1 : lineLengths (moveDots lines dx dy) = lineLengths lines := by simp [lineLengths, moveDots, Function.comp_def]
  rw [e1]
  cases npMax (lineLengths lines) with
  | error e => rfl
  | ok longest =>
    simp only [ok_bind, Except.map]
    rw [moveDots_eq, List.filter_map, ← sortLines_move Pt.x dx dy dx (fun p => rfl) (fun l hm => hne l (List.mem_filter.1 hm).1), moveDots_eq]
    simp [Function.comp_def]

/-- **C117 (residual filter, rows).** The filter keeps the same dots of moved rows. -/
theorem C117_filter_hor (pf : PolyfitFn) (hpf : PolyfitSpec pf) (lines : List (List Pt)) (slope residual dx dy : ℝ) :
    removeResidualHor pf (moveDots lines dx dy) slope residual =
      (removeResidualHor pf lines slope residual).map fun kept => moveDots kept dx dy := by
  unfold removeResidualHor
  rw [closeLines_move hpf]
  cases lines.mapM (closeDots pf slope residual) with
  | error e => rfl
  | ok K =>
    simp only [Except.map, ok_bind]
    rw [nonempty_move]
    have : (moveDots (K.filter fun l => decide (l.length > 0)) dx dy).length = (K.filter fun l => decide (l.length > 0)).length := by
      simp [moveDots]
    rw [this]
    split <;> rfl

/-- **C117 (residual filter, columns).** The filter keeps the same dots of moved columns. -/
theorem C117_filter_ver (pf : PolyfitFn) (hpf : PolyfitSpec pf) (lines : List (List Pt)) (slope residual dx dy : ℝ) :
    removeResidualVer pf (moveDots lines dx dy) slope residual =
      (removeResidualVer pf lines slope residual).map fun kept => moveDots kept dx dy := by
  unfold removeResidualVer
  have e0 : (moveDots lines dx dy).mapM (fun l => closeDots pf slope residual (l.map flipPt)) =
      (lines.mapM fun l => closeDots pf slope residual (l.map flipPt)).map fun K => moveDots K dy dx := by
    have := closeLines_move hpf slope residual dy dx (lines.map fun l => l.map flipPt)
    rw [← flipDots_move, List.mapM_map, List.mapM_map] at this
    exact this
  rw [e0]
  cases lines.mapM fun l => closeDots pf slope residual (l.map flipPt) with
  | error e => rfl
  | ok K =>
    simp only [Except.map, ok_bind]
    rw [nonempty_move, flipDots_move]
    have : (moveDots ((K.filter fun l => decide (l.length > 0)).map fun l => l.map flipPt) dx dy).length =
        ((K.filter fun l => decide (l.length > 0)).map fun l => l.map flipPt).length := by
      simp [moveDots]
    rw [this]
    split <;> rfl

/-- **C117 (fine centre).** Moved lines and a moved start give the moved centre. -/
theorem C117_fine (pf : PolyfitFn) (minimize : (ℝ → ℝ) → ℝ → ℝ) (hor ver : List (List Pt)) (xc yc d dx dy : ℝ) :
    findCodFine pf minimize (moveDots hor dx dy) (moveDots ver dx dy) (xc + dx) (yc + dy) d =
      (findCodFine pf minimize hor ver xc yc d).map (movePt dx dy) := by
  unfold findCodFine
  simp only
  rw [calcMetric_move]
  cases calcMetric pf minimize hor ver xc yc (arange (-d) (d + 2) 2) (arange (-d) (d + 2) 2) with
  | error e => rfl
  | ok s =>
    simp only [ok_bind]
    rw [show xc + dx + s.1 = xc + s.1 + dx by ring, show yc + dy + s.2 = yc + s.2 + dy by ring, calcMetric_move]
    cases calcMetric pf minimize hor ver (xc + s.1) (yc + s.2) (arange (-2) (2 + 0.5) 0.5) (arange (-2) (2 + 0.5) 0.5) with
    | error e => rfl
    | ok r =>
      simp only [ok_bind, Except.map, movePt]
      congr 2 <;> ring

/-- **C117 (residuals).** Moved lines have the same table of radii and residuals with respect to the moved centre. -/
theorem C117_residual (pf : PolyfitFn) (argsort : List ℝ → List ℕ) (lines : List (List Pt)) (xc yc dx dy : ℝ) :
    calcResidualHor pf argsort (moveDots lines dx dy) (xc + dx) (yc + dy) = calcResidualHor pf argsort lines xc yc ∧
    calcResidualVer pf argsort (moveDots lines dx dy) (xc + dx) (yc + dy) = calcResidualVer pf argsort lines xc yc := by
  unfold calcResidualHor calcResidualVer
  rw [moveDots_eq, List.mapM_map, List.mapM_map]
  simp only [Function.comp_def, residualHor_move, residualVer_move, and_self]

/-- **C117 (dots of lines).** Unwarping the dots of moved lines about the moved centre gives the moved unwarped dots. -/
theorem C117_lines (minimize : (ℝ → ℝ) → ℝ → ℝ) (lines : List (List Pt)) (xc yc dx dy : ℝ) (fact : List ℝ) :
    unwarpLineForward id (moveDots lines dx dy) (xc + dx) (yc + dy) fact = moveDots (unwarpLineForward id lines xc yc fact) dx dy ∧
    unwarpLineBackward minimize id (moveDots lines dx dy) (xc + dx) (yc + dy) fact =
      moveDots (unwarpLineBackward minimize id lines xc yc fact) dx dy := by
  constructor
  · simp only [unwarpLineForward, moveDots, List.map_map, Function.comp_def, id, add_sub_add_right_eq_sub]
    refine List.map_congr_left fun l _ => List.map_congr_left fun p _ => ?_
    rw [Pt.mk.injEq]
    constructor <;> ring
  · simp only [unwarpLineBackward, moveDots, List.map_map, Function.comp_def, id, add_sub_add_right_eq_sub]
    refine List.map_congr_left fun l _ => List.map_congr_left fun p _ => ?_
    rw [Pt.mk.injEq]
    constructor <;> ring

/-- **C117 (grid).** The grid regenerated from moved lines is the moved grid. -/
theorem C117_grid (pf : PolyfitFn) (hpf : PolyfitSpec pf) (hor ver : List (List Pt)) (h2 : TwoPlaces Pt.x hor) (v2 : TwoPlaces Pt.y ver) (dx dy : ℝ) :
    regenerateGridLinear pf (moveDots hor dx dy) (moveDots ver dx dy) =
      (regenerateGridLinear pf hor ver).map fun g => (moveDots g.1 dx dy, moveDots g.2 dx dy) := by
  unfold regenerateGridLinear
  rw [linearCoef_move hpf h2 v2]
  cases generateLinearCoef pf hor ver 0 0 with
  | error e => rfl
  | ok q =>
    simp only [Except.map, ok_bind]
    rw [gridPoints_move]
    rfl

/-- **C117 (part of an image).** Unwarping a part of an image, with the centre given relative to that part, gives the same value as unwarping the
whole image at every pixel whose source lies in the part. -/
theorem C117_image (B B' : Boundary) (t l : ℕ) (m w : Mat ℝ) (h : IsWindow t l m w) (xc yc : ℝ) (fact : List ℝ) (i j : ℕ)
    (hin : InFrame w (radialMap ⟨yc, xc⟩ fact ⟨i, j⟩).y (radialMap ⟨yc, xc⟩ fact ⟨i, j⟩).x) :
    (unwarpImageBackward (linearInterp B) id w xc yc fact).get i j =
      (unwarpImageBackward (linearInterp B') id m (xc + l) (yc + t) fact).get (t + i) (l + j) := by
  obtain ⟨b, hb⟩ := Nat.exists_eq_add_of_le h.rows
  obtain ⟨r, hr⟩ := Nat.exists_eq_add_of_le h.cols
  have em : m = padMat (fun _ => m.get) w t b l r := by
    cases m with
    | mk H W g =>
      simp only at hb hr
      subst hb hr
      unfold padMat
      congr 1
      funext a c
      split
      · rename_i hc
        rw [h.get _ _ (by omega) (by omega), show t + (a - t) = a by omega, show l + (c - l) = c by omega]
      · rfl
  have hY : yc + polySum fact √(((j : ℝ) - xc) ^ 2 + ((i : ℝ) - yc) ^ 2) * ((i : ℝ) - yc) = (radialMap ⟨yc, xc⟩ fact ⟨i, j⟩).y := by
    rw [polySum_eq_radial]; rfl
  have hX : xc + polySum fact √(((j : ℝ) - xc) ^ 2 + ((i : ℝ) - yc) ^ 2) * ((j : ℝ) - xc) = (radialMap ⟨yc, xc⟩ fact ⟨i, j⟩).x := by
    rw [polySum_eq_radial]; rfl
  unfold unwarpImageBackward
  simp only [id]
  rw [show (((l + j : ℕ) : ℝ) - (xc + l)) = j - xc by push_cast; ring, show (((t + i : ℕ) : ℝ) - (yc + t)) = i - yc by push_cast; ring,
    show ∀ f : ℝ, xc + l + f * ((j : ℝ) - xc) = (xc + f * (j - xc)) + l from fun f => by ring,
    show ∀ f : ℝ, yc + t + f * ((i : ℝ) - yc) = (yc + f * (i - yc)) + t from fun f => by ring, hX, hY]
  have hh : (m.height : ℝ) = t + w.height + b := by rw [hb]; push_cast; ring
  have hw : (m.width : ℝ) = l + w.width + r := by rw [hr]; push_cast; ring
  have hb0 : (0 : ℝ) ≤ b := by positivity
  have hr0 : (0 : ℝ) ≤ r := by positivity
  have ht0 : (0 : ℝ) ≤ t := by positivity
  have hl0 : (0 : ℝ) ≤ l := by positivity
  obtain ⟨i1, i2, i3, i4⟩ := id hin
  rw [clip_of_mem i1 i2, clip_of_mem i3 i4, clip_of_mem (by linarith) (by linarith), clip_of_mem (by linarith) (by linarith),
    linearInterp_eq B w hin, linearInterp_eq B' m ⟨by linarith, by linarith, by linarith, by linarith⟩, em, bilinear_pad _ w t b l r hin]

/-! ## The coarse centre -/

theorem polyfit_straight {pf : PolyfitFn} (hpf : PolyfitSpec pf) {l : List Pt} (along across : Pt → ℝ) (h3 : ThreeAlong along l) {a b : ℝ}
    (hon : ∀ p ∈ l, across p = a * along p + b) : pf (l.map along) (l.map across) 2 = [0, a, b] := by
  obtain ⟨p, hp, q, hq, r, hr, h1, h2, h3⟩ := h3
  have hne : l.map along ≠ [] := by simpa using List.ne_nil_of_mem hp
  have key := hpf.exact (xs := l.map along) (ys := l.map across) (deg := 2) (by simp) hne (q := [0, a, b]) rfl (by
    intro r hr
    rw [List.zip_map', List.mem_map] at hr
    obtain ⟨p, hp, rfl⟩ := hr
    rw [hon p hp]
    simp [polyval])
  have val : ∀ p ∈ l, polyval (pf (l.map along) (l.map across) 2) (along p) = polyval [0, a, b] (along p) := by
    intro p hp
    rw [key (along p, across p) (by rw [List.zip_map']; exact List.mem_map.2 ⟨p, hp, rfl⟩), hon p hp]
    simp [polyval]
  exact quadratic_three (hpf.length _ _ _ (by simp) hne) rfl h1 h3 h2 (val p hp) (val q hq) (val r hr)

/-- A straight parabola moved by `s` along and `t` across. -/
def moveStraight (s t : ℝ) (q : Para) : Para := ⟨q.a, q.b, q.c + t - q.b * s⟩

theorem straightHor_move {pf : PolyfitFn} (hpf : PolyfitSpec pf) {lines : List (List Pt)} (h3 : ThreePlaces Pt.x lines)
    (hs : OnStraightLines Pt.x Pt.y lines) (dx dy : ℝ) :
    (moveDots lines dx dy).mapM (paraHor pf 0 0) = (lines.mapM (paraHor pf 0 0)).map fun c => c.map (moveStraight dx dy) := by
  rw [moveDots_eq, List.mapM_map, ← mapM_except_map]
  refine mapM_congr_mem fun l hl => ?_
  obtain ⟨a, b, hon⟩ := hs l hl
  have t3 := h3 l hl
  have hne : l ≠ [] := by obtain ⟨p, hp, -⟩ := t3; exact List.ne_nil_of_mem hp
  simp only [Function.comp_def, paraHor]
  rw [if_neg hne, if_neg (by simpa using hne)]
  have e1 : pf (l.map fun p => p.x - 0) (l.map fun p => p.y - 0) 2 = [0, a, b] := by
    simpa using polyfit_straight hpf Pt.x Pt.y t3 hon
  have e2 : pf (((l.map (movePt dx dy))).map fun p => p.x - 0) ((l.map (movePt dx dy)).map fun p => p.y - 0) 2 = [0, a, b + dy - a * dx] := by
    have := polyfit_straight hpf (l := l.map (movePt dx dy)) Pt.x Pt.y (a := a) (b := b + dy - a * dx) (by
      obtain ⟨p, hp, q, hq, r, hr, h1, h2, h3⟩ := t3
      exact ⟨_, List.mem_map.2 ⟨p, hp, rfl⟩, _, List.mem_map.2 ⟨q, hq, rfl⟩, _, List.mem_map.2 ⟨r, hr, rfl⟩, by simpa [movePt] using h1,
        by simpa [movePt] using h2, by simpa [movePt] using h3⟩) (by
      intro p hp
      obtain ⟨q, hq, rfl⟩ := List.mem_map.1 hp
      simp only [movePt]
      rw [hon q hq]
      ring)
    simpa using this
  rw [e1, e2]
  rfl

theorem straightVer_move {pf : PolyfitFn} (hpf : PolyfitSpec pf) {lines : List (List Pt)} (h3 : ThreePlaces Pt.y lines)
    (hs : OnStraightLines Pt.y Pt.x lines) (dx dy : ℝ) :
    (moveDots lines dx dy).mapM (paraVer pf 0 0) = (lines.mapM (paraVer pf 0 0)).map fun c => c.map (moveStraight dy dx) := by
  rw [moveDots_eq, List.mapM_map, ← mapM_except_map]
  refine mapM_congr_mem fun l hl => ?_
  obtain ⟨a, b, hon⟩ := hs l hl
  have t3 := h3 l hl
  have hne : l ≠ [] := by obtain ⟨p, hp, -⟩ := t3; exact List.ne_nil_of_mem hp
  simp only [Function.comp_def, paraVer]
  rw [if_neg hne, if_neg (by simpa using hne)]
  have e1 : pf (l.map fun p => p.y - 0) (l.map fun p => p.x - 0) 2 = [0, a, b] := by
    simpa using polyfit_straight hpf Pt.y Pt.x t3 hon
  have e2 : pf (((l.map (movePt dx dy))).map fun p => p.y - 0) ((l.map (movePt dx dy)).map fun p => p.x - 0) 2 = [0, a, b + dx - a * dy] := by
    have := polyfit_straight hpf (l := l.map (movePt dx dy)) Pt.y Pt.x (a := a) (b := b + dx - a * dy) (by
      obtain ⟨p, hp, q, hq, r, hr, h1, h2, h3⟩ := t3
      exact ⟨_, List.mem_map.2 ⟨p, hp, rfl⟩, _, List.mem_map.2 ⟨q, hq, rfl⟩, _, List.mem_map.2 ⟨r, hr, rfl⟩, by simpa [movePt] using h1,
        by simpa [movePt] using h2, by simpa [movePt] using h3⟩) (by
      intro p hp
      obtain ⟨q, hq, rfl⟩ := List.mem_map.1 hp
      simp only [movePt]
      rw [hon q hq]
      ring)
    simpa using this
  rw [e1, e2]
  rfl

theorem npGet_move {α β : Type} (f : α → β) (l : List α) (i : ℕ) : npGet (l.map f) i = (npGet l i).map f := by
  unfold npGet
  rw [List.getElem?_map]
  cases l[i]? <;> rfl

theorem signChange_move (s t : ℝ) (l : List Para) : signChange (l.map (moveStraight s t)) = signChange l := by
  unfold signChange
  simp [Function.comp_def, moveStraight]

/-- **C117 (coarse centre, straight lines).** If the dots of each line lie on a straight line, the coarse centre moves with the pattern. -/
theorem C117_coarse_straight (pf : PolyfitFn) (hpf : PolyfitSpec pf) (hor ver : List (List Pt)) (h3 : ThreePlaces Pt.x hor) (v3 : ThreePlaces Pt.y ver)
    (hs : OnStraightLines Pt.x Pt.y hor) (vs : OnStraightLines Pt.y Pt.x ver) (dx dy : ℝ) :
    findCodCoarse pf (moveDots hor dx dy) (moveDots ver dx dy) = (findCodCoarse pf hor ver).map (movePt dx dy) := by
  unfold findCodCoarse paraFitHor paraFitVer
  rw [straightHor_move hpf h3 hs, straightVer_move hpf v3 vs]
  cases hor.mapM (paraHor pf 0 0) with
  | error e => rfl
  | ok ch =>
    cases ver.mapM (paraVer pf 0 0) with
    | error e => rfl
    | ok cv =>
      simp only [Except.map, ok_bind, signChange_move, npGet_move]
      cases signChange ch with
      | error e => rfl
      | ok ph =>
        cases signChange cv with
        | error e => rfl
        | ok pv =>
          simp only [ok_bind]
          cases npGet ch (ph - 1) with
          | error e => rfl
          | ok h0 =>
            cases npGet ch ph with
            | error e => rfl
            | ok h1 =>
              cases npGet cv (pv - 1) with
              | error e => rfl
              | ok v0 =>
                cases npGet cv pv with
                | error e => rfl
                | ok v1 =>
                  simp only [ok_bind, moveStraight, finDiv]
                  by_cases hd : 1 - (h0.b + h1.b) * 0.5 * ((v0.b + v1.b) * 0.5) = 0
                  · simp only [if_pos hd]; rfl
                  · simp only [if_neg hd, ok_bind, movePt]
                    congr 2
                    · rw [div_add' _ _ _ hd]
                      congr 1
                      ring
                    · rw [div_add' _ _ _ hd]
                      congr 1
                      ring

theorem bentPattern_move {c : Pt} {kh kv : ℝ} {us vs : List ℝ} {hor ver : List (List Pt)} (h : IsBentPattern c kh kv us vs hor ver) (dx dy : ℝ) :
    IsBentPattern (movePt dx dy c) kh kv us vs (moveDots hor dx dy) (moveDots ver dx dy) := by
  constructor
  · rw [moveDots_eq, List.forall₂_map_right_iff]
    refine h.hor.imp fun u l hl => ⟨?_, ?_⟩
    · intro p hp
      obtain ⟨q, hq, rfl⟩ := List.mem_map.1 hp
      simp only [movePt, hl.on q hq]
      ring
    · obtain ⟨p, hp, q, hq, r, hr, h1, h2, h3⟩ := hl.three
      exact ⟨_, List.mem_map.2 ⟨p, hp, rfl⟩, _, List.mem_map.2 ⟨q, hq, rfl⟩, _, List.mem_map.2 ⟨r, hr, rfl⟩, by simpa [movePt] using h1,
        by simpa [movePt] using h2, by simpa [movePt] using h3⟩
  · rw [moveDots_eq, List.forall₂_map_right_iff]
    refine h.ver.imp fun u l hl => ⟨?_, ?_⟩
    · intro p hp
      obtain ⟨q, hq, rfl⟩ := List.mem_map.1 hp
      simp only [movePt, hl.on q hq]
      ring
    · obtain ⟨p, hp, q, hq, r, hr, h1, h2, h3⟩ := hl.three
      exact ⟨_, List.mem_map.2 ⟨p, hp, rfl⟩, _, List.mem_map.2 ⟨q, hq, rfl⟩, _, List.mem_map.2 ⟨r, hr, rfl⟩, by simpa [movePt] using h1,
        by simpa [movePt] using h2, by simpa [movePt] using h3⟩

theorem coarse_bent_moved {pf : PolyfitFn} (hpf : PolyfitSpec pf) :
    findCodCoarse pf ([-1, 2].map (bentRow 1)) ([-1, 1].map (bentCol 1)) = .ok ⟨-9, 5⟩ ∧
      findCodCoarse pf (moveDots ([-1, 2].map (bentRow 1)) (-5) (-3)) (moveDots ([-1, 1].map (bentCol 1)) (-5) (-3)) = .ok ⟨1 / 2, 0⟩ := by
  have hb := bent_example 1 1 [-1, 2] [-1, 1]
  have hm := bentPattern_move hb (-5) (-3)
  have sc : ∀ (d e u v : ℝ), signChange (([u, v] : List ℝ).map (bentPara 1 d e)) = .ok 1 := by
    intro d e u v
    unfold signChange npArgmax
    simp [npDiff, List.findIdx_cons]
  constructor
  · unfold findCodCoarse
    rw [bent_fitHor hpf hb.hor, bent_fitVer hpf hb.ver]
    simp only [ok_bind, sc]
    simp only [List.map_cons, List.map_nil, npGet, List.getElem?_cons_zero, List.getElem?_cons_succ, Nat.sub_self, ok_bind]
    norm_num [bentPara, finDiv]
  · unfold findCodCoarse
    rw [bent_fitHor hpf hm.hor, bent_fitVer hpf hm.ver]
    simp only [ok_bind, sc]
    simp only [List.map_cons, List.map_nil, npGet, List.getElem?_cons_zero, List.getElem?_cons_succ, Nat.sub_self, ok_bind]
    norm_num [bentPara, finDiv, movePt]

/-- **C117 (coarse centre, bent lines).** In general the coarse centre does not move with the pattern: for the rows at -1, 2 and the columns at -1, 1
about (3, 5), bent by 1, it is (-9, 5); after moving the pattern to (0, 0) it is (1/2, 0) instead of (-12, 0). -/
theorem C117_coarse_moves (pf : PolyfitFn) (hpf : PolyfitSpec pf) :
    ∃ hor ver : List (List Pt), findCodCoarse pf hor ver = .ok ⟨-9, 5⟩ ∧
      findCodCoarse pf (moveDots hor (-5) (-3)) (moveDots ver (-5) (-3)) = .ok ⟨1 / 2, 0⟩ :=
  ⟨_, _, coarse_bent_moved hpf⟩

/-- **C117 (iterated centre).** On bent patterns the iterated centre moves with the pattern, whatever the coarse one does. -/
theorem C117_bailey (pf : PolyfitFn) (hpf : PolyfitSpec pf) (c : Pt) (kh kv : ℝ) (us vs : List ℝ) (hor ver : List (List Pt))
    (h : IsBentPattern c kh kv us vs hor ver) (hu : TwoValues us) (hv : TwoValues vs) (hkh : 0 < kh) (hkv : 0 < kv) (dx dy : ℝ)
    (o o' : Pt) (ho : findCodCoarse pf hor ver = .ok o) (ho' : findCodCoarse pf (moveDots hor dx dy) (moveDots ver dx dy) = .ok o') (n : ℕ) :
    findCodBailey pf (moveDots hor dx dy) (moveDots ver dx dy) n = (findCodBailey pf hor ver n).map (movePt dx dy) := by
  rw [C72_pincushion pf hpf c kh kv us vs hor ver h hu hv hkh hkv o ho n,
    C72_pincushion pf hpf _ kh kv us vs _ _ (bentPattern_move h dx dy) hu hv hkh hkv o' ho' n]
  rfl

/-! ## Undistorted perspective lines -/

/-- The grid with the corners (0, 0), (0, 1), (1, 0) and (2, 1) at `x = d`. -/
def skewRows (d : ℝ) : List (List Pt) := [[⟨0, d⟩, ⟨0, 1 + d⟩], [⟨1, d⟩, ⟨2, 1 + d⟩]]

/-- Its columns. -/
def skewCols (d : ℝ) : List (List Pt) := [[⟨0, d⟩, ⟨1, d⟩], [⟨0, 1 + d⟩, ⟨2, 1 + d⟩]]

theorem skew_lines {pf : PolyfitFn} (hpf : PolyfitSpec pf) (minimize : (ℝ → ℝ) → ℝ → ℝ) (d : ℝ) (hd : d = 0 ∨ d = 2) :
    generateUndistortedPerspectiveLines pf minimize (skewRows d) (skewCols d) false .mean false =
      .ok ([[⟨-d, d⟩, ⟨-d, 1 + d⟩], [⟨1 - d, d⟩, ⟨1 - d, 1 + d⟩]], [[⟨-d, d⟩, ⟨1 - d, d⟩], [⟨-d, 1 + d⟩, ⟨1 - d, 1 + d⟩]]) := by
  have r1 : linHor pf 0 0 [⟨0, d⟩, ⟨0, 1 + d⟩] = .ok ⟨0, 0⟩ := by
    rw [linHor, if_neg (by simp)]
    exact hpf.lin_exact (by simp) ⟨_, List.mem_cons_self, ⟨0, 1 + d⟩, by simp, by simp⟩
  have r2 : linHor pf 0 0 [⟨1, d⟩, ⟨2, 1 + d⟩] = .ok ⟨1, 1 - d⟩ := by
    rw [linHor, if_neg (by simp)]
    refine hpf.lin_exact ?_ ⟨_, List.mem_cons_self, ⟨2, 1 + d⟩, by simp, by simp⟩
    simp only [List.forall_mem_cons, List.not_mem_nil, false_imp_iff, implies_true, and_true]
    constructor <;> ring
  have c1 : linVer pf 0 0 [⟨0, d⟩, ⟨1, d⟩] = .ok ⟨0, d⟩ := by
    rw [linVer, if_neg (by simp)]
    exact hpf.lin_exact (by simp) ⟨_, List.mem_cons_self, ⟨1, d⟩, by simp, by simp⟩
  have c2 : linVer pf 0 0 [⟨0, 1 + d⟩, ⟨2, 1 + d⟩] = .ok ⟨0, 1 + d⟩ := by
    rw [linVer, if_neg (by simp)]
    exact hpf.lin_exact (by simp) ⟨_, List.mem_cons_self, ⟨2, 1 + d⟩, by simp, by simp⟩
  have hc : generateLinearCoef pf (skewRows d) (skewCols d) 0 0 = .ok ([⟨0, 0⟩, ⟨1, 1 - d⟩], [⟨0, d⟩, ⟨0, 1 + d⟩]) := by
    unfold generateLinearCoef skewRows skewCols
    simp only [List.mapM_cons, List.mapM_nil, r1, r2, c1, c2]
    rfl
  have h1 : (1 - d) * (1 - d) = 1 := by rcases hd with rfl | rfl <;> norm_num
  have h1n : 1 - d ≠ 0 := fun h => by rw [h] at h1; norm_num at h1
  have sl : commonSlope pf [⟨0, 0⟩, ⟨1, 1 - d⟩] [⟨0, d⟩, ⟨0, 1 + d⟩] = .ok 0 := by
    unfold commonSlope
    rw [if_neg (by simp)]
    have f1 := hpf.lin_exact (l := [(⟨0, 0⟩ : Lin), ⟨1, 1 - d⟩]) (f := Lin.b) (g := Lin.a) (a := 1 - d) (b := 0) (by
      simp only [List.forall_mem_cons, List.not_mem_nil, false_imp_iff, implies_true, and_true]
      exact ⟨by ring, by rw [h1]; ring⟩) ⟨_, List.mem_cons_self, ⟨1, 1 - d⟩, by simp, by simpa using h1n.symm⟩
    have f2 := hpf.lin_exact (l := [(⟨0, d⟩ : Lin), ⟨0, 1 + d⟩]) (f := Lin.b) (g := fun q => -q.a) (a := 0) (b := 0) (by simp)
      ⟨_, List.mem_cons_self, ⟨0, 1 + d⟩, by simp, by simp⟩
    rw [f1, ok_bind, f2, ok_bind]
    split <;> simp
  have ui : calcUndistorInterceptPers pf minimize (skewRows d) (skewCols d) false .mean false = .ok ([-d, 1 - d], [d, 1 + d]) := by
    have hab : |1 - d| = 1 := by rcases hd with rfl | rfl <;> norm_num
    have cast : ∀ a b : ℝ, interceptsPers [a, b] 1 1 = .ok [b - 1, b] := by
      intro a b
      unfold interceptsPers
      simp only [List.length_cons, List.length_nil, List.range_succ, List.range_zero, List.nil_append, List.cons_append, List.mapM_cons,
        List.mapM_nil, npGet, List.getElem?_cons_succ, List.getElem?_cons_zero, ok_bind]
      show Except.ok _ = _
      norm_num
      ring
    unfold calcUndistorInterceptPers
    rw [hc, ok_bind]
    have hw : window 1 2 1 = (0, 2) := rfl
    have hn : min (max (((2 / 2 : ℕ) : ℤ) - 1) 1) (max (((2 / 2 : ℕ) : ℤ) - 1) 1) = 1 := by norm_num
    simp only [List.map_cons, List.map_nil, skewRows, skewCols, List.length_cons, List.length_nil, Nat.reduceAdd]
    rw [hn]
    simp only [show 2 / 2 = 1 from rfl, hw, npSlice, List.take_succ_cons, List.take_zero, List.drop_zero]
    have d1 : lineDist .mean [0, 1 - d] = .ok 1 := by
      simp [lineDist, npDiff, npMean, hab]
    have d2 : lineDist .mean [d, 1 + d] = .ok 1 := by
      simp [lineDist, npDiff, npMean]
    rw [d1, d2]
    simp only [ok_bind, optDistPers, Bool.false_eq_true, if_false, combineDist, cast]
    norm_num
  unfold generateUndistortedPerspectiveLines
  rw [hc, ok_bind]
  simp only
  rw [sl, ok_bind, ui, ok_bind]
  simp only [List.map_cons, List.map_nil, gridPoints, List.mapM_cons, List.mapM_nil, crossPoint, finDiv]
  norm_num

/-- **C117 (undistorted lines).** The undistorted lines of a tilted pattern do not move with the pattern: those of the grid with the corners (0, 0), (0, 1),
(1, 0), (2, 1) are the unit square at (0, 0); after moving the grid by 2 to the right they are the unit square at (-2, 2) instead of (0, 2). -/
theorem C117_undistorted_moves (pf : PolyfitFn) (hpf : PolyfitSpec pf) (minimize : (ℝ → ℝ) → ℝ → ℝ) :
    ∃ hor ver : List (List Pt),
      generateUndistortedPerspectiveLines pf minimize hor ver false .mean false =
        .ok ([[⟨0, 0⟩, ⟨0, 1⟩], [⟨1, 0⟩, ⟨1, 1⟩]], [[⟨0, 0⟩, ⟨1, 0⟩], [⟨0, 1⟩, ⟨1, 1⟩]]) ∧
      generateUndistortedPerspectiveLines pf minimize (moveDots hor 2 0) (moveDots ver 2 0) false .mean false =
        .ok ([[⟨-2, 2⟩, ⟨-2, 3⟩], [⟨-1, 2⟩, ⟨-1, 3⟩]], [[⟨-2, 2⟩, ⟨-1, 2⟩], [⟨-2, 3⟩, ⟨-1, 3⟩]]) := by
  refine ⟨skewRows 0, skewCols 0, ?_, ?_⟩
  · rw [skew_lines hpf minimize 0 (.inl rfl)]
    norm_num
  · have e1 : moveDots (skewRows 0) 2 0 = skewRows 2 := by norm_num [moveDots, skewRows]
    have e2 : moveDots (skewCols 0) 2 0 = skewCols 2 := by norm_num [moveDots, skewCols]
    rw [e1, e2, skew_lines hpf minimize 2 (.inr rfl)]
    norm_num

/-! ## Concrete cases -/

example := C117_rows refArgsort refArgsort refArgsort_spec refArgsort_spec [⟨0, 0⟩, ⟨1, 2⟩, ⟨0, 1⟩, ⟨0, 3⟩] (by simp) 0 1 0.3 1.5 0.5 10 (-4)
example := C117_columns refArgsort refArgsort refArgsort_spec refArgsort_spec [⟨0, 0⟩, ⟨1, 2⟩, ⟨2, 1⟩, ⟨3, 3⟩] (by simp) 0 1 0.3 1.5 0.5 10 (-4)
example := C117_filter_hor refPolyfit refPolyfit_spec ([-3, -1, 1, 3].map (bentRow 0.5)) 0 2.5 10 (-4)
example := C117_filter_ver refPolyfit refPolyfit_spec ([-3, -1, 1, 3].map (bentCol 0.5)) 0 2.5 10 (-4)
example := C117_fine refPolyfit refMinimize ([-3, -1, 1, 3].map (bentRow 0.5)) ([-3, -1, 1, 3].map (bentCol 0.5)) 5 3 4 10 (-4)
example := C117_residual refPolyfit refArgsort ([-3, -1, 1, 3].map (bentRow 0.5)) 5 3 10 (-4)
example := C117_lines refMinimize ([-3, -1, 1, 3].map (bentRow 0.5)) 5 3 10 (-4) [1, 0.01]
example := C117_grid refPolyfit refPolyfit_spec ([-3, -1, 1, 3].map (bentRow 0.5)) ([-3, -1, 1, 3].map (bentCol 0.5)) (two_of_three (bentRows_places _ _))
  (two_of_three (bentCols_places _ _)) 10 (-4)

/-- A part of three rows and three columns of an image of five by six; the source of the pixel (1, 2) is (1, 3/2). -/
example (B B' : Boundary) := C117_image B B' 1 2 ⟨5, 6, fun i j => (7 * i + j : ℕ)⟩ ⟨3, 3, fun i j => (7 * (1 + i) + (2 + j) : ℕ)⟩
  ⟨by norm_num, by norm_num, fun i j _ _ => rfl⟩ 1 1 [1 / 2] 1 2 (by norm_num [InFrame, radialMap, radial])

/-- The pattern of `C117_coarse_moves`. -/
example := C117_bailey refPolyfit refPolyfit_spec ⟨3, 5⟩ 1 1 _ _ _ _ (bent_example 1 1 [-1, 2] [-1, 1]) ⟨-1, by simp, 2, by simp, by norm_num⟩
  ⟨-1, by simp, 1, by simp, by norm_num⟩ one_pos one_pos (-5) (-3) _ _ (coarse_bent_moved refPolyfit_spec).1 (coarse_bent_moved refPolyfit_spec).2 2

/-- Straight rows and columns. -/
example := C117_coarse_straight refPolyfit refPolyfit_spec ([-1, 2].map (bentRow 0)) ([-1, 1].map (bentCol 0)) (bentRows_places _ _) (bentCols_places _ _)
  (by
    intro l hl
    obtain ⟨u, -, rfl⟩ := List.mem_map.1 hl
    exact ⟨0, 3 + u, by simp [bentRow]⟩)
  (by
    intro l hl
    obtain ⟨u, -, rfl⟩ := List.mem_map.1 hl
    exact ⟨0, 5 + u, by simp [bentCol]⟩) 10 (-4)

end Discorpy
