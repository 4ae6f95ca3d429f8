import Verif.Spec.Shift
import Verif.Lemmas.Reorder
import Verif.Lemmas.Grouping
import Verif.Props.C27

/-! # Helper lemmas: moved dots -/

namespace Discorpy

open Spec

variable {pf : PolyfitFn}

theorem moveDots_eq (lines : List (List Pt)) (dx dy : ℝ) : moveDots lines dx dy = lines.map fun l => l.map (movePt dx dy) := rfl

theorem scan_map (check check' : Pt → Pt → Bool) (f : Pt → Pt) (h : ∀ p q, check' (f p) (f q) = check p q) (d : Pt) (tl : List Pt) :
    scan check' (f d) (tl.map f) = ((scan check d tl).1.map f, (scan check d tl).2.map f) := by
  induction tl generalizing d with
  | nil => simp [scan]
  | cons e tl ih =>
    rw [List.map_cons, scan, scan, h, ih, ih]
    split <;> simp

theorem groupLoop_map (check check' : Pt → Pt → Bool) (f : Pt → Pt) (h : ∀ p q, check' (f p) (f q) = check p q) :
    ∀ (n : ℕ) (left : List Pt), left.length ≤ n → groupLoop check' (left.map f) = (groupLoop check left).map fun l => l.map f := by
  intro n
  induction n with
  | zero =>
    intro left hl
    rw [List.length_eq_zero_iff.1 (Nat.le_zero.1 hl)]
    simp [groupLoop_nil]
  | succ n ih =>
    intro left hl
    cases left with
    | nil => simp [groupLoop_nil]
    | cons d tl =>
      have hlen : (scan check d tl).2.length ≤ n := by
        have := (scan_sublist check d tl).2.length_le
        simp only [List.length_cons] at hl
        omega
      rw [List.map_cons, groupLoop_cons, groupLoop_cons, scan_map check check' f h, ih _ hlen]
      by_cases h0 : (scan check d tl).1 = []
      · simp [h0]
      · simp [h0]

theorem checkDotOnLine_move (slope dist ratio miss dx dy : ℝ) (p q : Pt) :
    checkDotOnLine slope dist ratio miss (movePt dx dy p) (movePt dx dy q) = checkDotOnLine slope dist ratio miss p q := by
  unfold checkDotOnLine movePt
  have e : slope * (q.x + dx) - (q.y + dy) + (p.y + dy - slope * (p.x + dx)) = slope * q.x - q.y + (p.y - slope * p.x) := by ring
  simp only [e]
  have e1 : (p.x + dx - miss * dist < q.x + dx) = (p.x - miss * dist < q.x) := by
    apply propext; constructor <;> intro h <;> linarith
  have e2 : (q.x + dx < p.x + dx + miss * dist) = (q.x < p.x + miss * dist) := by
    apply propext; constructor <;> intro h <;> linarith
  simp only [e1, e2]

theorem argsort_move {argsort argsort' : List ℝ → List ℕ} (hs : ArgsortSpec argsort) (hs' : ArgsortSpec argsort') {dots : List Pt} (dx dy : ℝ)
    (hd : ∀ p ∈ dots, ∀ q ∈ dots, p.x = q.x → p = q) :
    fancyIndex (dots.map (movePt dx dy)) (argsort' ((dots.map (movePt dx dy)).map Pt.x)) =
      (fancyIndex dots (argsort (dots.map Pt.x))).map (movePt dx dy) := by
  have p1 := hs.fancy_perm dots Pt.x
  have p2 := hs'.fancy_perm (dots.map (movePt dx dy)) Pt.x
  have s1 := hs.fancy_sorted dots Pt.x
  have s2 := hs'.fancy_sorted (dots.map (movePt dx dy)) Pt.x
  refine sorted_keys_unique (p2.trans (p1.map _).symm) s2 ?_ ?_
  · rw [List.pairwise_map]
    exact s1.imp fun h => by simpa [movePt] using h
  · intro a ha b hb e
    obtain ⟨p, hp, rfl⟩ := List.mem_map.1 (p2.mem_iff.1 ha)
    obtain ⟨q, hq, rfl⟩ := List.mem_map.1 (p2.mem_iff.1 hb)
    rw [hd p hp q hq (by simpa [movePt] using e)]

theorem meanOf_move (coord : Pt → ℝ) (dx dy s : ℝ) (hc : ∀ p, coord (movePt dx dy p) = coord p + s) {l : List Pt} (hl : l ≠ []) :
    meanOf coord (l.map (movePt dx dy)) = meanOf coord l + s := by
  unfold meanOf
  have hn : (l.length : ℝ) ≠ 0 := by
    have := List.length_pos_iff.2 hl
    positivity
  have e : (l.map fun p => coord p + s).sum = (l.map coord).sum + l.length * s := by
    clear hl hn
    induction l with
    | nil => simp
    | cons a l ih => rw [List.map_cons, List.sum_cons, ih, List.map_cons, List.sum_cons, List.length_cons]; push_cast; ring
  rw [List.map_map, List.length_map]
  have : (coord ∘ movePt dx dy) = fun p => coord p + s := funext hc
  rw [this, e]
  field_simp

theorem sortLines_move (coord : Pt → ℝ) (dx dy s : ℝ) (hc : ∀ p, coord (movePt dx dy p) = coord p + s) {lines : List (List Pt)}
    (hl : ∀ l ∈ lines, l ≠ []) : sortLines coord (moveDots lines dx dy) = moveDots (sortLines coord lines) dx dy := by
  unfold sortLines
  rw [moveDots_eq, moveDots_eq, List.map_mergeSort]
  intro a ha b hb
  rw [meanOf_move coord dx dy s hc (hl a ha), meanOf_move coord dx dy s hc (hl b hb)]
  simp

theorem groupLoop_ne_nil (check : Pt → Pt → Bool) : ∀ (n : ℕ) (left : List Pt), left.length ≤ n → ∀ l ∈ groupLoop check left, l ≠ [] := by
  intro n
  induction n with
  | zero =>
    intro left hl
    rw [List.length_eq_zero_iff.1 (Nat.le_zero.1 hl)]
    simp [groupLoop_nil]
  | succ n ih =>
    intro left hl l hm
    cases left with
    | nil => simp [groupLoop_nil] at hm
    | cons d tl =>
      have hlen : (scan check d tl).2.length ≤ n := by
        have := (scan_sublist check d tl).2.length_le
        simp only [List.length_cons] at hl
        omega
      rw [groupLoop_cons] at hm
      split at hm
      · rcases List.mem_cons.1 hm with rfl | hm
        · simp
        · exact ih _ hlen l hm
      · exact ih _ hlen l hm

/-- Fits of the moved dots. -/
theorem polyfit_move_values (hpf : PolyfitSpec pf) {l : List Pt} (hne : l ≠ []) (f g : Pt → ℝ) (s t : ℝ) {a b c : ℝ}
    (e : pf (l.map f) (l.map g) 2 = [a, b, c]) :
    ∀ p ∈ l, polyval (pf (l.map fun p => f p + s) (l.map fun p => g p + t) 2) (f p + s) = polyval [a, b, c] (f p) + t := by
  have err : ∀ u v w : ℝ, fitError (l.map fun p => f p + s) (l.map fun p => g p + t) [u, v, w] =
      fitError (l.map f) (l.map g) [u, v + 2 * u * s, w + u * s ^ 2 + v * s - t] := by
    intro u v w
    unfold fitError
    rw [List.zip_map', List.zip_map', List.map_map, List.map_map]
    congr 1
    apply List.map_congr_left
    intro p _
    simp [polyval]
    ring
  intro p hp
  have key := hpf.unique (xs := l.map fun p => f p + s) (ys := l.map fun p => g p + t) (deg := 2) (by simp) (by simpa using hne)
    (q := [a, b - 2 * a * s, c + a * s ^ 2 - b * s + t]) rfl (fun r hr => by
      obtain ⟨u, v, w, rfl⟩ := List.length_eq_three.1 hr
      rw [err, err]
      have e0 : [a, b - 2 * a * s + 2 * a * s, c + a * s ^ 2 - b * s + t + a * s ^ 2 + (b - 2 * a * s) * s - t] = [a, b, c] := by
        congr 2
        · ring
        · congr 1; ring
      rw [e0, ← e]
      exact hpf.minimal _ _ _ (by simp) (by simpa using hne) _ rfl) (f p + s) (List.mem_map.2 ⟨p, hp, rfl⟩)
  rw [key]
  simp [polyval]
  ring

theorem closeDots_move (hpf : PolyfitSpec pf) (slope residual dx dy : ℝ) (l : List Pt) :
    closeDots pf slope residual (l.map (movePt dx dy)) = (closeDots pf slope residual l).map fun k => k.map (movePt dx dy) := by
  unfold closeDots
  by_cases hne : l = []
  · simp [hne, Except.map]
  rw [if_neg hne, if_neg (by simpa using hne)]
  obtain ⟨a, b, c, e⟩ := List.length_eq_three.1 (hpf.length (l.map Pt.x) (l.map Pt.y) 2 (by simp) (by simpa using hne))
  have hm := polyfit_move_values hpf hne Pt.x Pt.y dx dy e
  have ex : (l.map (movePt dx dy)).map Pt.x = l.map fun p => p.x + dx := by simp [movePt, Function.comp_def]
  have ey : (l.map (movePt dx dy)).map Pt.y = l.map fun p => p.y + dy := by simp [movePt, Function.comp_def]
  obtain ⟨a', b', c', e'⟩ := List.length_eq_three.1 (hpf.length (l.map fun p => p.x + dx) (l.map fun p => p.y + dy) 2 (by simp) (by simpa using hne))
  rw [ex, ey]
  rw [e'] at hm ⊢
  rw [e]
  simp only [Except.map]
  congr 1
  rw [List.filter_map]
  congr 1
  apply List.filter_congr
  intro p hp
  have := hm p hp
  simp [polyval] at this
  have h1 : a' * (p.x + dx) ^ 2 + b' * (p.x + dx) + c' - (p.y + dy) = a * p.x ^ 2 + b * p.x + c - p.y := by linear_combination this
  simp only [Function.comp]
  rw [decide_eq_decide]
  simp only [movePt]
  rw [h1]

theorem mapM_except_map {α β γ : Type} (f : α → Except PyErr β) (g : β → γ) (l : List α) :
    l.mapM (fun a => (f a).map g) = (l.mapM f).map fun r => r.map g := by
  induction l with
  | nil => rfl
  | cons a l ih =>
    rw [List.mapM_cons, List.mapM_cons, ih]
    cases f a with
    | error e => rfl
    | ok b =>
      cases l.mapM f with
      | error e => rfl
      | ok r => rfl

theorem closeLines_move (hpf : PolyfitSpec pf) (slope residual dx dy : ℝ) (lines : List (List Pt)) :
    (moveDots lines dx dy).mapM (closeDots pf slope residual) =
      (lines.mapM (closeDots pf slope residual)).map fun K => moveDots K dx dy := by
  rw [moveDots_eq, List.mapM_map]
  simp only [Function.comp_def, closeDots_move hpf]
  rw [mapM_except_map]
  rfl

theorem nonempty_move (K : List (List Pt)) (dx dy : ℝ) :
    (moveDots K dx dy).filter (fun l => decide (l.length > 0)) = moveDots (K.filter fun l => decide (l.length > 0)) dx dy := by
  rw [moveDots_eq, List.filter_map, moveDots_eq]
  simp [Function.comp_def]

theorem flip_move (dx dy : ℝ) (l : List Pt) : (l.map (movePt dx dy)).map flipPt = (l.map flipPt).map (movePt dy dx) := by
  simp [movePt, flipPt, Function.comp_def]

theorem flipDots_move (dx dy : ℝ) (K : List (List Pt)) :
    (moveDots K dx dy).map (fun l => l.map flipPt) = moveDots (K.map fun l => l.map flipPt) dy dx := by
  simp [moveDots, flipPt, Function.comp_def]

theorem shiftLine_move (xc yc dx dy : ℝ) (l : List Pt) : shiftLine (xc + dx) (yc + dy) (l.map (movePt dx dy)) = shiftLine xc yc l := by
  simp [shiftLine, movePt, Function.comp_def]

theorem calcMetric_move (minimize : (ℝ → ℝ) → ℝ → ℝ) (hor ver : List (List Pt)) (xc yc dx dy : ℝ) (xs ys : List ℝ) :
    calcMetric pf minimize (moveDots hor dx dy) (moveDots ver dx dy) (xc + dx) (yc + dy) xs ys = calcMetric pf minimize hor ver xc yc xs ys := by
  unfold calcMetric
  rw [paraFitHor_shift, paraFitVer_shift]

theorem residualHor_move (xc yc dx dy : ℝ) (l : List Pt) :
    residualLineHor pf (xc + dx) (yc + dy) (l.map (movePt dx dy)) = residualLineHor pf xc yc l := by
  unfold residualLineHor
  have ex : ((l.map (movePt dx dy)).map fun p => p.x - (xc + dx)) = l.map fun p => p.x - xc := by simp [movePt, Function.comp_def]
  have ey : ((l.map (movePt dx dy)).map fun p => p.y - (yc + dy)) = l.map fun p => p.y - yc := by simp [movePt, Function.comp_def]
  rw [ex, ey]
  simp

theorem residualVer_move (xc yc dx dy : ℝ) (l : List Pt) :
    residualLineVer pf (xc + dx) (yc + dy) (l.map (movePt dx dy)) = residualLineVer pf xc yc l := by
  unfold residualLineVer
  have ex : ((l.map (movePt dx dy)).map fun p => p.x - (xc + dx)) = l.map fun p => p.x - xc := by simp [movePt, Function.comp_def]
  have ey : ((l.map (movePt dx dy)).map fun p => p.y - (yc + dy)) = l.map fun p => p.y - yc := by simp [movePt, Function.comp_def]
  rw [ex, ey]
  simp

/-- Straight fits of moved dots. -/
theorem polyfit_move_lin (hpf : PolyfitSpec pf) {l : List Pt} (f g : Pt → ℝ) (h2 : ∃ p ∈ l, ∃ q ∈ l, f p ≠ f q) (s t : ℝ) {a b : ℝ}
    (e : pf (l.map f) (l.map g) 1 = [a, b]) :
    pf (l.map fun p => f p + s) (l.map fun p => g p + t) 1 = [a, b + t - a * s] := by
  obtain ⟨p, hp, q, hq, hpq⟩ := h2
  have hne : l ≠ [] := List.ne_nil_of_mem hp
  have err : ∀ v w : ℝ, fitError (l.map fun p => f p + s) (l.map fun p => g p + t) [v, w] =
      fitError (l.map f) (l.map g) [v, w + v * s - t] := by
    intro v w
    unfold fitError
    rw [List.zip_map', List.zip_map', List.map_map, List.map_map]
    congr 1
    apply List.map_congr_left
    intro p _
    simp [polyval]
    ring
  have key := hpf.unique (xs := l.map fun p => f p + s) (ys := l.map fun p => g p + t) (deg := 1) (by simp) (by simpa using hne)
    (q := [a, b + t - a * s]) rfl (fun r hr => by
      obtain ⟨v, w, rfl⟩ := List.length_eq_two.1 hr
      rw [err, err]
      have e0 : [a, b + t - a * s + a * s - t] = [a, b] := by
        congr 2
        ring
      rw [e0, ← e]
      exact hpf.minimal _ _ _ (by simp) (by simpa using hne) _ rfl)
  exact linear_two (hpf.length _ _ _ (by simp) (by simpa using hne)) rfl (x := f p + s) (y := f q + s) (fun e => hpq (by linarith))
    (key _ (List.mem_map.2 ⟨p, hp, rfl⟩)) (key _ (List.mem_map.2 ⟨q, hq, rfl⟩))

/-- A straight line moved by `s` along and `t` across. -/
def moveLin (s t : ℝ) (q : Lin) : Lin := ⟨q.a, q.b + t - q.a * s⟩

theorem linHor_move (hpf : PolyfitSpec pf) {l : List Pt} (h2 : ∃ p ∈ l, ∃ q ∈ l, p.x ≠ q.x) (dx dy : ℝ) :
    linHor pf 0 0 (l.map (movePt dx dy)) = (linHor pf 0 0 l).map (moveLin dx dy) := by
  obtain ⟨p, hp, -⟩ := id h2
  have hne : l ≠ [] := List.ne_nil_of_mem hp
  unfold linHor
  rw [if_neg hne, if_neg (by simpa using hne)]
  have ex : ((l.map (movePt dx dy)).map fun p => p.x - 0) = l.map fun p => p.x + dx := by simp [movePt, Function.comp_def]
  have ey : ((l.map (movePt dx dy)).map fun p => p.y - 0) = l.map fun p => p.y + dy := by simp [movePt, Function.comp_def]
  have ex' : (l.map fun p => p.x - 0) = l.map Pt.x := by simp
  have ey' : (l.map fun p => p.y - 0) = l.map Pt.y := by simp
  rw [ex, ey, ex', ey']
  obtain ⟨a, b, e⟩ := List.length_eq_two.1 (hpf.length (l.map Pt.x) (l.map Pt.y) 1 (by simp) (by simpa using hne))
  rw [polyfit_move_lin hpf Pt.x Pt.y h2 dx dy e, e]
  rfl

theorem linVer_move (hpf : PolyfitSpec pf) {l : List Pt} (h2 : ∃ p ∈ l, ∃ q ∈ l, p.y ≠ q.y) (dx dy : ℝ) :
    linVer pf 0 0 (l.map (movePt dx dy)) = (linVer pf 0 0 l).map (moveLin dy dx) := by
  obtain ⟨p, hp, -⟩ := id h2
  have hne : l ≠ [] := List.ne_nil_of_mem hp
  unfold linVer
  rw [if_neg hne, if_neg (by simpa using hne)]
  have ex : ((l.map (movePt dx dy)).map fun p => p.x - 0) = l.map fun p => p.x + dx := by simp [movePt, Function.comp_def]
  have ey : ((l.map (movePt dx dy)).map fun p => p.y - 0) = l.map fun p => p.y + dy := by simp [movePt, Function.comp_def]
  have ex' : (l.map fun p => p.x - 0) = l.map Pt.x := by simp
  have ey' : (l.map fun p => p.y - 0) = l.map Pt.y := by simp
  rw [ex, ey, ex', ey']
  obtain ⟨a, b, e⟩ := List.length_eq_two.1 (hpf.length (l.map Pt.y) (l.map Pt.x) 1 (by simp) (by simpa using hne))
  rw [polyfit_move_lin hpf Pt.y Pt.x h2 dy dx e, e]
  rfl

theorem crossPoint_move (dx dy : ℝ) (h v : Lin) : crossPoint (moveLin dx dy h) (moveLin dy dx v) = (crossPoint h v).map (movePt dx dy) := by
  unfold crossPoint moveLin finDiv
  simp only
  by_cases h0 : 1 - h.a * v.a = 0
  · rw [if_pos h0, if_pos h0]; rfl
  · rw [if_neg h0, if_neg h0, ok_bind, ok_bind]
    simp only [Except.map, movePt]
    have e : (h.a * (v.b + dx - v.a * dy) + (h.b + dy - h.a * dx)) / (1 - h.a * v.a) = (h.a * v.b + h.b) / (1 - h.a * v.a) + dy := by
      field_simp
      ring
    rw [e]
    congr 2
    ring

theorem gridPoints_move (dx dy : ℝ) (ch cv : List Lin) :
    gridPoints (ch.map (moveLin dx dy)) (cv.map (moveLin dy dx)) = (gridPoints ch cv).map fun g => (moveDots g.1 dx dy, moveDots g.2 dx dy) := by
  unfold gridPoints
  simp only [List.mapM_map, Function.comp_def, crossPoint_move, mapM_except_map]
  cases ch.mapM fun h => cv.mapM fun v => crossPoint h v with
  | error e => rfl
  | ok r =>
    cases cv.mapM fun v => ch.mapM fun h => crossPoint h v with
    | error e => rfl
    | ok c => rfl

theorem mapM_congr_mem {α β : Type} {f g : α → Except PyErr β} {l : List α} (h : ∀ a ∈ l, f a = g a) : l.mapM f = l.mapM g := by
  induction l with
  | nil => rfl
  | cons a l ih => rw [List.mapM_cons, List.mapM_cons, h a List.mem_cons_self, ih fun b hb => h b (List.mem_cons_of_mem _ hb)]

theorem linearCoef_move (hpf : PolyfitSpec pf) {hor ver : List (List Pt)} (h2 : TwoPlaces Pt.x hor) (v2 : TwoPlaces Pt.y ver) (dx dy : ℝ) :
    generateLinearCoef pf (moveDots hor dx dy) (moveDots ver dx dy) 0 0 =
      (generateLinearCoef pf hor ver 0 0).map fun q => (q.1.map (moveLin dx dy), q.2.map (moveLin dy dx)) := by
  unfold generateLinearCoef
  rw [moveDots_eq, moveDots_eq, List.mapM_map, List.mapM_map]
  simp only [Function.comp_def]
  rw [mapM_congr_mem fun l hl => linHor_move hpf (h2 l hl) dx dy, mapM_congr_mem fun l hl => linVer_move hpf (v2 l hl) dx dy, mapM_except_map, mapM_except_map]
  cases hor.mapM (linHor pf 0 0) with
  | error e => rfl
  | ok r =>
    cases ver.mapM (linVer pf 0 0) with
    | error e => rfl
    | ok c => rfl

end Discorpy
