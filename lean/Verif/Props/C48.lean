import Verif.Lemmas.Pattern

/-! # C48 — the chessboard image -/

namespace Discorpy
open Spec

theorem chessboard_aux {height width : ℕ} {size margin : ℤ} {gray : ℝ} (hs : 0 < size) (hm : 0 ≤ size + margin) :
    ∃ r, makeChessboard height width size margin gray = .ok r ∧ r.height = height ∧ r.width = width ∧
      ∀ y x : ℕ, y < height → x < width →
        (∀ a b : ℕ, InCell (size + margin) (height - margin - size) size size a y →
          InCell (size + margin) (width - margin - size) size size b x → r.get y x = if Even (a + b) then 1 else 0) ∧
        ((¬ ∃ a b : ℕ, InCell (size + margin) (height - margin - size) size size a y ∧
          InCell (size + margin) (width - margin - size) size size b x) → r.get y x = gray) := by
  unfold makeChessboard pyRange
  rw [if_neg hs.ne', if_neg hs.ne', ok_bind, ok_bind]
  refine ⟨_, rfl, ?_⟩
  rw [show rangeList (size + margin) (height - margin - size) size =
    (List.range (rangeLen (size + margin) (height - margin - size) size)).map fun k : ℕ => size + margin + k * size from rfl]
  rw [foldl_count (fun m k i => if k % 2 = 0 then chessRow m i size 1 0 (rangeList (size + margin) (width - margin - size) size)
    else chessRow m i size 0 1 (rangeList (size + margin) (width - margin - size) size))]
  simp only
  have key : ∀ n : ℕ, ∀ M, M = (List.range n).foldl (fun (s : Mat ℝ) (k : ℕ) => if k % 2 = 0 then
        chessRow s (size + margin + (k : ℤ) * size) size 1 0 (rangeList (size + margin) (width - margin - size) size)
      else chessRow s (size + margin + (k : ℤ) * size) size 0 1 (rangeList (size + margin) (width - margin - size) size))
      (⟨height, width, fun _ _ => gray⟩ : Mat ℝ) →
      M.height = height ∧ M.width = width ∧ ∀ y x : ℕ, y < height → x < width →
      (∀ a b : ℕ, a < n → size + margin + (a : ℤ) * size ≤ y → (y : ℤ) < size + margin + a * size + size →
        InCell (size + margin) (width - margin - size) size size b x → M.get y x = if Even (a + b) then 1 else 0) ∧
      ((¬ ∃ a b : ℕ, a < n ∧ size + margin + (a : ℤ) * size ≤ y ∧ (y : ℤ) < size + margin + a * size + size ∧
        InCell (size + margin) (width - margin - size) size size b x) → M.get y x = gray) := by
    intro n
    induction n with
    | zero => rintro M rfl; exact ⟨rfl, rfl, fun y x _ _ => ⟨fun a b ha => absurd ha (by omega), fun _ => rfl⟩⟩
    | succ n ih =>
      rintro M rfl
      rw [List.range_succ, List.foldl_append]
      simp only [List.foldl_cons, List.foldl_nil]
      obtain ⟨h1, h2, h3⟩ := ih _ rfl
      generalize (List.range n).foldl _ (⟨height, width, fun _ _ => gray⟩ : Mat ℝ) = M at *
      have hp : 0 ≤ (n : ℤ) * size := by positivity
      obtain ⟨v, w, hvw, e⟩ : ∃ v w : ℝ, (∀ b : ℕ, (if b % 2 = 0 then v else w) = if Even (n + b) then (1 : ℝ) else 0) ∧
          (if n % 2 = 0 then
            chessRow M (size + margin + (n : ℤ) * size) size 1 0 (rangeList (size + margin) (width - margin - size) size)
          else chessRow M (size + margin + (n : ℤ) * size) size 0 1 (rangeList (size + margin) (width - margin - size) size)) =
          chessRow M (size + margin + (n : ℤ) * size) size v w (rangeList (size + margin) (width - margin - size) size) := by
        by_cases hn : n % 2 = 0
        · refine ⟨1, 0, fun b => ?_, by rw [if_pos hn]⟩
          have : Even (n + b) ↔ b % 2 = 0 := by rw [Nat.even_iff]; omega
          simp only [this]
        · refine ⟨0, 1, fun b => ?_, by rw [if_neg hn]⟩
          have : Even (n + b) ↔ ¬ b % 2 = 0 := by rw [Nat.even_iff]; omega
          simp only [this, ite_not]
      rw [e]
      obtain ⟨r1, r2, r3⟩ := chessRow_get (m := M) (i := size + margin + (n : ℤ) * size) (size := size) (start := size + margin)
        (stop := width - margin - size) (v := v) (w := w) (by omega) hs hm
      refine ⟨r1.trans h1, r2.trans h2, fun y x hy hx => ?_⟩
      obtain ⟨r4, r5⟩ := r3 y x (h1 ▸ hy) (h2 ▸ hx)
      obtain ⟨h4, h5⟩ := h3 y x hy hx
      constructor
      · intro a b ha hy1 hy2 hb
        by_cases hc : size + margin + (n : ℤ) * size ≤ y ∧ (y : ℤ) < size + margin + (n : ℤ) * size + size
        · have : a = n := cell_unique hy1 hy2 hc.1 hc.2
          subst this
          rw [r4 b hc.1 hc.2 hb, hvw]
        · have ha' : a < n := by
            rcases Nat.lt_succ_iff_lt_or_eq.1 ha with h | h
            · exact h
            · subst h; exact absurd ⟨hy1, hy2⟩ hc
          rw [r5 fun h => hc ⟨h.1, h.2.1⟩]
          exact h4 a b ha' hy1 hy2 hb
      · intro hc
        rw [r5 fun ⟨p, q, b, hb⟩ => hc ⟨n, b, by omega, p, q, hb⟩]
        exact h5 fun ⟨a, b, ha, h⟩ => hc ⟨a, b, by omega, h⟩
  obtain ⟨h1, h2, h3⟩ := key _ _ rfl
  refine ⟨h1, h2, fun y x hy hx => ?_⟩
  obtain ⟨h4, h5⟩ := h3 y x hy hx
  refine ⟨fun a b ha hb => h4 a b ((lt_rangeLen hs a).2 ha.lt_stop) ha.le ha.lt hb, fun hc => h5 ?_⟩
  rintro ⟨a, b, ha, hl, hr, hb⟩
  exact hc ⟨a, b, ⟨(lt_rangeLen hs a).1 ha, hl, hr⟩, hb⟩

/-- **C48 (pixels).** The image has the requested size. The cells of the board start one cell away from the margin; a pixel in
cell (a, b) is white (1) exactly if a + b is even and black (0) otherwise; all other pixels have the margin's grey level.
(A negative margin is allowed as long as it does not exceed the cell size.) -/
theorem C48_pixels {height width : ℕ} {size margin : ℤ} {gray : ℝ} (hs : 0 < size) (hm : 0 ≤ size + margin) :
    ∃ r, makeChessboard height width size margin gray = .ok r ∧ r.height = height ∧ r.width = width ∧
      ∀ y x : ℕ, y < height → x < width →
        (∀ a b : ℕ, InCell (size + margin) (height - margin - size) size size a y →
          InCell (size + margin) (width - margin - size) size size b x → r.get y x = if Even (a + b) then 1 else 0) ∧
        ((¬ ∃ a b : ℕ, InCell (size + margin) (height - margin - size) size size a y ∧
          InCell (size + margin) (width - margin - size) size size b x) → r.get y x = gray) := chessboard_aux hs hm

/-- **C48 (alternation).** Pixels of horizontally or vertically neighbouring cells have opposite colours. -/
theorem C48_alternate {height width : ℕ} {size margin : ℤ} {gray : ℝ} (hs : 0 < size) (hm : 0 ≤ size + margin) {r : Mat ℝ}
    (hr : makeChessboard height width size margin gray = .ok r) {y x a b : ℕ} (hy : y < height) (hx : x < width)
    (ha : InCell (size + margin) (height - margin - size) size size a y)
    (hb : InCell (size + margin) (width - margin - size) size size b x) :
    (∀ x' : ℕ, x' < width → InCell (size + margin) (width - margin - size) size size (b + 1) x' →
      r.get y x' = 1 - r.get y x) ∧
    (∀ y' : ℕ, y' < height → InCell (size + margin) (height - margin - size) size size (a + 1) y' →
      r.get y' x = 1 - r.get y x) := by
  obtain ⟨r', h', _, _, h⟩ := C48_pixels (height := height) (width := width) (gray := gray) hs hm
  rw [hr] at h'; injection h' with h'; subst h'
  have h0 := (h y x hy hx).1 a b ha hb
  constructor
  · intro x' hx' hb'
    rw [(h y x' hy hx').1 a (b + 1) ha hb', h0]
    simp only [← add_assoc, Nat.even_add_one]
    split_ifs <;> norm_num at *
  · intro y' hy' ha'
    rw [(h y' x hy' hx).1 (a + 1) b ha' hb, h0]
    simp only [add_right_comm a 1 b, Nat.even_add_one]
    split_ifs <;> norm_num at *

/-- Pixel (3, 3) is in cell (0, 0), pixel (3, 5) in cell (0, 1). -/
example (r : Mat ℝ) (h : makeChessboard 9 9 2 1 0.95 = .ok r) : r.get 3 5 = 1 - r.get 3 3 :=
  (C48_alternate (by norm_num) (by norm_num) h (y := 3) (x := 3) (a := 0) (b := 0) (by norm_num) (by norm_num) ⟨by norm_num, by norm_num, by norm_num⟩
    ⟨by norm_num, by norm_num, by norm_num⟩).1 5 (by norm_num) ⟨by norm_num, by norm_num, by norm_num⟩

/-- **C48 (margin).** With a non-negative margin, no pixel closer to the edges than margin + size on the top/left and margin on
the bottom/right belongs to the board. -/
theorem C48_margin {height width : ℕ} {size margin : ℤ} {gray : ℝ} (hs : 0 < size) (hm : 0 ≤ margin) {r : Mat ℝ}
    (hr : makeChessboard height width size margin gray = .ok r) {y x : ℕ} (hy : y < height) (hx : x < width)
    (h : (y : ℤ) < size + margin ∨ (x : ℤ) < size + margin ∨ (height : ℤ) - margin ≤ y ∨ (width : ℤ) - margin ≤ x) :
    r.get y x = gray := by
  obtain ⟨r', h', _, _, h1⟩ := C48_pixels (height := height) (width := width) (margin := margin) (gray := gray) hs (by omega)
  rw [hr] at h'; injection h' with h'; subst h'
  refine (h1 y x hy hx).2 ?_
  rintro ⟨a, b, ha, hb⟩
  have pa : 0 ≤ (a : ℤ) * size := by positivity
  have pb : 0 ≤ (b : ℤ) * size := by positivity
  have := ha.lt_stop; have := ha.le; have := ha.lt; have := hb.lt_stop; have := hb.le; have := hb.lt
  omega

/-- **C48 (zero size).** A zero cell size is rejected. -/
theorem C48_zero_size (height width : ℕ) (margin : ℤ) (gray : ℝ) :
    makeChessboard height width 0 margin gray = .error .valueError := rfl

/-- The hypotheses can be met: in a 9 × 9 image with cells of size 2 and margin 1, the pixels (3, 3) and (3, 5) lie in
cells (0, 0) and (0, 1), and have the colours white and black. -/
example : ∃ r, makeChessboard 9 9 2 1 0.95 = .ok r ∧ r.get 3 3 = 1 ∧ r.get 3 5 = 0 ∧ r.get 0 0 = 0.95 := by
  obtain ⟨r, h, _, _, hp⟩ := C48_pixels (height := 9) (width := 9) (size := 2) (margin := 1) (gray := 0.95) (by norm_num) (by norm_num)
  refine ⟨r, h, ?_, ?_, C48_margin (by norm_num) (by norm_num) h (by norm_num) (by norm_num) (by norm_num)⟩
  · rw [(hp 3 3 (by norm_num) (by norm_num)).1 0 0 ⟨by norm_num, by norm_num, by norm_num⟩ ⟨by norm_num, by norm_num, by norm_num⟩]
    simp
  · rw [(hp 3 5 (by norm_num) (by norm_num)).1 0 1 ⟨by norm_num, by norm_num, by norm_num⟩ ⟨by norm_num, by norm_num, by norm_num⟩]
    simp

end Discorpy
