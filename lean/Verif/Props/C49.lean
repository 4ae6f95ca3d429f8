import Verif.Lemmas.Pattern

/-! # C49 — the line-pattern image -/

namespace Discorpy
open Spec

theorem linePattern_eq (height width : ℕ) (d ls : ℤ) (margin : MarginArg) {mv mh : ℤ} (hm : unpackMargin margin = .ok (mv, mh))
    (hd : 0 < d) : makeLinePattern height width d ls margin =
    ((rangeList mv (height - mv - clipSize ls height width) d).foldlM (fun m i => do
      let (a, b) ← firstLast (rangeList mh (width - mh - clipSize ls height width) d)
      .ok (setBlock m i (i + clipSize ls height width) a (b + clipSize ls height width) 1)) (⟨height, width, fun _ _ => 0⟩ : Mat ℝ) >>=
    fun m1 => (rangeList mh (width - mh - clipSize ls height width) d).foldlM (fun m j => do
      let (a, b) ← firstLast (rangeList mv (height - mv - clipSize ls height width) d)
      .ok (setBlock m a (b + clipSize ls height width) j (j + clipSize ls height width) 1)) m1 >>=
    fun m2 => .ok { m2 with get := fun i j => 1 - m2.get i j }) := by
  unfold makeLinePattern arangeInt
  simp only [hm, ok_bind]
  rw [if_neg hd.ne', if_neg hd.ne']
  simp only [ok_bind]

theorem foldlM_indexError {α β γ : Type} (f : β → α → γ → Except PyErr β) (l : List α) (hl : l ≠ []) (b : β) :
    l.foldlM (fun m i => (Except.error PyErr.indexError : Except PyErr γ) >>= fun c => f m i c) b = .error .indexError := by
  cases l with
  | nil => exact absurd rfl hl
  | cons a l => rfl

/-- **C49 (pixels).** Let `s` be the line width: the requested one brought into the range from 1 to an eighth of the shorter
side. If the margins leave room for lines in both directions, or in none, the image has the requested size; a pixel is black
(0) exactly if it lies in a horizontal line and between the outer vertical lines, or in a vertical line and between the outer
horizontal lines, and white (1) otherwise. -/
theorem C49_pixels {height width : ℕ} {d ls s : ℤ} {margin : MarginArg} {mv mh : ℤ}
    (hmarg : margin = .int mv ∧ mh = mv ∨ ∃ rest, margin = .seq (mv :: mh :: rest)) (hv : 0 ≤ mv) (hh : 0 ≤ mh)
    (hd : 0 < d) (hs : s = min (max ls 1) ((min height width / 8 : ℕ) : ℤ))
    (hroom : mv < height - mv - s ↔ mh < width - mh - s) :
    ∃ r, makeLinePattern height width d ls margin = .ok r ∧ r.height = height ∧ r.width = width ∧
      ∀ y x : ℕ, y < height → x < width →
        let black := ((∃ k, InCell mv (height - mv - s) d s k y) ∧ InGridFrame mh (width - mh - s) d s x) ∨
          ((∃ k, InCell mh (width - mh - s) d s k x) ∧ InGridFrame mv (height - mv - s) d s y)
        (black → r.get y x = 0) ∧ (¬ black → r.get y x = 1) := by
  have hm : unpackMargin margin = .ok (mv, mh) := by
    rcases hmarg with ⟨rfl, rfl⟩ | ⟨rest, rfl⟩ <;> rfl
  have hs' : clipSize ls height width = s := hs.symm
  have hs0 : 0 ≤ s := by rw [hs]; omega
  rw [linePattern_eq height width d ls margin hm hd, hs']
  by_cases hr : mv < height - mv - s
  · have hr' := hroom.1 hr
    obtain ⟨n, n1, n2, n3⟩ := firstLast_rangeList hd hr
    obtain ⟨p, p1, p2, p3⟩ := firstLast_rangeList hd hr'
    have hn0 : 0 ≤ (n : ℤ) * d := by positivity
    have hp0 : 0 ≤ (p : ℤ) * d := by positivity
    simp only [n3, p3, ok_bind]
    rw [foldlM_ok _ (fun m i => setBlock m i (i + s) mh (mh + p * d + s) 1) (fun _ _ => rfl), ok_bind,
      foldlM_ok _ (fun m j => setBlock m mv (mv + n * d + s) j (j + s) 1) (fun _ _ => rfl), ok_bind]
    have hi0 : ∀ i ∈ rangeList mv (height - mv - s) d, 0 ≤ i := by
      intro i hi
      obtain ⟨k, _, rfl⟩ := (mem_rangeList hd).1 hi
      positivity
    have hj0 : ∀ j ∈ rangeList mh (width - mh - s) d, 0 ≤ j := by
      intro i hi
      obtain ⟨k, _, rfl⟩ := (mem_rangeList hd).1 hi
      positivity
    obtain ⟨a1, a2, a3⟩ := paint_foldl (fun i => (i, i + s, mh, mh + p * d + s)) 1 (rangeList mv (height - mv - s) d)
      (fun i hi => ⟨hi0 i hi, add_nonneg (hi0 i hi) hs0, hh, by simp only; omega⟩) (⟨height, width, fun _ _ => 0⟩ : Mat ℝ)
    simp only at a1 a2 a3
    generalize (rangeList mv (height - mv - s) d).foldl (fun m i => setBlock m i (i + s) mh (mh + p * d + s) 1)
      (⟨height, width, fun _ _ => 0⟩ : Mat ℝ) = m1 at *
    obtain ⟨b1, b2, b3⟩ := paint_foldl (fun j => (mv, mv + n * d + s, j, j + s)) 1 (rangeList mh (width - mh - s) d)
      (fun j hj => ⟨hv, by simp only; omega, hj0 j hj, add_nonneg (hj0 j hj) hs0⟩) m1
    simp only at b1 b2 b3
    generalize (rangeList mh (width - mh - s) d).foldl (fun m j => setBlock m mv (mv + n * d + s) j (j + s) 1) m1 = m2 at *
    refine ⟨_, rfl, b1.trans a1, b2.trans a2, fun y x hy hx => ?_⟩
    obtain ⟨a4, a5⟩ := a3 y x hy hx
    obtain ⟨b4, b5⟩ := b3 y x (a1 ▸ hy) (a2 ▸ hx)
    have eA : (∃ i ∈ rangeList mv (height - mv - s) d, i ≤ y ∧ (y : ℤ) < i + s ∧ mh ≤ x ∧ (x : ℤ) < mh + p * d + s) ↔
        ((∃ k, InCell mv (height - mv - s) d s k y) ∧ InGridFrame mh (width - mh - s) d s x) := by
      constructor
      · rintro ⟨i, hi, h1, h2, h3, h4⟩
        obtain ⟨k, hk, rfl⟩ := (mem_rangeList hd).1 hi
        exact ⟨⟨k, hk, h1, h2⟩, h3, p, p1, h4⟩
      · rintro ⟨⟨k, hk, h1, h2⟩, h3, q, q1, q2⟩
        refine ⟨_, (mem_rangeList hd).2 ⟨k, hk, rfl⟩, h1, h2, h3, ?_⟩
        have : (q : ℤ) * d ≤ p * d := mul_le_mul_of_nonneg_right (by exact_mod_cast p2 q q1) hd.le
        omega
    have eB : (∃ j ∈ rangeList mh (width - mh - s) d, mv ≤ y ∧ (y : ℤ) < mv + n * d + s ∧ j ≤ x ∧ (x : ℤ) < j + s) ↔
        ((∃ k, InCell mh (width - mh - s) d s k x) ∧ InGridFrame mv (height - mv - s) d s y) := by
      constructor
      · rintro ⟨i, hi, h1, h2, h3, h4⟩
        obtain ⟨k, hk, rfl⟩ := (mem_rangeList hd).1 hi
        exact ⟨⟨k, hk, h3, h4⟩, h1, n, n1, h2⟩
      · rintro ⟨⟨k, hk, h1, h2⟩, h3, q, q1, q2⟩
        refine ⟨_, (mem_rangeList hd).2 ⟨k, hk, rfl⟩, h3, ?_, h1, h2⟩
        have : (q : ℤ) * d ≤ n * d := mul_le_mul_of_nonneg_right (by exact_mod_cast n2 q q1) hd.le
        omega
    rw [eA] at a4 a5
    rw [eB] at b4 b5
    simp only
    constructor
    · intro hb
      by_cases hB : (∃ k, InCell mh (width - mh - s) d s k x) ∧ InGridFrame mv (height - mv - s) d s y
      · rw [b4 hB, sub_self]
      · rw [b5 hB, a4 (hb.resolve_right hB), sub_self]
    · intro hb
      rw [not_or] at hb
      rw [b5 hb.2, a5 hb.1, sub_zero]
  · have hr' : ¬ mh < width - mh - s := fun h => hr (hroom.2 h)
    rw [(rangeList_eq_nil hd).2 (not_lt.1 hr), (rangeList_eq_nil hd).2 (not_lt.1 hr')]
    refine ⟨_, rfl, rfl, rfl, fun y x _ _ => ⟨?_, fun _ => sub_zero _⟩⟩
    have hne : ∀ {a b : ℤ}, ¬ a < b → ∀ y, ¬ ∃ k, InCell a b d s k y := by
      rintro a b h y ⟨k, hk⟩
      have : 0 ≤ (k : ℤ) * d := by positivity
      have := hk.lt_stop
      omega
    rintro (⟨h, _⟩ | ⟨h, _⟩)
    · exact absurd h (hne hr _)
    · exact absurd h (hne hr' _)

/-- **C49 (one direction only).** If the margins leave room for lines in one direction only, the function fails with an
`IndexError`. -/
theorem C49_index_error {height width : ℕ} {d ls s : ℤ} {margin : MarginArg} {mv mh : ℤ}
    (hmarg : margin = .int mv ∧ mh = mv ∨ ∃ rest, margin = .seq (mv :: mh :: rest))
    (hd : 0 < d) (hs : s = min (max ls 1) ((min height width / 8 : ℕ) : ℤ))
    (hroom : ¬ (mv < height - mv - s ↔ mh < width - mh - s)) :
    makeLinePattern height width d ls margin = .error .indexError := by
  have hm : unpackMargin margin = .ok (mv, mh) := by
    rcases hmarg with ⟨rfl, rfl⟩ | ⟨rest, rfl⟩ <;> rfl
  have hs' : clipSize ls height width = s := hs.symm
  rw [linePattern_eq height width d ls margin hm hd, hs']
  by_cases hr : mv < height - mv - s
  · have hr' : ¬ mh < width - mh - s := fun h => hroom ⟨fun _ => h, fun _ => hr⟩
    rw [(rangeList_eq_nil hd).2 (not_lt.1 hr')]
    simp only [firstLast_nil]
    rw [foldlM_indexError (fun m i (c : ℤ × ℤ) => .ok (setBlock m i (i + s) c.1 (c.2 + s) 1)) _
      fun h => absurd ((rangeList_eq_nil hd).1 h) (not_le.2 hr)]
    rfl
  · have hr' : mh < width - mh - s := by
      by_contra h
      exact hroom ⟨fun h' => absurd h' hr, fun h' => absurd h' h⟩
    rw [(rangeList_eq_nil hd).2 (not_lt.1 hr)]
    simp only [firstLast_nil, List.foldlM_nil]
    rw [show (pure (⟨height, width, fun _ _ => 0⟩ : Mat ℝ) : Except PyErr (Mat ℝ)) = .ok ⟨height, width, fun _ _ => 0⟩ from rfl, ok_bind,
      foldlM_indexError (fun m j (c : ℤ × ℤ) => .ok (setBlock m c.1 (c.2 + s) j (j + s) 1)) _
      fun h => absurd ((rangeList_eq_nil hd).1 h) (not_le.2 hr')]
    rfl

/-- **C49 (bad arguments).** A zero line distance raises `ZeroDivisionError`; a margin sequence of fewer than two numbers
raises `ValueError`. -/
theorem C49_bad_args (height width : ℕ) (d ls : ℤ) :
    (∀ n, makeLinePattern height width 0 ls (.int n) = .error .zeroDivisionError) ∧
    (∀ l : List ℤ, l.length < 2 → makeLinePattern height width d ls (.seq l) = .error .valueError) := by
  refine ⟨fun n => rfl, fun l hl => ?_⟩
  match l, hl with
  | [], _ => rfl
  | [_], _ => rfl

/-- The hypotheses can be met: an 80 × 80 image with lines of width 3 every 20 pixels and margin 10 has a black pixel at
(11, 15) and a white one at (20, 20). -/
example : ∃ r, makeLinePattern 80 80 20 3 (.int 10) = .ok r ∧ r.get 11 15 = 0 ∧ r.get 20 20 = 1 := by
  obtain ⟨r, h, _, _, hp⟩ := C49_pixels (height := 80) (width := 80) (d := 20) (ls := 3) (s := 3) (margin := .int 10) (mv := 10) (mh := 10)
    (Or.inl ⟨rfl, rfl⟩) (by norm_num) (by norm_num) (by norm_num) (by norm_num) (by norm_num)
  refine ⟨r, h, (hp 11 15 (by norm_num) (by norm_num)).1 (Or.inl ⟨⟨0, by norm_num, by norm_num, by norm_num⟩, by norm_num, 1, by norm_num, by norm_num⟩),
    (hp 20 20 (by norm_num) (by norm_num)).2 ?_⟩
  rintro (⟨⟨k, hk⟩, _⟩ | ⟨⟨k, hk⟩, _⟩) <;>
  · have := hk.le; have := hk.lt
    push_cast at *
    omega

/-- … and one for the `IndexError`. -/
example : makeLinePattern 80 16 20 2 (.int 10) = .error .indexError :=
  C49_index_error (s := 2) (Or.inl ⟨rfl, rfl⟩) (by norm_num) (by norm_num) (by norm_num)

end Discorpy
