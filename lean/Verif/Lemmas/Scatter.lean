import Verif.Spec.Geometry
import Verif.Lemmas.Num

/-! # Helper lemmas: rounding, writing pixels one after the other -/

namespace Discorpy

open Spec

theorem isNearestEven_roundHalfEven (x : ℝ) : IsNearestEven x (roundHalfEven x) := by
  unfold roundHalfEven IsNearestEven
  have h1 := Int.floor_le x
  have h2 := Int.lt_floor_add_one x
  simp only
  split
  · left; rw [abs_of_nonneg (by linarith)]; assumption
  · split
    · left; push_cast; rw [abs_of_nonpos (by linarith)]; linarith
    · have e : x - ⌊x⌋ = 1 / 2 := by linarith
      split
      next h => right; exact ⟨by rw [e]; norm_num, Int.even_iff.2 h⟩
      next h =>
        right
        refine ⟨?_, ?_⟩
        · push_cast; rw [show x - (↑⌊x⌋ + 1) = -(1 / 2) by linarith]; norm_num
        · rw [Int.even_add_one, Int.even_iff]; exact h

theorem IsNearestEven.unique {x : ℝ} {m n : ℤ} (hm : IsNearestEven x m) (hn : IsNearestEven x n) : m = n := by
  unfold IsNearestEven at hm hn
  have bm : |x - m| ≤ 1 / 2 := by rcases hm with h | ⟨h, _⟩ <;> linarith
  have bn : |x - n| ≤ 1 / 2 := by rcases hn with h | ⟨h, _⟩ <;> linarith
  rw [abs_le] at bm bn
  have d : (m : ℝ) - n ≤ 1 ∧ (n : ℝ) - m ≤ 1 := by constructor <;> linarith
  have d1 : m - n ≤ 1 := by exact_mod_cast d.1
  have d2 : n - m ≤ 1 := by exact_mod_cast d.2
  by_contra hne
  have : m = n + 1 ∨ n = m + 1 := by omega
  rcases this with rfl | rfl
  · push_cast at *
    have e : x - n = 1 / 2 := by linarith
    have e' : x - (n + 1) = -(1 / 2) := by linarith
    rw [e] at hn; rw [e'] at hm
    norm_num [Int.even_add_one] at hn hm
    exact (Int.not_even_iff_odd.2 hm) hn
  · push_cast at *
    have e : x - m = 1 / 2 := by linarith
    have e' : x - (m + 1) = -(1 / 2) := by linarith
    rw [e] at hm; rw [e'] at hn
    norm_num [Int.even_add_one] at hn hm
    exact (Int.not_even_iff_odd.2 hn) hm

theorem roundHalfEven_eq_iff {x : ℝ} {n : ℤ} : roundHalfEven x = n ↔ IsNearestEven x n :=
  ⟨fun h => h ▸ isNearestEven_roundHalfEven x, fun h => IsNearestEven.unique (isNearestEven_roundHalfEven x) h⟩

theorem roundHalfEven_mono_mem {x : ℝ} {n : ℕ} (h0 : 0 ≤ x) (h1 : x ≤ (n : ℝ) - 1) :
    0 ≤ roundHalfEven x ∧ roundHalfEven x < n := by
  have h := isNearestEven_roundHalfEven x
  generalize roundHalfEven x = k at h
  have b : |x - k| ≤ 1 / 2 := by rcases h with h | ⟨h, _⟩ <;> linarith
  rw [abs_le] at b
  have c1 : (-1 : ℝ) < k := by linarith
  have c2 : (k : ℝ) < n := by linarith
  have c1' : (-1 : ℤ) < k := by exact_mod_cast c1
  exact ⟨by omega, by exact_mod_cast c2⟩

theorem clip_eq_clampTo {y m : ℝ} (hm : 0 ≤ m) : clip y 0 m = clampTo m y := by
  unfold clip clampTo
  rcases le_total y 0 with h | h <;> rcases le_total y m with h' | h' <;>
    simp [h, h', hm] <;> linarith

/-- Result of writing the pixels `ps` one after the other, `q p` being the target and `v p` the value. -/
theorem foldlM_setItem {α β : Type*} (q : β → ℤ × ℤ) (v : β → α) (ps : List β) (m0 : Mat α)
    (hq : ∀ p ∈ ps, 0 ≤ (q p).1 ∧ (q p).1 < m0.height ∧ 0 ≤ (q p).2 ∧ (q p).2 < m0.width) :
    ∃ out, ps.foldlM (fun m p => m.setItem (q p).1 (q p).2 (v p)) m0 = .ok out ∧
      out.height = m0.height ∧ out.width = m0.width ∧
      ∀ i j : ℕ, out.get i j =
        match ps.reverse.find? (fun p => decide (q p = ((i : ℤ), (j : ℤ)))) with
        | some p => v p
        | none => m0.get i j := by
  induction ps generalizing m0 with
  | nil => exact ⟨m0, rfl, rfl, rfl, fun i j => by simp⟩
  | cons p ps ih =>
    obtain ⟨h1, h2, h3, h4⟩ := hq p (by simp)
    let m1 : Mat α := { m0 with get := fun i j => if (i : ℤ) = (q p).1 ∧ (j : ℤ) = (q p).2 then v p else m0.get i j }
    have hset : m0.setItem (q p).1 (q p).2 (v p) = .ok m1 := by
      simp [Mat.setItem, h1, h2, h3, h4, not_lt.2 h1, not_lt.2 h3, m1]
    obtain ⟨out, e, eh, ew, eg⟩ := ih m1 (fun p' hp' => hq p' (by simp [hp']))
    refine ⟨out, ?_, eh, ew, ?_⟩
    · rw [List.foldlM_cons, hset]; exact e
    · intro i j
      rw [eg, List.reverse_cons, List.find?_append]
      cases hf : ps.reverse.find? (fun p => decide (q p = ((i : ℤ), (j : ℤ)))) with
      | some p' => simp
      | none =>
        simp only [Option.none_or, List.find?_cons, List.find?_nil, m1]
        by_cases hp : q p = ((i : ℤ), (j : ℤ))
        · simp [hp]
        · have : ¬ ((i : ℤ) = (q p).1 ∧ (j : ℤ) = (q p).2) := by
            rintro ⟨a, b⟩; exact hp (Prod.ext a.symm b.symm)
          simp [hp, this]

theorem mem_pixels {h w : ℕ} {p : ℕ × ℕ} : p ∈ pixels h w ↔ p.1 < h ∧ p.2 < w := by
  simp only [pixels, List.mem_flatMap, List.mem_map, List.mem_range]
  constructor
  · rintro ⟨i, hi, j, hj, rfl⟩; exact ⟨hi, hj⟩
  · rintro ⟨h1, h2⟩; exact ⟨p.1, h1, p.2, h2, rfl⟩

theorem pixels_sorted (h w : ℕ) : (pixels h w).Pairwise RowMajorLT := by
  unfold pixels
  rw [List.pairwise_flatMap]
  constructor
  · intro i _
    rw [List.pairwise_map]
    exact (List.pairwise_lt_range).imp fun {a b} hab => Or.inr ⟨rfl, hab⟩
  · refine (List.pairwise_lt_range).imp fun {a b} hab => ?_
    intro x hx y hy
    simp only [List.mem_map] at hx hy
    obtain ⟨_, _, rfl⟩ := hx
    obtain ⟨_, _, rfl⟩ := hy
    exact Or.inl hab

/-- The last element of an ordered list satisfying a predicate is what `find?` on the reverse returns. -/
theorem reverse_find?_eq_some {α : Type*} {R : α → α → Prop} {l : List α} (hl : l.Pairwise R) {P : α → Bool} {a : α}
    (ha : a ∈ l) (hP : P a = true) (hlast : ∀ b ∈ l, R a b → P b = false) :
    l.reverse.find? P = some a := by
  induction l with
  | nil => simp at ha
  | cons x xs ih =>
    rw [List.pairwise_cons] at hl
    rw [List.reverse_cons, List.find?_append]
    by_cases hax : a ∈ xs
    · rw [ih hl.2 hax (fun b hb => hlast b (by simp [hb]))]; rfl
    · have e : a = x := by simpa [hax] using ha
      subst e
      have : xs.reverse.find? P = none := by
        rw [List.find?_eq_none]
        intro b hb
        simp at hb
        simp [hlast b (by simp [hb]) (hl.1 b hb)]
      simp [this, hP]

end Discorpy
