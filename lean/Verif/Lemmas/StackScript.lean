import Verif.Model.StackScript
import Verif.Lemmas.Path
import Verif.Lemmas.Scatter
import Verif.Spec.StackScript

/-! # Lemmas: names of the files of the scripts which correct a stack of images -/

namespace Discorpy

open Spec

theorem sliceNumber_spec (i : ℕ) : (∀ c ∈ sliceNumber i, c.isDigit) ∧ (sliceNumber i).length = 5 ∧ decimalValue (sliceNumber i) = i % 100000 := by
  unfold sliceNumber
  simp only
  set name := "0000".toList ++ Nat.toDigits 10 i with hname
  have hd : ∀ c ∈ name, c.isDigit := by
    intro c hc
    rcases List.mem_append.1 hc with h | h
    · have : c = '0' := by simpa using h
      rw [this]
      decide
    · exact Nat.isDigit_of_mem_toDigits (by norm_num) (by norm_num) h
  have hl : 5 ≤ name.length := by
    have : 0 < (Nat.toDigits 10 i).length := by
      rw [Nat.toDigits_eq_if (by norm_num)]
      split <;> simp
    rw [hname, List.length_append]
    have : "0000".toList.length = 4 := rfl
    omega
  have hd' : ∀ c ∈ name.drop (name.length - 5), c.isDigit := fun c hc => hd c (List.mem_of_mem_drop hc)
  have hl' : (name.drop (name.length - 5)).length = 5 := by
    rw [List.length_drop]
    omega
  refine ⟨hd', hl', ?_⟩
  have hv : decimalValue name = i := by
    rw [hname, decimalValue_append, decimalValue_toDigits]
    have : decimalValue "0000".toList = 0 := by decide
    rw [this]
    omega
  have hs : decimalValue name = _ := congrArg decimalValue (List.take_append_drop (name.length - 5) name).symm
  rw [hv, decimalValue_append, hl'] at hs
  have hlt := decimalValue_lt hd'
  rw [hl'] at hlt
  omega

theorem digitChar_inj_ten {a b : ℕ} (ha : a < 10) (hb : b < 10) (h : a.digitChar = b.digitChar) : a = b := by
  rw [← Nat.toNat_digitChar_sub_48_of_lt_ten ha, h, Nat.toNat_digitChar_sub_48_of_lt_ten hb]

/-- The number without the blanks before it. -/
noncomputable def fmtBody (x : ℝ) : PyStr :=
  let n := (roundHalfEven (100 * x)).natAbs
  (if x < 0 then ['-'] else []) ++ (Nat.toDigits 10 (n / 100) ++ '.' :: [(n % 100 / 10).digitChar, (n % 10).digitChar])

theorem digit_char {c : Char} (h : c.isDigit) : c ≠ ' ' ∧ c ≠ '_' ∧ c ≠ '-' ∧ c ≠ '.' := by
  refine ⟨?_, ?_, ?_, ?_⟩ <;> rintro rfl <;> exact absurd h (by decide)

theorem digitChar_isDigit {n : ℕ} (h : n < 10) : n.digitChar.isDigit := by
  have := Nat.isDigit_of_mem_toDigits (b := 10) (n := n) (c := n.digitChar) (by norm_num) (by norm_num)
    (by rw [Nat.toDigits_eq_if (by norm_num), if_pos h]; simp)
  exact this

theorem fmtBody_chars {x : ℝ} {c : Char} (h : c ∈ fmtBody x) : c = '-' ∨ c = '.' ∨ c.isDigit := by
  unfold fmtBody at h
  simp only [List.mem_append, List.mem_cons, List.not_mem_nil, or_false] at h
  rcases h with h | h | h | h | h
  · split_ifs at h <;> simp_all
  · exact .inr (.inr (Nat.isDigit_of_mem_toDigits (by norm_num) (by norm_num) h))
  · exact .inr (.inl h)
  · rw [h]
    exact .inr (.inr (digitChar_isDigit (by omega)))
  · rw [h]
    exact .inr (.inr (digitChar_isDigit (by omega)))

theorem fmtBody_free (x : ℝ) : ' ' ∉ fmtBody x ∧ '_' ∉ fmtBody x := by
  constructor <;> intro h <;> rcases fmtBody_chars h with h | h | h <;> first | (exact absurd h (by decide))

theorem fmt52_free (x : ℝ) : '_' ∉ fmt52 x := by
  intro h
  have h : '_' ∈ List.leftpad 5 ' ' (fmtBody x) := h
  rw [List.leftpad] at h
  rcases List.mem_append.1 h with h | h
  · exact absurd (List.eq_of_mem_replicate h) (by decide)
  · exact (fmtBody_free x).2 h

theorem fmtBody_of_fmt52 {x y : ℝ} (h : fmt52 x = fmt52 y) : fmtBody x = fmtBody y := by
  have h : List.leftpad 5 ' ' (fmtBody x) = List.leftpad 5 ' ' (fmtBody y) := h
  have key : ∀ z, (List.leftpad 5 ' ' (fmtBody z)).filter (fun c => decide (c ≠ ' ')) = fmtBody z := by
    intro z
    rw [List.leftpad, List.filter_append]
    have h1 : (List.replicate (5 - (fmtBody z).length) ' ').filter (fun c => decide (c ≠ ' ')) = [] := by
      rw [List.filter_eq_nil_iff]
      intro c hc
      simp [List.eq_of_mem_replicate hc]
    rw [h1, List.nil_append, List.filter_eq_self]
    intro c hc
    have : c ≠ ' ' := fun e => (fmtBody_free z).1 (e ▸ hc)
    simpa using this
  rw [← key x, h, key y]

theorem near_of_round {x y : ℝ} (h : roundHalfEven x = roundHalfEven y) : |x - y| ≤ 1 := by
  have a := isNearestEven_roundHalfEven x
  have b := isNearestEven_roundHalfEven y
  rw [h] at a
  have c : |x - (roundHalfEven y : ℝ)| ≤ 1 / 2 := by rcases a with a | a <;> linarith [a]
  have d : |y - (roundHalfEven y : ℝ)| ≤ 1 / 2 := by rcases b with b | b <;> linarith [b]
  rw [abs_le] at c d ⊢
  constructor <;> linarith [c.1, c.2, d.1, d.2]

theorem round_sign (x : ℝ) : (x < 0 → roundHalfEven x ≤ 0) ∧ (0 ≤ x → 0 ≤ roundHalfEven x) := by
  have a := isNearestEven_roundHalfEven x
  have c : |x - (roundHalfEven x : ℝ)| ≤ 1 / 2 := by rcases a with a | a <;> linarith [a]
  rw [abs_le] at c
  constructor
  · intro h
    have : (roundHalfEven x : ℝ) < 1 := by linarith [c.1]
    have : roundHalfEven x < 1 := by exact_mod_cast this
    omega
  · intro h
    have : (-1 : ℝ) < roundHalfEven x := by linarith [c.2]
    have : (-1 : ℤ) < roundHalfEven x := by exact_mod_cast this
    omega

theorem fmt52_near {x y : ℝ} (h : fmt52 x = fmt52 y) : |x - y| ≤ 1 / 100 := by
  have h := fmtBody_of_fmt52 h
  have sign : ∀ {z : ℝ} {s : PyStr}, (∀ c ∈ s, c.isDigit) → s ≠ [] → ∀ t u : PyStr, s ++ t ≠ ['-'] ++ u := by
    intro _ s hs hne t u e
    cases s with
    | nil => exact hne rfl
    | cons c s =>
      have : c = '-' := by
        have := congrArg List.head? e
        simpa using this
      exact (digit_char (hs c (by simp))).2.2.1 this
  have core : ∀ {n m : ℕ}, Nat.toDigits 10 (n / 100) ++ '.' :: [(n % 100 / 10).digitChar, (n % 10).digitChar] =
      Nat.toDigits 10 (m / 100) ++ '.' :: [(m % 100 / 10).digitChar, (m % 10).digitChar] → n = m := by
    intro n m e
    have hfree : ∀ k, '.' ∉ Nat.toDigits 10 k := fun k hk => (digit_char (Nat.isDigit_of_mem_toDigits (by norm_num) (by norm_num) hk)).2.2.2 rfl
    have hfree2 : '.' ∉ [(n % 100 / 10).digitChar, (n % 10).digitChar] := by
      intro hk
      simp only [List.mem_cons, List.not_mem_nil, or_false] at hk
      rcases hk with hk | hk
      · exact (digit_char (digitChar_isDigit (n := n % 100 / 10) (by omega))).2.2.2 hk.symm
      · exact (digit_char (digitChar_isDigit (n := n % 10) (by omega))).2.2.2 hk.symm
    obtain ⟨e1, _, e2⟩ := (List.append_cons_inj_of_notMem (hfree _) hfree2).1 e
    have e1 := toDigits_injective e1
    simp only [List.cons.injEq, and_true] at e2
    have e3 := digitChar_inj_ten (by omega) (by omega) e2.1
    have e4 := digitChar_inj_ten (by omega) (by omega) e2.2
    omega
  have hdig : ∀ k, (∀ c ∈ Nat.toDigits 10 k, c.isDigit) ∧ Nat.toDigits 10 k ≠ [] := by
    intro k
    refine ⟨fun c hc => Nat.isDigit_of_mem_toDigits (by norm_num) (by norm_num) hc, ?_⟩
    rw [Nat.toDigits_eq_if (by norm_num)]
    split <;> simp
  have hr : roundHalfEven (100 * x) = roundHalfEven (100 * y) := by
    unfold fmtBody at h
    simp only at h
    by_cases hx : x < 0 <;> by_cases hy : y < 0
    · rw [if_pos hx, if_pos hy] at h
      have := core (List.append_cancel_left h)
      have a := (round_sign (100 * x)).1 (by linarith)
      have b := (round_sign (100 * y)).1 (by linarith)
      omega
    · rw [if_pos hx, if_neg hy, List.nil_append] at h
      exact absurd h.symm (sign (z := 0) (hdig _).1 (hdig _).2 _ _)
    · rw [if_neg hx, if_pos hy, List.nil_append] at h
      exact absurd h (sign (z := 0) (hdig _).1 (hdig _).2 _ _)
    · rw [if_neg hx, if_neg hy, List.nil_append, List.nil_append] at h
      have := core h
      have a := (round_sign (100 * x)).2 (by linarith)
      have b := (round_sign (100 * y)).2 (by linarith)
      omega
  have := near_of_round hr
  rw [← mul_sub, abs_mul, abs_of_pos (by norm_num : (0 : ℝ) < 100)] at this
  linarith

theorem centreName_near {x y x' y' : ℝ} (h : centreName x y = centreName x' y') : |x - x'| ≤ 1 / 100 ∧ |y - y'| ≤ 1 / 100 := by
  unfold centreName at h
  simp only [List.append_assoc] at h
  have h := List.append_cancel_left h
  have e0 : "_ycenter_".toList = '_' :: "ycenter_".toList := rfl
  rw [e0, List.cons_append, List.cons_append] at h
  have split : ∀ {a b s t : PyStr}, '_' ∉ a → '_' ∉ b → a ++ '_' :: s = b ++ '_' :: t → a = b ∧ s = t := by
    intro a b s t ha hb e
    induction a generalizing b with
    | nil =>
      cases b with
      | nil => exact ⟨rfl, by simpa using e⟩
      | cons c b =>
        simp only [List.nil_append, List.cons_append, List.cons.injEq] at e
        exact absurd (by rw [← e.1]; simp) hb
    | cons c a ih =>
      cases b with
      | nil =>
        simp only [List.nil_append, List.cons_append, List.cons.injEq] at e
        exact absurd (by rw [e.1]; simp) ha
      | cons c' b =>
        simp only [List.cons_append, List.cons.injEq] at e
        obtain ⟨e1, e2⟩ := ih (fun hm => ha (by simp [hm])) (fun hm => hb (by simp [hm])) e.2
        exact ⟨by rw [e.1, e1], e2⟩
  obtain ⟨e1, e2⟩ := split (fmt52_free _) (fmt52_free _) h
  have e2 := List.append_cancel_left e2
  exact ⟨fmt52_near e1, fmt52_near (List.append_cancel_right e2)⟩

theorem mem_rangeList_shift {range step : ℤ} (hs : 0 < step) (x : ℤ) : x ∈ rangeList (-range) (range + step) step ↔ IsShift range step x := by
  unfold rangeList rangeLen IsShift
  rw [if_pos hs, List.mem_map]
  have key : ∀ k : ℕ, k < ((range + step - -range + step - 1) / step).toNat ↔ -range + k * step < range + step := by
    intro k
    rw [Int.lt_toNat, Int.lt_iff_add_one_le, Int.le_ediv_iff_mul_le hs]
    constructor <;> intro h <;> linarith
  constructor
  · rintro ⟨k, hk, rfl⟩
    exact ⟨k, rfl, (key k).1 (List.mem_range.1 hk)⟩
  · rintro ⟨k, rfl, hk⟩
    exact ⟨k, List.mem_range.2 ((key k).2 hk), rfl⟩

theorem rangeList_nodup {a b step : ℤ} (hs : 0 < step) : (rangeList a b step).Nodup := by
  unfold rangeList
  refine List.Nodup.map ?_ List.nodup_range
  intro k l h
  simp only at h
  have : (k : ℤ) * step = l * step := by linarith
  exact_mod_cast mul_right_cancel₀ hs.ne' this

end Discorpy
