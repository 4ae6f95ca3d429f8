import Verif.Spec.Rounded
import Verif.Lemmas.Post
import Mathlib.Tactic.Linarith
import Mathlib.Tactic.Positivity
import Mathlib.Tactic.Ring
import Mathlib.Tactic.FieldSimp

/-! # Propagation of rounding errors -/

namespace Discorpy

open Spec

/-- `y` is `x` up to `k` roundings, relative to `A`. -/
def Within (u : ℝ) (k : ℕ) (A x y : ℝ) : Prop := |x| ≤ A ∧ |y - x| ≤ ((1 + u) ^ k - 1) * A

variable {u : ℝ}

theorem pow_sub_nonneg (hu : 0 ≤ u) (k : ℕ) : 0 ≤ (1 + u) ^ k - 1 := sub_nonneg.2 (one_le_pow₀ (by linarith))

theorem Within.self (u : ℝ) (x : ℝ) : Within u 0 |x| x x := ⟨le_rfl, by simp⟩

theorem Within.nonneg {k : ℕ} {A x y : ℝ} (h : Within u k A x y) : 0 ≤ A := (abs_nonneg x).trans h.1

theorem Within.abs_le {k : ℕ} {A x y : ℝ} (h : Within u k A x y) : |y| ≤ (1 + u) ^ k * A := by
  have := abs_sub_abs_le_abs_sub y x
  have := h.1
  have := h.2
  linarith

theorem Within.mono (hu : 0 ≤ u) {k l : ℕ} {A B x y : ℝ} (h : Within u k A x y) (hk : k ≤ l) (hA : A ≤ B) : Within u l B x y := by
  refine ⟨h.1.trans hA, h.2.trans ?_⟩
  have h1 : (1 + u) ^ k ≤ (1 + u) ^ l := pow_le_pow_right₀ (by linarith) hk
  have h2 := pow_sub_nonneg hu k
  have h3 := h.nonneg
  exact mul_le_mul (by linarith) hA h3 (by linarith)

theorem Within.mul (hu : 0 ≤ u) {j k : ℕ} {A B x y x' y' : ℝ} (h : Within u j A x y) (h' : Within u k B x' y') : Within u (j + k) (A * B) (x * x') (y * y') := by
  refine ⟨by rw [abs_mul]; exact mul_le_mul h.1 h'.1 (abs_nonneg _) h.nonneg, ?_⟩
  have e : y * y' - x * x' = (y - x) * y' + x * (y' - x') := by ring
  rw [e]
  refine (abs_add_le _ _).trans ?_
  rw [abs_mul, abs_mul]
  have a := mul_le_mul h.2 h'.abs_le (abs_nonneg _) (mul_nonneg (pow_sub_nonneg hu j) h.nonneg)
  have b := mul_le_mul h.1 h'.2 (abs_nonneg _) h.nonneg
  rw [pow_add]
  nlinarith

theorem Within.add {k : ℕ} {A B x y x' y' : ℝ} (h : Within u k A x y) (h' : Within u k B x' y') : Within u k (A + B) (x + x') (y + y') := by
  refine ⟨(abs_add_le _ _).trans (add_le_add h.1 h'.1), ?_⟩
  rw [show y + y' - (x + x') = (y - x) + (y' - x') by ring, mul_add]
  exact (abs_add_le _ _).trans (add_le_add h.2 h'.2)

/-- One more operation with relative error `u`. -/
theorem Within.step (hu : 0 ≤ u) {k : ℕ} {A x y z : ℝ} (h : Within u k A x y) (hz : |z - y| ≤ u * |y|) : Within u (k + 1) A x z := by
  refine ⟨h.1, ?_⟩
  have a := abs_sub_le z y x
  have b := mul_le_mul_of_nonneg_left h.abs_le hu
  have c := h.2
  rw [pow_succ]
  nlinarith

theorem Within.sqrt {k : ℕ} {x y : ℝ} (hx : 0 ≤ x) (hy : 0 ≤ y) (h : Within u k x x y) : Within u k √x √x √y := by
  refine ⟨by rw [abs_of_nonneg (Real.sqrt_nonneg _)], ?_⟩
  rcases hx.eq_or_lt with h0 | h0
  · obtain rfl := h0
    have := h.2
    rw [mul_zero] at this
    have : y = 0 := by linarith [abs_nonpos_iff.1 this]
    simp [this]
  · have hs : 0 < √x := Real.sqrt_pos.2 h0
    have e : (√y - √x) * (√y + √x) = y - x := by
      have := Real.mul_self_sqrt hx
      have := Real.mul_self_sqrt hy
      linarith
    have h1 : |√y - √x| * √x ≤ |y - x| := by
      rw [← e, abs_mul]
      refine mul_le_mul_of_nonneg_left ?_ (abs_nonneg _)
      rw [abs_of_pos (by positivity)]
      linarith [Real.sqrt_nonneg y]
    have h2 := h1.trans h.2
    rw [show ((1 + u) ^ k - 1) * x = (((1 + u) ^ k - 1) * √x) * √x by rw [mul_assoc, Real.mul_self_sqrt hx]] at h2
    exact le_of_mul_le_mul_right h2 hs

theorem Within.pow (hu : 0 ≤ u) {k : ℕ} {A x y : ℝ} (h : Within u k A x y) (i : ℕ) : Within u (k * i) (A ^ i) (x ^ i) (y ^ i) := by
  induction i with
  | zero => simpa using Within.self u 1
  | succ i ih =>
    rw [pow_succ, pow_succ, pow_succ, Nat.mul_succ]
    exact Within.mul hu ih h

theorem fl_nonneg {F : Floats} (hF : IsFloat u F) {x : ℝ} (hx : 0 ≤ x) : 0 ≤ F.fl x := by
  have h := abs_le.1 (hF.fl x)
  rw [abs_of_nonneg hx] at h
  nlinarith [hF.lt_one]

/-- Sums term by term. -/
theorem Within.sum {k : ℕ} {α : Type} (l : List α) (A x y : α → ℝ) (h : ∀ a ∈ l, Within u k (A a) (x a) (y a)) :
    Within u k (l.map A).sum (l.map x).sum (l.map y).sum := by
  induction l with
  | nil => simp [Within]
  | cons a l ih =>
    simp only [List.map_cons, List.sum_cons]
    exact (h a (by simp)).add (ih fun b hb => h b (List.mem_cons_of_mem _ hb))

/-- The sum of `np.sum`. -/
theorem Within.npSum {F : Floats} (hF : IsFloat u F) {k : ℕ} {α : Type} (l : List α) (A x y : α → ℝ) (h : ∀ a ∈ l, Within u k (A a) (x a) (y a)) :
    Within u (k + l.length) (l.map A).sum (l.map x).sum (F.sm (l.map y)) := by
  have h1 := Within.sum l A x y h
  refine ⟨h1.1, ?_⟩
  have h2 := hF.sm (l.map y)
  rw [List.length_map, List.map_map] at h2
  have h3 : (l.map ((fun x => |x|) ∘ y)).sum ≤ (1 + u) ^ k * (l.map A).sum := by
    clear h1 h2
    induction l with
    | nil => simp
    | cons a l ih =>
      simp only [List.map_cons, List.sum_cons, mul_add]
      exact add_le_add (h a (by simp)).abs_le (ih fun b hb => h b (List.mem_cons_of_mem _ hb))
  have h4 := mul_le_mul_of_nonneg_left h3 (pow_sub_nonneg hF.nonneg l.length)
  have h5 := abs_sub_le (F.sm (l.map y)) (l.map y).sum (l.map x).sum
  have h6 := h1.2
  rw [pow_add]
  nlinarith

theorem radial_absModel (f : List ℝ) (r : ℝ) : absModel f r = ((f.zipIdx).map fun p => |p.1| * r ^ p.2).sum := by
  rw [absModel, ← polySum_eq_radial, polySum, List.mapIdx_eq_zipIdx_map, List.zipIdx_map, List.map_map]
  rfl

/-- The value of the model, computed at a radius known up to five roundings. -/
theorem within_poly {F : Floats} (hF : IsFloat u F) (f : List ℝ) {r r' : ℝ} (hr : 0 ≤ r) (hr' : 0 ≤ r') (h : Within u 5 r r r') :
    Within u (6 * f.length) (absModel f r) (polySum f r) (polySumFl F f r') := by
  rw [radial_absModel, polySum, polySumFl, List.mapIdx_eq_zipIdx_map, List.mapIdx_eq_zipIdx_map]
  have := Within.npSum hF (k := 5 * f.length) f.zipIdx (fun p => |p.1| * r ^ p.2) (fun p => p.1 * r ^ p.2) (fun p => F.fl (p.1 * F.pw r' p.2)) ?_
  · rw [List.length_zipIdx, show 5 * f.length + f.length = 6 * f.length by ring] at this
    exact this
  · rintro ⟨a, i⟩ hp
    have hi := List.snd_lt_of_mem_zipIdx hp
    simp only at hi ⊢
    have h1 := ((h.pow hF.nonneg i).step hF.nonneg (z := F.pw r' i) (by
      have := hF.pw r' i hr'
      rwa [abs_of_nonneg (pow_nonneg hr' i)]))
    have h2 := ((Within.self u a).mul hF.nonneg h1).step hF.nonneg (hF.fl _)
    exact h2.mono hF.nonneg (by omega) le_rfl

/-- The radius has five roundings. -/
theorem within_radius {F : Floats} (hF : IsFloat u F) {a b a' b' : ℝ} (ha : Within u 1 |a| a a') (hb : Within u 1 |b| b b') :
    0 ≤ F.fl √(F.fl (F.fl (a' * a') + F.fl (b' * b'))) ∧
      Within u 5 √(a * a + b * b) √(a * a + b * b) (F.fl √(F.fl (F.fl (a' * a') + F.fl (b' * b')))) := by
  have h1 := (ha.mul hF.nonneg ha).step hF.nonneg (hF.fl _)
  have h2 := (hb.mul hF.nonneg hb).step hF.nonneg (hF.fl _)
  rw [abs_mul_abs_self] at h1 h2
  have n1 := fl_nonneg hF (mul_self_nonneg a')
  have n2 := fl_nonneg hF (mul_self_nonneg b')
  have h3 := (h1.add h2).step hF.nonneg (hF.fl _)
  have n3 := fl_nonneg hF (add_nonneg n1 n2)
  have h4 := (Within.sqrt (add_nonneg (mul_self_nonneg _) (mul_self_nonneg _)) n3 h3).step hF.nonneg (hF.fl _)
  exact ⟨fl_nonneg hF (Real.sqrt_nonneg _), h4⟩

theorem within_coord {F : Floats} (hF : IsFloat u F) (f : List ℝ) {c a a' r r' : ℝ} (hr : 0 ≤ r) (hr' : 0 ≤ r') (h : Within u 5 r r r')
    (ha : Within u 1 |a| a a') :
    Within u (6 * f.length + 3) (|c| + absModel f r * |a|) (c + polySum f r * a) (F.fl (c + F.fl (polySumFl F f r' * a'))) := by
  have h1 := ((within_poly hF f hr hr' h).mul hF.nonneg ha).step hF.nonneg (hF.fl _)
  exact (((Within.self u c).mono hF.nonneg (Nat.zero_le _) le_rfl).add h1).step hF.nonneg (hF.fl _)

end Discorpy
