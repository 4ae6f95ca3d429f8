import Verif.Props.C90

/-! # Lemmas: noise and the median filter -/

namespace Discorpy

open Spec

theorem countP_forall₂ {p q : ℝ → Bool} {R : ℝ → ℝ → Prop} (h : ∀ x y, R x y → p x = true → q y = true) {l l' : List ℝ}
    (hl : List.Forall₂ R l l') : l.countP p ≤ l'.countP q := by
  induction hl with
  | nil => simp
  | cons hxy _ ih =>
    rename_i x y l l' _
    rw [List.countP_cons, List.countP_cons]
    have := h x y hxy
    by_cases hp : p x = true
    · simp [hp, this hp, ih]
    · simp only [hp]
      split_ifs <;> simp_all <;> omega

theorem isRank_shift {l l' : List ℝ} {k : ℕ} {v v' e : ℝ} (hl : List.Forall₂ (fun x y => |y - x| ≤ e) l l') (h : IsRank l k v) (h' : IsRank l' k v') :
    v' ≤ v + e := by
  classical
  by_contra hc
  rw [not_le] at hc
  have := countP_forall₂ (p := fun x => decide (x ≤ v)) (q := fun y => decide (y < v')) (fun x y hxy hx => by
    have h1 := (abs_le.1 hxy).2
    have h2 : x ≤ v := by simpa using hx
    simpa using (by linarith : y < v')) hl
  obtain ⟨_, _, h2⟩ := h
  obtain ⟨_, h3, _⟩ := h'
  exact absurd (lt_of_lt_of_le h2 (this.trans h3)) (lt_irrefl _)

theorem isRank_close {l l' : List ℝ} {k : ℕ} {v v' e : ℝ} (hl : List.Forall₂ (fun x y => |y - x| ≤ e) l l') (h : IsRank l k v) (h' : IsRank l' k v') :
    |v' - v| ≤ e := by
  have h1 := isRank_shift hl h h'
  have hl' : List.Forall₂ (fun x y => |y - x| ≤ e) l' l := (List.Forall₂.flip hl).imp fun x y hxy => by rwa [abs_sub_comm]
  have h2 := isRank_shift hl' h' h
  exact abs_le.2 ⟨by linarith, by linarith⟩

/-- The median filter does not enlarge noise. -/
theorem medianFilter_close {m c : Mat ℝ} (eh : m.height = c.height) (ew : m.width = c.width) {e : ℝ}
    (h : ∀ i < c.height, ∀ j < c.width, |m.get i j - c.get i j| ≤ e) {i j : ℕ} (hi : i < c.height) (hj : j < c.width) :
    |(medianFilter { m with get := fun i j => |m.get i j| } 2 2).get i j - (medianFilter { c with get := fun i j => |c.get i j| } 2 2).get i j| ≤ e := by
  have hm := medianFilter_two { m with get := fun i j => |m.get i j| } (i := i) (j := j) (by show i < m.height; omega) (by show j < m.width; omega)
  have hc := medianFilter_two { c with get := fun i j => |c.get i j| } (i := i) (j := j) hi hj
  have key : ∀ k < c.height, ∀ l < c.width, |(|m.get k l|) - (|c.get k l|)| ≤ e := fun k hk l hl => (abs_abs_sub_abs_le _ _).trans (h k hk l hl)
  refine isRank_close ?_ hc hm
  exact .cons (key _ (by omega) _ (by omega)) (.cons (key _ (by omega) _ hj) (.cons (key _ hi _ (by omega)) (.cons (key _ hi _ hj) .nil)))

/-- Each pixel of the filtered image is the absolute value of a pixel of the image. -/
theorem medianFilter_from {m : Mat ℝ} {i j : ℕ} (hi : i < m.height) (hj : j < m.width) :
    ∃ k l, k < m.height ∧ l < m.width ∧ (medianFilter { m with get := fun i j => |m.get i j| } 2 2).get i j = |m.get k l| := by
  have hr := (medianFilter_two { m with get := fun i j => |m.get i j| } hi hj).1
  simp only [List.mem_cons, List.not_mem_nil, or_false] at hr
  rcases hr with hr | hr | hr | hr
  · exact ⟨_, _, by omega, by omega, hr⟩
  · exact ⟨_, _, by omega, hj, hr⟩
  · exact ⟨_, _, hi, by omega, hr⟩
  · exact ⟨_, _, hi, hj, hr⟩

end Discorpy
