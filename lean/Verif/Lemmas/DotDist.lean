import Verif.Lemmas.Dots
import Verif.Lemmas.Median
import Mathlib.Algebra.BigOperators.Intervals
import Mathlib.Data.List.Sort

/-! # Lemmas about sums and distances of dots -/

namespace Discorpy

open Spec

theorem flat_sum (m : Mat ℝ) : m.flat.sum = ∑ i ∈ Finset.range m.height, ∑ j ∈ Finset.range m.width, m.get i j := by
  unfold Mat.flat
  rw [List.flatMap_def, List.sum_flatten, List.map_map]
  rfl

theorem box_inside {m : Mat ℤ} {p : Pix} (hp : p ∈ dotReps m) :
    (boundingBox (dotPixels m p)).y0 < (boundingBox (dotPixels m p)).y1 ∧ (boundingBox (dotPixels m p)).y1 ≤ m.height ∧
    (boundingBox (dotPixels m p)).x0 < (boundingBox (dotPixels m p)).x1 ∧ (boundingBox (dotPixels m p)).x1 ≤ m.width := by
  have hin := dotBox_has hp
  have hpl := (mem_dotReps.1 hp).1
  have hpp : p ∈ dotSet m p := SameDot.refl hpl
  have h0 := (hin p.1 p.2).2 ⟨⟨p, hpp, le_rfl⟩, ⟨p, hpp, le_rfl⟩, ⟨p, hpp, le_rfl⟩, ⟨p, hpp, le_rfl⟩⟩
  generalize boundingBox (dotPixels m p) = b at *
  obtain ⟨h1, h2, h3, h4⟩ := h0
  obtain ⟨_, ⟨q, hq, hq1⟩, _⟩ := (hin (b.y1 - 1) p.2).1 ⟨by omega, by omega, h3, h4⟩
  obtain ⟨_, _, _, ⟨r, hr, hr1⟩⟩ := (hin p.1 (b.x1 - 1)).1 ⟨h1, h2, by omega, by omega⟩
  have a := (SameDot.lit hq).1
  have c := (SameDot.lit hr).2.1
  omega

theorem sub_flat_sum {m : Mat ℝ} {m' : Mat ℤ} (hh : m.height = m'.height) (hw : m.width = m'.width) {p : Pix}
    (hp : p ∈ dotReps m') : (m.sub (boundingBox (dotPixels m' p))).flat.sum = boxSum m (dotSet m' p) := by
  classical
  obtain ⟨b1, b2, b3, b4⟩ := box_inside hp
  have hin := dotBox_has hp
  generalize boundingBox (dotPixels m' p) = b at *
  rw [flat_sum]
  have e : ((Finset.range m.height ×ˢ Finset.range m.width).filter fun q : ℕ × ℕ => InBox (dotSet m' p) q.1 q.2) =
      Finset.Ico b.y0 b.y1 ×ˢ Finset.Ico b.x0 b.x1 := by
    ext ⟨i, j⟩
    simp only [Finset.mem_filter, Finset.mem_product, Finset.mem_range, Finset.mem_Ico, ← hin]
    unfold Box.Has
    constructor
    · rintro ⟨_, h⟩; exact ⟨⟨h.1, h.2.1⟩, h.2.2⟩
    · rintro ⟨h, h'⟩; exact ⟨⟨by omega, by omega⟩, h.1, h.2, h'⟩
  unfold boxSum
  rw [e, Finset.sum_product, Finset.sum_Ico_eq_sum_range]
  simp only [Mat.sub]
  rw [min_eq_left (by omega), min_eq_left (by omega)]
  refine Finset.sum_congr rfl fun i _ => ?_
  rw [Finset.sum_Ico_eq_sum_range]

theorem dotPixels_sum {m : Mat ℤ} (p : Pix) (f : Pix → ℝ) :
    ((dotPixels m p).map f).sum =
      ∑ q ∈ (open Classical in (Finset.range m.height ×ˢ Finset.range m.width).filter fun q => q ∈ dotSet m p), f q := by
  classical
  rw [← List.sum_toFinset f (dotPixels_nodup m p)]
  refine Finset.sum_congr ?_ fun _ _ => rfl
  ext q
  rw [List.mem_toFinset, mem_dotPixels, Finset.mem_filter, Finset.mem_product, Finset.mem_range, Finset.mem_range]
  exact ⟨fun h => ⟨⟨(SameDot.lit h).1, (SameDot.lit h).2.1⟩, h⟩, fun h => h.2⟩

theorem isCentre_iff {m : Mat ℤ} {p : Pix} {c : Pt} :
    centerOfMass m (dotPixels m p) = .ok c ↔ IsCentre m (dotSet m p) c := by
  unfold centerOfMass IsCentre
  simp only [dotPixels_sum]
  generalize (∑ q ∈ (open Classical in (Finset.range m.height ×ˢ Finset.range m.width).filter fun q => q ∈ dotSet m p),
    (m.get q.1 q.2 : ℝ)) = w
  split_ifs with h
  · simp [h]
  · obtain ⟨y, x⟩ := c
    simp only [Except.ok.injEq, Pt.mk.injEq]
    rw [div_eq_iff h, div_eq_iff h]
    exact ⟨fun e => ⟨h, e.1.symm, e.2.symm⟩, fun e => ⟨e.2.1.symm, e.2.2.symm⟩⟩

theorem Spec.IsCentre.unique {m : Mat ℤ} {D : Set Pix} {c c' : Pt} (h : IsCentre m D c) (h' : IsCentre m D c') : c = c' := by
  obtain ⟨h0, h1, h2⟩ := h
  obtain ⟨_, h1', h2'⟩ := h'
  have a := mul_right_cancel₀ h0 (h1.trans h1'.symm)
  have b := mul_right_cancel₀ h0 (h2.trans h2'.symm)
  exact Pt.ext' a b

/-- Being among the first `k` of a sorted list is having fewer than `k` smaller elements. -/
theorem mem_take_sorted {s : List ℝ} (hs : s.Pairwise (· ≤ ·)) (v : ℝ) (k : ℕ) :
    v ∈ s.take k ↔ v ∈ s ∧ (s.filter fun x => decide (x < v)).length < k := by
  induction s generalizing k with
  | nil => simp
  | cons a t ih =>
    rw [List.pairwise_cons] at hs
    cases k with
    | zero => simp
    | succ k =>
      rw [List.take_succ_cons, List.mem_cons, List.mem_cons, ih hs.2]
      by_cases hva : v = a
      · subst hva
        have : (t.filter fun x => decide (x < v)) = [] := by
          rw [List.filter_eq_nil_iff]
          intro x hx
          simpa using hs.1 x hx
        simp [this]
      · by_cases hvt : v ∈ t
        · have : a < v := lt_of_le_of_ne (hs.1 v hvt) (Ne.symm hva)
          simp [hva, hvt, this]
        · simp [hva, hvt]

theorem mergeSort_cons_zero {l others : List ℝ} (h : l.Perm (0 :: others)) (h0 : ∀ x ∈ others, 0 ≤ x) :
    l.mergeSort (fun a b => decide (a ≤ b)) = 0 :: others.mergeSort (fun a b => decide (a ≤ b)) := by
  have hsort : ∀ l : List ℝ, (l.mergeSort fun a b => decide (a ≤ b)).Pairwise (· ≤ ·) := by
    intro l
    have := List.pairwise_mergeSort (le := fun a b : ℝ => decide (a ≤ b)) (fun a b c => by simpa using le_trans)
      (fun a b => by simpa using le_total a b) l
    exact this.imp fun h => by simpa using h
  refine List.Perm.eq_of_pairwise (le := (· ≤ ·)) (fun a b _ _ h1 h2 => le_antisymm h1 h2) (hsort l) ?_ ?_
  · rw [List.pairwise_cons]
    refine ⟨fun x hx => h0 x ((List.mergeSort_perm _ _).mem_iff.1 hx), hsort _⟩
  · exact (List.mergeSort_perm _ _).trans (h.trans ((List.mergeSort_perm _ _).symm.cons 0))

/-- `np.sort(…)[1:4]` of distances that contain one zero for the point itself: the three smallest others. -/
theorem mem_slice_sorted {l others : List ℝ} (h : l.Perm (0 :: others)) (h0 : ∀ x ∈ others, 0 ≤ x) (v : ℝ) :
    v ∈ npSlice (l.mergeSort fun a b => decide (a ≤ b)) 1 4 ↔
      v ∈ others ∧ (others.filter fun x => decide (x < v)).length < 3 := by
  rw [mergeSort_cons_zero h h0]
  have hp := List.mergeSort_perm others fun a b : ℝ => decide (a ≤ b)
  have hs : (others.mergeSort fun a b => decide (a ≤ b)).Pairwise (· ≤ ·) := by
    have := List.pairwise_mergeSort (le := fun a b : ℝ => decide (a ≤ b)) (fun a b c => by simpa using le_trans)
      (fun a b => by simpa using le_total a b) others
    exact this.imp fun h => by simpa using h
  rw [show npSlice (0 :: others.mergeSort fun a b => decide (a ≤ b)) 1 4 = (others.mergeSort fun a b => decide (a ≤ b)).take 3 from rfl,
    mem_take_sorted hs, hp.mem_iff, (hp.filter _).length_eq]

end Discorpy
