import Verif.Spec.InnerMask
import Verif.Lemmas.Binary
import Verif.Lemmas.Dots
import Verif.Props.C35
import Verif.Props.C41
import Verif.Props.C82

/-! # Helper lemmas: the dots in the middle of a binary image -/

namespace Discorpy

open Spec

/-- The mask of a binary image. -/
theorem innerMask_ok {m : Mat ℝ} (hb : IsBinary m) (h0 : 0 < m.height) (h1 : 0 < m.width) (ratio : ℝ) :
    ∃ roi mask, innerMask m ratio = .ok mask ∧ IsMiddlePart m ratio roi ∧ IsInnerMask roi mask := by
  obtain ⟨a, b, hp, e1, e2, hr, hh, hw⟩ := C37_roi m ratio
  set roi := selectRoi m ratio false with hroi
  have hrb : ∀ p ∈ frame roi.height roi.width, roi.get p.1 p.2 = 0 ∨ roi.get p.1 p.2 = 1 := by
    rintro ⟨i, j⟩ ⟨hi, hj⟩
    rw [hp.get]
    exact hb _ (by have := hp.rows; simp only at hi; omega) _ (by have := hp.cols; simp only at hj; omega)
  have hi : Indicates roi {q ∈ frame roi.height roi.width | roi.get q.1 q.2 = 1} := by
    intro p hpf
    rcases hrb p hpf with h | h
    · exact Or.inr ⟨fun hc => by have := hc.2; rw [h] at this; norm_num at this, h⟩
    · exact Or.inl ⟨⟨hpf, h⟩, h⟩
  obtain ⟨c, hc, ch, cw, ci⟩ := clearBorder_indicates hi (fun p hp => hp.1) (hh h0).ne' (hw h1).ne'
  refine ⟨roi, int16Mat c, ?_, ⟨a, b, hp, e1, e2, hr⟩, ch, cw, fun p hpf => ⟨fun hin => ?_, fun hout => ?_⟩⟩
  · unfold innerMask
    rw [← hroi, hc, ok_bind]
  · have := (ci.one (by rw [ch, cw]; exact hpf)).2 hin
    simp only [int16Mat]
    rw [this]
    unfold truncInt
    simp only [zero_le_one, if_true, Int.floor_one]
    decide
  · rcases ci p (by rw [ch, cw]; exact hpf) with h | h
    · exact absurd h.1 hout
    · simp only [int16Mat]
      rw [h.2]
      unfold truncInt
      simp only [le_refl, if_true, Int.floor_zero]
      decide

theorem innerMask_one {roi : Mat ℝ} {mask : Mat ℤ} (h : IsInnerMask roi mask) {p : ℕ × ℕ} (hp : Lit mask p) :
    mask.get p.1 p.2 = 1 := by
  obtain ⟨h1, h2, h3⟩ := h
  have hf : p ∈ frame roi.height roi.width := ⟨by rw [← h1]; exact hp.1, by rw [← h2]; exact hp.2.1⟩
  by_cases hin : p ∈ awayFromRim roi.height roi.width {q ∈ frame roi.height roi.width | roi.get q.1 q.2 = 1}
  · exact (h3 p hf).1 hin
  · exact absurd ((h3 p hf).2 hin) hp.2.2

/-- The centres of the dots of such a mask. -/
theorem innerMask_centres {roi : Mat ℝ} {mask : Mat ℤ} (h : IsInnerMask roi mask) :
    ∃ pts, dotCentres mask = .ok pts ∧ MiddlesOf mask pts := by
  unfold dotCentres
  refine middles_of (m := mask) fun p hp => ?_
  rw [← dotPixels_set]
  refine middle_real (m := realMat mask) (dotPixels_ne hp) (dotPixels_nodup _ _) fun q hq => ?_
  have := innerMask_one h (SameDot.lit (mem_dotPixels.1 hq))
  simp only [realMat]
  exact_mod_cast this

/-- Pixels without neighbours are the dots of the image. -/
theorem isDot_single {m : Mat ℤ} (h : ∀ p q, Lit m p → Lit m q → ¬ ShareEdge p q) {D : Set (ℕ × ℕ)} :
    IsDot m D ↔ ∃ p, Lit m p ∧ D = {p} := by
  have hc : ∀ p, Lit m p → ClosedSet m {p} := by
    intro p hp q hq r hr hs
    rw [Set.mem_singleton_iff] at hq
    subst hq
    exact absurd hs (h _ _ hp hr)
  constructor
  · intro hD
    obtain ⟨p, hp⟩ := hD.nonempty
    exact ⟨p, hD.lit p hp, (hD.minimal {p} (by simpa using hp) ⟨p, rfl⟩ (hc p (hD.lit p hp))).symm⟩
  · rintro ⟨p, hp, rfl⟩
    refine ⟨⟨p, rfl⟩, fun q hq => by rw [Set.mem_singleton_iff] at hq; rwa [hq], hc p hp, fun E hE hn _ => ?_⟩
    exact (Set.subset_singleton_iff_eq.1 hE).resolve_left hn.ne_empty

theorem awayFromRim_single {h w : ℕ} {A : Set (ℕ × ℕ)} (hA : ∀ p ∈ A, ∀ q ∈ A, ¬ CornerTouch p q)
    (hr : ∀ p ∈ A, p ∉ rim h w) : awayFromRim h w A = A := by
  ext p
  refine ⟨fun hp => hp.1, fun hp => ⟨hp, fun q hq hj => ?_⟩⟩
  have := hj.2 {p} rfl (by
    intro a ha b hb ht
    rw [Set.mem_singleton_iff] at ha
    subst ha
    exact absurd ht (hA _ hp _ hb))
  rw [Set.mem_singleton_iff] at this
  subst this
  exact hr _ hp hq

theorem isMiddle_single {p : ℕ × ℕ} {c : Pt} : IsMiddle {p} c ↔ c = ⟨p.1, p.2⟩ := by
  constructor
  · rintro ⟨F, _, hF, hy, hx⟩
    have : F = {p} := by
      apply Finset.coe_injective
      rw [hF]; simp
    subst this
    simp at hx hy
    cases c
    simp_all
  · rintro rfl
    exact ⟨{p}, by simp, by simp, by simp, by simp⟩

/-- The centres of pixels without neighbours are their positions. -/
theorem middles_single {m : Mat ℤ} (h : ∀ p q, Lit m p → Lit m q → ¬ ShareEdge p q) {pts : List Pt} (hm : MiddlesOf m pts) (c : Pt) :
    c ∈ pts ↔ ∃ p, Lit m p ∧ c = ⟨p.1, p.2⟩ := by
  obtain ⟨dots, _, hd, hf⟩ := hm
  have key : c ∈ pts ↔ ∃ D ∈ dots, IsMiddle D c := by
    constructor
    · intro hc
      exact forall₂_mem_right hf hc
    · rintro ⟨D, hD, hmid⟩
      obtain ⟨c', hc', h'⟩ := forall₂_mem_left hf hD
      obtain ⟨p, _, rfl⟩ := (isDot_single h).1 ((hd D).1 hD)
      rw [isMiddle_single] at hmid h'
      rw [hmid, ← h']; exact hc'
  rw [key]
  constructor
  · rintro ⟨D, hD, hmid⟩
    obtain ⟨p, hp, rfl⟩ := (isDot_single h).1 ((hd D).1 hD)
    exact ⟨p, hp, isMiddle_single.1 hmid⟩
  · rintro ⟨p, hp, rfl⟩
    exact ⟨{p}, (hd _).2 ((isDot_single h).2 ⟨p, hp, rfl⟩), isMiddle_single.2 rfl⟩

end Discorpy
