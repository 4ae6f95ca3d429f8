import Verif.Model.Dots
import Verif.Spec.Dots
import Verif.Lemmas.Except
import Verif.Lemmas.Scatter
import Mathlib.Tactic.Linarith

/-! # Lemmas about connected components -/

namespace Discorpy

open Spec

theorem lit_iff {m : Mat ℤ} {p : Pix} : Lit m p ↔ IsDotPix m p := Iff.rfl

theorem shareEdge_iff {p q : Pix} : ShareEdge p q ↔ Adj4 p q := by
  obtain ⟨a, b⟩ := p
  obtain ⟨c, d⟩ := q
  simp only [ShareEdge, Adj4, Int.abs_eq_natAbs]
  omega

/-- The component of a pixel. -/
def dotSet (m : Mat ℤ) (p : Pix) : Set Pix := {q | SameDot m p q}

theorem Adj4.symm {p q : Pix} (h : Adj4 p q) : Adj4 q p := by
  unfold Adj4 at *; omega

theorem SameDot.lit {m : Mat ℤ} {p q : Pix} (h : SameDot m p q) : IsDotPix m q := by
  obtain ⟨hp, h⟩ := h
  cases h with
  | refl => exact hp
  | tail _ h => exact h.2

theorem SameDot.refl {m : Mat ℤ} {p : Pix} (h : IsDotPix m p) : SameDot m p p := ⟨h, .refl⟩

theorem SameDot.step {m : Mat ℤ} {p q r : Pix} (h : SameDot m p q) (ha : Adj4 q r) (hr : IsDotPix m r) : SameDot m p r :=
  ⟨h.1, h.2.tail ⟨ha, hr⟩⟩

theorem SameDot.trans {m : Mat ℤ} {p q r : Pix} (h : SameDot m p q) (h' : SameDot m q r) : SameDot m p r :=
  ⟨h.1, h.2.trans h'.2⟩

theorem SameDot.symm {m : Mat ℤ} {p q : Pix} (h : SameDot m p q) : SameDot m q p := by
  obtain ⟨hp, h⟩ := h
  induction h with
  | refl => exact .refl hp
  | @tail b c hb hbc ih =>
    have hb' : SameDot m p b := ⟨hp, hb⟩
    exact ((SameDot.refl hbc.2).step hbc.1.symm hb'.lit).trans ih

theorem isDot_dotSet {m : Mat ℤ} {p : Pix} (hp : IsDotPix m p) : IsDot m (dotSet m p) where
  nonempty := ⟨p, .refl hp⟩
  lit := fun q hq => hq.lit
  closed := fun q hq r hr he => SameDot.step hq (shareEdge_iff.1 he) hr
  minimal := by
    intro E hE ⟨e, he⟩ hc
    refine Set.Subset.antisymm hE fun q hq => ?_
    have h1 : SameDot m e q := (hE he).symm.trans hq
    obtain ⟨_, h1⟩ := h1
    clear hq
    induction h1 with
    | refl => exact he
    | tail _ h ih => exact hc _ ih _ h.2 (shareEdge_iff.2 h.1)

theorem isDot_eq {m : Mat ℤ} {D : Set Pix} (hD : IsDot m D) {p : Pix} (hp : p ∈ D) : D = dotSet m p := by
  have hpl := hD.lit p hp
  refine (hD.minimal (dotSet m p) ?_ ⟨p, .refl hpl⟩ (isDot_dotSet hpl).closed).symm
  rintro q ⟨_, hq⟩
  induction hq with
  | refl => exact hp
  | tail _ h ih => exact hD.closed _ ih _ h.2 (shareEdge_iff.2 h.1)

theorem pixels_nodup (h w : ℕ) : (pixels h w).Nodup := by
  unfold pixels
  rw [List.nodup_flatMap]
  constructor
  · intro i _
    exact List.nodup_range.map fun a b e => by simpa using e
  · refine List.Pairwise.imp ?_ (List.nodup_range (n := h))
    intro a b hab
    simp only [Function.onFun, List.disjoint_left, List.mem_map, not_exists, not_and]
    rintro x ⟨j, _, rfl⟩ k _ e
    exact hab (by simpa using (congrArg Prod.fst e).symm)

theorem RasterLe.antisymm {p q : Pix} (h : RasterLe p q) (h' : RasterLe q p) : p = q := by
  obtain ⟨a, b⟩ := p
  obtain ⟨c, d⟩ := q
  unfold RasterLe at *
  simp only [Prod.mk.injEq] at *
  omega

theorem RasterLe.total (p q : Pix) : RasterLe p q ∨ RasterLe q p := by
  unfold RasterLe; omega

theorem RasterLe.trans {p q r : Pix} (h : RasterLe p q) (h' : RasterLe q r) : RasterLe p r := by
  unfold RasterLe at *; omega

theorem mem_dotReps {m : Mat ℤ} {p : Pix} : p ∈ dotReps m ↔ IsDotPix m p ∧ ∀ q, SameDot m p q → RasterLe p q := by
  classical
  unfold dotReps
  rw [List.mem_filter, decide_eq_true_eq, mem_pixels]
  exact ⟨fun h => h.2, fun h => ⟨⟨h.1.1, h.1.2.1⟩, h⟩⟩

theorem mem_dotPixels {m : Mat ℤ} {p q : Pix} : q ∈ dotPixels m p ↔ q ∈ dotSet m p := by
  classical
  unfold dotPixels
  rw [List.mem_filter, decide_eq_true_eq, mem_pixels]
  exact ⟨fun h => h.2, fun h => ⟨⟨h.lit.1, h.lit.2.1⟩, h⟩⟩

theorem dotReps_nodup (m : Mat ℤ) : (dotReps m).Nodup := (pixels_nodup _ _).filter _

theorem dotPixels_nodup (m : Mat ℤ) (p : Pix) : (dotPixels m p).Nodup := (pixels_nodup _ _).filter _

theorem exists_raster_min : ∀ l : List Pix, l ≠ [] → ∃ p ∈ l, ∀ q ∈ l, RasterLe p q
  | [], h => absurd rfl h
  | [p], _ => ⟨p, by simp, by simp [RasterLe]⟩
  | p :: q :: l, _ => by
    obtain ⟨r, hr, hmin⟩ := exists_raster_min (q :: l) (by simp)
    rcases RasterLe.total p r with h | h
    · refine ⟨p, by simp, fun s hs => ?_⟩
      rcases List.mem_cons.1 hs with rfl | hs
      · unfold RasterLe; omega
      · exact h.trans (hmin s hs)
    · refine ⟨r, List.mem_cons_of_mem _ hr, fun s hs => ?_⟩
      rcases List.mem_cons.1 hs with rfl | hs
      · exact h
      · exact hmin s hs

/-- Every dot is the component of exactly one representative. -/
theorem isDot_iff {m : Mat ℤ} {D : Set Pix} : IsDot m D ↔ ∃ p ∈ dotReps m, D = dotSet m p := by
  constructor
  · intro hD
    obtain ⟨p, hp⟩ := hD.nonempty
    have e := isDot_eq hD hp
    obtain ⟨r, hr, hmin⟩ := exists_raster_min (dotPixels m p)
      (List.ne_nil_of_mem (mem_dotPixels.2 (SameDot.refl (hD.lit p hp))))
    have hrD : r ∈ D := by rw [e]; exact mem_dotPixels.1 hr
    have e' := isDot_eq hD hrD
    refine ⟨r, mem_dotReps.2 ⟨hD.lit r hrD, fun q hq => hmin q ?_⟩, e'⟩
    rw [mem_dotPixels, ← e, e']
    exact hq
  · rintro ⟨p, hp, rfl⟩
    exact isDot_dotSet (mem_dotReps.1 hp).1

theorem dotSet_inj {m : Mat ℤ} {p q : Pix} (hp : p ∈ dotReps m) (hq : q ∈ dotReps m) (h : dotSet m p = dotSet m q) : p = q := by
  rw [mem_dotReps] at hp hq
  have h1 : q ∈ dotSet m p := by rw [h]; exact SameDot.refl hq.1
  have h2 : p ∈ dotSet m q := by rw [← h]; exact SameDot.refl hp.1
  exact (hp.2 q h1).antisymm (hq.2 p h2)

theorem pixels_scanned (h w : ℕ) : (pixels h w).Pairwise fun p q => p.1 < q.1 ∨ p.1 = q.1 ∧ p.2 < q.2 := by
  unfold pixels
  rw [List.pairwise_flatMap]
  constructor
  · intro i _
    rw [List.pairwise_map]
    exact List.pairwise_lt_range.imp fun h => .inr ⟨rfl, h⟩
  · refine List.pairwise_lt_range.imp fun {a b} hab => ?_
    intro p hp q hq
    obtain ⟨_, _, rfl⟩ := List.mem_map.1 hp
    obtain ⟨_, _, rfl⟩ := List.mem_map.1 hq
    exact .inl hab

theorem dots_scanned (m : Mat ℤ) : ((dotReps m).map (dotSet m)).Pairwise ScannedBefore := by
  rw [List.pairwise_map]
  have h : (dotReps m).Pairwise fun p q => p.1 < q.1 ∨ p.1 = q.1 ∧ p.2 < q.2 := (pixels_scanned _ _).filter _
  refine h.imp_of_mem fun {p q} hp hq hlt => ⟨p, q, ?_, ?_, hlt⟩
  · exact ⟨.refl (mem_dotReps.1 hp).1, (mem_dotReps.1 hp).2⟩
  · exact ⟨.refl (mem_dotReps.1 hq).1, (mem_dotReps.1 hq).2⟩

theorem scanned_nodup {dots : List (Set Pix)} (h : dots.Pairwise ScannedBefore) : dots.Nodup := by
  refine h.imp fun {D E} hb he => ?_
  obtain ⟨p, q, hp, hq, hlt⟩ := hb
  subst he
  have h1 := hp.2 q hq.1
  have h2 := hq.2 p hp.1
  omega

theorem boundingBox_has : ∀ {l : List Pix}, l ≠ [] → ∀ i j : ℕ,
    ((boundingBox l).Has i j ↔ InBox {q | q ∈ l} i j)
  | [], h, _, _ => absurd rfl h
  | [p], _, i, j => by
    simp [boundingBox, Box.Has, InBox]
  | p :: q :: l, _, i, j => by
    have ih := boundingBox_has (l := q :: l) (by simp)
    -- describe the box of the tail by its sides
    have hb : boundingBox (p :: q :: l) = ⟨min p.1 (boundingBox (q :: l)).y0, max (p.1 + 1) (boundingBox (q :: l)).y1,
      min p.2 (boundingBox (q :: l)).x0, max (p.2 + 1) (boundingBox (q :: l)).x1⟩ := rfl
    have hq := (ih q.1 q.2).2 ⟨⟨q, by simp, le_rfl⟩, ⟨q, by simp, le_rfl⟩, ⟨q, by simp, le_rfl⟩, ⟨q, by simp, le_rfl⟩⟩
    generalize boundingBox (q :: l) = b at ih hb hq
    have a1 : ∀ i, b.y0 ≤ i ↔ ∃ r ∈ q :: l, r.1 ≤ i := by
      intro i
      constructor
      · intro h
        by_cases hi : i < b.y1
        · exact ((ih i q.2).1 ⟨h, hi, hq.2.2.1, hq.2.2.2⟩).1
        · exact ⟨q, by simp, by have := hq.2.1; omega⟩
      · rintro ⟨r, hr, hri⟩
        have := ((ih r.1 r.2).2 ⟨⟨r, hr, le_rfl⟩, ⟨r, hr, le_rfl⟩, ⟨r, hr, le_rfl⟩, ⟨r, hr, le_rfl⟩⟩).1
        omega
    have a2 : ∀ i, i < b.y1 ↔ ∃ r ∈ q :: l, i ≤ r.1 := by
      intro i
      constructor
      · intro h
        by_cases hi : b.y0 ≤ i
        · exact ((ih i q.2).1 ⟨hi, h, hq.2.2.1, hq.2.2.2⟩).2.1
        · exact ⟨q, by simp, by have := hq.1; omega⟩
      · rintro ⟨r, hr, hri⟩
        have := ((ih r.1 r.2).2 ⟨⟨r, hr, le_rfl⟩, ⟨r, hr, le_rfl⟩, ⟨r, hr, le_rfl⟩, ⟨r, hr, le_rfl⟩⟩).2.1
        omega
    have a3 : ∀ j, b.x0 ≤ j ↔ ∃ r ∈ q :: l, r.2 ≤ j := by
      intro j
      constructor
      · intro h
        by_cases hj : j < b.x1
        · exact ((ih q.1 j).1 ⟨hq.1, hq.2.1, h, hj⟩).2.2.1
        · exact ⟨q, by simp, by have := hq.2.2.2; omega⟩
      · rintro ⟨r, hr, hri⟩
        have := ((ih r.1 r.2).2 ⟨⟨r, hr, le_rfl⟩, ⟨r, hr, le_rfl⟩, ⟨r, hr, le_rfl⟩, ⟨r, hr, le_rfl⟩⟩).2.2.1
        omega
    have a4 : ∀ j, j < b.x1 ↔ ∃ r ∈ q :: l, j ≤ r.2 := by
      intro j
      constructor
      · intro h
        by_cases hj : b.x0 ≤ j
        · exact ((ih q.1 j).1 ⟨hq.1, hq.2.1, hj, h⟩).2.2.2
        · exact ⟨q, by simp, by have := hq.2.2.1; omega⟩
      · rintro ⟨r, hr, hri⟩
        have := ((ih r.1 r.2).2 ⟨⟨r, hr, le_rfl⟩, ⟨r, hr, le_rfl⟩, ⟨r, hr, le_rfl⟩, ⟨r, hr, le_rfl⟩⟩).2.2.2
        omega
    rw [hb]
    unfold Box.Has InBox
    simp only [min_le_iff, lt_max_iff, Nat.lt_succ_iff, a1, a2, a3, a4, Set.mem_ofPred_eq, List.exists_mem_cons_iff]

theorem dotBox_has {m : Mat ℤ} {p : Pix} (hp : p ∈ dotReps m) (i j : ℕ) :
    (boundingBox (dotPixels m p)).Has i j ↔ InBox (dotSet m p) i j := by
  rw [boundingBox_has (List.ne_nil_of_mem (mem_dotPixels.2 (SameDot.refl (mem_dotReps.1 hp).1)))]
  simp only [mem_dotPixels, Set.ofPred_mem_eq]

theorem keepBoxes_shape (src : Mat ℤ) (boxes : List Box) :
    (keepBoxes src boxes).height = src.height ∧ (keepBoxes src boxes).width = src.width := by
  unfold keepBoxes
  generalize hg : (⟨src.height, src.width, fun _ _ => 0⟩ : Mat ℤ) = out
  have h1 : out.height = src.height := by rw [← hg]
  have h2 : out.width = src.width := by rw [← hg]
  clear hg
  induction boxes generalizing out with
  | nil => exact ⟨h1, h2⟩
  | cons b l ih => exact ih (copyBox src out b) h1 h2

theorem keepBoxes_get (src : Mat ℤ) (boxes : List Box) (i j : ℕ) :
    (keepBoxes src boxes).get i j = open Classical in if ∃ b ∈ boxes, b.Has i j then src.get i j else 0 := by
  classical
  unfold keepBoxes
  suffices h : ∀ out : Mat ℤ, (boxes.foldl (copyBox src) out).get i j =
      if ∃ b ∈ boxes, b.Has i j then src.get i j else out.get i j by
    rw [h]
  induction boxes with
  | nil => simp
  | cons b l ih =>
    intro out
    rw [List.foldl_cons, ih]
    by_cases h : ∃ b ∈ l, b.Has i j
    · rw [if_pos h, if_pos]
      obtain ⟨c, hc, hc'⟩ := h
      exact ⟨c, List.mem_cons_of_mem _ hc, hc'⟩
    · rw [if_neg h]
      by_cases hb : b.Has i j
      · rw [if_pos ⟨b, by simp, hb⟩]
        simp [copyBox, hb]
      · rw [if_neg]
        · simp [copyBox, hb]
        · rintro ⟨c, hc, hc'⟩
          rcases List.mem_cons.1 hc with rfl | hc
          · exact hb hc'
          · exact h ⟨c, hc, hc'⟩

/-- Keeping the boxes of the accepted representatives. -/
theorem keepsDots_of {m : Mat ℤ} {boxes : List Box} {accepted : Set Pix → Prop}
    (h : ∀ b, b ∈ boxes ↔ ∃ p ∈ dotReps m, accepted (dotSet m p) ∧ b = boundingBox (dotPixels m p)) :
    KeepsDots m (keepBoxes m boxes) accepted := by
  classical
  refine ⟨(keepBoxes_shape _ _).1, (keepBoxes_shape _ _).2, fun i _ j _ => ?_⟩
  have key : (∃ b ∈ boxes, b.Has i j) ↔ ∃ D, IsDot m D ∧ accepted D ∧ InBox D i j := by
    constructor
    · rintro ⟨b, hb, hh⟩
      obtain ⟨p, hp, ha, rfl⟩ := (h b).1 hb
      exact ⟨_, isDot_iff.2 ⟨p, hp, rfl⟩, ha, (dotBox_has hp i j).1 hh⟩
    · rintro ⟨D, hD, ha, hh⟩
      obtain ⟨p, hp, rfl⟩ := isDot_iff.1 hD
      exact ⟨_, (h _).2 ⟨p, hp, ha, rfl⟩, (dotBox_has hp i j).2 hh⟩
  constructor
  · intro hk
    rw [keepBoxes_get, if_pos (key.2 hk)]
  · intro hk
    rw [keepBoxes_get, if_neg (fun h' => hk (key.1 h'))]

end Discorpy
