import Verif.Model.Slopes
import Verif.Spec.Slopes
import Verif.Lemmas.Lines
import Verif.Lemmas.Array
import Verif.Lemmas.LineDir

/-! # Helper lemmas: slopes of a grid of dots -/

namespace Discorpy

open Spec

theorem isDistTo_unique {L : Pt → Prop} {p : Pt} {d d' : ℝ} (h : IsDistTo L p d) (h' : IsDistTo L p d') : d = d' := by
  obtain ⟨⟨q, hq, e⟩, hm⟩ := h
  obtain ⟨⟨q', hq', e'⟩, hm'⟩ := h'
  apply le_antisymm
  · rw [← e']; exact hm q' hq'
  · rw [← e]; exact hm' q hq

theorem slopeDots_eq (pts : List Pt) (t : ℝ) (used : Pt) (tol : ℝ) :
    slopeDots pts t used tol = closerThan pts (horThrough t used) tol := by
  unfold slopeDots closerThan
  apply List.filter_congr
  intro p _
  rw [decide_eq_decide]
  have h := isDistTo_horLine t (used.y - t * used.x) p
  unfold slopeDist
  exact ⟨fun hl => ⟨_, h, hl⟩, fun ⟨d, hd, hl⟩ => by rw [isDistTo_unique h hd]; exact hl⟩

theorem meanCentre_ok {pts : List Pt} (hne : pts ≠ []) : ∃ g, meanCentre pts = .ok g ∧ IsMeanPt pts g := by
  have hl : (pts.length : ℝ) ≠ 0 := by exact_mod_cast (List.length_pos_iff.2 hne).ne'
  unfold meanCentre
  rw [npMean_ok (by simpa using hne), ok_bind, npMean_ok (by simpa using hne), ok_bind]
  refine ⟨_, rfl, hne, ?_, ?_⟩ <;> simp [hl]

theorem midDot_ok {argsort : List ℝ → List ℕ} (has : ArgsortSpec argsort) {pts : List Pt} (hne : pts ≠ []) :
    ∃ g mid, midDot argsort pts = .ok mid ∧ IsMeanPt pts g ∧ mid ∈ pts ∧ ∀ p ∈ pts, ptDist g mid ≤ ptDist g p := by
  obtain ⟨g, hg, hm⟩ := meanCentre_ok hne
  set key : Pt → ℝ := fun c => √((g.x - c.x) ^ 2 + (g.y - c.y) ^ 2) with hkey
  have hperm := has.perm (pts.map key)
  have hs := has.fancy_sorted pts key
  have hp := has.fancy_perm pts key
  unfold midDot
  rw [hg, ok_bind]
  rw [← hkey]
  cases hv : argsort (pts.map key) with
  | nil =>
    rw [hv] at hperm
    have := hperm.length_eq
    simp at this
    exact absurd this.symm (List.length_pos_iff.2 hne).ne'
  | cons k ks =>
    have hk : k < pts.length := by
      have : k ∈ List.range (pts.map key).length := hperm.mem_iff.1 (by rw [hv]; simp)
      simpa using this
    refine ⟨g, pts[k], ?_, hm, List.getElem_mem hk, ?_⟩
    · rw [npGet_of_lt (by simp), ok_bind, List.getElem_cons_zero, npGet_of_lt hk]
    · intro p hpm
      have hmem := hp.mem_iff.2 hpm
      rw [hv] at hmem hs
      unfold fancyIndex at hmem hs
      rw [List.filterMap_cons, List.getElem?_eq_getElem hk] at hmem hs
      rcases List.mem_cons.1 hmem with rfl | h
      · exact le_rfl
      · exact (List.pairwise_cons.1 hs).1 p h

theorem fitSlope_ok {pf : List ℝ → List ℝ → ℕ → List ℝ} (hpf : PolyfitSpec pf) (dots : List Pt) (t : ℝ) :
    ∃ s, fitSlope pf dots t = .ok s ∧ (2 ≤ dots.length → ∃ b, IsLsqHorLine dots s b) ∧ (dots.length < 2 → s = t) := by
  unfold fitSlope
  split_ifs with h
  · have hne : dots ≠ [] := by rintro rfl; simp at h
    obtain ⟨a, b, e, hl⟩ := hpf.lsqHor dots hne 0 0
    simp only [sub_zero] at e
    refine ⟨a, ?_, fun _ => ⟨_, hl⟩, fun h' => by omega⟩
    rw [show dots.map Pt.x = dots.map fun p => p.x from rfl, show dots.map Pt.y = dots.map fun p => p.y from rfl, e]
    rfl
  · exact ⟨t, rfl, fun h' => by omega, fun _ => rfl⟩

theorem slopeOfDots_ok {pf : List ℝ → List ℝ → ℕ → List ℝ} (hpf : PolyfitSpec pf) {argsort : List ℝ → List ℕ}
    (has : ArgsortSpec argsort) {pts : List Pt} (hne : pts ≠ []) (w : ℕ) (best : ℝ) :
    ∃ s, slopeOfDots pf argsort pts w best = .ok s ∧
      IsGridSlope horThrough IsLsqHorLine pts (Real.tan (best * (Real.pi / 180))) (slopeTolerance w best) s := by
  obtain ⟨g, mid, e, hg, hmem, hmin⟩ := midDot_ok has hne
  unfold slopeOfDots
  rw [e, ok_bind]
  simp only
  rw [slopeDots_eq]
  obtain ⟨s, es, h1, h2⟩ := fitSlope_ok hpf (closerThan pts (horThrough (Real.tan (best * (Real.pi / 180))) mid) (slopeTolerance w best))
    (Real.tan (best * (Real.pi / 180)))
  exact ⟨s, es, g, mid, hg, hmem, hmin, h1, h2⟩

theorem isDistTo_map {L L' : Pt → Prop} {φ : Pt → Pt} (hφ : ∀ p, φ (φ p) = p) (hd : ∀ p q, ptDist (φ p) (φ q) = ptDist p q)
    (hL : ∀ q, L (φ q) ↔ L' q) {p : Pt} {d : ℝ} : IsDistTo L (φ p) d ↔ IsDistTo L' p d := by
  constructor
  · rintro ⟨⟨q, hq, e⟩, hm⟩
    refine ⟨⟨φ q, (hL _).1 (by rwa [hφ]), ?_⟩, fun q' hq' => ?_⟩
    · rw [← e, ← hd p, hφ]
    · rw [← hd]; exact hm _ ((hL _).2 hq')
  · rintro ⟨⟨q, hq, e⟩, hm⟩
    refine ⟨⟨φ q, (hL _).2 hq, by rw [hd, e]⟩, fun q' hq' => ?_⟩
    rw [← hφ q', hd]
    exact hm _ ((hL _).1 (by rwa [hφ]))

/-- The rule does not depend on the orientation of the coordinate axes. -/
theorem gridSlope_map {thr thr' : ℝ → Pt → Pt → Prop} {lsq lsq' : List Pt → ℝ → ℝ → Prop} {φ : Pt → Pt}
    (hφ : ∀ p, φ (φ p) = p) (hd : ∀ p q, ptDist (φ p) (φ q) = ptDist p q)
    (hthr : ∀ t p q, thr t (φ p) (φ q) ↔ thr' t p q) (hlsq : ∀ l s b, lsq (l.map φ) s b → ∃ b', lsq' l s b')
    (hmean : ∀ l g, IsMeanPt (l.map φ) g → IsMeanPt l (φ g))
    {pts : List Pt} {t tol s : ℝ} (h : IsGridSlope thr lsq (pts.map φ) t tol s) : IsGridSlope thr' lsq' pts t tol s := by
  obtain ⟨g, mid, hg, hmem, hmin, h1, h2⟩ := h
  obtain ⟨mid, hmem', rfl⟩ := List.mem_map.1 hmem
  have e : closerThan (pts.map φ) (thr t (φ mid)) tol = (closerThan pts (thr' t mid) tol).map φ := by
    unfold closerThan
    rw [List.filter_map]
    congr 1
    apply List.filter_congr
    intro p _
    simp only [Function.comp_apply, decide_eq_decide]
    simp only [isDistTo_map hφ hd (hthr t mid)]
  rw [e, List.length_map] at h1 h2
  refine ⟨φ g, mid, hmean _ _ hg, hmem', fun p hp => ?_, fun hl => ?_, h2⟩
  · have := hmin (φ p) (List.mem_map.2 ⟨p, hp, rfl⟩)
    rw [← hφ g, hd, hd] at this
    exact this
  · obtain ⟨b, hb⟩ := h1 hl
    exact hlsq _ _ _ hb

theorem sum_map_neg' {α : Type*} (f : α → ℝ) (l : List α) : (l.map fun a => -f a).sum = -(l.map f).sum := by
  induction l with
  | nil => simp
  | cons a l ih => simp only [List.map_cons, List.sum_cons, ih]; ring

theorem gridSlope_neg {pts : List Pt} {t tol s : ℝ}
    (h : IsGridSlope horThrough IsLsqHorLine (pts.map fun c => (⟨-c.y, -c.x⟩ : Pt)) t tol s) :
    IsGridSlope horThrough IsLsqHorLine pts t tol s := by
  refine gridSlope_map (φ := fun c => ⟨-c.y, -c.x⟩) (fun p => by simp) (fun p q => ?_) (fun t p q => ?_) (fun l s b hl => ?_)
    (fun l g hg => ?_) h
  · unfold ptDist
    congr 1
    ring
  · unfold horThrough onHorLine
    constructor <;> intro h <;> simp only at h ⊢ <;> linarith
  · refine ⟨-b, fun a' b' => ?_⟩
    have := hl a' (-b')
    simp only [List.map_map, Function.comp_def] at this
    convert this using 3 <;> ext p <;> ring
  · obtain ⟨h0, h1, h2⟩ := hg
    refine ⟨by simpa using h0, ?_, ?_⟩
    · have e : ((l.map fun c : Pt => (⟨-c.y, -c.x⟩ : Pt)).map Pt.x).sum = -(l.map Pt.x).sum := by
        rw [List.map_map]; exact sum_map_neg' _ _
      rw [e, List.length_map] at h1
      simp only
      linarith
    · have e : ((l.map fun c : Pt => (⟨-c.y, -c.x⟩ : Pt)).map Pt.y).sum = -(l.map Pt.y).sum := by
        rw [List.map_map]; exact sum_map_neg' _ _
      rw [e, List.length_map] at h2
      simp only
      linarith

theorem gridSlope_swap {pts : List Pt} {t tol s : ℝ}
    (h : IsGridSlope horThrough IsLsqHorLine (pts.map fun c => (⟨c.x, c.y⟩ : Pt)) t tol s) :
    IsGridSlope verThrough IsLsqVerLine pts t tol s := by
  refine gridSlope_map (φ := fun c => ⟨c.x, c.y⟩) (fun p => rfl) (fun p q => ?_) (fun t p q => ?_) (fun l s b hl => ?_)
    (fun l g hg => ?_) h
  · unfold ptDist
    congr 1
    ring
  · exact Iff.rfl
  · refine ⟨b, fun a' b' => ?_⟩
    have := hl a' b'
    simp only [List.map_map, Function.comp_def] at this
    exact this
  · obtain ⟨h0, h1, h2⟩ := hg
    refine ⟨by simpa using h0, ?_, ?_⟩
    · rw [List.map_map, List.length_map] at h2; exact h2
    · rw [List.map_map, List.length_map] at h1; exact h1

end Discorpy
