import Verif.Lemmas.Ideal
import Verif.Lemmas.Grid
import Verif.Lemmas.RadialFit
import Verif.Model.GridPara

/-! # Helper lemmas: grids from parabolas -/

namespace Discorpy

open Spec

theorem forall₂_left {α β : Type} {R : α → β → Prop} {l : List α} {r : List β} (h : List.Forall₂ R l r) {a : α}
    (ha : a ∈ l) : ∃ b ∈ r, R a b := by
  induction h with
  | nil => simp at ha
  | cons hab _ ih =>
    rcases List.mem_cons.1 ha with rfl | ha
    · exact ⟨_, by simp, hab⟩
    · obtain ⟨b, hb, h⟩ := ih ha
      exact ⟨b, by simp [hb], h⟩

theorem forall₂_get_fit {α β γ : Type} {R : α → β → Prop} {S : α → γ → Prop} {l : List α} {r : List β} {s : List γ}
    (h : List.Forall₂ R l r) (h' : List.Forall₂ S l s) {i : ℕ} {b : β} (hb : r[i]? = some b) :
    ∃ c, s[i]? = some c ∧ ∃ a, R a b ∧ S a c := by
  induction h generalizing s i with
  | nil => simp at hb
  | cons hab _ ih =>
    cases h' with
    | cons hac h'' =>
      cases i with
      | zero => simp at hb; subst hb; exact ⟨_, by simp, _, hab, hac⟩
      | succ i => simp at hb; obtain ⟨c, hc, h⟩ := ih h'' hb; exact ⟨c, by simpa using hc, h⟩

theorem isGridPair_mapPara (ch cv : List Para) (f : Para → Para → Pt) :
    IsGridPair ch.length cv.length (ch.map fun h => cv.map fun v => f h v) (cv.map fun v => ch.map fun h => f h v) where
  nrows := by simp
  ncols := by simp
  rowLen := by simp
  colLen := by simp
  transpose := by
    intro i j
    unfold entry
    simp only [List.getElem?_map]
    cases h1 : ch[i]? <;> cases h2 : cv[j]? <;> simp [h1, h2]

/-- A grid point for which the solver found a root is on both parabolas. -/
theorem paraGridPoint_on {fsolve : (ℝ × ℝ → ℝ × ℝ) → ℝ × ℝ → ℝ × ℝ} {c : Pt} {h v : Para}
    (hr : FoundRoot fsolve (paraEquations h.a h.b h.c v.a v.b v.c)) :
    onPara Pt.x Pt.y c h.a h.b h.c (paraGridPoint fsolve c h v) ∧ onPara Pt.y Pt.x c v.a v.b v.c (paraGridPoint fsolve c h v) := by
  have e : crossEquations h v = paraEquations h.a h.b h.c v.a v.b v.c := rfl
  have h0 : crossEquations h v (crossParabolas fsolve h v) = (0, 0) := by unfold crossParabolas; rw [e]; exact hr
  unfold crossEquations at h0
  simp only [Prod.mk.injEq] at h0
  unfold onPara paraGridPoint
  simp only [add_sub_cancel_right]
  constructor
  · linarith [h0.1]
  · linarith [h0.2]

theorem entry_map {α β : Type} (ch : List α) (cv : List β) (f : α → β → Pt) (i j : ℕ) :
    entry (ch.map fun h => cv.map fun v => f h v) i j = ch[i]? >>= fun h => cv[j]? >>= fun v => some (f h v) := by
  unfold entry
  simp only [List.getElem?_map]
  cases h1 : ch[i]? <;> cases h2 : cv[j]? <;> simp [h2]

theorem npDiff_eq_range (l : List ℝ) :
    npDiff l = (List.range (l.length - 1)).map fun i : ℕ => l.getD (i + 1) 0 - l.getD i 0 := by
  apply List.ext_getElem?
  intro i
  rw [List.getElem?_map]
  unfold npDiff
  rw [List.getElem?_zipWith, List.getElem?_tail]
  by_cases h : i + 1 < l.length
  · rw [List.getElem?_range (by omega)]
    simp [List.getElem?_eq_getElem h, List.getElem?_eq_getElem (show i < l.length by omega)]
  · rw [List.getElem?_eq_none (l := l) (i := i + 1) (by omega), List.getElem?_eq_none (l := List.range _) (by simp; omega)]
    cases l[i]? <;> rfl

theorem npMean_spacing {l : List ℝ} (h : 2 ≤ l.length) : npMean ((npDiff l).map fun t => |t|) = .ok (meanSpacing l) := by
  rw [npMean_ok (by simpa using npDiff_ne_nil h), List.length_map, npDiff_length]
  unfold meanSpacing
  rw [npDiff_eq_range, List.map_map]
  rfl

theorem meanSpacing_pos {l : List ℝ} (h : 2 ≤ l.length) (hn : l.Nodup) : 0 < meanSpacing l := by
  unfold meanSpacing
  apply div_pos
  · apply List.sum_pos
    · intro x hx
      obtain ⟨i, hi, rfl⟩ := List.mem_map.1 hx
      rw [List.mem_range] at hi
      rw [abs_pos, sub_ne_zero, List.getD_eq_getElem?_getD, List.getD_eq_getElem?_getD,
        List.getElem?_eq_getElem (by omega), List.getElem?_eq_getElem (by omega)]
      simp only [Option.getD_some]
      intro e
      have := (hn.getElem_inj_iff).1 e
      omega
    · simp; omega
  · exact_mod_cast (show 0 < l.length - 1 by omega)

theorem rescalePara_ok {num den : ℝ} (h : den ≠ 0) (coefs : List Para) :
    rescalePara num den coefs = .ok (coefs.map fun q => ⟨q.a * num / den, q.b, q.c * num / den⟩) := by
  unfold rescalePara
  apply mapM_eq_map
  intro q _
  rw [finDiv_ok h, finDiv_ok h]
  rfl

end Discorpy
