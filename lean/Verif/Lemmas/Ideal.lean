import Verif.Lemmas.Undistorted
import Verif.Spec.Ideal

/-! # Helper lemmas: fits of bent line patterns -/

namespace Discorpy

open Spec

/-- The parabola of a bent line relative to an origin at `d` along and with the centre at `e` across. -/
noncomputable def bentPara (k d e u : ℝ) : Para := ⟨u * k, 2 * u * k * d, u * (1 + k * d ^ 2) + e⟩

theorem Spec.IsBentLine.ne_nil {along across : Pt → ℝ} {c : Pt} {k u : ℝ} {line : List Pt} (h : IsBentLine along across c k u line) :
    line ≠ [] := by
  obtain ⟨p, hp, _⟩ := h.three
  exact List.ne_nil_of_mem hp

theorem Spec.IsBentLine.fit {along across : Pt → ℝ} {c : Pt} {k u : ℝ} {line : List Pt} (h : IsBentLine along across c k u line)
    {ta ca a b e : ℝ} (hl : IsLsqPara along across ta ca line a b e) :
    (⟨a, b, e⟩ : Para) = bentPara k (ta - along c) (across c - ca) u := by
  obtain ⟨h1, h2, h3⟩ := lsqPara_exact (a' := u * k) (b' := 2 * u * k * (ta - along c))
    (c' := u * (1 + k * (ta - along c) ^ 2) + (across c - ca)) hl (fun p hp => by rw [h.on p hp]; ring) h.three
  simp [bentPara, h1, h2, h3]

theorem bent_paraHor {pf : PolyfitFn} (hpf : PolyfitSpec pf) {c : Pt} {k u : ℝ} {line : List Pt}
    (h : IsBentLine Pt.x Pt.y c k u line) (xc yc : ℝ) :
    paraHor pf xc yc line = .ok (bentPara k (xc - c.x) (c.y - yc) u) := by
  obtain ⟨q, e, hq⟩ := paraHor_ok hpf h.ne_nil xc yc
  rw [e, ← h.fit hq]

theorem bent_paraVer {pf : PolyfitFn} (hpf : PolyfitSpec pf) {c : Pt} {k u : ℝ} {line : List Pt}
    (h : IsBentLine Pt.y Pt.x c k u line) (xc yc : ℝ) :
    paraVer pf xc yc line = .ok (bentPara k (yc - c.y) (c.x - xc) u) := by
  obtain ⟨q, e, hq⟩ := paraVer_ok hpf h.ne_nil xc yc
  rw [e, ← h.fit hq]

theorem bent_mapM {α : Type} {R : ℝ → α → Prop} {us : List ℝ} {lines : List α} (h : List.Forall₂ R us lines)
    {f : α → Except PyErr Para} {g : ℝ → Para} (hf : ∀ u l, R u l → f l = .ok (g u)) :
    lines.mapM f = .ok (us.map g) := by
  rw [mapM_ok_iff, List.forall₂_map_right_iff]
  exact (h.imp fun u l r => hf u l r).flip

theorem bent_fitHor {pf : PolyfitFn} (hpf : PolyfitSpec pf) {c : Pt} {k : ℝ} {us : List ℝ} {lines : List (List Pt)}
    (h : List.Forall₂ (IsBentLine Pt.x Pt.y c k) us lines) (xc yc : ℝ) :
    paraFitHor pf lines xc yc = .ok (us.map (bentPara k (xc - c.x) (c.y - yc)), lines.map (shiftLine xc yc)) := by
  unfold paraFitHor
  rw [bent_mapM h fun u l r => bent_paraHor hpf r xc yc]
  rfl

theorem bent_fitVer {pf : PolyfitFn} (hpf : PolyfitSpec pf) {c : Pt} {k : ℝ} {us : List ℝ} {lines : List (List Pt)}
    (h : List.Forall₂ (IsBentLine Pt.y Pt.x c k) us lines) (xc yc : ℝ) :
    paraFitVer pf lines xc yc = .ok (us.map (bentPara k (yc - c.y) (c.x - xc)), lines.map (shiftLine xc yc)) := by
  unfold paraFitVer
  rw [bent_mapM h fun u l r => bent_paraVer hpf r xc yc]
  rfl

/-- A straight-line fit of data on a line with two different abscissae is that line. -/
theorem PolyfitSpec.lin_exact {pf : PolyfitFn} (hpf : PolyfitSpec pf) {α : Type} {l : List α} {f g : α → ℝ} {a b : ℝ}
    (hon : ∀ x ∈ l, g x = a * f x + b) (h2 : ∃ x ∈ l, ∃ y ∈ l, f x ≠ f y) :
    Lin.ofList (pf (l.map f) (l.map g) 1) = .ok ⟨a, b⟩ := by
  obtain ⟨x, hx, y, hy, hxy⟩ := h2
  have hl : (l.map f).length = (l.map g).length := by simp
  have hne : l.map f ≠ [] := by simpa using List.ne_nil_of_mem hx
  obtain ⟨a', b', e⟩ := length_two (hpf.length _ _ 1 hl hne)
  have hm := hpf.minimal _ _ 1 hl hne [a, b] rfl
  rw [e] at hm ⊢
  unfold fitError at hm
  rw [List.zip_map', List.map_map, List.map_map] at hm
  simp only [Function.comp_def, polyval_two] at hm
  have hz : (l.map fun t => (a * f t + b - g t) ^ 2).sum = 0 := by
    apply List.sum_eq_zero
    intro v hv
    obtain ⟨t, ht, rfl⟩ := List.mem_map.1 hv
    rw [hon t ht]; ring
  rw [hz] at hm
  have hall := sum_sq_eq_zero (f := fun t => a' * f t + b' - g t) hm
  have ex := hall x hx
  have ey := hall y hy
  rw [hon x hx] at ex
  rw [hon y hy] at ey
  have ha : a' = a := by
    have : (f x - f y) * (a' - a) = 0 := by linear_combination ex - ey
    have := (mul_eq_zero.1 this).resolve_left (sub_ne_zero.2 hxy)
    linarith
  subst ha
  have hb : b' = b := by linarith
  subst hb
  rfl

/-- The straight line through the (intercept, curvature) pairs of bent lines. -/
theorem bent_line {pf : PolyfitFn} (hpf : PolyfitSpec pf) {us : List ℝ} (h2 : TwoValues us) {k d : ℝ} (e : ℝ)
    (hd : 1 + k * d ^ 2 ≠ 0) :
    Lin.ofList (pf ((us.map (bentPara k d e)).map Para.c) ((us.map (bentPara k d e)).map Para.a) 1) =
      .ok ⟨k / (1 + k * d ^ 2), -(k / (1 + k * d ^ 2)) * e⟩ := by
  rw [List.map_map, List.map_map]
  apply hpf.lin_exact
  · intro u _
    simp only [Function.comp_apply, bentPara]
    field_simp
    ring
  · obtain ⟨u, hu, v, hv, huv⟩ := h2
    refine ⟨u, hu, v, hv, ?_⟩
    simp only [Function.comp_apply, bentPara]
    intro h
    have : (u - v) * (1 + k * d ^ 2) = 0 := by linarith
    rcases mul_eq_zero.1 this with h | h
    · exact huv (by linarith)
    · exact hd h

theorem twoValues_ne_nil {l : List ℝ} (h : TwoValues l) : l ≠ [] := by
  obtain ⟨u, hu, _⟩ := h
  exact List.ne_nil_of_mem hu

theorem bailey_exact {pf : PolyfitFn} (hpf : PolyfitSpec pf) {c : Pt} {kh kv : ℝ} {us vs : List ℝ} {hor ver : List (List Pt)}
    (h : IsBentPattern c kh kv us vs hor ver) (hu : TwoValues us) (hv : TwoValues vs) (hkh : kh ≠ 0) (hkv : kv ≠ 0)
    {o : Pt} (hx : 1 + kh * (o.x - c.x) ^ 2 ≠ 0) (hy : 1 + kv * (o.y - c.y) ^ 2 ≠ 0) :
    baileyStep pf hor ver o = .ok c := by
  unfold baileyStep
  rw [bent_fitHor hpf h.hor, bent_fitVer hpf h.ver]
  simp only [ok_bind]
  rw [if_neg (by simp [twoValues_ne_nil hu, twoValues_ne_nil hv])]
  rw [bent_line hpf hu _ hx, bent_line hpf hv _ hy]
  simp only [ok_bind]
  rw [finDiv_ok (div_ne_zero hkv hy), finDiv_ok (div_ne_zero hkh hx)]
  simp only [ok_bind]
  congr 1
  have e1 : kh / (1 + kh * (o.x - c.x) ^ 2) ≠ 0 := div_ne_zero hkh hx
  have e2 : kv / (1 + kv * (o.y - c.y) ^ 2) ≠ 0 := div_ne_zero hkv hy
  obtain ⟨y, x⟩ := c
  simp only [Pt.mk.injEq]
  constructor
  · rw [neg_mul, neg_div, mul_div_assoc, mul_div_cancel₀ _ e1]; ring
  · rw [neg_mul, neg_div, mul_div_assoc, mul_div_cancel₀ _ e2]; ring

end Discorpy
