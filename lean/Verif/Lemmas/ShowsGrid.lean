import Verif.Lemmas.DotGridCrop
import Verif.Lemmas.Ellipse
import Verif.Lemmas.Slopes
import Verif.Props.C67
import Verif.Props.C93

/-! # Lemmas about binary images of grids of round dots: size, distance, selections, slopes -/

namespace Discorpy

open Spec

/-- The image has the value one on the dots of the grid and zero elsewhere. -/
structure ShowsGrid (b : Mat ℤ) (e r : ℤ) (P Q : Set ℤ) (S : ℤ → ℤ → Prop) : Prop where
  grid : Grid b.height b.width e r P Q S
  one : ∀ x ∈ gridSet P Q S, b.get x.1 x.2 = 1
  zero : ∀ x ∈ frame b.height b.width, x ∉ gridSet P Q S → b.get x.1 x.2 = 0

/-- Positions in equal steps. -/
structure Steps (d : ℤ) (P : Set ℤ) : Prop where
  up : ∀ p ∈ P, ∀ p' ∈ P, p < p' → p + d ∈ P ∧ p + d ≤ p'
  down : ∀ p ∈ P, ∀ p' ∈ P, p < p' → p' - d ∈ P

theorem Steps.window {d : ℤ} {P : Set ℤ} (h : Steps d P) (hd : 0 ≤ d) (a n : ℕ) (e r : ℤ) : Steps d (inWindow P a n e r) := by
  refine ⟨fun p hp p' hp' hl => ?_, fun p hp p' hp' hl => ?_⟩
  · obtain ⟨h1, h2⟩ := h.up _ hp.1 _ hp'.1 (by omega)
    have := hp'.2.2
    have := hp.2.1
    exact ⟨⟨by rwa [show p + d + a = p + a + d by ring], by omega, by omega⟩, by omega⟩
  · have h1 := h.down _ hp.1 _ hp'.1 (by omega)
    obtain ⟨_, h2⟩ := h.up _ hp.1 _ hp'.1 (by omega)
    have := hp'.2.2
    have := hp.2.1
    exact ⟨by rwa [show p' - d + a = p' + a - d by ring], by omega, by omega⟩

section
variable {b : Mat ℤ} {e r : ℤ} {P Q : Set ℤ} {S : ℤ → ℤ → Prop} (g : ShowsGrid b e r P Q S)
include g

theorem ShowsGrid.lit (x : ℕ × ℕ) : Lit b x ↔ x ∈ gridSet P Q S := by
  constructor
  · rintro ⟨h1, h2, h3⟩
    by_contra hc
    exact h3 (g.zero x ⟨h1, h2⟩ hc)
  · intro hx
    have hf := g.grid.frame hx
    exact ⟨hf.1, hf.2, by rw [g.one x hx]; norm_num⟩

theorem ShowsGrid.binary : IsBinary (realMat b) := by
  intro i hi j hj
  simp only [realMat]
  by_cases hx : (i, j) ∈ gridSet P Q S
  · right
    have := g.one _ hx
    simp only at this
    rw [this]; norm_num
  · left
    have := g.zero (i, j) ⟨hi, hj⟩ hx
    simp only at this
    rw [this]; norm_num

theorem ShowsGrid.int16 : ShowsGrid (int16Mat (realMat b)) e r P Q S := by
  refine ⟨g.grid, fun x hx => ?_, fun x hf hx => ?_⟩
  · simp only [int16Mat, realMat]
    rw [g.one x hx]
    unfold truncInt
    norm_num
    decide
  · simp only [int16Mat, realMat]
    rw [g.zero x hf hx]
    unfold truncInt
    norm_num
    decide

/-- The pixels of a dot's bounding box that are not of the dot are dark. -/
theorem ShowsGrid.inBox {p q : ℤ} (hp : p ∈ P) (hq : q ∈ Q) {x : ℕ × ℕ} (hb : InBox (dotAt S p q) x.1 x.2) (hx : x ∈ gridSet P Q S) :
    x ∈ dotAt S p q := by
  obtain ⟨⟨y1, h1, l1⟩, ⟨y2, h2, l2⟩, ⟨y3, h3, l3⟩, ⟨y4, h4, l4⟩⟩ := hb
  obtain ⟨p', hp', q', hq', hd⟩ := hx
  have a1 := g.grid.ge1 h1
  have a2 := g.grid.le1 _ _ h2
  have a3 := g.grid.ge2 h3
  have a4 := g.grid.le2 _ _ h4
  have e1 : p = p' := g.grid.rows.same hp hp' (y := x.1) (by omega) (by omega) (g.grid.ge1 hd) (g.grid.le1 _ _ hd) (by simp)
  have e2 : q = q' := g.grid.cols.same hq hq' (y := x.2) (by omega) (by omega) (g.grid.ge2 hd) (g.grid.le2 _ _ hd) (by simp)
  subst e1 e2
  exact hd

/-- A selection that accepts all dots returns the same pixels. -/
theorem ShowsGrid.keeps (hne : ∃ u v, S u v) {out : Mat ℤ} {acc : Set (ℕ × ℕ) → Prop} (h : KeepsDots b out acc)
    (hacc : ∀ D, IsDot b D → acc D) : ShowsGrid out e r P Q S ∧ ∀ i < b.height, ∀ j < b.width, out.get i j = b.get i j := by
  obtain ⟨h1, h2, h3⟩ := h
  have key : ∀ i < b.height, ∀ j < b.width, out.get i j = b.get i j := by
    intro i hi j hj
    by_cases hx : (i, j) ∈ gridSet P Q S
    · obtain ⟨p, hp, q, hq, hd⟩ := hx
      have hD := (g.grid.isDot_iff g.lit hne _).2 ⟨p, hp, q, hq, rfl⟩
      exact (h3 i hi j hj).1 ⟨_, hD, hacc _ hD, ⟨_, hd, le_rfl⟩, ⟨_, hd, le_rfl⟩, ⟨_, hd, le_rfl⟩, ⟨_, hd, le_rfl⟩⟩
    · rw [g.zero (i, j) ⟨hi, hj⟩ hx]
      by_cases hk : ∃ D, IsDot b D ∧ acc D ∧ InBox D i j
      · rw [(h3 i hi j hj).1 hk]
        exact g.zero (i, j) ⟨hi, hj⟩ hx
      · exact (h3 i hi j hj).2 hk
  refine ⟨⟨by rw [h1, h2]; exact g.grid, fun x hx => ?_, fun x hf hx => ?_⟩, key⟩
  · have hf := g.grid.frame hx
    rw [key _ hf.1 _ hf.2, g.one x hx]
  · rw [h1, h2] at hf
    rw [key _ hf.1 _ hf.2, g.zero x hf hx]

/-- The sum over a bounding box is the number of pixels of the dot. -/
theorem ShowsGrid.boxSum {p q : ℤ} (hp : p ∈ P) (hq : q ∈ Q) : boxSum (realMat b) (dotAt S p q) = (dotAt S p q).ncard := by
  classical
  have hset : dotAt S p q = ((Finset.range b.height ×ˢ Finset.range b.width).filter fun x => x ∈ dotAt S p q : Finset (ℕ × ℕ)) := by
    ext x
    simp only [Finset.coe_filter, Finset.mem_product, Finset.mem_range, Set.mem_ofPred_eq]
    exact ⟨fun hx => ⟨g.grid.frame ⟨p, hp, q, hq, hx⟩, hx⟩, fun hx => hx.2⟩
  have hself : ∀ x ∈ dotAt S p q, InBox (dotAt S p q) x.1 x.2 := fun x hx => ⟨⟨x, hx, le_rfl⟩, ⟨x, hx, le_rfl⟩, ⟨x, hx, le_rfl⟩, ⟨x, hx, le_rfl⟩⟩
  unfold Spec.boxSum
  have : ∑ x ∈ (Finset.range b.height ×ˢ Finset.range b.width) with InBox (dotAt S p q) x.1 x.2, ((realMat b).get x.1 x.2) =
      ∑ x ∈ (Finset.range b.height ×ˢ Finset.range b.width) with x ∈ dotAt S p q, (1 : ℝ) := by
    symm
    refine Finset.sum_subset_zero_on_sdiff (fun x hx => ?_) (fun x hx => ?_) (fun x hx => ?_)
    · rw [Finset.mem_filter] at hx ⊢
      exact ⟨hx.1, hself x hx.2⟩
    · rw [Finset.mem_sdiff, Finset.mem_filter, Finset.mem_filter] at hx
      obtain ⟨⟨hf, hin⟩, hn⟩ := hx
      have hf' : x ∈ frame b.height b.width := by simpa [frame] using hf
      have hz : b.get x.1 x.2 = 0 := g.zero x hf' fun hg => hn ⟨hf, g.inBox hp hq hin hg⟩
      simp only [realMat]
      rw [hz]; norm_num
    · rw [Finset.mem_filter] at hx
      simp only [realMat]
      rw [g.one x ⟨p, hp, q, hq, hx.2⟩]; norm_num
  refine Eq.trans ?_ (Eq.trans this ?_)
  · convert rfl <;> rfl
  · rw [Finset.sum_const, nsmul_eq_mul, mul_one]
    conv_rhs => rw [hset, Set.ncard_coe_finset]

/-- The selection by size with the size of the dots keeps everything. -/
theorem ShowsGrid.size (hne : ∃ u v, S u v) {N : ℕ} (hN : ∀ p ∈ P, ∀ q ∈ Q, (dotAt S p q).ncard = N) {ratio : ℝ} (hr : 0 ≤ ratio) :
    ShowsGrid (selectDotsBasedSize (realMat b) N ratio) e r P Q S ∧
      ∀ i < b.height, ∀ j < b.width, (selectDotsBasedSize (realMat b) N ratio).get i j = b.get i j := by
  obtain ⟨h1, h2⟩ := g.int16.keeps hne (C41_size (realMat b) N ratio) (by
    intro D hD
    obtain ⟨p, hp, q, hq, rfl⟩ := (g.int16.grid.isDot_iff g.int16.lit hne D).1 hD
    rw [g.boxSum hp hq, hN p hp q hq]
    have : (0 : ℝ) ≤ ratio * N := by positivity
    exact ⟨by positivity, by linarith, by linarith⟩)
  refine ⟨h1, fun i hi j hj => ?_⟩
  rw [h2 i hi j hj]
  by_cases hx : (i, j) ∈ gridSet P Q S
  · exact (g.int16.one _ hx).trans (g.one _ hx).symm
  · exact (g.int16.zero (i, j) ⟨hi, hj⟩ hx).trans (g.zero (i, j) ⟨hi, hj⟩ hx).symm

/-- The selection by the axes of the fitted ellipse keeps everything. -/
theorem ShowsGrid.ratio (t1 : ∃ v, S r v) (hr1 : e < 2 * r) (hsw : ∀ u v, S u v → S v u) {ratio : ℝ} (hr : 0 < ratio) :
    ∃ out, selectDotsBasedRatio ellipseAxes (realMat b) ratio = .ok out ∧ ShowsGrid out e r P Q S ∧
      ∀ i < b.height, ∀ j < b.width, out.get i j = b.get i j := by
  classical
  have hne : ∃ u v, S u v := ⟨r, t1⟩
  obtain ⟨out, ho, hk⟩ := C93_binary (realMat b) g.binary ratio
  obtain ⟨out', ho', hsym⟩ := C93_symmetric (realMat b) g.binary ratio hr
  obtain rfl : out = out' := by
    rw [ho] at ho'
    exact Except.ok.inj ho'
  have hdots := g.int16.grid.isDot_iff g.int16.lit hne
  have hwide : ∀ p ∈ P, ∀ q ∈ Q, IsWide (dotAt S p q) := by
    intro p hp q hq
    obtain ⟨v, hv⟩ := t1
    have b1 := g.grid.rows.low p hp
    have b2 := g.grid.cols.low q hq
    have pix : ∀ {u v}, S u v → ∃ x : ℕ × ℕ, x ∈ dotAt S p q ∧ (x.1 : ℤ) = p + u ∧ (x.2 : ℤ) = q + v := by
      intro u v hs
      have a1 := g.grid.ge1 hs
      have a3 := g.grid.ge2 hs
      have e1 : ((p + u).toNat : ℤ) = p + u := Int.toNat_of_nonneg (by omega)
      have e2 : ((q + v).toNat : ℤ) = q + v := Int.toNat_of_nonneg (by omega)
      refine ⟨((p + u).toNat, (q + v).toNat), ?_, e1, e2⟩
      simp only [dotAt, Set.mem_ofPred_eq]
      rwa [e1, e2, show p + u - p = u by ring, show q + v - q = v by ring]
    obtain ⟨x1, m1, c1, _⟩ := pix hv
    obtain ⟨x2, m2, c2, _⟩ := pix (g.grid.round.sym1 _ _ hv)
    obtain ⟨x3, m3, _, c3⟩ := pix (hsw _ _ hv)
    obtain ⟨x4, m4, _, c4⟩ := pix (g.grid.round.sym2 _ _ (hsw _ _ hv))
    exact ⟨⟨x2, m2, x1, m1, by omega⟩, x4, m4, x3, m3, by omega⟩
  have hbox : ∀ p ∈ P, ∀ q ∈ Q, ∀ x, x ∈ boxPixels (int16Mat (realMat b)) (dotAt S p q) ↔ x ∈ dotAt S p q := by
    intro p hp q hq x
    unfold boxPixels
    rw [Finset.mem_filter, Finset.mem_product, Finset.mem_range, Finset.mem_range]
    constructor
    · rintro ⟨⟨h1, h2⟩, hin, hz⟩
      refine g.inBox hp hq hin ?_
      by_contra hc
      exact hz (g.int16.zero x ⟨h1, h2⟩ hc)
    · intro hx
      have hg : x ∈ gridSet P Q S := ⟨p, hp, q, hq, hx⟩
      have hf := g.int16.grid.frame hg
      refine ⟨⟨hf.1, hf.2⟩, ⟨⟨_, hx, le_rfl⟩, ⟨_, hx, le_rfl⟩, ⟨_, hx, le_rfl⟩, ⟨_, hx, le_rfl⟩⟩, ?_⟩
      rw [g.int16.one x hg]; norm_num
  have hturn : ∀ p ∈ P, ∀ q ∈ Q, QuarterTurn (boxPixels (int16Mat (realMat b)) (dotAt S p q)) := by
    intro p hp q hq
    refine ⟨p - q, q + e + p, fun x hx => ?_⟩
    rw [hbox p hp q hq] at hx
    have b1 := g.grid.rows.low p hp
    have b2 := g.grid.cols.low q hq
    have a1 := g.grid.ge2 hx
    have a2 := g.grid.le1 _ _ hx
    have c1 : (((x.2 : ℤ) + (p - q)).toNat : ℤ) = x.2 + (p - q) := Int.toNat_of_nonneg (by omega)
    have c2 : ((q + e + p - (x.1 : ℤ)).toNat : ℤ) = q + e + p - x.1 := Int.toNat_of_nonneg (by omega)
    refine ⟨(((x.2 : ℤ) + (p - q)).toNat, (q + e + p - (x.1 : ℤ)).toNat), ?_, c1, c2⟩
    rw [hbox p hp q hq]
    simp only [dotAt, Set.mem_ofPred_eq] at hx ⊢
    rw [c1, c2]
    have := g.grid.round.sym2 _ _ (hsw _ _ hx)
    rwa [show (x.2 : ℤ) + (p - q) - p = x.2 - q by ring, show q + e + p - (x.1 : ℤ) - q = e - (x.1 - p) by ring]
  have key : ∀ i < b.height, ∀ j < b.width, out.get i j = b.get i j := by
    intro i hi j hj
    by_cases hx : (i, j) ∈ gridSet P Q S
    · obtain ⟨p, hp, q, hq, hd⟩ := hx
      rw [hsym _ ((hdots _).2 ⟨p, hp, q, hq, rfl⟩) (hwide p hp q hq) (hturn p hp q hq) i hi j hj
        ⟨⟨_, hd, le_rfl⟩, ⟨_, hd, le_rfl⟩, ⟨_, hd, le_rfl⟩, ⟨_, hd, le_rfl⟩⟩]
      exact (g.int16.one _ ⟨p, hp, q, hq, hd⟩).trans (g.one _ ⟨p, hp, q, hq, hd⟩).symm
    · have h0 := g.int16.zero (i, j) ⟨hi, hj⟩ hx
      rw [g.zero (i, j) ⟨hi, hj⟩ hx]
      rcases (C41_pixels _ _ _ _ _ hk hk).1 i hi j hj with h | h
      · exact h
      · exact h.trans h0
  have e1 : out.height = b.height := hk.1
  have e2 : out.width = b.width := hk.2.1
  refine ⟨out, ho, ⟨by rw [e1, e2]; exact g.grid, fun x hx => ?_, fun x hf hx => ?_⟩, key⟩
  · have hf := g.grid.frame hx
    rw [key _ hf.1 _ hf.2, g.one x hx]
  · rw [e1, e2] at hf
    rw [key _ hf.1 _ hf.2, g.zero x hf hx]

/-- The dots in the middle part of the image. -/
theorem ShowsGrid.mask (t1 : ∃ v, S r v) (t2 : ∃ u, S u r) {ratio : ℝ} {roi : Mat ℝ} {mask : Mat ℤ}
    (hp : IsMiddlePart (realMat b) ratio roi) (hm : IsInnerMask roi mask) :
    ∃ a c : ℕ, 2 * a + mask.height = b.height ∧ 2 * c + mask.width = b.width ∧
      (∀ t, t = max 0.05 (min ratio 1) →
        t * b.height ≤ mask.height ∧ mask.height < t * b.height + 2 ∧ t * b.width ≤ mask.width ∧ mask.width < t * b.width + 2) ∧
      ShowsGrid mask e r (inWindow P a mask.height e r) (inWindow Q c mask.width e r) S := by
  obtain ⟨a, c, hpart, h1, h2, h3⟩ := hp
  obtain ⟨m1, m2, m3⟩ := hm
  have hA : ∀ x : ℕ × ℕ, x ∈ {q ∈ frame roi.height roi.width | roi.get q.1 q.2 = 1} ↔
      x ∈ frame roi.height roi.width ∧ (x.1 + a, x.2 + c) ∈ gridSet P Q S := by
    intro x
    constructor
    · rintro ⟨hf, hx⟩
      refine ⟨hf, ?_⟩
      rw [hpart.get] at hx
      by_contra hn
      have hz := g.zero (x.1 + a, x.2 + c) ⟨by have := hpart.rows; have := hf.1; simp only [realMat] at *; omega,
        by have := hpart.cols; have := hf.2; simp only [realMat] at *; omega⟩ hn
      simp only [realMat] at hx hz
      rw [add_comm a, add_comm c, hz] at hx
      norm_num at hx
    · rintro ⟨hf, hx⟩
      refine ⟨hf, ?_⟩
      rw [hpart.get]
      have h1 := g.one _ hx
      simp only [realMat] at h1 ⊢
      rw [add_comm a, add_comm c, h1]
      norm_num
  have hc := g.grid.crop t1 t2 hA
  refine ⟨a, c, by rw [m1]; exact h1, by rw [m2]; exact h2, fun t ht => by rw [m1, m2]; exact h3 t ht, ?_⟩
  rw [hc] at m3
  rw [m1, m2]
  refine ⟨by rw [m1, m2]; exact g.grid.window _ _ _ _, fun x hx => ?_, fun x hf hx => ?_⟩
  · exact (m3 x ((g.grid.window _ _ _ _).frame hx)).1 hx
  · rw [m1, m2] at hf
    exact (m3 x hf).2 hx

/-- The centre of mass of a dot. -/
theorem ShowsGrid.centre {p q : ℤ} (hp : p ∈ P) (hq : q ∈ Q) (hne : ∃ u v, S u v) {c : Pt} (hc : IsCentre b (dotAt S p q) c) :
    c = ⟨(p : ℝ) + e / 2, (q : ℝ) + e / 2⟩ := by
  classical
  refine isMiddle_unique (D := dotAt S p q) ?_ (g.grid.middle hp hq hne)
  obtain ⟨h0, h1, h2⟩ := hc
  set F := (Finset.range b.height ×ˢ Finset.range b.width).filter fun x => x ∈ dotAt S p q with hF
  have hone : ∀ x ∈ F, (b.get x.1 x.2 : ℝ) = 1 := by
    intro x hx
    rw [hF, Finset.mem_filter] at hx
    rw [g.one x ⟨p, hp, q, hq, hx.2⟩]; norm_num
  have s0 : (∑ x ∈ F, (b.get x.1 x.2 : ℝ)) = F.card := by
    rw [Finset.sum_congr rfl hone]; simp
  have s1 : (∑ x ∈ F, (b.get x.1 x.2 : ℝ) * x.1) = ∑ x ∈ F, (x.1 : ℝ) := Finset.sum_congr rfl fun x hx => by rw [hone x hx, one_mul]
  have s2 : (∑ x ∈ F, (b.get x.1 x.2 : ℝ) * x.2) = ∑ x ∈ F, (x.2 : ℝ) := Finset.sum_congr rfl fun x hx => by rw [hone x hx, one_mul]
  have c0 : (∑ x ∈ F, (b.get x.1 x.2 : ℝ)) ≠ 0 := by convert h0
  have c1 : c.y * (∑ x ∈ F, (b.get x.1 x.2 : ℝ)) = ∑ x ∈ F, (b.get x.1 x.2 : ℝ) * x.1 := by convert h1
  have c2 : c.x * (∑ x ∈ F, (b.get x.1 x.2 : ℝ)) = ∑ x ∈ F, (b.get x.1 x.2 : ℝ) * x.2 := by convert h2
  rw [s0] at c0 c1 c2
  rw [s1] at c1
  rw [s2] at c2
  refine ⟨F, ?_, ?_, c1, c2⟩
  · rw [← Finset.card_pos]
    exact Nat.pos_of_ne_zero (by exact_mod_cast c0)
  · ext x
    simp only [hF, Finset.coe_filter, Finset.mem_product, Finset.mem_range, Set.mem_ofPred_eq]
    exact ⟨fun hx => hx.2, fun hx => ⟨g.grid.frame ⟨p, hp, q, hq, hx⟩, hx⟩⟩

/-- The distance to the nearest other dot. -/
theorem ShowsGrid.nearest (hne : ∃ u v, S u v) {d : ℤ} (hd : 0 < d) (hP : Steps d P) (hQ : Steps d Q)
    (htwo : (∃ p ∈ P, ∃ p' ∈ P, p < p') ∨ ∃ q ∈ Q, ∃ q' ∈ Q, q < q') {D : Set (ℕ × ℕ)} {x : ℝ} (hD : IsDot b D) (hx : NearestDist b D x) :
    x = d := by
  have hdots := g.grid.isDot_iff g.lit hne
  obtain ⟨p, hp, q, hq, rfl⟩ := (hdots D).1 hD
  obtain ⟨c, hc, ⟨E, c', hE, hEne, hc', rfl⟩, hmin⟩ := hx
  have ec := g.centre hp hq hne hc
  obtain ⟨p', hp', q', hq', rfl⟩ := (hdots E).1 hE
  have ec' := g.centre hp' hq' hne hc'
  have hd0 : (0 : ℝ) < d := by exact_mod_cast hd
  have hcen : ∀ p ∈ P, ∀ q ∈ Q, IsCentre b (dotAt S p q) ⟨(p : ℝ) + e / 2, (q : ℝ) + e / 2⟩ := by
    classical
    intro p hp q hq
    obtain ⟨F, hFne, hF, hy, hx⟩ := g.grid.middle hp hq hne
    have hFe : (Finset.range b.height ×ˢ Finset.range b.width).filter (fun x => x ∈ dotAt S p q) = F := by
      ext x
      rw [Finset.mem_filter, ← hF, Finset.mem_coe]
      refine ⟨fun h => h.2, fun h => ⟨?_, h⟩⟩
      have : x ∈ dotAt S p q := by rw [← hF]; exact h
      have hf := g.grid.frame ⟨p, hp, q, hq, this⟩
      simpa [frame] using hf
    have hone : ∀ x ∈ F, (b.get x.1 x.2 : ℝ) = 1 := by
      intro x hx
      rw [← Finset.mem_coe, hF] at hx
      rw [g.one x ⟨p, hp, q, hq, hx⟩]; norm_num
    have s0 : (∑ x ∈ F, (b.get x.1 x.2 : ℝ)) = F.card := by
      rw [Finset.sum_congr rfl hone]; simp
    have s1 : (∑ x ∈ F, (b.get x.1 x.2 : ℝ) * x.1) = ∑ x ∈ F, (x.1 : ℝ) := Finset.sum_congr rfl fun x hx => by rw [hone x hx, one_mul]
    have s2 : (∑ x ∈ F, (b.get x.1 x.2 : ℝ) * x.2) = ∑ x ∈ F, (x.2 : ℝ) := Finset.sum_congr rfl fun x hx => by rw [hone x hx, one_mul]
    have hcard : (F.card : ℝ) ≠ 0 := by exact_mod_cast hFne.card_pos.ne'
    unfold IsCentre
    rw [show (Finset.range b.height ×ˢ Finset.range b.width).filter (fun x => x ∈ dotAt S p q) = F by rw [← hFe]]
    rw [s0, s1, s2]
    exact ⟨hcard, hy, hx⟩
  apply le_antisymm
  · -- a neighbour at distance d
    have near : ∀ p₂ ∈ P, ∀ q₂ ∈ Q, (p₂ ≠ p ∨ q₂ ≠ q) → (p₂ - p) ^ 2 + (q₂ - q) ^ 2 = d ^ 2 → centreDist c c' ≤ d := by
      intro p₂ hp₂ q₂ hq₂ hn he
      have hne2 : dotAt S p₂ q₂ ≠ dotAt S p q := by
        intro e
        have h1 := g.grid.middle hp₂ hq₂ hne
        rw [e] at h1
        have := isMiddle_unique h1 (g.grid.middle hp hq hne)
        rw [Pt.mk.injEq] at this
        obtain ⟨a, b⟩ := this
        have a' : (p₂ : ℝ) = p := by linarith
        have b' : (q₂ : ℝ) = q := by linarith
        rcases hn with h | h
        · exact h (by exact_mod_cast a')
        · exact h (by exact_mod_cast b')
      refine (hmin _ _ ((hdots _).2 ⟨p₂, hp₂, q₂, hq₂, rfl⟩) hne2 (hcen _ hp₂ _ hq₂)).trans (le_of_eq ?_)
      rw [ec]
      unfold centreDist
      simp only
      have he' : ((p₂ : ℝ) - p) ^ 2 + (q₂ - q) ^ 2 = d ^ 2 := by exact_mod_cast he
      rw [show ((p : ℝ) + e / 2 - (p₂ + e / 2)) ^ 2 + ((q : ℝ) + e / 2 - (q₂ + e / 2)) ^ 2 = d ^ 2 by linarith, Real.sqrt_sq hd0.le]
    rcases htwo with ⟨p1, h1, p2, h2, hl⟩ | ⟨q1, h1, q2, h2, hl⟩
    · by_cases hc2 : p < p2
      · exact near (p + d) (hP.up _ hp _ h2 hc2).1 q hq (Or.inl (by omega)) (by ring)
      · exact near (p - d) (hP.down _ h1 _ hp (by omega)) q hq (Or.inl (by omega)) (by ring)
    · by_cases hc2 : q < q2
      · exact near p hp (q + d) (hQ.up _ hq _ h2 hc2).1 (Or.inr (by omega)) (by ring)
      · exact near p hp (q - d) (hQ.down _ h1 _ hq (by omega)) (Or.inr (by omega)) (by ring)
  · -- no dot is nearer
    have hge : d ^ 2 ≤ (p - p') ^ 2 + (q - q') ^ 2 := by
      have far : ∀ {T : Set ℤ}, Steps d T → ∀ {x y : ℤ}, x ∈ T → y ∈ T → x ≠ y → d ^ 2 ≤ (x - y) ^ 2 := by
        intro T hT x y hx hy hxy
        rcases lt_or_gt_of_ne hxy with h | h
        · have := (hT.up _ hx _ hy h).2
          nlinarith
        · have := (hT.up _ hy _ hx h).2
          nlinarith
      by_cases h1 : p = p'
      · by_cases h2 : q = q'
        · exact absurd (by rw [h1, h2]) hEne
        · have := far hQ hq hq' h2
          nlinarith [sq_nonneg (p - p')]
      · have := far hP hp hp' h1
        nlinarith [sq_nonneg (q - q')]
    have hge' : (d : ℝ) ^ 2 ≤ ((p : ℝ) - p') ^ 2 + ((q : ℝ) - q') ^ 2 := by exact_mod_cast hge
    rw [ec, ec']
    unfold centreDist
    simp only
    apply Real.le_sqrt_of_sq_le
    calc (d : ℝ) ^ 2 ≤ _ := hge'
      _ = _ := by ring

end

end Discorpy
