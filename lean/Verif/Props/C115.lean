import Verif.Spec.GridPicture
import Verif.Props.C93
import Verif.Props.C99
import Verif.Props.C101
import Verif.Props.C103

/-! # C115: the lines found in the image of a grid of dots seen through a lens -/

namespace Discorpy

open Spec

theorem ptDist_tri (p q r : Pt) : ptDist p r ≤ ptDist p q + ptDist q r := by
  rw [ptDist_toC, ptDist_toC, ptDist_toC]
  exact norm_sub_le_norm_sub_add_norm_sub _ _ _

theorem ptDist_symm (p q : Pt) : ptDist p q = ptDist q p := by
  rw [ptDist_toC, ptDist_toC, norm_sub_rev]

theorem gridNode_apart (o : Pt) (s : ℝ) {d : ℝ} (hd : 0 < d) {a b : ℤ × ℤ} (h : a ≠ b) : d ≤ ptDist (gridNode o s d a) (gridNode o s d b) := by
  unfold ptDist
  apply Real.le_sqrt_of_sq_le
  have hq : 0 < 1 + s ^ 2 := by positivity
  have hs : √(1 + s ^ 2) ^ 2 = 1 + s ^ 2 := Real.sq_sqrt hq.le
  have hs0 : √(1 + s ^ 2) ≠ 0 := (Real.sqrt_pos.2 hq).ne'
  have e : ((gridNode o s d a).x - (gridNode o s d b).x) ^ 2 + ((gridNode o s d a).y - (gridNode o s d b).y) ^ 2 =
      d ^ 2 * (((a.1 - b.1 : ℤ) : ℝ) ^ 2 + ((a.2 - b.2 : ℤ) : ℝ) ^ 2) := by
    simp only [gridNode]
    have : (o.x + d * (a.2 - a.1 * s) / √(1 + s ^ 2) - (o.x + d * (b.2 - b.1 * s) / √(1 + s ^ 2))) ^ 2 +
        (o.y + d * (a.2 * s + a.1) / √(1 + s ^ 2) - (o.y + d * (b.2 * s + b.1) / √(1 + s ^ 2))) ^ 2 =
        d ^ 2 * (((a.1 - b.1) ^ 2 + (a.2 - b.2) ^ 2) * (1 + s ^ 2)) / √(1 + s ^ 2) ^ 2 := by
      field_simp
      ring
    rw [this, hs]
    push_cast
    field_simp
  rw [e]
  have h1 : (1 : ℤ) ≤ (a.1 - b.1) ^ 2 + (a.2 - b.2) ^ 2 := by
    by_contra hn
    have h0 : (a.1 - b.1) ^ 2 + (a.2 - b.2) ^ 2 = 0 := by nlinarith [sq_nonneg (a.1 - b.1), sq_nonneg (a.2 - b.2)]
    have h2 : a.1 - b.1 = 0 := by nlinarith [sq_nonneg (a.1 - b.1), sq_nonneg (a.2 - b.2)]
    have h3 : a.2 - b.2 = 0 := by nlinarith [sq_nonneg (a.1 - b.1), sq_nonneg (a.2 - b.2)]
    exact h (Prod.ext (by omega) (by omega))
  have h2 : (1 : ℝ) ≤ ((a.1 - b.1 : ℤ) : ℝ) ^ 2 + ((a.2 - b.2 : ℤ) : ℝ) ^ 2 := by exact_mod_cast h1
  nlinarith [sq_nonneg d]

theorem dotSum_pos {m : Mat ℤ} (hm : ∀ i < m.height, ∀ j < m.width, 0 ≤ m.get i j) {D : Set (ℕ × ℕ)} (hD : IsDot m D) : 0 < dotSum m D := by
  classical
  obtain ⟨p, hp⟩ := hD.nonempty
  obtain ⟨h1, h2, h3⟩ := hD.lit p hp
  unfold dotSum
  refine Finset.sum_pos' (fun q hq => ?_) ⟨p, ?_, ?_⟩
  · simp only [Finset.mem_filter, Finset.mem_product, Finset.mem_range] at hq
    exact_mod_cast hm _ hq.1.1 _ hq.1.2
  · simp only [Finset.mem_filter, Finset.mem_product, Finset.mem_range]
    exact ⟨⟨h1, h2⟩, hp⟩
  · have := hm _ h1 _ h2
    exact_mod_cast lt_of_le_of_ne this (Ne.symm h3)

/-- The centre of mass of a dot is as near to a point as its pixels. -/
theorem centre_within {m : Mat ℤ} (hm : ∀ i < m.height, ∀ j < m.width, 0 ≤ m.get i j) {D : Set (ℕ × ℕ)} (hD : IsDot m D) {ρ : ℝ} {P c : Pt}
    (hc : IsCentre m D c) (hw : DotWithin ρ D P) : ptDist c P ≤ ρ := by
  classical
  have hS := dotSum_pos hm hD
  unfold dotSum at hS
  obtain ⟨-, hy, hx⟩ := hc
  set F := (Finset.range m.height ×ˢ Finset.range m.width).filter fun q => q ∈ D with hF
  set S := ∑ q ∈ F, (m.get q.1 q.2 : ℝ) with hSdef
  have hv : ∀ q ∈ F, (0 : ℝ) ≤ m.get q.1 q.2 := fun q hq => by
    simp only [hF, Finset.mem_filter, Finset.mem_product, Finset.mem_range] at hq
    exact_mod_cast hm _ hq.1.1 _ hq.1.2
  have key : (S : ℂ) * (toC c - toC P) = ∑ q ∈ F, ((m.get q.1 q.2 : ℝ) : ℂ) * (toC ⟨q.1, q.2⟩ - toC P) := by
    have h2 : ∑ q ∈ F, ((m.get q.1 q.2 : ℝ) : ℂ) * toC ⟨q.1, q.2⟩ = S * toC c := by
      apply Complex.ext
      · simp only [Complex.re_sum, Complex.re_ofReal_mul, toC]
        rw [← hx, mul_comm]
      · simp only [Complex.im_sum, Complex.im_ofReal_mul, toC]
        rw [← hy, mul_comm]
    simp only [mul_sub, Finset.sum_sub_distrib]
    rw [h2, ← Finset.sum_mul, hSdef]
    push_cast
    rfl
  have h1 : S * ptDist c P ≤ S * ρ := by
    have : S * ptDist c P = ‖(S : ℂ) * (toC c - toC P)‖ := by
      rw [norm_mul, Complex.norm_real, Real.norm_eq_abs, abs_of_pos hS, ptDist_toC]
    rw [this, key, hSdef, Finset.sum_mul]
    refine (norm_sum_le _ _).trans (Finset.sum_le_sum fun q hq => ?_)
    rw [norm_mul, Complex.norm_real, Real.norm_eq_abs, abs_of_nonneg (hv q hq), ← ptDist_toC]
    refine mul_le_mul_of_nonneg_left (hw q ?_) (hv q hq)
    simp only [hF, Finset.mem_filter] at hq
    exact hq.2
  exact le_of_mul_le_mul_left h1 hS

theorem isCentre_unique {m : Mat ℤ} {D : Set (ℕ × ℕ)} {a b : Pt} (ha : IsCentre m D a) (hb : IsCentre m D b) : a = b := by
  obtain ⟨h0, y1, x1⟩ := ha
  obtain ⟨-, y2, x2⟩ := hb
  ext
  · exact mul_right_cancel₀ h0 (y1.trans y2.symm)
  · exact mul_right_cancel₀ h0 (x1.trans x2.symm)

/-- Facts about an image that shows a grid. -/
theorem picturesGrid_centres {m : Mat ℤ} (hm : ∀ i < m.height, ∀ j < m.width, 0 ≤ m.get i j) {ρ ε : ℝ} {T : Pt → Pt} {o : Pt} {s d : ℝ}
    {cells : List (ℤ × ℤ)} (hd : 0 < d) (hnd : cells.Nodup) (hρ : 0 ≤ ρ) (h : PicturesGrid m ρ T o s d cells)
    (hT : BendsBy ε T fun P => ∃ c ∈ cells, P = gridNode o s d c) (hε : ε + 2 * ρ / d < 1) :
    ∃ T' : Pt → Pt, (∀ c ∈ cells, IsShownAt m ρ (T (gridNode o s d c)) (T' (gridNode o s d c))) ∧
      (∀ c ∈ cells, ptDist (T' (gridNode o s d c)) (T (gridNode o s d c)) ≤ ρ) ∧
      (BendsBy (ε + 2 * ρ / d) T' fun P => ∃ c ∈ cells, P = gridNode o s d c) ∧
      ∀ pts, CentresOf m pts → pts.Perm (cells.map fun c => T' (gridNode o s d c)) := by
  classical
  have hcen : ∀ D, IsDot m D → ∃ c, IsCentre m D c := fun D hD => by
    have h0 := (dotSum_pos hm hD).ne'
    unfold dotSum at h0
    exact ⟨⟨_, _⟩, h0, div_mul_cancel₀ _ h0, div_mul_cancel₀ _ h0⟩
  have : Nonempty Pt := ⟨⟨0, 0⟩⟩
  choose! mid hmid using hcen
  choose! dot hdot using fun c hc => (h.shown c hc).exists
  have hinj : ∀ a b : ℤ × ℤ, gridNode o s d a = gridNode o s d b → a = b := fun a b e => by
    by_contra hne
    have := gridNode_apart o s hd hne
    rw [e] at this
    have h0 : ptDist (gridNode o s d b) (gridNode o s d b) = 0 := by simp [ptDist]
    linarith
  have hex : ∃ cell : Pt → ℤ × ℤ, ∀ c, cell (gridNode o s d c) = c :=
    ⟨Function.invFun (gridNode o s d), fun c => hinj _ _ (Function.invFun_eq ⟨c, rfl⟩)⟩
  obtain ⟨cell, hcell⟩ := hex
  have hT' : ∀ c, mid (dot (cell (gridNode o s d c))) = mid (dot c) := fun c => by rw [hcell]
  have hbend : ∀ a ∈ cells, ∀ b ∈ cells, ptDist (shift T (gridNode o s d a)) (shift T (gridNode o s d b)) ≤
      ε * ptDist (gridNode o s d a) (gridNode o s d b) := fun a ha b hb => hT _ _ ⟨a, ha, rfl⟩ ⟨b, hb, rfl⟩
  have hnear : ∀ c ∈ cells, ptDist (mid (dot c)) (T (gridNode o s d c)) ≤ ρ := fun c hc =>
    centre_within hm (hdot c hc).1 (hmid _ (hdot c hc).1) (hdot c hc).2
  have shiftC : ∀ (U : Pt → Pt) p, toC (shift U p) = toC (U p) - toC p := fun U p => rfl
  have hapart : ∀ a ∈ cells, ∀ b ∈ cells, a ≠ b → 2 * ρ < ptDist (T (gridNode o s d a)) (T (gridNode o s d b)) := by
    intro a ha b hb hne
    have h1 := gridNode_apart o s hd hne
    have h2 := hbend a ha b hb
    rw [ptDist_toC, shiftC, shiftC] at h2
    have h3 : ‖toC (gridNode o s d a) - toC (gridNode o s d b)‖ ≤ ‖toC (T (gridNode o s d a)) - toC (T (gridNode o s d b))‖ +
        ‖toC (T (gridNode o s d a)) - toC (gridNode o s d a) - (toC (T (gridNode o s d b)) - toC (gridNode o s d b))‖ := by
      refine le_trans (le_of_eq ?_) (norm_sub_le _ _)
      congr 1
      ring
    rw [← ptDist_toC, ← ptDist_toC] at h3
    have h4 : 2 * ρ = 2 * ρ / d * d := by field_simp
    have h5 : (ε + 2 * ρ / d) * ptDist (gridNode o s d a) (gridNode o s d b) < 1 * ptDist (gridNode o s d a) (gridNode o s d b) :=
      mul_lt_mul_of_pos_right hε (hd.trans_le h1)
    have h6 : 2 * ρ / d * d ≤ 2 * ρ / d * ptDist (gridNode o s d a) (gridNode o s d b) := mul_le_mul_of_nonneg_left h1 (by positivity)
    nlinarith
  have hdotinj : ∀ a ∈ cells, ∀ b ∈ cells, dot a = dot b → a = b := by
    intro a ha b hb e
    by_contra hne
    obtain ⟨q, hq⟩ := (hdot a ha).1.nonempty
    have h1 := (hdot a ha).2 q hq
    have h2 := (hdot b hb).2 q (e ▸ hq)
    have h3 := hapart a ha b hb hne
    have h4 := ptDist_tri (T (gridNode o s d a)) ⟨q.1, q.2⟩ (T (gridNode o s d b))
    rw [ptDist_symm _ ⟨q.1, q.2⟩] at h4
    linarith
  refine ⟨fun P => mid (dot (cell P)), fun c hc => ?_, fun c hc => ?_, ?_, ?_⟩
  · refine ⟨dot c, (hdot c hc).1, (hdot c hc).2, ?_⟩
    show IsCentre m (dot c) (mid (dot (cell (gridNode o s d c))))
    rw [hT']
    exact hmid _ (hdot c hc).1
  · show ptDist (mid (dot (cell (gridNode o s d c)))) _ ≤ ρ
    rw [hT']
    exact hnear c hc
  · rintro _ _ ⟨a, ha, rfl⟩ ⟨b, hb, rfl⟩
    by_cases hne : a = b
    · subst hne
      simp [ptDist]
    · have h1 := gridNode_apart o s hd hne
      have h2 := hbend a ha b hb
      have ha' := hnear a ha
      have hb' := hnear b hb
      rw [ptDist_toC, shiftC, shiftC] at h2 ⊢
      rw [hT', hT']
      rw [ptDist_toC] at ha' hb'
      have h6 : 2 * ρ / d * d ≤ 2 * ρ / d * ptDist (gridNode o s d a) (gridNode o s d b) := mul_le_mul_of_nonneg_left h1 (by positivity)
      have h4 : 2 * ρ = 2 * ρ / d * d := by field_simp
      calc ‖toC (mid (dot a)) - toC (gridNode o s d a) - (toC (mid (dot b)) - toC (gridNode o s d b))‖
          = ‖(toC (T (gridNode o s d a)) - toC (gridNode o s d a) - (toC (T (gridNode o s d b)) - toC (gridNode o s d b))) +
              ((toC (mid (dot a)) - toC (T (gridNode o s d a))) - (toC (mid (dot b)) - toC (T (gridNode o s d b))))‖ := by
            congr 1
            ring
        _ ≤ _ := (norm_add_le _ _).trans (add_le_add h2 ((norm_sub_le _ _).trans (add_le_add ha' hb')))
        _ ≤ _ := by linarith
  · rintro pts ⟨dots, hsc, hmem, hf⟩
    have e1 : pts = dots.map mid := by
      have hdots : ∀ D ∈ dots, IsDot m D := fun D hD => (hmem D).1 hD
      clear hsc hmem
      induction hf with
      | nil => rfl
      | cons hab _ ih =>
        rw [List.map_cons, ih fun D hD => hdots D (List.mem_cons_of_mem _ hD),
          isCentre_unique hab (hmid _ (hdots _ List.mem_cons_self))]
    have e2 : (cells.map fun c => mid (dot (cell (gridNode o s d c)))) = (cells.map dot).map mid := by
      rw [List.map_map]
      exact List.map_congr_left fun c _ => hT' c
    show pts.Perm (cells.map fun c => mid (dot (cell (gridNode o s d c))))
    rw [e1, e2]
    refine List.Perm.map _ ((List.perm_ext_iff_of_nodup (scanned_nodup hsc) ?_).2 fun D => ?_)
    · exact hnd.map_on hdotinj
    · rw [hmem, List.mem_map]
      constructor
      · intro hD
        obtain ⟨c, hc, hw⟩ := h.only D hD
        exact ⟨c, hc, (h.shown c hc).unique (hdot c hc) ⟨hD, hw⟩⟩
      · rintro ⟨c, hc, rfl⟩
        exact (hdot c hc).1

theorem gapsAtMost_congr {gap : ℕ} {a b : List (ℤ × ℤ)} (hab : ∀ c, c ∈ a ↔ c ∈ b) (h : GapsAtMost gap b) : GapsAtMost gap a :=
  fun x hx y hy e hlt hno => h x ((hab x).1 hx) y ((hab y).1 hy) e hlt fun z hz => hno z ((hab z).2 hz)

theorem endsWithin_congr {gap : ℕ} {a b : List (ℤ × ℤ)} (hab : ∀ c, c ∈ a ↔ c ∈ b) (h : EndsWithin gap b) : EndsWithin gap a :=
  fun x hx hmax y hy => h x ((hab x).1 hx) (fun z hz => hmax z ((hab z).2 hz)) y ((hab y).1 hy)

/-- An image with a dot has a lit pixel. -/
theorem lit_of_dot {m : Mat ℤ} {D : Set (ℕ × ℕ)} (hD : IsDot m D) : ∃ p, Lit m p := by
  obtain ⟨p, hp⟩ := hD.nonempty
  exact ⟨p, hD.lit p hp⟩

/-- **C115 (rows of an image).** From an image of a bent grid of dots, some of them missing, the horizontal grouping makes one line for each
row that has at least two dots and more than `acc` times as many as the fullest row: the centres of mass of the dots of the row from left to
right. Every line is made of all dots of one row, and the lines follow from top to bottom. -/
theorem C115_rows (argsort : List ℝ → List ℕ) (hs : ArgsortSpec argsort) (m : Mat ℤ) (hw : 2 < m.width)
    (hm : ∀ i < m.height, ∀ j < m.width, 0 ≤ m.get i j) (T : Pt → Pt) (o : Pt) (s d ρ ε ratio miss acc reach : ℝ) (gap : ℕ)
    (cells : List (ℤ × ℤ)) (hnd : cells.Nodup) (hd : 0 < d) (hρ : 0 ≤ ρ) (hε : 0 ≤ ε) (hr : ratio < 1) (hshow : PicturesGrid m ρ T o s d cells)
    (hT : BendsBy ε T fun P => ∃ c ∈ cells, P = gridNode o s d c) (hg : 1 ≤ gap) (hgap : GapsAtMost gap cells)
    (h1 : gap * (ε + 2 * ρ / d) < ratio) (h2 : gap * (cosOf s + (ε + 2 * ρ / d)) < miss) (h3 : RowsApart s (ε + 2 * ρ / d) ratio reach)
    (hreach : miss ≤ reach ∨ gap * (cosOf s + (ε + 2 * ρ / d)) ≤ reach ∧ EndsWithin gap cells)
    (htwo : ∃ i, 2 ≤ (cells.filter fun c => decide (c.1 = i)).length) :
    ∃ (f : ℤ × ℤ → Pt) (lines : List (List Pt)) (longest : ℕ), (∀ c ∈ cells, IsShownAt m ρ (T (gridNode o s d c)) (f c)) ∧
      groupDotsHorImage argsort m s d ratio miss acc = .ok lines ∧
      (∀ i, (cells.filter fun c => decide (c.1 = i)).length ≤ longest) ∧
      (∃ i, (cells.filter fun c => decide (c.1 = i)).length = longest) ∧
      (∀ l ∈ lines, l ≠ [] ∧ ∃ i, l.Perm ((cells.filter fun c => decide (c.1 = i)).map f) ∧ l.Pairwise (fun p q => p.x < q.x)) ∧
      (∀ i, 2 ≤ (cells.filter fun c => decide (c.1 = i)).length → acc * longest < (cells.filter fun c => decide (c.1 = i)).length →
        ∃ l ∈ lines, l.Perm ((cells.filter fun c => decide (c.1 = i)).map f)) ∧
      lines.Pairwise (fun a b => ∀ p ∈ a, p ∉ b) ∧ lines.Pairwise fun a b => meanY a ≤ meanY b := by
  have hb0 : 0 ≤ ε + 2 * ρ / d := by positivity
  have hlt : ε + 2 * ρ / d < 1 := by
    have : (1 : ℝ) ≤ gap := by exact_mod_cast hg
    nlinarith
  obtain ⟨T', t1, t2, t3, t4⟩ := picturesGrid_centres hm hd hnd hρ hshow hT hlt
  obtain ⟨pts, hc, him, -⟩ := C103_image argsort m hw (fun D hD => (dotSum_pos hm hD).ne') s d ratio miss acc
  obtain ⟨cells', hperm, rfl⟩ := map_perm_lift (t4 pts hc)
  have hmem : ∀ c, c ∈ cells' ↔ c ∈ cells := fun c => hperm.mem_iff
  have hfil : ∀ i : ℤ, (cells'.filter fun c => decide (c.1 = i)).Perm (cells.filter fun c => decide (c.1 = i)) := fun i => hperm.filter _
  have hlen : ∀ i : ℤ, (cells'.filter fun c => decide (c.1 = i)).length = (cells.filter fun c => decide (c.1 = i)).length :=
    fun i => (hfil i).length_eq
  obtain ⟨lines, longest, e, g1, ⟨i, g2⟩, g3, g4, g5⟩ := C101_missing argsort hs T' o s d (ε + 2 * ρ / d) ratio miss acc reach gap cells'
    (hperm.nodup_iff.2 hnd) hd hb0 hr (fun p q ⟨a, ha, ea⟩ ⟨b, hb, eb⟩ => t3 p q ⟨a, (hmem a).1 ha, ea⟩ ⟨b, (hmem b).1 hb, eb⟩)
    (gapsAtMost_congr hmem hgap) h1 h2 h3 (hreach.imp_right fun h => ⟨h.1, endsWithin_congr hmem h.2⟩)
    (by obtain ⟨i, hi⟩ := htwo; exact ⟨i, by rwa [hlen]⟩)
  have hlit : ∃ p, Lit m p := by
    obtain ⟨i, hi⟩ := htwo
    obtain ⟨c, hcm⟩ := List.exists_mem_of_length_pos (by omega : 0 < (cells.filter fun c => decide (c.1 = i)).length)
    obtain ⟨D, hD, _⟩ := t1 c (List.mem_filter.1 hcm).1
    exact lit_of_dot hD
  refine ⟨fun c => T' (gridNode o s d c), lines, longest, t1, (him hlit).1.trans e, fun i => hlen i ▸ g1 i, ⟨i, hlen i ▸ g2⟩,
    fun l hl => ?_, fun i k1 k2 => ?_, g5⟩
  · obtain ⟨l0, i, p, hp⟩ := g3 l hl
    exact ⟨l0, i, p.trans ((hfil i).map _), hp⟩
  · rw [← hlen i] at k1 k2
    obtain ⟨l, hl, p⟩ := g4 i k1 k2
    exact ⟨l, hl, p.trans ((hfil i).map _)⟩

/-- **C115 (complete grid).** From an image of a complete bent grid the two groupings make exactly its rows and its columns: line `k` of the
first is the centres of mass of the dots of row `k` from left to right, line `l` of the second those of column `l` from top to bottom. -/
theorem C115_grid (argsort : List ℝ → List ℕ) (hs : ArgsortSpec argsort) (m : Mat ℤ) (hw : 2 < m.width)
    (hm : ∀ i < m.height, ∀ j < m.width, 0 ≤ m.get i j) (T : Pt → Pt) (o : Pt) (s d ρ ε ratio miss acc : ℝ) (K L : ℕ)
    (hK : 2 ≤ K) (hL : 2 ≤ L) (hd : 0 < d) (hρ : 0 ≤ ρ) (hε : 0 ≤ ε) (hr : ratio < 1) (hacc : acc < 1)
    (hshow : PicturesGrid m ρ T o s d (allCells K L))
    (hT : BendsBy ε T fun P => ∃ k < K, ∃ l < L, P = gridNode o s d (((k : ℕ) : ℤ), ((l : ℕ) : ℤ)))
    (h1 : ε + 2 * ρ / d < ratio) (h2 : cosOf s + (ε + 2 * ρ / d) < miss)
    (h3 : RowsApart s (ε + 2 * ρ / d) ratio (cosOf s + (ε + 2 * ρ / d))) :
    ∃ f : ℕ → ℕ → Pt, (∀ k < K, ∀ l < L, IsShownAt m ρ (T (gridNode o s d (k, l))) (f k l)) ∧
      groupDotsHorImage argsort m s d ratio miss acc = .ok (tableRows f K L) ∧
      groupDotsVerImage argsort m (-s) d ratio miss acc = .ok (tableRows (fun l k => f k l) L K) := by
  have hb0 : 0 ≤ ε + 2 * ρ / d := by positivity
  have hT' : BendsBy ε T fun P => ∃ c ∈ allCells K L, P = gridNode o s d c := by
    rintro p q ⟨a, ha, rfl⟩ ⟨b, hb, rfl⟩
    obtain ⟨k, hk, l, hl, rfl⟩ := mem_allCells.1 ha
    obtain ⟨k', hk', l', hl', rfl⟩ := mem_allCells.1 hb
    exact hT _ _ ⟨k, hk, l, hl, rfl⟩ ⟨k', hk', l', hl', rfl⟩
  obtain ⟨T', t1, -, t3, t4⟩ := picturesGrid_centres hm hd (allCells_nodup K L) hρ hshow hT' (h1.trans hr)
  have hb : BendsBy (ε + 2 * ρ / d) T' fun P => ∃ k < K, ∃ l < L, P = gridNode o s d (((k : ℕ) : ℤ), ((l : ℕ) : ℤ)) := by
    rintro p q ⟨k, hk, l, hl, rfl⟩ ⟨k', hk', l', hl', rfl⟩
    exact t3 _ _ ⟨_, mem_allCells.2 ⟨k, hk, l, hl, rfl⟩, rfl⟩ ⟨_, mem_allCells.2 ⟨k', hk', l', hl', rfl⟩, rfl⟩
  have hshown : ∀ k < K, ∀ l < L, IsShownAt m ρ (T (gridNode o s d ((k : ℕ), (l : ℕ)))) (T' (gridNode o s d ((k : ℕ), (l : ℕ)))) :=
    fun k hk l hl => t1 _ (mem_allCells.2 ⟨k, hk, l, hl, rfl⟩)
  obtain ⟨D, hD, _⟩ := hshown 0 (by omega) 0 (by omega)
  have hlit := lit_of_dot hD
  refine ⟨fun k l => T' (gridNode o s d (k, l)), hshown, ?_, ?_⟩
  · obtain ⟨pts, hc, him, -⟩ := C103_image argsort m hw (fun D hD => (dotSum_pos hm hD).ne') s d ratio miss acc
    rw [(him hlit).1]
    refine C101_complete argsort hs T' o s d _ ratio miss acc K L (by omega) hL hd hb0 hr hacc hb h1 h2 h3 pts ?_
    rw [← allCells_map K L fun c => T' (gridNode o s d c)]
    exact t4 pts hc
  · obtain ⟨pts, hc, him, -⟩ := C103_image argsort m hw (fun D hD => (dotSum_pos hm hD).ne') (-s) d ratio miss acc
    rw [(him hlit).2]
    refine C101_columns argsort hs T' o s d _ ratio miss acc K L hK (by omega) hd hb0 hr hacc hb h1 h2 h3 pts ?_
    rw [← allCells_map K L fun c => T' (gridNode o s d c)]
    exact t4 pts hc

/-- **C115 (default settings).** With the default settings, an image of a complete upright grid within distance `R` of the centre of a lens
with radial coefficients, whose dots lie within `ρ` of the moved nodes, is grouped into exactly its rows and columns if
`|k₀ - 1| + 2·|k₁|·R + 3·|k₂|·R² + … + 2·ρ/d ≤ 0.23`. -/
theorem C115_default (argsort : List ℝ → List ℕ) (hs : ArgsortSpec argsort) (m : Mat ℤ) (hw : 2 < m.width)
    (hm : ∀ i < m.height, ∀ j < m.width, 0 ≤ m.get i j) (c o : Pt) (coefs : List ℝ) (hne : coefs ≠ []) (R d ρ : ℝ) (K L : ℕ)
    (hK : 2 ≤ K) (hL : 2 ≤ L) (hd : 0 < d) (hρ : 0 ≤ ρ)
    (hin : ∀ k < K, ∀ l < L, ptDist (gridNode o 0 d (((k : ℕ) : ℤ), ((l : ℕ) : ℤ))) c ≤ R)
    (hshow : PicturesGrid m ρ (radialMap c coefs) o 0 d (allCells K L)) (hbend : bendBound coefs R + 2 * ρ / d ≤ 0.23) :
    ∃ f : ℕ → ℕ → Pt, (∀ k < K, ∀ l < L, IsShownAt m ρ (radialMap c coefs (gridNode o 0 d (k, l))) (f k l)) ∧
      groupDotsHorImage argsort m 0 d 0.3 6 0.65 = .ok (tableRows f K L) ∧
      groupDotsVerImage argsort m 0 d 0.3 6 0.65 = .ok (tableRows (fun l k => f k l) L K) := by
  have hR : 0 ≤ R := by
    refine le_trans ?_ (hin 0 (by omega) 0 (by omega))
    unfold ptDist
    positivity
  have h0 : 0 ≤ bendBound coefs R := Finset.sum_nonneg fun i _ => by positivity
  have h0' : 0 ≤ bendBound coefs R + 2 * ρ / d := by positivity
  have hc : cosOf 0 = 1 := by simp [cosOf]
  have := C115_grid argsort hs m hw hm (radialMap c coefs) o 0 d ρ (bendBound coefs R) 0.3 6 0.65 K L hK hL hd hρ h0 (by norm_num) (by norm_num) hshow
    (by
      rintro p q ⟨k, hk, l, hl, rfl⟩ ⟨k', hk', l', hl', rfl⟩
      exact C101_radial c coefs hne R _ _ (hin k hk l hl) (hin k' hk' l' hl'))
    (by linarith) (by rw [hc]; linarith)
    (by
      unfold RowsApart
      rw [hc, abs_zero]
      nlinarith)
  rwa [neg_zero] at this

/-- **C115 (how far the shown points are off).** Under the hypotheses above the points of the lines are within `ρ` of the moved nodes. -/
theorem C115_near (m : Mat ℤ) (hm : ∀ i < m.height, ∀ j < m.width, 0 ≤ m.get i j) (ρ : ℝ) (P p : Pt) (h : IsShownAt m ρ P p) :
    ptDist p P ≤ ρ := by
  obtain ⟨D, hD, hw, hc⟩ := h
  exact centre_within hm hD hc hw


theorem radialMap_near (c : Pt) {f : List ℝ} (hf : f ≠ []) {R δ : ℝ} {p q : Pt} (hp : ptDist p c ≤ R) (hq : ptDist q c ≤ R) (h : ptDist p q ≤ δ) :
    ptDist (radialMap c f p) (radialMap c f q) ≤ (1 + bendBound f R) * δ := by
  have h1 := C101_radial c f hf R p q hp hq
  have h0 : 0 ≤ bendBound f R := Finset.sum_nonneg fun i _ => by
    have : 0 ≤ R := le_trans (by unfold ptDist; positivity) hp
    positivity
  rw [ptDist_toC] at h1
  rw [ptDist_toC] at h ⊢
  have e : toC (radialMap c f p) - toC (radialMap c f q) =
      (toC (shift (radialMap c f) p) - toC (shift (radialMap c f) q)) + (toC p - toC q) := by
    show _ = (toC (radialMap c f p) - toC p) - (toC (radialMap c f q) - toC q) + _
    ring
  rw [e]
  refine (norm_add_le _ _).trans ?_
  rw [ptDist_toC p q] at h1
  nlinarith

theorem onHorLine_row (o : Pt) (s d : ℝ) (k l : ℕ) :
    onHorLine s (o.y + d * k * (1 + s ^ 2) / √(1 + s ^ 2) - s * o.x) (gridNode o s d (((k : ℕ) : ℤ), ((l : ℕ) : ℤ))) := by
  simp only [onHorLine, gridNode]
  push_cast
  ring

theorem onVerLine_column (o : Pt) (s d : ℝ) (k l : ℕ) :
    onVerLine (-s) (o.x + d * l * (1 + s ^ 2) / √(1 + s ^ 2) + s * o.y) (gridNode o s d (((k : ℕ) : ℤ), ((l : ℕ) : ℤ))) := by
  simp only [onVerLine, gridNode]
  push_cast
  ring

/-- **C115 (verdict after the correction).** In the situation of `C115_grid` let the centre of every dot be within `δ` of the moved node, and
let the forward model `f` send the moved nodes back to the nodes up to `e`. Then the lines found in the image and unwarped with the model are
reported as free of distortion in both directions if `(s² + 1)·(e + (1 + |f₀ - 1| + 2·|f₁|·R + …)·δ)² ≤ 0.15`, the dots lying within `R` of
the centre of the model. -/
theorem C115_verdict (pf : PolyfitFn) (hpf : PolyfitSpec pf) (argsort : List ℝ → List ℕ) (hs : ArgsortSpec argsort) (m : Mat ℤ) (hw : 2 < m.width)
    (hm : ∀ i < m.height, ∀ j < m.width, 0 ≤ m.get i j) (T : Pt → Pt) (o : Pt) (s d ρ ε ratio miss acc : ℝ) (K L : ℕ)
    (hK : 2 ≤ K) (hL : 2 ≤ L) (hd : 0 < d) (hρ : 0 ≤ ρ) (hε : 0 ≤ ε) (hr : ratio < 1) (hacc : acc < 1)
    (hshow : PicturesGrid m ρ T o s d (allCells K L))
    (hT : BendsBy ε T fun P => ∃ k < K, ∃ l < L, P = gridNode o s d (((k : ℕ) : ℤ), ((l : ℕ) : ℤ)))
    (h1 : ε + 2 * ρ / d < ratio) (h2 : cosOf s + (ε + 2 * ρ / d) < miss)
    (h3 : RowsApart s (ε + 2 * ρ / d) ratio (cosOf s + (ε + 2 * ρ / d)))
    (c : Pt) (f : List ℝ) (hf : f ≠ []) (R δ e : ℝ)
    (hδ : ∀ k < K, ∀ l < L, ∀ p, IsShownAt m ρ (T (gridNode o s d (((k : ℕ) : ℤ), ((l : ℕ) : ℤ)))) p →
      ptDist p (T (gridNode o s d (((k : ℕ) : ℤ), ((l : ℕ) : ℤ)))) ≤ δ)
    (hR : ∀ k < K, ∀ l < L, ptDist (T (gridNode o s d (((k : ℕ) : ℤ), ((l : ℕ) : ℤ)))) c + δ ≤ R)
    (he : ∀ k < K, ∀ l < L, ptDist (radialMap c f (T (gridNode o s d (((k : ℕ) : ℤ), ((l : ℕ) : ℤ)))))
      (gridNode o s d (((k : ℕ) : ℤ), ((l : ℕ) : ℤ))) ≤ e)
    (hsmall : (s ^ 2 + 1) * (e + (1 + bendBound f R) * δ) ^ 2 ≤ 0.15) (xc yc : ℝ) :
    ∃ hor ver outH outV, groupDotsHorImage argsort m s d ratio miss acc = .ok hor ∧
      groupDotsVerImage argsort m (-s) d ratio miss acc = .ok ver ∧
      calcResidualHor pf argsort (unwarpLineForward id hor c.x c.y f) xc yc = .ok outH ∧ checkDistortion outH = .ok false ∧
      calcResidualVer pf argsort (unwarpLineForward id ver c.x c.y f) xc yc = .ok outV ∧ checkDistortion outV = .ok false := by
  obtain ⟨g, hg, eh, ev⟩ := C115_grid argsort hs m hw hm T o s d ρ ε ratio miss acc K L hK hL hd hρ hε hr hacc hshow hT h1 h2 h3
  have hclose : ∀ k < K, ∀ l < L, ptDist (gridNode o s d (((k : ℕ) : ℤ), ((l : ℕ) : ℤ))) (radialMap c f (g k l)) ≤ e + (1 + bendBound f R) * δ := by
    intro k hk l hl
    have a1 := hδ k hk l hl _ (hg k hk l hl)
    have a2 := hR k hk l hl
    have a3 := he k hk l hl
    have a0 : 0 ≤ δ := le_trans (by unfold ptDist; positivity) a1
    have a4 : ptDist (g k l) c ≤ R := (ptDist_tri _ (T (gridNode o s d (((k : ℕ) : ℤ), ((l : ℕ) : ℤ)))) _).trans (by linarith)
    have a5 := radialMap_near c hf a4 (by linarith) a1
    refine (ptDist_tri _ (radialMap c f (T (gridNode o s d (((k : ℕ) : ℤ), ((l : ℕ) : ℤ))))) _).trans ?_
    rw [ptDist_symm] at a3 a5
    linarith
  have key : ∀ lines : List (List Pt), unwarpLineForward id lines c.x c.y f = lines.map fun l => l.map (radialMap c f) := by
    intro lines
    unfold unwarpLineForward
    refine List.map_congr_left fun l _ => List.map_congr_left fun p _ => ?_
    simp only [id_eq, polySum_eq_radial, ← sq]
    rfl
  have hneg : ((-s) ^ 2 + 1) * (e + (1 + bendBound f R) * δ) ^ 2 ≤ 0.15 := by rwa [neg_sq]
  obtain ⟨outH, r1, r2⟩ := C99_moved pf hpf argsort hs (tableRows (fun k l => gridNode o s d (((k : ℕ) : ℤ), ((l : ℕ) : ℤ))) K L)
    (unwarpLineForward id (tableRows g K L) c.x c.y f) (e + (1 + bendBound f R) * δ) (by
      rw [key]
      unfold MovedBy tableRows
      rw [List.map_map, List.forall₂_map_left_iff, List.forall₂_map_right_iff, List.forall₂_same]
      intro k hk
      simp only [Function.comp_def, List.map_map]
      rw [List.forall₂_map_left_iff, List.forall₂_map_right_iff, List.forall₂_same]
      intro l hl
      exact hclose k (List.mem_range.1 hk) l (List.mem_range.1 hl))
    (by simp [tableRows]; omega) (by simp [tableRows]; omega) (by
      intro l hl
      obtain ⟨k, hk, rfl⟩ := List.mem_map.1 hl
      refine ⟨s, o.y + d * k * (1 + s ^ 2) / √(1 + s ^ 2) - s * o.x, hsmall, fun p hp => ?_⟩
      obtain ⟨l, _, rfl⟩ := List.mem_map.1 hp
      exact onHorLine_row o s d k l) xc yc
  obtain ⟨outV, r3, r4⟩ := C99_moved_ver pf hpf argsort hs (tableRows (fun l k => gridNode o s d (((k : ℕ) : ℤ), ((l : ℕ) : ℤ))) L K)
    (unwarpLineForward id (tableRows (fun l k => g k l) L K) c.x c.y f) (e + (1 + bendBound f R) * δ) (by
      rw [key]
      unfold MovedBy tableRows
      rw [List.map_map, List.forall₂_map_left_iff, List.forall₂_map_right_iff, List.forall₂_same]
      intro l hl
      simp only [Function.comp_def, List.map_map]
      rw [List.forall₂_map_left_iff, List.forall₂_map_right_iff, List.forall₂_same]
      intro k hk
      exact hclose k (List.mem_range.1 hk) l (List.mem_range.1 hl))
    (by simp [tableRows]; omega) (by simp [tableRows]; omega) (by
      intro l hl
      obtain ⟨l, hl, rfl⟩ := List.mem_map.1 hl
      refine ⟨-s, o.x + d * l * (1 + s ^ 2) / √(1 + s ^ 2) + s * o.y, hneg, fun p hp => ?_⟩
      obtain ⟨k, _, rfl⟩ := List.mem_map.1 hp
      exact onVerLine_column o s d k l) xc yc
  exact ⟨_, _, outH, outV, eh, ev, r1, r2, r3, r4⟩

/-! ## Concrete images: 3 × 4 dots of one or two pixels, 20 apart -/

/-- The pixels `(20·k, 20·l)`, …, `(20·k, 20·l + w - 1)` are 1. -/
def dotTable (w : ℕ) : Mat ℤ := ⟨41, 62, fun i j => if i % 20 = 0 ∧ j % 20 < w then 1 else 0⟩

theorem dotTable_lit {w : ℕ} (hw : w ≤ 2) {q : ℕ × ℕ} : Lit (dotTable w) q ↔ ∃ k < 3, ∃ l < 4, q ∈ rectangle (20 * k) (20 * l) 1 w := by
  unfold Lit dotTable rectangle
  simp only [ne_eq, ite_eq_right_iff, Classical.not_imp, one_ne_zero, not_false_eq_true, and_true, Set.mem_ofPred_eq]
  constructor
  · rintro ⟨h1, h2, h3, h4⟩
    exact ⟨q.1 / 20, by omega, q.2 / 20, by omega, by omega, by omega, by omega⟩
  · rintro ⟨k, hk, l, hl, h1, h2, h3⟩
    omega

theorem dotTable_isDot {w : ℕ} (h0 : 0 < w) (hw : w ≤ 2) {k l : ℕ} (hk : k < 3) (hl : l < 4) : IsDot (dotTable w) (rectangle (20 * k) (20 * l) 1 w) := by
  refine rectangle_isDot (by norm_num) h0 (fun q hq => (dotTable_lit hw).2 ⟨k, hk, l, hl, hq⟩) ?_
  intro p hp q hq he
  obtain ⟨k', hk', l', hl', hq⟩ := (dotTable_lit hw).1 hq
  rw [shareEdge_iff] at he
  unfold Adj4 at he
  simp only [rectangle, Set.mem_ofPred_eq] at *
  omega

theorem dotTable_eq {w : ℕ} (h0 : 0 < w) (hw : w ≤ 2) {k l : ℕ} (hk : k < 3) (hl : l < 4) {D : Set (ℕ × ℕ)} (hD : IsDot (dotTable w) D) {q : ℕ × ℕ}
    (hq : q ∈ D) (hr : q ∈ rectangle (20 * k) (20 * l) 1 w) : D = rectangle (20 * k) (20 * l) 1 w :=
  (isDot_eq hD hq).trans (isDot_eq (dotTable_isDot h0 hw hk hl) hr).symm

theorem dotTable_node {k l : ℕ} : gridNode ⟨0, 0⟩ 0 20 (((k : ℕ) : ℤ), ((l : ℕ) : ℤ)) = ⟨20 * k, 20 * l⟩ := by
  simp [gridNode]

theorem dotTable_radius {k l : ℕ} (hk : k < 3) (hl : l < 4) : ptDist (⟨20 * k, 20 * l⟩ : Pt) ⟨0, 0⟩ ≤ 73 := by
  rw [ptDist, Real.sqrt_le_iff]
  have h1 : (k : ℝ) ≤ 2 := by exact_mod_cast (by omega : k ≤ 2)
  have h2 : (l : ℝ) ≤ 3 := by exact_mod_cast (by omega : l ≤ 3)
  have h3 : (0 : ℝ) ≤ k := Nat.cast_nonneg k
  have h4 : (0 : ℝ) ≤ l := Nat.cast_nonneg l
  refine ⟨by norm_num, ?_⟩
  simp only
  nlinarith

theorem radial_two (a r : ℝ) : radial [1, a] r = 1 + a * r := by
  unfold radial
  refine (Fin.sum_univ_two _).trans ?_
  simp

theorem radialMap_shift {a : ℝ} (ha : 0 ≤ a) {p : Pt} (hp : ptDist p ⟨0, 0⟩ ≤ 73) : ptDist p (radialMap ⟨0, 0⟩ [1, a] p) ≤ 5329 * a := by
  set r := ptDist p ⟨0, 0⟩ with hr
  have h0 : 0 ≤ r := by rw [hr]; unfold ptDist; positivity
  have hrr : r ^ 2 = p.x ^ 2 + p.y ^ 2 := by
    rw [hr, ptDist, Real.sq_sqrt (by positivity)]
    simp
  unfold ptDist radialMap
  rw [← hr, radial_two]
  apply Real.sqrt_le_iff.2
  refine ⟨by positivity, ?_⟩
  have e : (p.x - (0 + (1 + a * r) * (p.x - 0))) ^ 2 + (p.y - (0 + (1 + a * r) * (p.y - 0))) ^ 2 = a ^ 2 * (r ^ 2) ^ 2 := by
    linear_combination (-(a ^ 2 * r ^ 2)) * hrr
  simp only at e ⊢
  rw [e]
  have h1 : r ^ 2 ≤ 5329 := by nlinarith
  nlinarith [mul_le_mul h1 h1 (sq_nonneg r) (by norm_num), sq_nonneg a]

theorem dotTable_within {w : ℕ} {a : ℝ} (ha : 0 ≤ a) {k l : ℕ} (hk : k < 3) (hl : l < 4) :
    DotWithin (w - 1 + 5329 * a) (rectangle (20 * k) (20 * l) 1 w)
      (radialMap ⟨0, 0⟩ [1, a] (gridNode ⟨0, 0⟩ 0 20 (((k : ℕ) : ℤ), ((l : ℕ) : ℤ)))) := by
  rintro ⟨i, j⟩ hq
  rw [dotTable_node]
  refine (ptDist_tri _ ⟨20 * k, 20 * l⟩ _).trans (add_le_add ?_ (radialMap_shift ha (dotTable_radius hk hl)))
  simp only [rectangle, Set.mem_ofPred_eq] at hq
  obtain rfl : i = 20 * k := by omega
  obtain ⟨n, rfl⟩ : ∃ n, j = 20 * l + n := ⟨j - 20 * l, by omega⟩
  have hn : (n : ℝ) + 1 ≤ w := by exact_mod_cast (by omega : n + 1 ≤ w)
  unfold ptDist
  push_cast
  simp only [add_sub_cancel_left, sub_self, ne_eq, OfNat.ofNat_ne_zero, not_false_eq_true, zero_pow, add_zero]
  rw [Real.sqrt_sq (Nat.cast_nonneg n)]
  linarith

theorem dotTable_pictures {w : ℕ} (h0 : 0 < w) (hw : w ≤ 2) {a : ℝ} (ha : 0 ≤ a) (ha' : a ≤ 1 / 10000) :
    PicturesGrid (dotTable w) (w - 1 + 5329 * a) (radialMap ⟨0, 0⟩ [1, a]) ⟨0, 0⟩ 0 20 (allCells 3 4) where
  shown := by
    intro c hc
    obtain ⟨k, hk, l, hl, rfl⟩ := mem_allCells.1 hc
    refine ⟨rectangle (20 * k) (20 * l) 1 w, ⟨dotTable_isDot h0 hw hk hl, dotTable_within ha hk hl⟩, fun D ⟨hD, hD'⟩ => ?_⟩
    obtain ⟨q, hq⟩ := hD.nonempty
    obtain ⟨a', ha', b, hb, hr⟩ := (dotTable_lit hw).1 (hD.lit q hq)
    have h1 := hD' q hq
    rw [dotTable_node] at h1
    have h2 := ptDist_tri ⟨q.1, q.2⟩ (radialMap ⟨0, 0⟩ [1, a] ⟨20 * k, 20 * l⟩) ⟨20 * k, 20 * l⟩
    have h3 := radialMap_shift ha (dotTable_radius hk hl)
    rw [ptDist_symm] at h3
    have hw' : (w : ℝ) ≤ 2 := by exact_mod_cast hw
    have h4 : ptDist ⟨q.1, q.2⟩ ⟨20 * k, 20 * l⟩ ≤ 3 := by linarith
    unfold ptDist at h4
    rw [Real.sqrt_le_left (by norm_num)] at h4
    have hx : |(q.2 : ℝ) - 20 * l| ≤ 3 := abs_le_of_sq_le_sq (by nlinarith [sq_nonneg ((q.1 : ℝ) - 20 * k)]) (by norm_num)
    have hy : |(q.1 : ℝ) - 20 * k| ≤ 3 := abs_le_of_sq_le_sq (by nlinarith [sq_nonneg ((q.2 : ℝ) - 20 * l)]) (by norm_num)
    rw [abs_le] at hx hy
    have x1 : (20 * l : ℤ) ≤ q.2 + 3 := by exact_mod_cast (by linarith : (20 * l : ℝ) ≤ q.2 + 3)
    have x2 : (q.2 : ℤ) ≤ 20 * l + 3 := by exact_mod_cast (by linarith : (q.2 : ℝ) ≤ 20 * l + 3)
    have y1 : (20 * k : ℤ) ≤ q.1 + 3 := by exact_mod_cast (by linarith : (20 * k : ℝ) ≤ q.1 + 3)
    have y2 : (q.1 : ℤ) ≤ 20 * k + 3 := by exact_mod_cast (by linarith : (q.1 : ℝ) ≤ 20 * k + 3)
    refine dotTable_eq h0 hw hk hl hD hq ?_
    simp only [rectangle, Set.mem_ofPred_eq] at hr ⊢
    omega
  only := by
    intro D hD
    obtain ⟨q, hq⟩ := hD.nonempty
    obtain ⟨k, hk, l, hl, hr⟩ := (dotTable_lit hw).1 (hD.lit q hq)
    refine ⟨_, mem_allCells.2 ⟨k, hk, l, hl, rfl⟩, ?_⟩
    rw [dotTable_eq h0 hw hk hl hD hq hr]
    exact dotTable_within ha hk hl

theorem dotTable_bright (w : ℕ) : ∀ i < (dotTable w).height, ∀ j < (dotTable w).width, 0 ≤ (dotTable w).get i j := fun i _ j _ => by
  unfold dotTable
  simp only
  split_ifs <;> norm_num

theorem dotTable_in : ∀ k < 3, ∀ l < 4, ptDist (gridNode ⟨0, 0⟩ 0 20 (((k : ℕ) : ℤ), ((l : ℕ) : ℤ))) ⟨0, 0⟩ ≤ 73 := by
  intro k hk l hl
  rw [dotTable_node]
  exact dotTable_radius hk hl

theorem bendBound_two (a R : ℝ) : bendBound [1, a] R = 2 * |a| * R := by
  refine (Fin.sum_univ_two _).trans ?_
  simp only [Fin.val_zero, Fin.val_one, Fin.getElem_fin, List.getElem_cons_zero, List.getElem_cons_succ, if_true, one_ne_zero, if_false]
  norm_num

theorem dotTable_bends {a : ℝ} (ha : 0 ≤ a) : BendsBy (146 * a) (radialMap ⟨0, 0⟩ [1, a])
    fun P => ∃ k < 3, ∃ l < 4, P = gridNode ⟨0, 0⟩ 0 20 (((k : ℕ) : ℤ), ((l : ℕ) : ℤ)) := by
  rintro p q ⟨k, hk, l, hl, rfl⟩ ⟨k', hk', l', hl', rfl⟩
  have := C101_radial ⟨0, 0⟩ [1, a] (by simp) 73 _ _ (dotTable_in k hk l hl) (dotTable_in k' hk' l' hl')
  rw [bendBound_two, abs_of_nonneg ha] at this
  linarith

/-- Non-vacuity: dots of two pixels show the nodes moved by the lens `1 + r/10000` up to 1.5329. -/
example := C115_default refArgsort refArgsort_spec (dotTable 2) (by norm_num [dotTable]) (dotTable_bright 2) ⟨0, 0⟩ ⟨0, 0⟩ [1, 1 / 10000] (by simp) 73 20
  _ 3 4 (by norm_num) (by norm_num) (by norm_num) (by norm_num) dotTable_in
  (dotTable_pictures (w := 2) (a := 1 / 10000) (by norm_num) (by norm_num) (by norm_num) (by norm_num)) (by rw [bendBound_two, abs_of_pos (by norm_num)]; norm_num)

example := C115_grid refArgsort refArgsort_spec (dotTable 2) (by norm_num [dotTable]) (dotTable_bright 2) (radialMap ⟨0, 0⟩ [1, 1 / 10000]) ⟨0, 0⟩ 0 20
  _ _ 0.3 6 0.65 3 4 (by norm_num) (by norm_num) (by norm_num) (by norm_num) (by norm_num) (by norm_num) (by norm_num)
  (dotTable_pictures (w := 2) (a := 1 / 10000) (by norm_num) (by norm_num) (by norm_num) (by norm_num)) (dotTable_bends (by norm_num))
  (by norm_num) (by norm_num [cosOf]) (by norm_num [RowsApart, cosOf])

example := C115_rows refArgsort refArgsort_spec (dotTable 2) (by norm_num [dotTable]) (dotTable_bright 2) (radialMap ⟨0, 0⟩ [1, 1 / 10000]) ⟨0, 0⟩ 0 20
  _ (146 * (1 / 10000)) 0.3 6 0.65 2 1 (allCells 3 4) (allCells_nodup 3 4) (by norm_num) (by norm_num) (by norm_num) (by norm_num)
  (dotTable_pictures (w := 2) (a := 1 / 10000) (by norm_num) (by norm_num) (by norm_num) (by norm_num))
  (by
    rintro p q ⟨a, ha, rfl⟩ ⟨b, hb, rfl⟩
    obtain ⟨k, hk, l, hl, rfl⟩ := mem_allCells.1 ha
    obtain ⟨k', hk', l', hl', rfl⟩ := mem_allCells.1 hb
    exact dotTable_bends (by norm_num) _ _ ⟨k, hk, l, hl, rfl⟩ ⟨k', hk', l', hl', rfl⟩)
  le_rfl (by unfold GapsAtMost; decide) (by norm_num) (by norm_num [cosOf]) (by norm_num [RowsApart, cosOf])
  (.inr ⟨by norm_num [cosOf], by unfold EndsWithin; decide⟩) ⟨0, by decide⟩

example : ∃ p, IsShownAt (dotTable 2) 1.5329 (radialMap ⟨0, 0⟩ [1, 1 / 10000] (gridNode ⟨0, 0⟩ 0 20 (0, 0))) p ∧
    ptDist p (radialMap ⟨0, 0⟩ [1, 1 / 10000] (gridNode ⟨0, 0⟩ 0 20 (0, 0))) ≤ 1.5329 := by
  have hp := dotTable_pictures (w := 2) (a := 1 / 10000) (by norm_num) (by norm_num) (by norm_num) (by norm_num)
  rw [show (((2 : ℕ) : ℝ) - 1 + 5329 * (1 / 10000)) = 1.5329 by norm_num] at hp
  obtain ⟨f, h, _⟩ := C115_default refArgsort refArgsort_spec (dotTable 2) (by norm_num [dotTable]) (dotTable_bright 2) ⟨0, 0⟩ ⟨0, 0⟩ [1, 1 / 10000]
    (by simp) 73 20 1.5329 3 4 (by norm_num) (by norm_num) (by norm_num) (by norm_num) dotTable_in hp (by rw [bendBound_two, abs_of_pos (by norm_num)]; norm_num)
  have := h 0 (by norm_num) 0 (by norm_num)
  exact ⟨_, this, C115_near (dotTable 2) (dotTable_bright 2) 1.5329 _ _ this⟩

/-- Non-vacuity: dots of one pixel seen through the lens `1 + r/40000`, unwarped with `1 - r/40000`. -/
example (xc yc : ℝ) := C115_verdict refPolyfit refPolyfit_spec refArgsort refArgsort_spec (dotTable 1) (by norm_num [dotTable]) (dotTable_bright 1)
  (radialMap ⟨0, 0⟩ [1, 1 / 40000]) ⟨0, 0⟩ 0 20 _ _ 0.3 6 0.65 3 4 (by norm_num) (by norm_num) (by norm_num) (by norm_num) (by norm_num) (by norm_num)
  (by norm_num) (dotTable_pictures (w := 1) (a := 1 / 40000) (by norm_num) (by norm_num) (by norm_num) (by norm_num)) (dotTable_bends (by norm_num))
  (by norm_num) (by norm_num [cosOf]) (by norm_num [RowsApart, cosOf]) ⟨0, 0⟩ [1, -(1 / 40000)] (by simp) 74 0.14 0.1
  (fun k hk l hl p hp => (C115_near _ (dotTable_bright 1) _ _ _ hp).trans (by norm_num))
  (fun k hk l hl => by
    have h1 := radialMap_shift (a := 1 / 40000) (by norm_num) (dotTable_radius hk hl)
    have h2 := ptDist_tri (radialMap ⟨0, 0⟩ [1, 1 / 40000] ⟨20 * k, 20 * l⟩) ⟨20 * k, 20 * l⟩ ⟨0, 0⟩
    rw [ptDist_symm (radialMap _ _ _) ⟨20 * k, 20 * l⟩] at h2
    have h3 := dotTable_radius hk hl
    rw [dotTable_node]
    linarith)
  (fun k hk l hl => by
    rw [dotTable_node, ptDist_symm]
    have h0 : 0 ≤ ptDist (⟨20 * k, 20 * l⟩ : Pt) ⟨0, 0⟩ := by unfold ptDist; positivity
    have h1 := dotTable_radius hk hl
    have h2 := unbend_dist ⟨0, 0⟩ [1, 1 / 40000] [1, -(1 / 40000)] ⟨20 * k, 20 * l⟩ (by rw [radial_two]; positivity)
    rw [radial_two, radial_two] at h2
    rw [h2]
    generalize ptDist (⟨20 * k, 20 * l⟩ : Pt) ⟨0, 0⟩ = r at h0 h1
    have e : (1 + -(1 / 40000) * ((1 + 1 / 40000 * r) * r)) * ((1 + 1 / 40000 * r) * r) - r = -(2 * r ^ 3 / 40000 ^ 2 + r ^ 4 / 40000 ^ 3) := by ring
    have h3 : r ^ 3 ≤ 73 ^ 3 := pow_le_pow_left₀ h0 h1 3
    have h4 : r ^ 4 ≤ 73 ^ 4 := pow_le_pow_left₀ h0 h1 4
    rw [e, abs_neg, abs_of_nonneg (by positivity)]
    linarith)
  (by rw [bendBound_two, abs_neg, abs_of_pos (by norm_num)]; norm_num) xc yc

end Discorpy
