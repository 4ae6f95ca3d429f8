import Verif.Lemmas.Ellipse
import Verif.Props.C41
import Verif.Spec.Prep

/-! # C93 — selection of dots by the axes of an ellipse -/

namespace Discorpy

open Spec

theorem mapM_error_of_mem {α β ε : Type} {f : α → Except ε β} {e : ε} {l : List α} (hall : ∀ a ∈ l, (∃ b, f a = .ok b) ∨ f a = .error e)
    (hex : ∃ a ∈ l, f a = .error e) : l.mapM f = .error e := by
  induction l with
  | nil => obtain ⟨a, ha, _⟩ := hex; cases ha
  | cons a l ih =>
    rw [List.mapM_cons]
    rcases hall a List.mem_cons_self with ⟨b, hb⟩ | hb
    · rw [hb]
      obtain ⟨c, hc, hce⟩ := hex
      rcases List.mem_cons.1 hc with rfl | hc
      · rw [hb] at hce
        cases hce
      · have := ih (fun x hx => hall x (List.mem_cons_of_mem _ hx)) ⟨c, hc, hce⟩
        show (do let y ← l.mapM f; pure (b :: y)) = _
        rw [this]
        rfl
    · rw [hb]
      rfl

/-- The region of the box of a dot. -/
theorem dot_region {m : Mat ℤ} (hpos : ∀ i < m.height, ∀ j < m.width, 0 ≤ m.get i j) {p : Pix} (hp : p ∈ dotReps m) :
    ∃ ps, firstRegion (m.sub (boundingBox (dotPixels m p))) = .ok ps ∧ ps.Nodup ∧ ps ≠ [] ∧ spreads ps.toFinset = spreads (leastPixels m (dotSet m p)) := by
  classical
  obtain ⟨b1, b2, b3, b4⟩ := box_inside hp
  have hin := dotBox_has hp
  have hpl := (mem_dotReps.1 hp).1
  have hpb := (hin p.1 p.2).2 (by
    have hpp : p ∈ dotSet m p := SameDot.refl hpl
    exact ⟨⟨p, hpp, le_rfl⟩, ⟨p, hpp, le_rfl⟩, ⟨p, hpp, le_rfl⟩, ⟨p, hpp, le_rfl⟩⟩)
  generalize boundingBox (dotPixels m p) = b at *
  set c := m.sub b with hc
  have ch : c.height = b.y1 - b.y0 := by rw [hc]; simp only [Mat.sub]; rw [min_eq_left b2]
  have cw : c.width = b.x1 - b.x0 := by rw [hc]; simp only [Mat.sub]; rw [min_eq_left b4]
  have cg : ∀ i j, c.get i j = m.get (b.y0 + i) (b.x0 + j) := fun _ _ => rfl
  set vals := ((pixels c.height c.width).map fun p => c.get p.1 p.2).filter fun v => decide (0 < v) with hvals
  have hne : vals ≠ [] := by
    have hv : c.get (p.1 - b.y0) (p.2 - b.x0) = m.get p.1 p.2 := by
      rw [cg]
      congr 1
      · have := hpb.1; omega
      · have := hpb.2.2.1; omega
    have h0 : 0 < m.get p.1 p.2 := lt_of_le_of_ne (hpos _ hpl.1 _ hpl.2.1) (Ne.symm hpl.2.2)
    refine List.ne_nil_of_mem (List.mem_filter.2 ⟨List.mem_map.2 ⟨(p.1 - b.y0, p.2 - b.x0), mem_pixels.2 ?_, rfl⟩, ?_⟩)
    · obtain ⟨q1, q2, q3, q4⟩ := hpb
      exact ⟨by simp only; omega, by simp only; omega⟩
    · simp only [hv]
      exact decide_eq_true h0
  obtain ⟨v, hv⟩ : ∃ v, vals.min? = some v := by
    cases h : vals.min? with
    | none => exact absurd (List.min?_eq_none_iff.1 h) hne
    | some v => exact ⟨v, rfl⟩
  have hmin := List.min?_eq_some_iff.1 hv
  have hv0 : 0 < v := by
    have := (List.mem_filter.1 hmin.1).2
    simpa using this
  have hmem : ∀ q : Pix, q.1 < c.height → q.2 < c.width → 0 < c.get q.1 q.2 → v ≤ c.get q.1 q.2 := fun q h1 h2 h3 =>
    hmin.2 _ (List.mem_filter.2 ⟨List.mem_map.2 ⟨q, mem_pixels.2 ⟨h1, h2⟩, rfl⟩, by simpa using h3⟩)
  obtain ⟨q0, hq0, e0⟩ := List.mem_map.1 (List.mem_filter.1 hmin.1).1
  set ps := (pixels c.height c.width).filter fun p => decide (c.get p.1 p.2 = v) with hps
  have hnd : ps.Nodup := (pixels_nodup _ _).filter _
  have hqp : q0 ∈ ps := List.mem_filter.2 ⟨hq0, by simpa using e0⟩
  refine ⟨ps, ?_, hnd, List.ne_nil_of_mem hqp, ?_⟩
  · unfold firstRegion
    rw [← hvals, hv]
  · have hF : ps.toFinset.Nonempty := ⟨q0, by simpa using hqp⟩
    have hmap : ps.toFinset.map ⟨fun q : Pix => (b.y0 + q.1, b.x0 + q.2), fun a b h => by
        simp only [Prod.mk.injEq] at h
        ext <;> omega⟩ = leastPixels m (dotSet m p) := by
      ext ⟨i, j⟩
      simp only [Finset.mem_map, List.mem_toFinset, Function.Embedding.coeFn_mk, leastPixels, Finset.mem_filter, Finset.mem_product,
        Finset.mem_range, hps, List.mem_filter, mem_pixels, decide_eq_true_eq, ← hin]
      constructor
      · rintro ⟨⟨a, d⟩, ⟨⟨h1, h2⟩, h3⟩, h4⟩
        obtain ⟨rfl, rfl⟩ := Prod.mk.inj h4
        rw [cg] at h3
        refine ⟨⟨by omega, by omega⟩, ⟨by omega, by omega, by omega, by omega⟩, by rw [h3]; exact hv0, fun r hr hr0 => ?_⟩
        rw [h3]
        have := hmem (r.1 - b.y0, r.2 - b.x0) (by have := hr.1; have := hr.2.1; simp only; omega)
          (by have := hr.2.2.1; have := hr.2.2.2; simp only; omega)
        simp only [cg] at this
        rw [Nat.add_sub_cancel' hr.1, Nat.add_sub_cancel' hr.2.2.1] at this
        exact this hr0
      · rintro ⟨⟨h1, h2⟩, hb, h0, hl⟩
        refine ⟨(i - b.y0, j - b.x0), ⟨⟨by have := hb.1; have := hb.2.1; simp only; omega, by have := hb.2.2.1; have := hb.2.2.2; simp only; omega⟩, ?_⟩, ?_⟩
        · simp only [cg]
          rw [Nat.add_sub_cancel' hb.1, Nat.add_sub_cancel' hb.2.2.1]
          apply le_antisymm
          · have h5 := hl (b.y0 + q0.1, b.x0 + q0.2) (by
              have := mem_pixels.1 hq0
              exact ⟨by simp only; omega, by simp only; omega, by simp only; omega, by simp only; omega⟩)
            rw [← cg, e0] at h5
            exact h5 hv0
          · have := hmem (i - b.y0, j - b.x0) (by have := hb.1; have := hb.2.1; simp only; omega)
              (by have := hb.2.2.1; have := hb.2.2.2; simp only; omega)
            simp only [cg] at this
            rw [Nat.add_sub_cancel' hb.1, Nat.add_sub_cancel' hb.2.2.1] at this
            exact this h0
        · exact Prod.ext (Nat.add_sub_cancel' hb.1) (Nat.add_sub_cancel' hb.2.2.1)
    ext s
    simp only [spreads, Set.mem_setOf_eq]
    constructor
    · rintro ⟨u, w, n, rfl⟩
      exact ⟨u, w, n, by rw [← hmap, spread_shift _ _ _ hF]⟩
    · rintro ⟨u, w, n, rfl⟩
      exact ⟨u, w, n, by rw [← hmap, spread_shift _ _ _ hF]⟩

/-- A dot is wide if its box has at least two rows and two columns. -/
theorem wide_iff {m : Mat ℤ} {p : Pix} (hp : p ∈ dotReps m) : IsWide (dotSet m p) ↔
    2 ≤ (m.sub (boundingBox (dotPixels m p))).height ∧ 2 ≤ (m.sub (boundingBox (dotPixels m p))).width := by
  obtain ⟨b1, b2, b3, b4⟩ := box_inside hp
  have hin := dotBox_has hp
  simp only [Mat.sub]
  rw [min_eq_left b2, min_eq_left b4]
  generalize boundingBox (dotPixels m p) = b at *
  have corner := (hin b.y0 b.x0).1 ⟨le_rfl, b1, le_rfl, b3⟩
  have corner' := (hin (b.y1 - 1) (b.x1 - 1)).1 ⟨by omega, by omega, by omega, by omega⟩
  obtain ⟨⟨q1, m1, c1⟩, _, ⟨q2, m2, c2⟩, _⟩ := corner
  obtain ⟨_, ⟨q3, m3, c3⟩, _, ⟨q4, m4, c4⟩⟩ := corner'
  constructor
  · rintro ⟨⟨p1, hp1, r1, hr1, h1⟩, p2, hp2, r2, hr2, h2⟩
    have inb : ∀ q ∈ dotSet m p, b.Has q.1 q.2 := fun q hq => (hin q.1 q.2).2 ⟨⟨q, hq, le_rfl⟩, ⟨q, hq, le_rfl⟩, ⟨q, hq, le_rfl⟩, ⟨q, hq, le_rfl⟩⟩
    have e1 := inb _ hp1
    have e2 := inb _ hr1
    have e3 := inb _ hp2
    have e4 := inb _ hr2
    simp only [Box.Has] at e1 e2 e3 e4
    exact ⟨by omega, by omega⟩
  · rintro ⟨h1, h2⟩
    exact ⟨⟨q1, m1, q3, m3, by omega⟩, q2, m2, q4, m4, by omega⟩

/-- The outcome of the test of one dot. -/
theorem checkAxes_dot {m : Mat ℤ} (hpos : ∀ i < m.height, ∀ j < m.width, 0 ≤ m.get i j) (ratio : ℝ) {p : Pix} (hp : p ∈ dotReps m) :
    (¬ (IsWide (dotSet m p) ∧ 0 ∈ spreads (leastPixels m (dotSet m p))) →
      ∃ r, checkAxesRatio ellipseAxes (m.sub (boundingBox (dotPixels m p))) ratio = .ok r ∧
        (r = true ↔ IsWide (dotSet m p) ∧ NearlyRound ratio (leastPixels m (dotSet m p)))) ∧
    (IsWide (dotSet m p) ∧ 0 ∈ spreads (leastPixels m (dotSet m p)) →
      checkAxesRatio ellipseAxes (m.sub (boundingBox (dotPixels m p))) ratio = .error .zeroDivisionError) := by
  obtain ⟨ps, e, hnd, _, hs⟩ := dot_region hpos hp
  obtain ⟨s, l, ea, h1, h2⟩ := ellipseAxes_ok e hnd
  rw [hs] at h1 h2
  rw [wide_iff hp]
  unfold checkAxesRatio
  constructor
  · intro h
    split_ifs with hw
    · exact ⟨false, rfl, by simp only [Bool.false_eq_true, false_iff, not_and]; omega⟩
    · have hwide : 2 ≤ (m.sub (boundingBox (dotPixels m p))).height ∧ 2 ≤ (m.sub (boundingBox (dotPixels m p))).width := by omega
      have hs0 : 0 < s := by
        refine lt_of_le_of_ne (spreads_nonneg h1.1) fun h0 => h ⟨hwide, ?_⟩
        rw [h0]
        exact h1.1
      rw [ea, ok_bind]
      simp only
      rw [if_neg (by positivity)]
      refine ⟨_, rfl, ?_⟩
      have hsl : s ≤ l := h2.2 h1.1
      rw [decide_eq_true_eq, show 4 * l / (4 * s) = l / s by field_simp, abs_of_nonneg (by rw [sub_nonneg, le_div_iff₀ hs0]; linarith),
        sub_lt_iff_lt_add', div_lt_iff₀ hs0]
      constructor
      · intro hl
        refine ⟨hwide, fun a ha b hb => ?_⟩
        have h3 := h2.2 ha
        have h4 := h1.2 hb
        have h5 : 0 ≤ 1 + ratio := by
          by_contra hneg
          push Not at hneg
          nlinarith
        nlinarith
      · rintro ⟨_, hr⟩
        exact hr l h2.1 s h1.1
  · rintro ⟨hwide, h0⟩
    rw [if_neg (by omega), ea, ok_bind]
    simp only
    have : s = 0 := le_antisymm (h1.2 h0) (spreads_nonneg h1.1)
    rw [if_pos (by rw [this, mul_zero])]

/-- **C93 (outcome).** For an image without negative values (as int16), each dot is judged by the pixels with the least positive value in
its bounding box. If for some dot with at least two rows and columns these lie on a line, `select_dots_based_ratio` raises
ZeroDivisionError; otherwise it keeps the boxes of the dots with at least two rows and columns for which no direction has a spread of
`1 + ratio` times or more that of another one, and nothing else. -/
theorem C93_outcome (m : Mat ℝ) (hpos : ∀ i < m.height, ∀ j < m.width, 0 ≤ (int16Mat m).get i j) (ratio : ℝ) :
    ((∃ D, IsDot (int16Mat m) D ∧ IsWide D ∧ 0 ∈ spreads (leastPixels (int16Mat m) D)) →
      selectDotsBasedRatio ellipseAxes m ratio = .error .zeroDivisionError) ∧
    ((¬ ∃ D, IsDot (int16Mat m) D ∧ IsWide D ∧ 0 ∈ spreads (leastPixels (int16Mat m) D)) →
      ∃ out, selectDotsBasedRatio ellipseAxes m ratio = .ok out ∧
        KeepsDots (int16Mat m) out fun D => IsWide D ∧ NearlyRound ratio (leastPixels (int16Mat m) D)) := by
  constructor
  · rintro ⟨D, hD, hw, h0⟩
    obtain ⟨p, hp, rfl⟩ := isDot_iff.1 hD
    unfold selectDotsBasedRatio
    simp only
    rw [findObjects]
    rw [mapM_error_of_mem (e := PyErr.zeroDivisionError)]
    · rfl
    · intro b hb
      obtain ⟨q, hq, rfl⟩ := List.mem_map.1 hb
      by_cases h : IsWide (dotSet (int16Mat m) q) ∧ 0 ∈ spreads (leastPixels (int16Mat m) (dotSet (int16Mat m) q))
      · right
        rw [(checkAxes_dot hpos ratio hq).2 h]
        rfl
      · left
        obtain ⟨r, e, _⟩ := (checkAxes_dot hpos ratio hq).1 h
        rw [e]
        exact ⟨_, rfl⟩
    · refine ⟨_, List.mem_map.2 ⟨p, hp, rfl⟩, ?_⟩
      rw [(checkAxes_dot hpos ratio hp).2 ⟨hw, h0⟩]
      rfl
  · intro hno
    have hno' : ∀ p ∈ dotReps (int16Mat m), ¬ (IsWide (dotSet (int16Mat m) p) ∧ 0 ∈ spreads (leastPixels (int16Mat m) (dotSet (int16Mat m) p))) :=
      fun p hp h => hno ⟨_, isDot_iff.2 ⟨p, hp, rfl⟩, h⟩
    have : ∃ flags, ((findObjects (int16Mat m)).mapM fun b => do
        let ok ← checkAxesRatio ellipseAxes ((int16Mat m).sub b) ratio
        return (b, ok)) = .ok flags := by
      refine exists_mapM_ok fun b hb => ?_
      obtain ⟨p, hp, rfl⟩ := List.mem_map.1 hb
      obtain ⟨r, e, _⟩ := (checkAxes_dot hpos ratio hp).1 (hno' p hp)
      rw [e]
      exact ⟨_, rfl⟩
    obtain ⟨flags, hf⟩ := this
    have ho : selectDotsBasedRatio ellipseAxes m ratio = .ok (keepBoxes (int16Mat m) ((flags.filter fun f => f.2).map fun f => f.1)) := by
      unfold selectDotsBasedRatio
      simp only [hf]
      rfl
    refine ⟨_, ho, ?_⟩
    rw [mapM_ok_iff, findObjects, List.forall₂_map_left_iff] at hf
    apply keepsDots_of
    intro b
    rw [List.mem_map]
    constructor
    · rintro ⟨f, hmem, rfl⟩
      rw [List.mem_filter] at hmem
      obtain ⟨p, hp, hrel⟩ := forall₂_mem_right hf hmem.1
      obtain ⟨r, hr, e⟩ := bind_ok_iff.1 hrel
      cases e
      obtain ⟨r', e', hi⟩ := (checkAxes_dot hpos ratio hp).1 (hno' p hp)
      rw [hr] at e'
      cases e'
      exact ⟨p, hp, hi.1 hmem.2, rfl⟩
    · rintro ⟨p, hp, ha, rfl⟩
      obtain ⟨f, hmem, hrel⟩ := forall₂_mem_left hf hp
      obtain ⟨r, hr, e⟩ := bind_ok_iff.1 hrel
      cases e
      obtain ⟨r', e', hi⟩ := (checkAxes_dot hpos ratio hp).1 (hno' p hp)
      rw [hr] at e'
      cases e'
      exact ⟨_, List.mem_filter.2 ⟨hmem, hi.2 ha⟩, rfl⟩

theorem int16Mat_binary {m : Mat ℝ} (hb : IsBinary m) {i j : ℕ} (hi : i < m.height) (hj : j < m.width) :
    (int16Mat m).get i j = 0 ∨ (int16Mat m).get i j = 1 := by
  rcases hb i hi j hj with h | h
  · left
    simp [int16Mat, h, truncInt, toInt16]
  · right
    simp [int16Mat, h, truncInt, toInt16]

theorem leastPixels_binary {m : Mat ℤ} (hb : ∀ i < m.height, ∀ j < m.width, m.get i j = 0 ∨ m.get i j = 1) {D : Set Pix} (hD : IsDot m D) :
    leastPixels m D = boxPixels m D := by
  classical
  ext ⟨i, j⟩
  simp only [leastPixels, boxPixels, Finset.mem_filter, Finset.mem_product, Finset.mem_range]
  constructor
  · rintro ⟨h1, h2, h3, _⟩
    exact ⟨h1, h2, h3.ne'⟩
  · rintro ⟨h1, h2, h3⟩
    have e : m.get i j = 1 := (hb i h1.1 j h1.2).resolve_left h3
    refine ⟨h1, h2, by rw [e]; norm_num, fun r _ hr => ?_⟩
    rw [e]
    omega

theorem dot_sub_boxPixels {m : Mat ℤ} {D : Set Pix} (hD : IsDot m D) : ∀ d ∈ D, d ∈ boxPixels m D := by
  classical
  intro d hd
  have := hD.lit d hd
  simp only [boxPixels, Finset.mem_filter, Finset.mem_product, Finset.mem_range]
  exact ⟨⟨this.1, this.2.1⟩, ⟨⟨d, hd, le_rfl⟩, ⟨d, hd, le_rfl⟩, ⟨d, hd, le_rfl⟩, ⟨d, hd, le_rfl⟩⟩, this.2.2⟩

/-- **C93 (binary images).** For a binary image `select_dots_based_ratio` never fails. -/
theorem C93_binary (m : Mat ℝ) (hb : IsBinary m) (ratio : ℝ) :
    ∃ out, selectDotsBasedRatio ellipseAxes m ratio = .ok out ∧
      KeepsDots (int16Mat m) out fun D => IsWide D ∧ NearlyRound ratio (boxPixels (int16Mat m) D) := by
  have hb' : ∀ i < (int16Mat m).height, ∀ j < (int16Mat m).width, (int16Mat m).get i j = 0 ∨ (int16Mat m).get i j = 1 :=
    fun i hi j hj => int16Mat_binary hb hi hj
  obtain ⟨out, e, hk⟩ := (C93_outcome m (fun i hi j hj => by rcases hb' i hi j hj with h | h <;> rw [h]; norm_num) ratio).2 (by
    rintro ⟨D, hD, ⟨⟨p, hp, q, hq, hpq⟩, p', hp', q', hq', hpq'⟩, h0⟩
    obtain ⟨i, j, a1, a2⟩ := dot_vertical hD hp hq hpq
    obtain ⟨i', j', a3, a4⟩ := dot_horizontal hD hp' hq' hpq'
    rw [leastPixels_binary hb' hD] at h0
    exact lt_irrefl _ (spread_pos (dot_sub_boxPixels hD _ a1) (dot_sub_boxPixels hD _ a2) (dot_sub_boxPixels hD _ a3) (dot_sub_boxPixels hD _ a4) h0))
  refine ⟨out, e, hk.1, hk.2.1, fun i hi j hj => ?_⟩
  have key : (∃ D, IsDot (int16Mat m) D ∧ (IsWide D ∧ NearlyRound ratio (boxPixels (int16Mat m) D)) ∧ InBox D i j) ↔
      ∃ D, IsDot (int16Mat m) D ∧ (IsWide D ∧ NearlyRound ratio (leastPixels (int16Mat m) D)) ∧ InBox D i j := by
    constructor
    · rintro ⟨D, h1, h2, h3⟩
      exact ⟨D, h1, by rw [leastPixels_binary hb' h1]; exact h2, h3⟩
    · rintro ⟨D, h1, h2, h3⟩
      exact ⟨D, h1, by rw [leastPixels_binary hb' h1] at h2; exact h2, h3⟩
  rw [key]
  exact hk.2.2 i hi j hj

/-- **C93 (no tolerance).** With a ratio that is not positive every dot goes (and a binary image does not fail). -/
theorem C93_no_tolerance (m : Mat ℝ) (hb : IsBinary m) (ratio : ℝ) (hr : ratio ≤ 0) :
    ∃ out, selectDotsBasedRatio ellipseAxes m ratio = .ok out ∧ out.height = m.height ∧ out.width = m.width ∧
      ∀ i < m.height, ∀ j < m.width, out.get i j = 0 := by
  obtain ⟨out, e, h1, h2, h3⟩ := C93_binary m hb ratio
  refine ⟨out, e, h1, h2, fun i hi j hj => (h3 i hi j hj).2 ?_⟩
  rintro ⟨D, _, ⟨_, hn⟩, _⟩
  have h0 : spread (boxPixels (int16Mat m) D) 1 0 ∈ spreads (boxPixels (int16Mat m) D) := ⟨1, 0, by norm_num, rfl⟩
  have := hn _ h0 _ h0
  have := spreads_nonneg h0
  nlinarith

/-- **C93 (symmetric dots).** With a positive ratio, however small, every dot of a binary image with at least two rows and columns stays, if
a quarter turn takes the pixels of its box to themselves — discs and squares for example. -/
theorem C93_symmetric (m : Mat ℝ) (hb : IsBinary m) (ratio : ℝ) (hr : 0 < ratio) :
    ∃ out, selectDotsBasedRatio ellipseAxes m ratio = .ok out ∧
      ∀ D, IsDot (int16Mat m) D → IsWide D → QuarterTurn (boxPixels (int16Mat m) D) →
        ∀ i < m.height, ∀ j < m.width, InBox D i j → out.get i j = (int16Mat m).get i j := by
  obtain ⟨out, e, h1, h2, h3⟩ := C93_binary m hb ratio
  refine ⟨out, e, fun D hD hw hq i hi j hj hin => (h3 i hi j hj).1 ⟨D, hD, ⟨hw, fun s hs t ht => ?_⟩, hin⟩⟩
  rw [quarterTurn_spread hq hs ht]
  have : 0 < t := by
    obtain ⟨⟨p, hp, q, hq, hpq⟩, p', hp', q', hq', hpq'⟩ := hw
    obtain ⟨i, j, a1, a2⟩ := dot_vertical hD hp hq hpq
    obtain ⟨i', j', a3, a4⟩ := dot_horizontal hD hp' hq' hpq'
    exact spread_pos (dot_sub_boxPixels hD _ a1) (dot_sub_boxPixels hD _ a2) (dot_sub_boxPixels hD _ a3) (dot_sub_boxPixels hD _ a4) ht
  nlinarith

theorem rectangle_inBox {i j h w : ℕ} (h0 : 0 < h) (w0 : 0 < w) (a b : ℕ) : InBox (rectangle i j h w) a b ↔ (a, b) ∈ rectangle i j h w := by
  simp only [rectangle, Set.mem_setOf_eq]
  constructor
  · rintro ⟨⟨q1, m1, c1⟩, ⟨q2, m2, c2⟩, ⟨q3, m3, c3⟩, ⟨q4, m4, c4⟩⟩
    simp only [Set.mem_setOf_eq] at m1 m2 m3 m4
    omega
  · intro hm
    exact ⟨⟨(a, b), hm, le_rfl⟩, ⟨(a, b), hm, le_rfl⟩, ⟨(a, b), hm, le_rfl⟩, ⟨(a, b), hm, le_rfl⟩⟩

/-- **C93 (rectangles).** If the dots of a binary image are rectangles, those of `h` rows and `w` columns stay just if `h` and `w` are at
least two and each of `h² − 1`, `w² − 1` is less than `(1 + ratio)²` times the other. -/
theorem C93_rectangles (m : Mat ℝ) (hb : IsBinary m) (ratio : ℝ) (hr : 0 < ratio)
    (hrect : ∀ D, IsDot (int16Mat m) D → ∃ i j h w, 0 < h ∧ 0 < w ∧ D = rectangle i j h w) :
    ∃ out, selectDotsBasedRatio ellipseAxes m ratio = .ok out ∧
      ∀ i j h w, 0 < h → 0 < w → IsDot (int16Mat m) (rectangle i j h w) → ∀ q ∈ rectangle i j h w,
        (out.get q.1 q.2 = 1 ∨ out.get q.1 q.2 = 0) ∧
        (out.get q.1 q.2 = 1 ↔ (2 ≤ h ∧ 2 ≤ w) ∧
          (h : ℝ) ^ 2 - 1 < (1 + ratio) ^ 2 * ((w : ℝ) ^ 2 - 1) ∧ (w : ℝ) ^ 2 - 1 < (1 + ratio) ^ 2 * ((h : ℝ) ^ 2 - 1)) := by
  classical
  obtain ⟨out, e, h1, h2, h3⟩ := C93_binary m hb ratio
  refine ⟨out, e, fun i j h w h0 w0 hD q hq => ?_⟩
  have hl := hD.lit q hq
  have hq1 : (int16Mat m).get q.1 q.2 = 1 := (int16Mat_binary hb hl.1 hl.2.1).resolve_left hl.2.2
  have hbox : boxPixels (int16Mat m) (rectangle i j h w) = Finset.Ico i (i + h) ×ˢ Finset.Ico j (j + w) := by
    ext ⟨a, b⟩
    simp only [boxPixels, Finset.mem_filter, Finset.mem_product, Finset.mem_range, Finset.mem_Ico, rectangle_inBox h0 w0]
    constructor
    · rintro ⟨_, hm, _⟩
      exact hm
    · intro hm
      have hl := hD.lit (a, b) hm
      exact ⟨⟨hl.1, hl.2.1⟩, hm, hl.2.2⟩
  have hwide : IsWide (rectangle i j h w) ↔ 2 ≤ h ∧ 2 ≤ w := by
    constructor
    · rintro ⟨⟨p, hp, r, hr, hpr⟩, p', hp', r', hr', hpr'⟩
      simp only [rectangle, Set.mem_setOf_eq] at hp hr hp' hr'
      omega
    · rintro ⟨hh, hw⟩
      refine ⟨⟨(i, j), ?_, (i + 1, j), ?_, by simp⟩, (i, j), ?_, (i, j + 1), ?_, by simp⟩ <;>
        simp only [rectangle, Set.mem_setOf_eq] <;> omega
  have hiff : (∃ D, IsDot (int16Mat m) D ∧ (IsWide D ∧ NearlyRound ratio (boxPixels (int16Mat m) D)) ∧ InBox D q.1 q.2) ↔ (2 ≤ h ∧ 2 ≤ w) ∧
      (h : ℝ) ^ 2 - 1 < (1 + ratio) ^ 2 * ((w : ℝ) ^ 2 - 1) ∧ (w : ℝ) ^ 2 - 1 < (1 + ratio) ^ 2 * ((h : ℝ) ^ 2 - 1) := by
    constructor
    · rintro ⟨D, hD', ⟨hw, hn⟩, hin⟩
      obtain ⟨i', j', h', w', h0', w0', rfl⟩ := hrect D hD'
      rw [rectangle_inBox h0' w0'] at hin
      rw [(isDot_eq hD' hin).trans (isDot_eq hD hq).symm] at hw hn
      have hw' := hwide.1 hw
      rw [hbox, rectangle_round i j hw'.1 hw'.2 hr] at hn
      exact ⟨hw', hn⟩
    · rintro ⟨hw', hn⟩
      exact ⟨_, hD, ⟨hwide.2 hw', by rw [hbox, rectangle_round i j hw'.1 hw'.2 hr]; exact hn⟩, (rectangle_inBox h0 w0 _ _).2 hq⟩
  have hpix := h3 q.1 hl.1 q.2 hl.2.1
  rw [hiff, hq1] at hpix
  by_cases hc : (2 ≤ h ∧ 2 ≤ w) ∧
      (h : ℝ) ^ 2 - 1 < (1 + ratio) ^ 2 * ((w : ℝ) ^ 2 - 1) ∧ (w : ℝ) ^ 2 - 1 < (1 + ratio) ^ 2 * ((h : ℝ) ^ 2 - 1)
  · exact ⟨Or.inl (hpix.1 hc), fun _ => hc, fun _ => hpix.1 hc⟩
  · have := hpix.2 hc
    exact ⟨Or.inr this, fun h => by omega, fun h => absurd h hc⟩

/-- A block of lit pixels with none beside it is a dot. -/
theorem rectangle_isDot {m : Mat ℤ} {i j h w : ℕ} (h0 : 0 < h) (w0 : 0 < w) (hl : ∀ q ∈ rectangle i j h w, Lit m q)
    (hc : ClosedSet m (rectangle i j h w)) : IsDot m (rectangle i j h w) := by
  refine ⟨⟨(i, j), ⟨⟨le_rfl, by omega⟩, le_rfl, by omega⟩⟩, hl, hc, fun E hE ⟨⟨a, b⟩, he⟩ hcE => Set.Subset.antisymm hE ?_⟩
  have hab := hE he
  have right : ∀ a b n, (a, b) ∈ E → (a, b + n) ∈ rectangle i j h w → (a, b + n) ∈ E := fun a b n h1 => by
    induction n with
    | zero => exact fun _ => h1
    | succ n ih =>
      intro h2
      have h3 := hE h1
      simp only [rectangle, Set.mem_setOf_eq] at h2 h3
      exact hcE _ (ih (by simp only [rectangle, Set.mem_setOf_eq]; omega)) _ (hl _ (by simp only [rectangle, Set.mem_setOf_eq]; omega))
        (shareEdge_iff.2 (Or.inl ⟨rfl, Or.inl rfl⟩))
  have left : ∀ a b n, (a, b + n) ∈ E → (a, b) ∈ rectangle i j h w → (a, b) ∈ E := fun a b n => by
    induction n with
    | zero => exact fun h1 _ => h1
    | succ n ih =>
      intro h1 h2
      have h3 := hE h1
      refine ih (hcE _ h1 _ (hl _ ?_) ?_) h2
      · simp only [rectangle, Set.mem_setOf_eq] at h2 h3 ⊢
        omega
      · exact shareEdge_iff.2 (Or.inl ⟨rfl, Or.inr rfl⟩)
  have down : ∀ a b n, (a, b) ∈ E → (a + n, b) ∈ rectangle i j h w → (a + n, b) ∈ E := fun a b n h1 => by
    induction n with
    | zero => exact fun _ => h1
    | succ n ih =>
      intro h2
      have h3 := hE h1
      simp only [rectangle, Set.mem_setOf_eq] at h2 h3
      exact hcE _ (ih (by simp only [rectangle, Set.mem_setOf_eq]; omega)) _ (hl _ (by simp only [rectangle, Set.mem_setOf_eq]; omega))
        (shareEdge_iff.2 (Or.inr ⟨rfl, Or.inl rfl⟩))
  have up : ∀ a b n, (a + n, b) ∈ E → (a, b) ∈ rectangle i j h w → (a, b) ∈ E := fun a b n => by
    induction n with
    | zero => exact fun h1 _ => h1
    | succ n ih =>
      intro h1 h2
      have h3 := hE h1
      refine ih (hcE _ h1 _ (hl _ ?_) ?_) h2
      · simp only [rectangle, Set.mem_setOf_eq] at h2 h3 ⊢
        omega
      · exact shareEdge_iff.2 (Or.inr ⟨rfl, Or.inr rfl⟩)
  rintro ⟨c, d⟩ hcd
  have hcd' := hcd
  simp only [rectangle, Set.mem_setOf_eq] at hab hcd'
  have hrow : (a, d) ∈ E := by
    have hin : (a, d) ∈ rectangle i j h w := by
      simp only [rectangle, Set.mem_setOf_eq]
      omega
    rcases le_total b d with hbd | hbd
    · obtain ⟨n, rfl⟩ := Nat.exists_eq_add_of_le hbd
      exact right _ _ _ he hin
    · obtain ⟨n, rfl⟩ := Nat.exists_eq_add_of_le hbd
      exact left _ _ _ he hin
  rcases le_total a c with hac | hac
  · obtain ⟨n, rfl⟩ := Nat.exists_eq_add_of_le hac
    exact down _ _ _ hrow hcd
  · obtain ⟨n, rfl⟩ := Nat.exists_eq_add_of_le hac
    exact up _ _ _ hrow hcd

/-- **C93 (no positive value).** In an image whose values (as int16) are all zero or negative a dot is an area of negative values, which is
not a region: one with at least two rows and columns makes `select_dots_based_ratio` raise an IndexError; without one every pixel of the
result is zero. -/
theorem C93_negative (m : Mat ℝ) (hneg : ∀ i < m.height, ∀ j < m.width, (int16Mat m).get i j ≤ 0) (ratio : ℝ) :
    ((∃ D, IsDot (int16Mat m) D ∧ IsWide D) → selectDotsBasedRatio ellipseAxes m ratio = .error .indexError) ∧
    ((¬ ∃ D, IsDot (int16Mat m) D ∧ IsWide D) → ∃ out, selectDotsBasedRatio ellipseAxes m ratio = .ok out ∧
      out.height = m.height ∧ out.width = m.width ∧ ∀ i < m.height, ∀ j < m.width, out.get i j = 0) := by
  have hdot : ∀ p ∈ dotReps (int16Mat m), (IsWide (dotSet (int16Mat m) p) →
      checkAxesRatio ellipseAxes ((int16Mat m).sub (boundingBox (dotPixels (int16Mat m) p))) ratio = .error .indexError) ∧
      (¬ IsWide (dotSet (int16Mat m) p) →
      checkAxesRatio ellipseAxes ((int16Mat m).sub (boundingBox (dotPixels (int16Mat m) p))) ratio = .ok false) := by
    intro p hp
    rw [wide_iff hp]
    unfold checkAxesRatio
    constructor
    · intro hw
      rw [if_neg (by omega)]
      have : firstRegion ((int16Mat m).sub (boundingBox (dotPixels (int16Mat m) p))) = .error .indexError := by
        unfold firstRegion
        have : (((pixels ((int16Mat m).sub (boundingBox (dotPixels (int16Mat m) p))).height
            ((int16Mat m).sub (boundingBox (dotPixels (int16Mat m) p))).width).map fun q =>
            ((int16Mat m).sub (boundingBox (dotPixels (int16Mat m) p))).get q.1 q.2).filter fun v => decide (0 < v)) = [] := by
          rw [List.filter_eq_nil_iff]
          intro v hv
          obtain ⟨q, hq, rfl⟩ := List.mem_map.1 hv
          rw [mem_pixels] at hq
          rw [decide_eq_true_eq, not_lt]
          simp only [Mat.sub] at hq ⊢
          exact hneg _ (by have : (int16Mat m).height = m.height := rfl
                           omega) _ (by have : (int16Mat m).width = m.width := rfl
                                        omega)
        rw [this]
        rfl
      unfold ellipseAxes
      rw [this]
      rfl
    · intro hw
      rw [if_pos (by omega)]
  constructor
  · rintro ⟨D, hD, hw⟩
    obtain ⟨p, hp, rfl⟩ := isDot_iff.1 hD
    unfold selectDotsBasedRatio
    simp only
    rw [findObjects]
    rw [mapM_error_of_mem (e := PyErr.indexError)]
    · rfl
    · intro b hb
      obtain ⟨q, hq, rfl⟩ := List.mem_map.1 hb
      by_cases h : IsWide (dotSet (int16Mat m) q)
      · right
        rw [(hdot q hq).1 h]
        rfl
      · left
        rw [(hdot q hq).2 h]
        exact ⟨_, rfl⟩
    · refine ⟨_, List.mem_map.2 ⟨p, hp, rfl⟩, ?_⟩
      rw [(hdot p hp).1 hw]
      rfl
  · intro hno
    have hno' : ∀ p ∈ dotReps (int16Mat m), ¬ IsWide (dotSet (int16Mat m) p) := fun p hp h => hno ⟨_, isDot_iff.2 ⟨p, hp, rfl⟩, h⟩
    have : ∃ flags, ((findObjects (int16Mat m)).mapM fun b => do
        let ok ← checkAxesRatio ellipseAxes ((int16Mat m).sub b) ratio
        return (b, ok)) = .ok flags := by
      refine exists_mapM_ok fun b hb => ?_
      obtain ⟨p, hp, rfl⟩ := List.mem_map.1 hb
      rw [(hdot p hp).2 (hno' p hp)]
      exact ⟨_, rfl⟩
    obtain ⟨flags, hf⟩ := this
    have ho : selectDotsBasedRatio ellipseAxes m ratio = .ok (keepBoxes (int16Mat m) ((flags.filter fun f => f.2).map fun f => f.1)) := by
      unfold selectDotsBasedRatio
      simp only [hf]
      rfl
    rw [mapM_ok_iff, findObjects, List.forall₂_map_left_iff] at hf
    have hk : KeepsDots (int16Mat m) (keepBoxes (int16Mat m) ((flags.filter fun f => f.2).map fun f => f.1)) fun _ => False := by
      apply keepsDots_of
      intro b
      rw [List.mem_map]
      constructor
      · rintro ⟨f, hmem, rfl⟩
        rw [List.mem_filter] at hmem
        obtain ⟨p, hp, hrel⟩ := forall₂_mem_right hf hmem.1
        obtain ⟨r, hr, e⟩ := bind_ok_iff.1 hrel
        cases e
        rw [(hdot p hp).2 (hno' p hp)] at hr
        cases hr
        exact absurd hmem.2 (by simp)
      · rintro ⟨p, hp, ha, rfl⟩
        exact ha.elim
    exact ⟨_, ho, hk.1, hk.2.1, fun i hi j hj => (hk.2.2 i hi j hj).2 fun ⟨_, _, h, _⟩ => h⟩

/-- A block of `h` rows and `w` columns of ones, with a margin of zeros of one pixel. -/
def blockImage (h w : ℕ) : Mat ℝ :=
  ⟨h + 2, w + 2, fun i j => if (1 ≤ i ∧ i < 1 + h) ∧ 1 ≤ j ∧ j < 1 + w then 1 else 0⟩

theorem blockImage_binary (h w : ℕ) : IsBinary (blockImage h w) := fun i _ j _ => by
  simp only [blockImage]
  split_ifs
  · exact Or.inr rfl
  · exact Or.inl rfl

theorem blockImage_lit {h w : ℕ} {q : Pix} : Lit (int16Mat (blockImage h w)) q ↔ q ∈ rectangle 1 1 h w := by
  simp only [Lit, int16Mat, blockImage, rectangle, Set.mem_setOf_eq]
  by_cases hq : (1 ≤ q.1 ∧ q.1 < 1 + h) ∧ 1 ≤ q.2 ∧ q.2 < 1 + w
  · simp only [if_pos hq]
    simp [truncInt, toInt16, hq]
    omega
  · simp only [if_neg hq]
    simp [truncInt, toInt16, hq]

theorem blockImage_isDot {h w : ℕ} (h0 : 0 < h) (w0 : 0 < w) : IsDot (int16Mat (blockImage h w)) (rectangle 1 1 h w) :=
  rectangle_isDot h0 w0 (fun _ hq => blockImage_lit.2 hq) fun _ _ _ hr _ => blockImage_lit.1 hr

theorem blockImage_dots {h w : ℕ} (h0 : 0 < h) (w0 : 0 < w) (D : Set Pix) (hD : IsDot (int16Mat (blockImage h w)) D) : D = rectangle 1 1 h w := by
  obtain ⟨q, hq⟩ := hD.nonempty
  exact (isDot_eq hD hq).trans (isDot_eq (blockImage_isDot h0 w0) (blockImage_lit.1 (hD.lit q hq))).symm

/-- With the default `ratio=0.3` a block of 4 by 5 pixels stays … -/
example : ∃ out, selectDotsBasedRatio ellipseAxes (blockImage 4 5) 0.3 = .ok out ∧ out.get 1 1 = 1 := by
  obtain ⟨out, e, h⟩ := C93_rectangles (blockImage 4 5) (blockImage_binary 4 5) 0.3 (by norm_num)
    (fun D hD => ⟨1, 1, 4, 5, by norm_num, by norm_num, blockImage_dots (by norm_num) (by norm_num) D hD⟩)
  refine ⟨out, e, ((h 1 1 4 5 (by norm_num) (by norm_num) (blockImage_isDot (by norm_num) (by norm_num)) (1, 1) (by simp [rectangle])).2).2 ?_⟩
  norm_num

/-- … and one of 3 by 4 pixels goes. -/
example : ∃ out, selectDotsBasedRatio ellipseAxes (blockImage 3 4) 0.3 = .ok out ∧ out.get 1 1 = 0 := by
  obtain ⟨out, e, h⟩ := C93_rectangles (blockImage 3 4) (blockImage_binary 3 4) 0.3 (by norm_num)
    (fun D hD => ⟨1, 1, 3, 4, by norm_num, by norm_num, blockImage_dots (by norm_num) (by norm_num) D hD⟩)
  have := h 1 1 3 4 (by norm_num) (by norm_num) (blockImage_isDot (by norm_num) (by norm_num)) (1, 1) (by simp [rectangle])
  refine ⟨out, e, this.1.resolve_left fun h1 => ?_⟩
  have := this.2.1 h1
  norm_num at this

/-- The hypotheses of `C93_symmetric` for a square of two by two pixels. -/
example : IsWide (rectangle 1 1 2 2) ∧ QuarterTurn (boxPixels (int16Mat (blockImage 2 2)) (rectangle 1 1 2 2)) := by
  classical
  refine ⟨⟨⟨(1, 1), by simp [rectangle], (2, 1), by simp [rectangle], by norm_num⟩, (1, 1), by simp [rectangle], (1, 2), by simp [rectangle], by norm_num⟩,
    0, 3, fun q hq => ?_⟩
  have hD := blockImage_isDot (h := 2) (w := 2) (by norm_num) (by norm_num)
  simp only [boxPixels, Finset.mem_filter, rectangle_inBox (show 0 < 2 by norm_num) (show 0 < 2 by norm_num)] at hq
  have h1 := hq.2.1
  simp only [rectangle, Set.mem_setOf_eq] at h1
  refine ⟨(q.2, 3 - q.1), dot_sub_boxPixels hD _ ?_, by simp, by simp only; omega⟩
  simp only [rectangle, Set.mem_setOf_eq]
  omega

/-- Two by two pixels with the values 1, 2, 2, 2. -/
def unevenDot : Mat ℝ := ⟨2, 2, fun i j => if i = 0 ∧ j = 0 then 1 else 2⟩

theorem unevenDot_get (i j : ℕ) : (int16Mat unevenDot).get i j = if i = 0 ∧ j = 0 then 1 else 2 := by
  simp only [int16Mat, unevenDot]
  split_ifs
  · simp [truncInt, toInt16]
  · simp [truncInt, toInt16]

theorem unevenDot_isDot : IsDot (int16Mat unevenDot) (rectangle 0 0 2 2) := by
  have hl : ∀ q : Pix, q ∈ rectangle 0 0 2 2 ↔ Lit (int16Mat unevenDot) q := fun q => by
    have h0 : (int16Mat unevenDot).get q.1 q.2 ≠ 0 := by
      rw [unevenDot_get]
      split_ifs <;> norm_num
    simp only [Lit, rectangle, Set.mem_setOf_eq]
    exact ⟨fun h => ⟨h.1.2, h.2.2, h0⟩, fun h => ⟨⟨Nat.zero_le _, h.1⟩, Nat.zero_le _, h.2.1⟩⟩
  exact rectangle_isDot (by norm_num) (by norm_num) (fun q hq => (hl q).1 hq) fun _ _ r hr _ => (hl r).2 hr

/-- An image with other values than zero and one can fail: a dot of four pixels with the values 1, 2, 2, 2 is not on a line, but the one pixel
of the least value is all that is looked at. -/
example : selectDotsBasedRatio ellipseAxes unevenDot 0.3 = .error .zeroDivisionError := by
  classical
  refine (C93_outcome unevenDot (fun i _ j _ => by rw [unevenDot_get]; split_ifs <;> norm_num) 0.3).1 ⟨_, unevenDot_isDot, ?_, 1, 0, by norm_num, ?_⟩
  · exact ⟨⟨(0, 0), by simp [rectangle], (1, 0), by simp [rectangle], by norm_num⟩, (0, 0), by simp [rectangle], (0, 1), by simp [rectangle], by norm_num⟩
  · have : leastPixels (int16Mat unevenDot) (rectangle 0 0 2 2) = {(0, 0)} := by
      ext ⟨i, j⟩
      simp only [leastPixels, Finset.mem_filter, Finset.mem_product, Finset.mem_range, Finset.mem_singleton,
        rectangle_inBox (show 0 < 2 by norm_num) (show 0 < 2 by norm_num), unevenDot_get, Prod.mk.injEq]
      constructor
      · rintro ⟨_, _, _, h⟩
        have := h (0, 0) (by simp [rectangle]) (by simp)
        by_contra hne
        rw [if_neg hne] at this
        simp at this
      · rintro ⟨rfl, rfl⟩
        refine ⟨by simp [int16Mat, unevenDot], by simp [rectangle], by simp, fun r _ _ => ?_⟩
        rw [if_pos ⟨rfl, rfl⟩]
        split_ifs <;> norm_num
    rw [this]
    simp [spread, pixelMean]

/-- Two by two pixels with the value -1. -/
def darkDot : Mat ℝ := ⟨2, 2, fun _ _ => -1⟩

theorem darkDot_get (i j : ℕ) : (int16Mat darkDot).get i j = -1 := by
  simp only [int16Mat, darkDot]
  rw [truncInt, if_neg (by norm_num)]
  have : ⌈(-1 : ℝ)⌉ = -1 := by
    rw [Int.ceil_neg]
    norm_num
  rw [this]
  rfl

/-- A dot of negative values. -/
example : selectDotsBasedRatio ellipseAxes darkDot 0.3 = .error .indexError := by
  have hl : ∀ q : Pix, q ∈ rectangle 0 0 2 2 ↔ Lit (int16Mat darkDot) q := fun q => by
    have h0 : (int16Mat darkDot).get q.1 q.2 ≠ 0 := by
      rw [darkDot_get]
      norm_num
    simp only [Lit, rectangle]
    exact ⟨fun h => ⟨h.1.2, h.2.2, h0⟩, fun h => ⟨⟨Nat.zero_le _, h.1⟩, Nat.zero_le _, h.2.1⟩⟩
  refine (C93_negative darkDot (fun i _ j _ => by rw [darkDot_get]; norm_num) 0.3).1
    ⟨_, rectangle_isDot (i := 0) (j := 0) (h := 2) (w := 2) (by norm_num) (by norm_num) (fun q hq => (hl q).1 hq) fun _ _ r hr _ => (hl r).2 hr, ?_⟩
  exact ⟨⟨(0, 0), by simp [rectangle], (1, 0), by simp [rectangle], by norm_num⟩, (0, 0), by simp [rectangle], (0, 1), by simp [rectangle], by norm_num⟩

example (ratio : ℝ) := C93_binary (blockImage 4 5) (blockImage_binary 4 5) ratio
example := C93_no_tolerance (blockImage 4 5) (blockImage_binary 4 5) 0 le_rfl

end Discorpy
