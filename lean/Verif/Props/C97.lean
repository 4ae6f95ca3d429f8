import Verif.Props.C93
import Verif.Spec.Selection
import Mathlib.Tactic.IntervalCases

/-! # C97 — selecting dots twice and in another order -/

namespace Discorpy

open Spec

theorem inBox_self {D : Set Pix} {p : Pix} (hp : p ∈ D) : InBox D p.1 p.2 := ⟨⟨p, hp, le_rfl⟩, ⟨p, hp, le_rfl⟩, ⟨p, hp, le_rfl⟩, ⟨p, hp, le_rfl⟩⟩

theorem inBox_frame {m : Mat ℤ} {D : Set Pix} (hD : IsDot m D) {i j : ℕ} (h : InBox D i j) : i < m.height ∧ j < m.width := by
  obtain ⟨_, ⟨p, hp, h1⟩, _, q, hq, h2⟩ := h
  exact ⟨h1.trans_lt (hD.lit p hp).1, h2.trans_lt (hD.lit q hq).2.1⟩

/-- In the box of an accepted dot nothing changes. -/
theorem kept_box {m out : Mat ℤ} {acc : Set Pix → Prop} (h : KeepsDots m out acc) {D : Set Pix} (hD : IsDot m D) (ha : acc D) {i j : ℕ}
    (hb : InBox D i j) : out.get i j = m.get i j :=
  (h.2.2 i (inBox_frame hD hb).1 j (inBox_frame hD hb).2).1 ⟨D, hD, ha, hb⟩

theorem kept_lit {m out : Mat ℤ} {acc : Set Pix → Prop} (h : KeepsDots m out acc) {p : Pix} (hp : Lit out p) : Lit m p := by
  obtain ⟨h1, h2, h3⟩ := hp
  rw [h.1] at h1
  rw [h.2.1] at h2
  refine ⟨h1, h2, fun h0 => h3 ?_⟩
  by_cases hk : ∃ D, IsDot m D ∧ acc D ∧ InBox D p.1 p.2
  · rw [(h.2.2 _ h1 _ h2).1 hk, h0]
  · exact (h.2.2 _ h1 _ h2).2 hk

/-- An accepted dot is a dot of the result. -/
theorem kept_isDot {m out : Mat ℤ} {acc : Set Pix → Prop} (h : KeepsDots m out acc) {D : Set Pix} (hD : IsDot m D) (ha : acc D) : IsDot out D where
  nonempty := hD.nonempty
  lit := fun p hp => by
    obtain ⟨h1, h2, h3⟩ := hD.lit p hp
    exact ⟨by rw [h.1]; exact h1, by rw [h.2.1]; exact h2, by rw [kept_box h hD ha (inBox_self hp)]; exact h3⟩
  closed := fun p hp q hq he => hD.closed p hp q (kept_lit h hq) he
  minimal := fun E hE hne hc => hD.minimal E hE hne fun p hp q hq he => by
    have hqD := hD.closed p (hE hp) q hq he
    refine hc p hp q ?_ he
    obtain ⟨h1, h2, h3⟩ := hq
    exact ⟨by rw [h.1]; exact h1, by rw [h.2.1]; exact h2, by rw [kept_box h hD ha (inBox_self hqD)]; exact h3⟩

/-- A second selection that accepts the dots accepted by the first one changes nothing. -/
theorem keeps_twice {m out out2 : Mat ℤ} {acc acc2 : Set Pix → Prop} (h : KeepsDots m out acc) (h2 : KeepsDots out out2 acc2)
    (hacc : ∀ D, IsDot m D → acc D → acc2 D) : SamePixels out out2 := by
  refine ⟨h2.1, h2.2.1, fun i hi j hj => ?_⟩
  by_cases hk : ∃ D, IsDot m D ∧ acc D ∧ InBox D i j
  · obtain ⟨D, hD, ha, hb⟩ := hk
    exact (h2.2.2 i hi j hj).1 ⟨D, kept_isDot h hD ha, hacc D hD ha, hb⟩
  · have h0 := (h.2.2 i (by rwa [← h.1]) j (by rwa [← h.2.1])).2 hk
    by_cases hk2 : ∃ D, IsDot out D ∧ acc2 D ∧ InBox D i j
    · exact (h2.2.2 i hi j hj).1 hk2
    · rw [(h2.2.2 i hi j hj).2 hk2, h0]

/-- If no dot reaches into the box of another one, the dots of the result are the accepted ones. -/
theorem kept_dots {m out : Mat ℤ} {acc : Set Pix → Prop} (hsep : Apart m) (h : KeepsDots m out acc) (D : Set Pix) :
    IsDot out D ↔ IsDot m D ∧ acc D := by
  refine ⟨fun hD => ?_, fun hD => kept_isDot h hD.1 hD.2⟩
  obtain ⟨p, hp⟩ := hD.nonempty
  have hl := hD.lit p hp
  have hm := kept_lit h hl
  have hdot := isDot_dotSet (lit_iff.1 hm)
  have hpd : p ∈ dotSet m p := SameDot.refl (lit_iff.1 hm)
  have ha : acc (dotSet m p) := by
    by_contra hna
    refine hl.2.2 ((h.2.2 p.1 hm.1 p.2 hm.2.1).2 ?_)
    rintro ⟨E, hE, hEa, hEb⟩
    by_cases e : E = dotSet m p
    · exact hna (e ▸ hEa)
    · exact hsep E _ hE hdot e p hpd hEb
  have e := isDot_eq hD hp
  have e' := isDot_eq (kept_isDot h hdot ha) hpd
  rw [e, ← e']
  exact ⟨hdot, ha⟩

/-- Two selections one after the other. -/
theorem keeps_both {m out out2 : Mat ℤ} {acc acc2 acc' : Set Pix → Prop} (hsep : Apart m) (h : KeepsDots m out acc) (h2 : KeepsDots out out2 acc2)
    (hacc : ∀ D, IsDot m D → acc D → (acc2 D ↔ acc' D)) : KeepsDots m out2 fun D => acc D ∧ acc' D := by
  refine ⟨by rw [h2.1, h.1], by rw [h2.2.1, h.2.1], fun i hi j hj => ⟨?_, fun hno => ?_⟩⟩
  · rintro ⟨D, hD, ⟨ha, ha'⟩, hb⟩
    rw [(h2.2.2 i (by rwa [h.1]) j (by rwa [h.2.1])).1 ⟨D, kept_isDot h hD ha, (hacc D hD ha).2 ha', hb⟩, kept_box h hD ha hb]
  · refine (h2.2.2 i (by rwa [h.1]) j (by rwa [h.2.1])).2 ?_
    rintro ⟨D, hD, ha2, hb⟩
    obtain ⟨hD, ha⟩ := (kept_dots hsep h D).1 hD
    exact hno ⟨D, hD, ⟨ha, (hacc D hD ha).1 ha2⟩, hb⟩

theorem keeps_same {m out out' : Mat ℤ} {acc acc' : Set Pix → Prop} (h : KeepsDots m out acc) (h' : KeepsDots m out' acc')
    (hacc : ∀ D, IsDot m D → (acc D ↔ acc' D)) : SamePixels out out' := by
  refine ⟨by rw [h'.1, h.1], by rw [h'.2.1, h.2.1], fun i hi j hj => ?_⟩
  rw [h.1] at hi
  rw [h.2.1] at hj
  have key : (∃ D, IsDot m D ∧ acc D ∧ InBox D i j) ↔ ∃ D, IsDot m D ∧ acc' D ∧ InBox D i j :=
    ⟨fun ⟨D, h1, h2, h3⟩ => ⟨D, h1, (hacc D h1).1 h2, h3⟩, fun ⟨D, h1, h2, h3⟩ => ⟨D, h1, (hacc D h1).2 h2, h3⟩⟩
  by_cases hk : ∃ D, IsDot m D ∧ acc D ∧ InBox D i j
  · rw [(h.2.2 i hi j hj).1 hk, (h'.2.2 i hi j hj).1 (key.1 hk)]
  · rw [(h.2.2 i hi j hj).2 hk, (h'.2.2 i hi j hj).2 (fun h => hk (key.2 h))]

/-! ## Outputs as inputs -/

theorem int16_again {m : Mat ℤ} (h : ∀ i j, -32768 ≤ m.get i j ∧ m.get i j ≤ 32767) : int16Mat (again m) = m := by
  obtain ⟨a, b, g⟩ := m
  simp only [int16Mat, again, Mat.mk.injEq, true_and]
  funext i j
  have ht : truncInt ((g i j : ℤ) : ℝ) = g i j := by unfold truncInt; split <;> simp
  rw [ht, toInt16_of_mem (h i j).1 (h i j).2]

theorem int16_keep (m : Mat ℝ) (boxes : List Box) : int16Mat (again (keepBoxes (int16Mat m) boxes)) = keepBoxes (int16Mat m) boxes := by
  refine int16_again fun i j => ?_
  rw [keepBoxes_get]
  split_ifs
  · exact toInt16_range _
  · norm_num

theorem ratio_int16 {axes : Mat ℤ → Except PyErr (ℝ × ℝ)} {m : Mat ℝ} {ratio : ℝ} {out : Mat ℤ} (h : selectDotsBasedRatio axes m ratio = .ok out) :
    int16Mat (again out) = out := by
  unfold selectDotsBasedRatio at h
  obtain ⟨flags, _, h⟩ := bind_ok_iff.1 h
  cases h
  exact int16_keep _ _

theorem int16_value {m : Mat ℝ} (h : Is16Bit m) {i j : ℕ} (hi : i < m.height) (hj : j < m.width) : ((int16Mat m).get i j : ℝ) = m.get i j := by
  obtain ⟨n, e, h1, h2⟩ := h i hi j hj
  have ht : truncInt ((n : ℤ) : ℝ) = n := by unfold truncInt; split <;> simp
  simp only [int16Mat]
  rw [e, ht, toInt16_of_mem h1 h2]

/-- The sum over the box of an accepted dot is the same in the result. -/
theorem kept_boxSum {m : Mat ℝ} (hm : Is16Bit m) {out : Mat ℤ} {acc : Set Pix → Prop} (h : KeepsDots (int16Mat m) out acc) {D : Set Pix}
    (hD : IsDot (int16Mat m) D) (ha : acc D) : boxSum (again out) D = boxSum m D := by
  classical
  have e1 : (again out).height = m.height := h.1
  have e2 : (again out).width = m.width := h.2.1
  unfold boxSum
  rw [e1, e2]
  refine Finset.sum_congr rfl fun q hq => ?_
  rw [Finset.mem_filter, Finset.mem_product, Finset.mem_range, Finset.mem_range] at hq
  show ((out.get q.1 q.2 : ℤ) : ℝ) = _
  rw [kept_box h hD ha hq.2, int16_value hm hq.1.1 hq.1.2]

/-- The same pixels have the least value. -/
theorem kept_leastPixels {m out : Mat ℤ} {acc : Set Pix → Prop} (h : KeepsDots m out acc) {D : Set Pix} (hD : IsDot m D) (ha : acc D) :
    leastPixels out D = leastPixels m D := by
  classical
  unfold leastPixels
  rw [h.1, h.2.1]
  refine Finset.filter_congr fun q _ => ?_
  constructor
  · rintro ⟨h1, h2, h3⟩
    rw [kept_box h hD ha h1] at h2 h3
    exact ⟨h1, h2, fun r hr hr0 => by rw [← kept_box h hD ha hr]; exact h3 r hr (by rw [kept_box h hD ha hr]; exact hr0)⟩
  · rintro ⟨h1, h2, h3⟩
    rw [kept_box h hD ha h1]
    exact ⟨h1, h2, fun r hr hr0 => by rw [kept_box h hD ha hr] at hr0 ⊢; exact h3 r hr hr0⟩

theorem kept_nonneg {m out : Mat ℤ} {acc : Set Pix → Prop} (h : KeepsDots m out acc) (hpos : ∀ i < m.height, ∀ j < m.width, 0 ≤ m.get i j) :
    ∀ i < out.height, ∀ j < out.width, 0 ≤ out.get i j := by
  intro i hi j hj
  rw [h.1] at hi
  rw [h.2.1] at hj
  rcases (C41_pixels m out out acc acc h h).1 i hi j hj with e | e <;> rw [e]
  exact hpos i hi j hj

theorem kept_binary {m : Mat ℝ} (hb : IsBinary m) {out : Mat ℤ} {acc : Set Pix → Prop} (h : KeepsDots (int16Mat m) out acc) : IsBinary (again out) := by
  intro i hi j hj
  have hi' : i < m.height := by
    have : (again out).height = m.height := h.1
    omega
  have hj' : j < m.width := by
    have : (again out).width = m.width := h.2.1
    omega
  show ((out.get i j : ℤ) : ℝ) = 0 ∨ ((out.get i j : ℤ) : ℝ) = 1
  rcases (C41_pixels _ out out acc acc h h).1 i hi' j hj' with e | e
  · left
    rw [e]
    norm_num
  · rw [e]
    rcases int16Mat_binary hb hi' hj' with e | e <;> rw [e] <;> norm_num

/-! ## Selecting twice -/

/-- **C97 (size).** Selecting the dots of a size a second time changes nothing, for every image of 16-bit integers. -/
theorem C97_size (m : Mat ℝ) (hm : Is16Bit m) (dotSize ratio : ℝ) :
    SamePixels (selectDotsBasedSize m dotSize ratio) (selectDotsBasedSize (again (selectDotsBasedSize m dotSize ratio)) dotSize ratio) := by
  have h1 := C41_size m dotSize ratio
  have h2 := C41_size (again (selectDotsBasedSize m dotSize ratio)) dotSize ratio
  have e : int16Mat (again (selectDotsBasedSize m dotSize ratio)) = selectDotsBasedSize m dotSize ratio := int16_keep _ _
  rw [e] at h2
  refine keeps_twice h1 h2 fun D hD ha => ?_
  rw [kept_boxSum hm h1 hD ha]
  exact ha

/-- **C97 (size, floats).** … but not for images with fractions: the values are truncated in the result, and the sum of its pixels can be too
small for a second selection. -/
theorem C97_size_float : ∃ m : Mat ℝ, (selectDotsBasedSize m 1.5 0).get 0 0 = 1 ∧
    (selectDotsBasedSize (again (selectDotsBasedSize m 1.5 0)) 1.5 0).get 0 0 = 0 := by
  classical
  have one : ∀ v : ℝ, toInt16 (truncInt v) = 1 → ∀ D, IsDot (int16Mat (⟨1, 1, fun _ _ => v⟩ : Mat ℝ)) D → D = {(0, 0)} := by
    intro v hv D hD
    ext ⟨a, b⟩
    rw [Set.mem_singleton_iff]
    obtain ⟨q, hq⟩ := hD.nonempty
    have lit0 : ∀ p ∈ D, p = (0, 0) := by
      intro p hp
      obtain ⟨h1, h2, _⟩ := hD.lit p hp
      simp only [int16Mat] at h1 h2
      ext <;> simp only <;> omega
    refine ⟨lit0 _, fun h => ?_⟩
    rw [h, ← lit0 q hq]
    exact hq
  have dot : ∀ v : ℝ, toInt16 (truncInt v) = 1 → IsDot (int16Mat (⟨1, 1, fun _ _ => v⟩ : Mat ℝ)) {(0, 0)} := by
    intro v hv
    have hl : IsDotPix (int16Mat (⟨1, 1, fun _ _ => v⟩ : Mat ℝ)) (0, 0) := ⟨by simp [int16Mat], by simp [int16Mat], by simp [int16Mat, hv]⟩
    have := isDot_dotSet hl
    rwa [one v hv _ this] at this
  have bs : ∀ v : ℝ, boxSum (⟨1, 1, fun _ _ => v⟩ : Mat ℝ) {(0, 0)} = v := by
    intro v
    unfold boxSum
    rw [show ((Finset.range 1 ×ˢ Finset.range 1).filter fun q : ℕ × ℕ => InBox {(0, 0)} q.1 q.2) = {(0, 0)} by
      ext q
      simp only [Finset.mem_filter, Finset.mem_product, Finset.mem_range, Finset.mem_singleton]
      constructor
      · rintro ⟨⟨h1, h2⟩, _⟩
        ext <;> simp only <;> omega
      · rintro rfl
        exact ⟨⟨by norm_num, by norm_num⟩, inBox_self (p := (0, 0)) rfl⟩]
    simp
  have t15 : toInt16 (truncInt (1.5 : ℝ)) = 1 := by
    have : truncInt (1.5 : ℝ) = 1 := by
      unfold truncInt
      rw [if_pos (by norm_num), Int.floor_eq_iff]
      norm_num
    rw [this]
    rfl
  have t1 : toInt16 (truncInt (1 : ℝ)) = 1 := by simp [truncInt, toInt16]
  have k1 := C41_size (⟨1, 1, fun _ _ => 1.5⟩ : Mat ℝ) 1.5 0
  have g1 : (selectDotsBasedSize (⟨1, 1, fun _ _ => 1.5⟩ : Mat ℝ) 1.5 0).get 0 0 = 1 := by
    rw [(k1.2.2 0 (by simp [int16Mat]) 0 (by simp [int16Mat])).1 ⟨{(0, 0)}, dot _ t15, by simp only [bs]; norm_num, inBox_self (p := (0, 0)) rfl⟩]
    exact t15
  refine ⟨⟨1, 1, fun _ _ => 1.5⟩, g1, ?_⟩
  have k2 := C41_size (again (selectDotsBasedSize (⟨1, 1, fun _ _ => 1.5⟩ : Mat ℝ) 1.5 0)) 1.5 0
  refine (k2.2.2 0 (by have := k1.1; simp only [int16Mat, again] at this ⊢; omega) 0 (by have := k1.2.1; simp only [int16Mat, again] at this ⊢; omega)).2 ?_
  rintro ⟨D, hD, ⟨_, h, _⟩, _⟩
  have hle : boxSum (again (selectDotsBasedSize (⟨1, 1, fun _ _ => 1.5⟩ : Mat ℝ) 1.5 0)) D ≤ 1 := by
    unfold boxSum
    have e1 : (again (selectDotsBasedSize (⟨1, 1, fun _ _ => 1.5⟩ : Mat ℝ) 1.5 0)).height = 1 := k1.1
    have e2 : (again (selectDotsBasedSize (⟨1, 1, fun _ _ => 1.5⟩ : Mat ℝ) 1.5 0)).width = 1 := k1.2.1
    rw [e1, e2, Finset.sum_filter, show (Finset.range 1 ×ˢ Finset.range 1) = {((0 : ℕ), (0 : ℕ))} by rfl, Finset.sum_singleton]
    by_cases hc : InBox D 0 0
    · rw [if_pos hc]
      show (((selectDotsBasedSize (⟨1, 1, fun _ _ => 1.5⟩ : Mat ℝ) 1.5 0).get 0 0 : ℤ) : ℝ) ≤ 1
      rw [g1]
      norm_num
    · rw [if_neg hc]
      norm_num
  norm_num at h
  linarith

/-- **C97 (shape).** Selecting the round dots a second time changes nothing if it does not fail; for a binary image it does not. -/
theorem C97_ratio (m : Mat ℝ) (hpos : ∀ i < m.height, ∀ j < m.width, 0 ≤ (int16Mat m).get i j) (ratio : ℝ) (out out2 : Mat ℤ)
    (h1 : selectDotsBasedRatio ellipseAxes m ratio = .ok out) (h2 : selectDotsBasedRatio ellipseAxes (again out) ratio = .ok out2) :
    SamePixels out out2 := by
  have key : ∀ (m : Mat ℝ) (_ : ∀ i < m.height, ∀ j < m.width, 0 ≤ (int16Mat m).get i j) (out : Mat ℤ), selectDotsBasedRatio ellipseAxes m ratio = .ok out →
      KeepsDots (int16Mat m) out fun D => IsWide D ∧ NearlyRound ratio (leastPixels (int16Mat m) D) := by
    intro m hpos out h
    by_cases hz : ∃ D, IsDot (int16Mat m) D ∧ IsWide D ∧ 0 ∈ spreads (leastPixels (int16Mat m) D)
    · rw [(C93_outcome m hpos ratio).1 hz] at h
      cases h
    · obtain ⟨o, e, hk⟩ := (C93_outcome m hpos ratio).2 hz
      rw [h] at e
      cases e
      exact hk
  have k1 := key m hpos out h1
  have e := ratio_int16 h1
  have k2 := key (again out) (by rw [e]; exact kept_nonneg k1 hpos) out2 h2
  rw [e] at k2
  refine keeps_twice k1 k2 fun D hD ha => ?_
  rw [kept_leastPixels k1 hD ha]
  exact ha

/-- **C97 (shape, binary images).** For a binary image both selections succeed. -/
theorem C97_ratio_binary (m : Mat ℝ) (hb : IsBinary m) (ratio : ℝ) :
    ∃ out out2, selectDotsBasedRatio ellipseAxes m ratio = .ok out ∧ selectDotsBasedRatio ellipseAxes (again out) ratio = .ok out2 ∧ SamePixels out out2 := by
  obtain ⟨out, e1, k1⟩ := C93_binary m hb ratio
  obtain ⟨out2, e2, _⟩ := C93_binary (again out) (kept_binary hb k1) ratio
  exact ⟨out, out2, e1, e2, C97_ratio m (fun i hi j hj => by rcases int16Mat_binary hb hi hj with h | h <;> rw [h]; norm_num) ratio out out2 e1 e2⟩

/-! ## Order of selections -/

theorem binary_16 {m : Mat ℝ} (hb : IsBinary m) : Is16Bit m := fun i hi j hj => by
  rcases hb i hi j hj with h | h
  · exact ⟨0, by rw [h]; norm_num, by norm_num, by norm_num⟩
  · exact ⟨1, by rw [h]; norm_num, by norm_num, by norm_num⟩

theorem kept_boxPixels {m out : Mat ℤ} {acc : Set Pix → Prop} (h : KeepsDots m out acc) {D : Set Pix} (hD : IsDot m D) (ha : acc D) :
    boxPixels out D = boxPixels m D := by
  classical
  unfold boxPixels
  rw [h.1, h.2.1]
  refine Finset.filter_congr fun q _ => ?_
  constructor
  · rintro ⟨h1, h2⟩
    rw [kept_box h hD ha h1] at h2
    exact ⟨h1, h2⟩
  · rintro ⟨h1, h2⟩
    rw [kept_box h hD ha h1]
    exact ⟨h1, h2⟩

/-- **C97 (order).** If no dot of a binary image reaches into the bounding box of another one, selecting by size and by shape can be done in
any order, and selecting by two sizes too: the result has exactly the dots accepted by both tests. -/
theorem C97_order (m : Mat ℝ) (hb : IsBinary m) (hsep : Apart (int16Mat m)) (dotSize ratio ratio' : ℝ) :
    ∃ sr r rs, selectDotsBasedRatio ellipseAxes (again (selectDotsBasedSize m dotSize ratio)) ratio' = .ok sr ∧
      selectDotsBasedRatio ellipseAxes m ratio' = .ok r ∧ selectDotsBasedSize (again r) dotSize ratio = rs ∧ SamePixels sr rs ∧
      KeepsDots (int16Mat m) sr fun D => (0 ≤ boxSum m D ∧ dotSize - ratio * dotSize ≤ boxSum m D ∧ boxSum m D ≤ dotSize + ratio * dotSize) ∧
        IsWide D ∧ NearlyRound ratio' (boxPixels (int16Mat m) D) := by
  have h1 := C41_size m dotSize ratio
  obtain ⟨sr, e2, h2⟩ := C93_binary (again (selectDotsBasedSize m dotSize ratio)) (kept_binary hb h1) ratio'
  rw [show int16Mat (again (selectDotsBasedSize m dotSize ratio)) = selectDotsBasedSize m dotSize ratio from int16_keep _ _] at h2
  obtain ⟨r, e3, h3⟩ := C93_binary m hb ratio'
  have h4 := C41_size (again r) dotSize ratio
  rw [ratio_int16 e3] at h4
  have a := keeps_both hsep h1 h2 (acc' := fun D => IsWide D ∧ NearlyRound ratio' (boxPixels (int16Mat m) D)) fun D hD ha => by
    rw [kept_boxPixels h1 hD ha]
  have b := keeps_both hsep h3 h4 (acc' := fun D => 0 ≤ boxSum m D ∧ dotSize - ratio * dotSize ≤ boxSum m D ∧ boxSum m D ≤ dotSize + ratio * dotSize)
    fun D hD ha => by rw [kept_boxSum (binary_16 hb) h3 hD ha]
  exact ⟨sr, r, _, e2, e3, rfl, keeps_same a b fun D _ => and_comm, a⟩

/-- **C97 (two sizes).** Selections by two sizes can be done in any order, for images of 16-bit integers. -/
theorem C97_sizes (m : Mat ℝ) (hm : Is16Bit m) (hsep : Apart (int16Mat m)) (dotSize ratio dotSize' ratio' : ℝ) :
    SamePixels (selectDotsBasedSize (again (selectDotsBasedSize m dotSize ratio)) dotSize' ratio')
      (selectDotsBasedSize (again (selectDotsBasedSize m dotSize' ratio')) dotSize ratio) := by
  have key : ∀ s r s' r' : ℝ, KeepsDots (int16Mat m) (selectDotsBasedSize (again (selectDotsBasedSize m s r)) s' r') fun D =>
      (0 ≤ boxSum m D ∧ s - r * s ≤ boxSum m D ∧ boxSum m D ≤ s + r * s) ∧ (0 ≤ boxSum m D ∧ s' - r' * s' ≤ boxSum m D ∧ boxSum m D ≤ s' + r' * s') := by
    intro s r s' r'
    have h1 := C41_size m s r
    have h2 := C41_size (again (selectDotsBasedSize m s r)) s' r'
    rw [show int16Mat (again (selectDotsBasedSize m s r)) = selectDotsBasedSize m s r from int16_keep _ _] at h2
    exact keeps_both hsep h1 h2 fun D hD ha => by rw [kept_boxSum hm h1 hD ha]
  exact keeps_same (key _ _ _ _) (key _ _ _ _) fun D _ => and_comm

/-! ## Distances -/

/-- In an image without lit neighbours the dots are the lit pixels. -/
theorem single_isDot {m : Mat ℤ} (hs : SinglePixels m) {D : Set Pix} : IsDot m D ↔ ∃ p, Lit m p ∧ D = {p} := by
  have one : ∀ p, Lit m p → dotSet m p = {p} := by
    intro p hp
    refine ((isDot_dotSet (lit_iff.1 hp)).minimal {p} (Set.singleton_subset_iff.2 (SameDot.refl (lit_iff.1 hp))) ⟨p, rfl⟩ ?_).symm
    intro a ha q hq he
    rw [Set.mem_singleton_iff] at ha
    subst ha
    exact absurd he (hs _ _ hp hq)
  constructor
  · intro hD
    obtain ⟨p, hp⟩ := hD.nonempty
    exact ⟨p, hD.lit p hp, by rw [isDot_eq hD hp, one p (hD.lit p hp)]⟩
  · rintro ⟨p, hp, rfl⟩
    rw [← one p hp]
    exact isDot_dotSet (lit_iff.1 hp)

theorem single_centre {m : Mat ℤ} {p : Pix} (hp : Lit m p) (c : Pt) : IsCentre m {p} c ↔ c = ⟨p.1, p.2⟩ := by
  classical
  obtain ⟨h1, h2, h3⟩ := hp
  have sum : ∀ f : ℕ × ℕ → ℝ, (∑ q ∈ (Finset.range m.height ×ˢ Finset.range m.width).filter fun q => q ∈ ({p} : Set (ℕ × ℕ)), f q) = f p := by
    intro f
    rw [show ((Finset.range m.height ×ˢ Finset.range m.width).filter fun q => q ∈ ({p} : Set (ℕ × ℕ))) = {p} by
      ext q
      simp only [Finset.mem_filter, Finset.mem_product, Finset.mem_range, Finset.mem_singleton, Set.mem_singleton_iff]
      exact ⟨fun h => h.2, fun h => ⟨by rw [h]; exact ⟨h1, h2⟩, h⟩⟩, Finset.sum_singleton]
  have hv : (m.get p.1 p.2 : ℝ) ≠ 0 := by exact_mod_cast h3
  obtain ⟨y, x⟩ := c
  unfold IsCentre
  have s0 := sum fun q => (m.get q.1 q.2 : ℝ)
  have s1 := sum fun q => (m.get q.1 q.2 : ℝ) * q.1
  have s2 := sum fun q => (m.get q.1 q.2 : ℝ) * q.2
  rw [Pt.mk.injEq]
  constructor
  · rintro ⟨-, e1, e2⟩
    constructor
    · refine mul_right_cancel₀ hv ?_
      rw [mul_comm ((p.1 : ℕ) : ℝ), ← s1, ← s0]
      convert e1
    · refine mul_right_cancel₀ hv ?_
      rw [mul_comm ((p.2 : ℕ) : ℝ), ← s2, ← s0]
      convert e2
  · rintro ⟨rfl, rfl⟩
    refine ⟨?_, ?_, ?_⟩
    · convert hv
      convert s0
    · convert mul_comm ((p.1 : ℕ) : ℝ) (m.get p.1 p.2 : ℝ)
      · convert s0
      · convert s1
    · convert mul_comm ((p.2 : ℕ) : ℝ) (m.get p.1 p.2 : ℝ)
      · convert s0
      · convert s2

/-- A row with single pixels at 0, 10, 12, 14 and 16. -/
noncomputable def fiveDots : Mat ℝ := ⟨1, 17, fun _ j => if j = 0 ∨ j = 10 ∨ j = 12 ∨ j = 14 ∨ j = 16 then 1 else 0⟩

theorem fiveDots_get (i j : ℕ) : (int16Mat fiveDots).get i j = if j = 0 ∨ j = 10 ∨ j = 12 ∨ j = 14 ∨ j = 16 then 1 else 0 := by
  simp only [int16Mat, fiveDots]
  split_ifs
  · simp [truncInt, toInt16]
  · simp [truncInt, toInt16]

theorem fiveDots_lit {p : Pix} : Lit (int16Mat fiveDots) p ↔ p = (0, 0) ∨ p = (0, 10) ∨ p = (0, 12) ∨ p = (0, 14) ∨ p = (0, 16) := by
  obtain ⟨a, b⟩ := p
  unfold Lit
  rw [fiveDots_get]
  simp only [int16Mat, fiveDots, Prod.mk.injEq]
  split_ifs with h
  · simp; omega
  · simp; omega

theorem row_apart {a b : ℕ} (h : ShareEdge (0, a) (0, b)) : a + 1 = b ∨ b + 1 = a := by
  unfold ShareEdge at h
  rw [Int.abs_eq_natAbs, Int.abs_eq_natAbs] at h
  simp only at h
  omega

theorem fiveDots_single : SinglePixels (int16Mat fiveDots) := by
  intro p q hp hq he
  rw [fiveDots_lit] at hp hq
  rcases hp with rfl | rfl | rfl | rfl | rfl <;> rcases hq with rfl | rfl | rfl | rfl | rfl <;> have := row_apart he <;> omega

theorem row_dist (a b : ℕ) : centreDist ⟨((0 : ℕ) : ℝ), (a : ℝ)⟩ ⟨((0 : ℕ) : ℝ), (b : ℝ)⟩ = |(a : ℝ) - b| := by
  simp only [centreDist]
  rw [show (((0 : ℕ) : ℝ) - ((0 : ℕ) : ℝ)) ^ 2 + ((a : ℝ) - b) ^ 2 = ((a : ℝ) - b) ^ 2 by simp, Real.sqrt_sq_eq_abs]

/-- **C97 (distance).** Selecting by distance a second time can remove more dots, even all of them: in a row of single pixels at 0, 10, 12, 14
and 16 with the dot distance 5 and the ratio 0.1 only the first one has a neighbour at a multiple of the distance. It is kept; when the
selection is repeated it has no neighbours any more. -/
theorem C97_distance : ∃ (m : Mat ℝ) (out out2 : Mat ℤ), IsBinary m ∧ selectDotsBasedDistance m 5 0.1 = .ok out ∧
    selectDotsBasedDistance (again out) 5 0.1 = .ok out2 ∧ out.get 0 0 = 1 ∧ out2.get 0 0 = 0 := by
  have hpos : ∀ i j, 0 ≤ (int16Mat fiveDots).get i j := by
    intro i j
    rw [fiveDots_get]; split_ifs <;> norm_num
  obtain ⟨out, e1⟩ := C41_distance_ok fiveDots 5 0.1 hpos
  have k1 := C41_distance _ _ _ _ e1
  have e : int16Mat (again out) = out := by
    unfold selectDotsBasedDistance at e1
    obtain ⟨_, _, e1⟩ := bind_ok_iff.1 e1
    cases e1
    exact int16_keep _ _
  have keep : ∀ i j, 0 ≤ out.get i j := by
    intro i j
    unfold selectDotsBasedDistance at e1
    obtain ⟨_, _, e1⟩ := bind_ok_iff.1 e1
    cases e1
    rw [keepBoxes_get]
    split_ifs
    · exact hpos i j
    · exact le_rfl
  obtain ⟨out2, e2⟩ := C41_distance_ok (again out) 5 0.1 (by rw [e]; exact keep)
  have k2 := C41_distance _ _ _ _ e2
  rw [e] at k2
  have lit : ∀ a, a = 0 ∨ a = 10 ∨ a = 12 ∨ a = 14 ∨ a = 16 → Lit (int16Mat fiveDots) (0, a) := by
    intro a ha
    rw [fiveDots_lit]
    rcases ha with rfl | rfl | rfl | rfl | rfl <;> simp
  have dot : ∀ a, a = 0 ∨ a = 10 ∨ a = 12 ∨ a = 14 ∨ a = 16 → IsDot (int16Mat fiveDots) {(0, a)} := fun a ha => (single_isDot fiveDots_single).2 ⟨_, lit a ha, rfl⟩
  have dots : ∀ D, IsDot (int16Mat fiveDots) D → ∃ a, (a = 0 ∨ a = 10 ∨ a = 12 ∨ a = 14 ∨ a = 16) ∧ D = {(0, a)} := by
    intro D hD
    obtain ⟨p, hp, rfl⟩ := (single_isDot fiveDots_single).1 hD
    rw [fiveDots_lit] at hp
    rcases hp with rfl | rfl | rfl | rfl | rfl
    · exact ⟨0, by simp, rfl⟩
    · exact ⟨10, by simp, rfl⟩
    · exact ⟨12, by simp, rfl⟩
    · exact ⟨14, by simp, rfl⟩
    · exact ⟨16, by simp, rfl⟩
  -- the first dot is kept
  have near : NearDot (int16Mat fiveDots) {(0, 0)} {(0, 10)} 10 := by
    refine ⟨dot 10 (by simp), by simp, ⟨((0 : ℕ) : ℝ), ((0 : ℕ) : ℝ)⟩, ⟨((0 : ℕ) : ℝ), ((10 : ℕ) : ℝ)⟩, (single_centre (lit 0 (by simp)) _).2 rfl,
      (single_centre (lit 10 (by simp)) _).2 rfl, by rw [row_dist]; norm_num, ?_⟩
    rw [show {F | IsDot (int16Mat fiveDots) F ∧ F ≠ {(0, 0)} ∧ ∃ c'', IsCentre (int16Mat fiveDots) F c'' ∧
        centreDist ⟨((0 : ℕ) : ℝ), ((0 : ℕ) : ℝ)⟩ c'' < 10} = ∅ by
      rw [Set.eq_empty_iff_forall_notMem]
      rintro F ⟨hF, hne, c, hc, hlt⟩
      obtain ⟨a, ha, rfl⟩ := dots F hF
      rw [single_centre (lit a ha)] at hc
      rw [hc, row_dist] at hlt
      rcases ha with rfl | rfl | rfl | rfl | rfl
      · exact hne rfl
      all_goals norm_num at hlt]
    simp
  have first : out.get 0 0 = 1 := by
    have := kept_box k1 (D := {(0, 0)}) (dot 0 (by simp)) ⟨by norm_num, {(0, 10)}, 10, near, by
      rw [show (10 : ℝ) / 5 = ((2 : ℤ) : ℝ) by norm_num, Int.fract_intCast]; norm_num⟩ (inBox_self (p := (0, 0)) rfl)
    simp only at this
    rw [this, fiveDots_get]
    simp
  -- the others are not
  have other : ∀ a, a = 10 ∨ a = 12 ∨ a = 14 ∨ a = 16 →
      ¬ ∃ E d, NearDot (int16Mat fiveDots) {(0, a)} E d ∧ Int.fract (d / 5) < 0.1 := by
    rintro a ha ⟨E, d, ⟨hE, hne, c, c', hc, hc', rfl, hcard⟩, hf⟩
    have ha' : a = 0 ∨ a = 10 ∨ a = 12 ∨ a = 14 ∨ a = 16 := Or.inr ha
    obtain ⟨b, hb, rfl⟩ := dots E hE
    rw [single_centre (lit a ha')] at hc
    rw [single_centre (lit b hb)] at hc'
    subst hc hc'
    simp only at hf hcard
    rw [row_dist] at hf hcard
    have frac : ∀ v r : ℝ, v = r → 0.1 ≤ r → r < 1 → ¬ Int.fract v < 0.1 := by
      rintro v r rfl h1 h2 h
      rw [Int.fract_eq_self.2 ⟨by linarith, h2⟩] at h
      linarith
    have frac1 : ∀ v r : ℝ, v = 1 + r → 0.1 ≤ r → r < 1 → ¬ Int.fract v < 0.1 := by
      rintro v r rfl h1 h2 h
      rw [add_comm, Int.fract_add_one, Int.fract_eq_self.2 ⟨by linarith, h2⟩] at h
      linarith
    by_cases hb0 : b = 0
    · subst hb0
      -- there are three nearer dots
      refine absurd hcard (not_lt.2 ?_)
      have three : ∀ x y z : ℕ, x ≠ y → x ≠ z → y ≠ z → (∀ t, t = x ∨ t = y ∨ t = z → (t = 10 ∨ t = 12 ∨ t = 14 ∨ t = 16) ∧ t ≠ a ∧ |(a : ℝ) - t| < |(a : ℝ) - ((0 : ℕ) : ℝ)|) →
          3 ≤ Set.encard {F | IsDot (int16Mat fiveDots) F ∧ F ≠ {(0, a)} ∧ ∃ c'', IsCentre (int16Mat fiveDots) F c'' ∧
            centreDist ⟨((0 : ℕ) : ℝ), (a : ℝ)⟩ c'' < |(a : ℝ) - ((0 : ℕ) : ℝ)|} := by
        intro x y z hxy hxz hyz ht
        have sub : ({{(0, x)}, {(0, y)}, {(0, z)}} : Set (Set Pix)) ⊆ {F | IsDot (int16Mat fiveDots) F ∧ F ≠ {(0, a)} ∧
            ∃ c'', IsCentre (int16Mat fiveDots) F c'' ∧ centreDist ⟨((0 : ℕ) : ℝ), (a : ℝ)⟩ c'' < |(a : ℝ) - ((0 : ℕ) : ℝ)|} := by
          have each : ∀ t, t = x ∨ t = y ∨ t = z → ({(0, t)} : Set Pix) ∈ {F | IsDot (int16Mat fiveDots) F ∧ F ≠ {(0, a)} ∧
            ∃ c'', IsCentre (int16Mat fiveDots) F c'' ∧ centreDist ⟨((0 : ℕ) : ℝ), (a : ℝ)⟩ c'' < |(a : ℝ) - ((0 : ℕ) : ℝ)|} := by
            intro t hh
            obtain ⟨h1, h2, h3⟩ := ht t hh
            refine ⟨dot t (Or.inr h1), fun h => h2 ?_, ⟨((0 : ℕ) : ℝ), (t : ℝ)⟩, (single_centre (lit t (Or.inr h1)) _).2 rfl, by rw [row_dist]; exact h3⟩
            simpa using h
          rintro F (rfl | rfl | rfl)
          · exact each x (by simp)
          · exact each y (by simp)
          · exact each z (by simp)
        refine le_trans ?_ (Set.encard_le_encard sub)
        rw [Set.encard_insert_of_notMem (by simp [hxy, hxz]), Set.encard_pair (by simpa using hyz)]
        norm_num
      rcases ha with rfl | rfl | rfl | rfl
      · refine three 12 14 16 (by norm_num) (by norm_num) (by norm_num) ?_
        rintro t (rfl | rfl | rfl) <;> norm_num [abs_lt]
      · refine three 10 14 16 (by norm_num) (by norm_num) (by norm_num) ?_
        rintro t (rfl | rfl | rfl) <;> norm_num [abs_lt]
      · refine three 10 12 16 (by norm_num) (by norm_num) (by norm_num) ?_
        rintro t (rfl | rfl | rfl) <;> norm_num [abs_lt]
      · refine three 10 12 14 (by norm_num) (by norm_num) (by norm_num) ?_
        rintro t (rfl | rfl | rfl) <;> norm_num [abs_lt]
    · have hb' : b = 10 ∨ b = 12 ∨ b = 14 ∨ b = 16 := by omega
      have hd : (|(a : ℝ) - b| / 5 = 0.4 ∨ |(a : ℝ) - b| / 5 = 0.8) ∨ |(a : ℝ) - b| / 5 = 1 + 0.2 := by
        rcases ha with rfl | rfl | rfl | rfl <;> rcases hb' with rfl | rfl | rfl | rfl
        all_goals first | exact absurd rfl hne | norm_num [abs]
      rcases hd with (hd | hd) | hd
      · exact frac _ _ hd (by norm_num) (by norm_num) hf
      · exact frac _ _ hd (by norm_num) (by norm_num) hf
      · exact frac1 _ _ hd (by norm_num) (by norm_num) hf
  -- so there is a single dot left
  have left1 : ∀ p, Lit out p → p = (0, 0) := by
    intro p hp
    have hm := kept_lit k1 hp
    by_contra hne
    refine hp.2.2 ((k1.2.2 p.1 hm.1 p.2 hm.2.1).2 ?_)
    rintro ⟨D, hD, ⟨_, ha⟩, hb⟩
    obtain ⟨a, hh, rfl⟩ := dots D hD
    rcases hh with rfl | hh
    · obtain ⟨_, ⟨q, rfl, h1⟩, _, ⟨q', rfl, h2⟩⟩ := hb
      refine hne (Prod.ext ?_ ?_)
      · simpa using h1
      · simpa using h2
    · exact other a hh ha
  have single2 : SinglePixels out := by
    intro p q hp hq he
    rw [left1 p hp, left1 q hq] at he
    have := row_apart he
    omega
  refine ⟨fiveDots, out, out2, fun i _ j _ => ?_, e1, e2, first, ?_⟩
  · simp only [fiveDots]
    split_ifs <;> simp
  · have h1 : out.height = 1 := k1.1
    have h2 : out.width = 17 := k1.2.1
    refine (k2.2.2 0 (by rw [h1]; norm_num) 0 (by rw [h2]; norm_num)).2 ?_
    rintro ⟨D, hD, ⟨_, E, d, ⟨hE, hne, _⟩, _⟩, _⟩
    obtain ⟨p, hp, rfl⟩ := (single_isDot single2).1 hD
    obtain ⟨q, hq, rfl⟩ := (single_isDot single2).1 hE
    rw [left1 p hp, left1 q hq] at hne
    exact hne rfl

/-- Non-vacuity of `C97_order`: single pixels are apart from each other. -/
theorem fiveDots_apart : IsBinary fiveDots ∧ Apart (int16Mat fiveDots) := by
  refine ⟨fun i _ j _ => by simp only [fiveDots]; split_ifs <;> simp, fun D E hD hE hne p hp hb => ?_⟩
  obtain ⟨a, ha, rfl⟩ := (single_isDot fiveDots_single).1 hD
  obtain ⟨b, hb', rfl⟩ := (single_isDot fiveDots_single).1 hE
  rw [Set.mem_singleton_iff] at hp
  subst hp
  obtain ⟨⟨_, rfl, h1⟩, ⟨_, rfl, h2⟩, ⟨_, rfl, h3⟩, ⟨_, rfl, h4⟩⟩ := hb
  exact hne (by rw [Prod.ext (le_antisymm h1 h2) (le_antisymm h3 h4)])

theorem blockImage_16bit (h w : ℕ) : Is16Bit (blockImage h w) := by
  intro i hi j hj
  rcases blockImage_binary h w i hi j hj with e | e
  · exact ⟨0, by norm_num [e]⟩
  · exact ⟨1, by norm_num [e]⟩

example (dotSize ratio : ℝ) := C97_size (blockImage 4 5) (blockImage_16bit 4 5) dotSize ratio
example (ratio : ℝ) := C97_ratio_binary (blockImage 4 5) (blockImage_binary 4 5) ratio
example (dotSize ratio dotSize' ratio' : ℝ) := C97_sizes fiveDots (fun i hi j hj => by
  rcases fiveDots_apart.1 i hi j hj with e | e
  · exact ⟨0, by norm_num [e]⟩
  · exact ⟨1, by norm_num [e]⟩) fiveDots_apart.2 dotSize ratio dotSize' ratio'

/-- A block of ones. -/
example (ratio : ℝ) (out out2 : Mat ℤ) := C97_ratio (blockImage 4 5) (fun i hi j hj => by
  rcases int16Mat_binary (blockImage_binary 4 5) hi hj with h | h <;> rw [h]; norm_num) ratio out out2

end Discorpy
