import Verif.Lemmas.ShowsGrid
import Verif.Lemmas.ProductSlope
import Verif.Props.C83
import Verif.Props.C90
import Verif.Spec.Workflow

/-! # The binarized drawing of a dot pattern -/

namespace Discorpy

open Spec

theorem zMed_symm {S : ℤ → ℤ → Prop} (h : ∀ u v, S u v → S v u) (u v : ℤ) (hm : zMed S u v) : zMed S v u := by
  have := hm.imp (h _ _) (h _ _) (h _ _) (h _ _)
  unfold zMed Three at *
  tauto

theorem zPluses_symm {S : ℤ → ℤ → Prop} (h : ∀ u v, S u v → S v u) (u v : ℤ) (hm : zPluses S u v) : zPluses S v u := by
  have hp : ∀ u v, zPlus S u v → zPlus S v u := fun u v ⟨a, b, c, d, f⟩ => ⟨h _ _ a, h _ _ d, h _ _ f, h _ _ b, h _ _ c⟩
  rcases hm with a | a | a | a | a
  · exact .inl (hp _ _ a)
  · exact .inr (.inr (.inr (.inl (hp _ _ a))))
  · exact .inr (.inr (.inr (.inr (hp _ _ a))))
  · exact .inr (.inl (hp _ _ a))
  · exact .inr (.inr (.inl (hp _ _ a)))

theorem inDot_symm {s : ℤ} (u v : ℤ) (h : InDot s u v) : InDot s v u := by
  obtain ⟨a, b, c, d, f⟩ := h
  exact ⟨c, d, a, b, by linarith⟩

/-- The dots that remain of dots of odd size of at least 5 reach as far as before on one side. -/
theorem inDot_far {s : ℤ} (hs : s % 2 = 1) (h5 : 5 ≤ s) : zPluses (zMed (InDot s)) (s / 2) 0 := by
  obtain ⟨r, hr⟩ : ∃ r, r = s / 2 := ⟨_, rfl⟩
  have hr2 : 2 ≤ r := by omega
  have hin : ∀ u v : ℤ, |u| ≤ r → |v| ≤ r → u ^ 2 + v ^ 2 ≤ r ^ 2 → InDot s u v := by
    intro u v hu hv hq
    rw [abs_le] at hu hv
    exact ⟨by omega, by omega, by omega, by omega, by rw [← hr]; linarith⟩
  have h00 : InDot s r 0 := hin _ _ (by rw [abs_le]; omega) (by rw [abs_le]; omega) (by nlinarith)
  have h10 : InDot s (r - 1) 0 := hin _ _ (by rw [abs_le]; omega) (by rw [abs_le]; omega) (by nlinarith)
  have h11 : InDot s (r - 1) (-1) := hin _ _ (by rw [abs_le]; omega) (by rw [abs_le]; omega) (by nlinarith)
  have h11' : InDot s (r - 1) 1 := hin _ _ (by rw [abs_le]; omega) (by rw [abs_le]; omega) (by nlinarith)
  have h20 : InDot s (r - 2) 0 := hin _ _ (by rw [abs_le]; omega) (by rw [abs_le]; omega) (by nlinarith)
  have h21 : InDot s (r - 2) (-1) := hin _ _ (by rw [abs_le]; omega) (by rw [abs_le]; omega) (by nlinarith)
  have h21' : InDot s (r - 2) 1 := hin _ _ (by rw [abs_le]; omega) (by rw [abs_le]; omega) (by nlinarith)
  have h22 : InDot s (r - 2) (-2) := hin _ _ (by rw [abs_le]; omega) (by rw [abs_le]; omega) (by nlinarith)
  have h30 : InDot s (r - 3) 0 := hin _ _ (by rw [abs_le]; omega) (by rw [abs_le]; omega) (by nlinarith)
  have m0 : zMed (InDot s) r 0 := by
    unfold zMed Three
    simp only [zero_sub]
    exact .inr (.inl ⟨h11, h10, h00⟩)
  have e2 : r - 1 - 1 = r - 2 := by ring
  have m1 : zMed (InDot s) (r - 1) 0 := by
    unfold zMed Three
    rw [e2]
    simp only [zero_sub]
    exact .inl ⟨h21, h20, h11⟩
  have m2 : zMed (InDot s) (r - 2) 0 := by
    unfold zMed Three
    rw [show r - 2 - 1 = r - 3 by ring]
    simp only [zero_sub]
    exact .inr (.inr (.inr ⟨h30, h21, h20⟩))
  have m3 : zMed (InDot s) (r - 1) (-1) := by
    unfold zMed Three
    rw [e2, show (-1 : ℤ) - 1 = -2 by norm_num]
    exact .inr (.inl ⟨h22, h21, h11⟩)
  have m4 : zMed (InDot s) (r - 1) 1 := by
    unfold zMed Three
    rw [e2, show (1 : ℤ) - 1 = 0 by norm_num]
    exact .inl ⟨h20, h21', h10⟩
  rw [← hr]
  refine .inr (.inl ⟨m1, ?_, ?_, ?_, ?_⟩)
  · rw [e2]; exact m2
  · rw [sub_add_cancel]; exact m0
  · rw [zero_sub]; exact m3
  · rw [zero_add]; exact m4

theorem centreSet_steps {n : ℕ} {mv s d : ℤ} (hd : 0 < d) : Steps d (centreSet n mv s d) := by
  have key : ∀ p ∈ centreSet n mv s d, ∀ p' ∈ centreSet n mv s d, p < p' → ∃ k k' : ℕ, k + 1 ≤ k' ∧
      p = mv + (s / 2 + 1) + k * d ∧ p' = mv + (s / 2 + 1) + k' * d ∧ p' < n - (mv + (s / 2 + 1)) := by
    rintro p ⟨k, e1, _⟩ p' ⟨k', e2, h2⟩ hl
    refine ⟨k, k', ?_, e1, e2, h2⟩
    by_contra hc
    have : (k' : ℤ) * d ≤ k * d := mul_le_mul_of_nonneg_right (by omega) hd.le
    omega
  refine ⟨fun p hp p' hp' hl => ?_, fun p hp p' hp' hl => ?_⟩
  · obtain ⟨k, k', hk, rfl, rfl, h2⟩ := key p hp p' hp' hl
    have : ((k : ℤ) + 1) * d ≤ k' * d := mul_le_mul_of_nonneg_right (by omega) hd.le
    rw [add_mul, one_mul] at this
    exact ⟨⟨k + 1, by push_cast; ring, by omega⟩, by omega⟩
  · obtain ⟨k, k', hk, rfl, rfl, h2⟩ := key p hp p' hp' hl
    refine ⟨k' - 1, ?_, by omega⟩
    rw [Nat.cast_sub (by omega)]
    push_cast
    ring

/-- Two neighbouring positions with their dots in the middle part of the image. -/
def MiddleTwo (n : ℕ) (t : ℝ) (P : Set ℤ) (d e r : ℤ) : Prop :=
  ∃ p ∈ P, p + d ∈ P ∧ (n : ℝ) - t * n ≤ 2 * ((p + e - r - 1 : ℤ) : ℝ) ∧ 2 * ((p + d + r + 2 : ℤ) : ℝ) ≤ n + t * n

theorem MiddleTwo.window {n : ℕ} {t : ℝ} {P : Set ℤ} {d e r : ℤ} (h : MiddleTwo n t P d e r) (hd : 0 ≤ d) {a k : ℕ}
    (h1 : 2 * a + k = n) (h2 : t * n ≤ k) : ∃ p, p ∈ inWindow P a k e r ∧ p + d ∈ inWindow P a k e r := by
  obtain ⟨p, hp, hp', l1, l2⟩ := h
  have hn : (n : ℝ) = 2 * a + k := by exact_mod_cast h1.symm
  have b1 : (a : ℤ) ≤ p + e - r - 1 := by
    have : (a : ℝ) ≤ ((p + e - r - 1 : ℤ) : ℝ) := by linarith
    exact_mod_cast this
  have b2 : p + d + r + 2 ≤ a + k := by
    have : ((p + d + r + 2 : ℤ) : ℝ) ≤ a + k := by linarith
    exact_mod_cast this
  refine ⟨p - a, ⟨by rwa [sub_add_cancel], by omega, by omega⟩, by rwa [show p - a + d + a = p + d by ring], by omega, by omega⟩

variable {b : Mat ℤ} {e r d : ℤ} {P Q : Set ℤ} {S : ℤ → ℤ → Prop}

theorem Grid.dotAt_ne {h w : ℕ} (g : Grid h w e r P Q S) (hne : ∃ u v, S u v) {p p' q q' : ℤ} (hp : p ∈ P) (hp' : p' ∈ P) (hq : q ∈ Q)
    (hq' : q' ∈ Q) (h : p ≠ p') : dotAt S p q ≠ dotAt S p' q' := by
  obtain ⟨u, v, hs⟩ := hne
  intro he
  have b1 := g.rows.low p hp
  have b2 := g.cols.low q hq
  have c1 : e - r ≤ u := by have := g.le1 _ _ (g.round.sym1 _ _ hs); omega
  have c2 : e - r ≤ v := by have := g.le2 _ _ (g.round.sym2 _ _ hs); omega
  have hx : ((p + u).toNat, (q + v).toNat) ∈ dotAt S p q := by
    simp only [dotAt, Set.mem_ofPred_eq]
    rw [Int.toNat_of_nonneg (by omega), Int.toNat_of_nonneg (by omega)]
    simpa using hs
  exact h (g.same hp hq hp' hq' hx (he ▸ hx) (by simp) (by simp)).1

/-- Size and distance are found from the middle part. -/
theorem ShowsGrid.sizeDistance (g : ShowsGrid b e r P Q S) (t1 : ∃ v, S r v) (t2 : ∃ u, S u r) (hd : 0 < d) (hP : Steps d P) (hQ : Steps d Q)
    {ratio t : ℝ} (ht : t = max 0.05 (min ratio 1)) (m1 : MiddleTwo b.height t P d e r) (m2 : MiddleTwo b.width t Q d e r)
    {N : ℕ} (hN : ∀ p ∈ P, ∀ q ∈ Q, (dotAt S p q).ncard = N) : calcSizeDistance (realMat b) ratio = .ok ((N : ℝ), (d : ℝ)) := by
  have hne : ∃ u v, S u v := ⟨r, t1⟩
  have hh : 0 < b.height := by
    obtain ⟨p, hp, _⟩ := m1
    have := g.grid.rows.low p hp
    have := g.grid.rows.high p hp
    have := g.grid.round.le_one
    obtain ⟨v, hv⟩ := t1
    have := g.grid.ge1 hv
    have := g.grid.le1 _ _ hv
    omega
  have hw : 0 < b.width := by
    obtain ⟨p, hp, _⟩ := m2
    have := g.grid.cols.low p hp
    have := g.grid.cols.high p hp
    have := g.grid.round.le_one
    obtain ⟨v, hv⟩ := t2
    have := g.grid.ge2 hv
    have := g.grid.le2 _ _ hv
    omega
  obtain ⟨p0, hp0, _⟩ := id m1
  obtain ⟨q0, hq0, _⟩ := id m2
  obtain ⟨roi, mask, r1, r2, hreg⟩ := C67_regular (realMat b) g.binary hh hw ratio
  obtain ⟨roi', mask', r1', r2', _, _, hout⟩ := C67_outcome (realMat b) g.binary hh hw ratio
  obtain ⟨v, hv⟩ := hout (by
    obtain ⟨a, c, a1, a2, a3, gm⟩ := g.mask t1 t2 r1' r2'
    obtain ⟨b1, _, b3, _⟩ := a3 t ht
    obtain ⟨p, hp, hp'⟩ := m1.window hd.le a1 b1
    obtain ⟨q, hq, _⟩ := m2.window hd.le a2 b3
    have h1 : (1 : ℕ∞) < {D | IsDot mask' D}.encard := by
      rw [Set.one_lt_encard_iff]
      exact ⟨_, _, (gm.grid.isDot_iff gm.lit hne _).2 ⟨p, hp, q, hq, rfl⟩, (gm.grid.isDot_iff gm.lit hne _).2 ⟨p + d, hp', q, hq, rfl⟩,
        gm.grid.dotAt_ne hne hp hp' hq hq (by omega)⟩
    have := Order.add_one_le_of_lt h1
    rwa [one_add_one_eq_two] at this)
  obtain ⟨s', d'⟩ := v
  obtain ⟨a, c, a1, a2, a3, gm⟩ := g.mask t1 t2 r1 r2
  obtain ⟨b1, _, b3, _⟩ := a3 t ht
  obtain ⟨p, hp, hp'⟩ := m1.window hd.le a1 b1
  obtain ⟨e1, e2⟩ := hreg s' d' N d hv (by
    intro D hD
    obtain ⟨p', hp', q', hq', rfl⟩ := (gm.grid.isDot_iff gm.lit hne D).1 hD
    rw [gm.grid.ncard g.grid hp' hq' hp0 hq0, hN _ hp0 _ hq0]) (by
    intro D x hD hx
    exact gm.nearest hne hd (hP.window hd.le _ _ _ _) (hQ.window hd.le _ _ _ _) (.inl ⟨p, hp, p + d, hp', by omega⟩) hD hx)
  rw [hv, e1, e2]

theorem ShowsGrid.slopes (g : ShowsGrid b e r P Q S) (t1 : ∃ v, S r v) (t2 : ∃ u, S u r) (hd : 0 < d)
    {ratio t : ℝ} (ht : t = max 0.05 (min ratio 1)) (m1 : MiddleTwo b.height t P d e r) (m2 : MiddleTwo b.width t Q d e r)
    {pf : PolyfitFn} (hpf : PolyfitSpec pf) {argsort : List ℝ → List ℕ} (has : ArgsortSpec argsort) {radon : Mat ℝ → List ℝ → Mat ℝ}
    (hr : ∀ img angles, 0 < (radon img angles).height ∧ (radon img angles).width = angles.length) {m : Mat ℝ}
    (hsame : SameImage (realMat b) m) (hup : Upright radon m ratio) :
    calcHorSlope pf argsort radon (realMat b) ratio = .ok 0 ∧ calcVerSlope pf argsort radon (realMat b) ratio = .ok 0 := by
  have hne : ∃ u v, S u v := ⟨r, t1⟩
  have hh : 0 < b.height := by
    obtain ⟨p, hp, _⟩ := m1
    have := g.grid.rows.low p hp
    have := g.grid.rows.high p hp
    have := g.grid.round.le_one
    obtain ⟨v, hv⟩ := t1
    have := g.grid.ge1 hv
    have := g.grid.le1 _ _ hv
    omega
  have hw : 0 < b.width := by
    obtain ⟨p, hp, _⟩ := m2
    have := g.grid.cols.low p hp
    have := g.grid.cols.high p hp
    have := g.grid.round.le_one
    obtain ⟨v, hv⟩ := t2
    have := g.grid.ge2 hv
    have := g.grid.le2 _ _ hv
    omega
  -- the dots of a mask
  have key : ∀ roi mask pts, IsMiddlePart (realMat b) ratio roi → IsInnerMask roi mask → MiddlesOf mask pts →
      ∃ X Y : Set ℝ, pts.Nodup ∧ (∀ c : Pt, c ∈ pts ↔ c.y ∈ Y ∧ c.x ∈ X) ∧ (∃ x ∈ X, ∃ x' ∈ X, x ≠ x') ∧ (∃ y ∈ Y, ∃ y' ∈ Y, y ≠ y') ∧
        pts ≠ [] := by
    intro roi mask pts r1 r2 hmid
    obtain ⟨a, c, a1, a2, a3, gm⟩ := g.mask t1 t2 r1 r2
    obtain ⟨b1, _, b3, _⟩ := a3 t ht
    obtain ⟨p, hp, hp'⟩ := m1.window hd.le a1 b1
    obtain ⟨q, hq, hq'⟩ := m2.window hd.le a2 b3
    obtain ⟨hnd, hmem⟩ := gm.grid.middles gm.lit hne hmid
    have hd0 : (d : ℝ) ≠ 0 := by exact_mod_cast hd.ne'
    have two : ∀ p : ℤ, (p : ℝ) + e / 2 ≠ ((p + d : ℤ) : ℝ) + e / 2 := by
      intro p h
      push_cast at h
      apply hd0
      linarith
    refine ⟨{x | ∃ q ∈ inWindow Q c mask.width e r, x = (q : ℝ) + e / 2}, {y | ∃ p ∈ inWindow P a mask.height e r, y = (p : ℝ) + e / 2},
      hnd, fun z => (hmem z).trans ?_, ⟨_, ⟨q, hq, rfl⟩, _, ⟨_, hq', rfl⟩, two q⟩, ⟨_, ⟨p, hp, rfl⟩, _, ⟨_, hp', rfl⟩, two p⟩, ?_⟩
    · constructor
      · rintro ⟨p, hp, q, hq, rfl⟩
        exact ⟨⟨p, hp, rfl⟩, ⟨q, hq, rfl⟩⟩
      · rintro ⟨⟨p, hp, e1⟩, ⟨q, hq, e2⟩⟩
        exact ⟨p, hp, q, hq, by ext <;> simp [e1, e2]⟩
    · exact List.ne_nil_of_mem ((hmem _).2 ⟨p, hp, q, hq, rfl⟩)
  constructor
  · obtain ⟨roi, mask, pts, r1, r2, hmid, _, h⟩ := C83_hor pf hpf argsort has radon hr (realMat b) g.binary hh hw ratio
    obtain ⟨X, Y, hnd, hmem, hX, hY, hn⟩ := key roi mask pts r1 r2 hmid
    obtain ⟨k, s, hk, es, hs⟩ := h hn
    obtain rfl := (hup _ roi mask hsame r1 r2 k).1 hk
    rw [show ((30 : ℝ) - ((30 : ℕ) : ℝ)) * degree = 0 by norm_num, Real.tan_zero] at hs
    rw [es, gridSlope_product hnd hmem hX hs]
  · obtain ⟨roi, mask, pts, r1, r2, hmid, _, h⟩ := C83_ver pf hpf argsort has radon hr (realMat b) g.binary hh hw ratio
    obtain ⟨X, Y, hnd, hmem, hX, hY, hn⟩ := key roi mask pts r1 r2 hmid
    obtain ⟨k, s, hk, es, hs⟩ := h hn
    obtain rfl := (hup _ roi mask hsame r1 r2 k).2 hk
    rw [show (((30 : ℕ) : ℝ) - (30 : ℝ)) * degree = 0 by norm_num, Real.tan_zero] at hs
    rw [es, gridSlope_product_ver hnd hmem hY hs]

end Discorpy
