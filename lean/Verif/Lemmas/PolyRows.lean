import Verif.Props.C40
import Verif.Lemmas.Repeats
import Verif.Spec.PolyRows

/-! # Helper lemmas: recovery of curved lines by the grouping based on a polynomial fit -/

namespace Discorpy

open Spec

theorem forall₂_right {α β : Type} {R : α → β → Prop} {l : List α} {r : List β} (h : List.Forall₂ R l r) {b : β} (hb : b ∈ r) :
    ∃ a ∈ l, R a b := by
  obtain ⟨a, ha, h⟩ := forall₂_left h.flip hb
  exact ⟨a, ha, h⟩

theorem rotatePoints_eq (l : List Pt) (a : ℝ) : rotatePoints l a false = l.map (turn a) := by
  unfold rotatePoints turn
  simp

theorem turn_back (a : ℝ) (p : Pt) : turn (-a) (turn a p) = p := by
  have := (C35_inverse [p] a false).2.2.2
  simpa [rotatePoints_eq] using this

theorem turn_forth (a : ℝ) (p : Pt) : turn a (turn (-a) p) = p := by
  have := turn_back (-a) p
  rwa [neg_neg] at this

section
variable {pf : PolyfitFn} {argsort : List ℝ → List ℕ} (hs : ArgsortSpec argsort) {along across : Pt → ℝ}
  {angle overlapRatio : ℝ} {order : ℕ}

include hs in
/-- The steps of the function, once the middle band is known not to be empty. -/
theorem groupPolyfit_start {points0 : List Pt} (hne : points0 ≠ []) {coarse : List Pt → ℝ → Except PyErr (List (List Pt))}
    {lineDist ratio numDotMiss acceptedRatio : ℝ} (hd : 0 < lineDist) :
    ∃ points band, points.Perm (rotatePoints points0 angle false) ∧
      IsMiddleBand along ((max 1 (min numDotMiss points0.length) + 1 / 2) * lineDist) (rotatePoints points0 angle false) band ∧
      (band ≠ [] → ∀ groups stale ls longest chosen,
        coarse band (max 1 (min numDotMiss points0.length)) = .ok groups →
        groups.foldlM (polyfitGroup pf argsort along across points angle
          ((max 1 (min numDotMiss points0.length) + 1 / 2) * lineDist) (ratio * lineDist) overlapRatio order) (band, []) = .ok (stale, ls) →
        npMax (lineLengths ls) = .ok longest →
        dropRepeated across lineDist (ls.filter fun l => decide ((l.length : ℤ) > toInt16 (truncInt (acceptedRatio * longest)))) =
          .ok chosen →
        groupPolyfit pf argsort along across angle coarse points0 lineDist ratio numDotMiss acceptedRatio overlapRatio order =
          .ok (sortLines across chosen)) := by
  classical
  obtain ⟨rotated, hrot⟩ : ∃ r, r = rotatePoints points0 angle false := ⟨_, rfl⟩
  obtain ⟨points, hpts⟩ : ∃ r, r = fancyIndex rotated (argsort (rotated.map along)) := ⟨_, rfl⟩
  have hperm : points.Perm rotated := by rw [hpts]; exact hs.fancy_perm _ _
  have hsort : points.Pairwise fun p q => along p ≤ along q := by rw [hpts]; exact hs.fancy_sorted _ _
  have hlen0 : 0 < points0.length := List.length_pos_iff.2 hne
  have hlen1 : (1 : ℝ) ≤ points0.length := by exact_mod_cast hlen0
  have hmiss : clip numDotMiss 1 points0.length = max 1 (min numDotMiss points0.length) := by
    rw [clip, max_min_distrib_left, max_comm, max_eq_right hlen1]
  have hpne : points ≠ [] := by
    intro h
    have h1 := hperm.length_eq
    have h2 : rotated.length = points0.length := by rw [hrot]; simp [rotatePoints]
    rw [h, List.length_nil] at h1
    omega
  obtain ⟨first, hfirst⟩ : ∃ a, points.head? = some a := ⟨_, List.head?_eq_some_head hpne⟩
  obtain ⟨last, hlast⟩ : ∃ b, points.getLast? = some b := ⟨_, List.getLast?_eq_some_getLast hpne⟩
  have hf_mem : first ∈ points := List.mem_of_mem_head? (by rw [hfirst]; rfl)
  have hl_mem : last ∈ points := List.mem_of_getLast? hlast
  have hlo : ∀ p ∈ points, along first ≤ along p := by
    intro p hp
    cases hq : points with
    | nil => rw [hq] at hp; cases hp
    | cons q ps =>
      rw [hq] at hfirst hsort hp
      injection hfirst with hfirst
      subst hfirst
      rcases List.mem_cons.1 hp with rfl | hp
      · exact le_rfl
      · exact (List.pairwise_cons.1 hsort).1 p hp
  have hhi : ∀ p ∈ points, along p ≤ along last := by
    intro p hp
    obtain ⟨ys, hys⟩ := List.getLast?_eq_some_iff.1 hlast
    rw [hys] at hp hsort
    rcases List.mem_append.1 hp with hp | hp
    · exact (List.pairwise_append.1 hsort).2.2 p hp last (by simp)
    · rw [List.mem_singleton] at hp
      rw [hp]
  obtain ⟨m, hm⟩ : ∃ m, m = max 1 (min numDotMiss (points0.length : ℝ)) := ⟨_, rfl⟩
  have hm1 : 1 ≤ m := hm ▸ le_max_left _ _
  have hDD : m * lineDist + 0.5 * lineDist = (m + 1 / 2) * lineDist := by ring
  obtain ⟨D, hD⟩ : ∃ D, D = (m + 1 / 2) * lineDist := ⟨_, rfl⟩
  have hDpos : 0 < D := hD ▸ mul_pos (by linarith) hd
  have hfl : along first ≤ along last := hlo _ hl_mem
  obtain ⟨band, hband⟩ : ∃ b, b = points.filter fun p =>
    decide (along p ≥ clip ((along first + along last) * 0.5 - D) (along first) (along last) ∧
      along p ≤ clip ((along first + along last) * 0.5 + D) (along first) (along last)) := ⟨_, rfl⟩
  have hisband : IsMiddleBand along D rotated band := by
    refine ⟨along first, along last, ⟨first, hperm.mem_iff.1 hf_mem, rfl⟩, ⟨last, hperm.mem_iff.1 hl_mem, rfl⟩,
      fun p hp => ⟨hlo p (hperm.mem_iff.2 hp), hhi p (hperm.mem_iff.2 hp)⟩, fun p => ?_, ?_⟩
    · rw [hband, List.mem_filter, decide_eq_true_eq, hperm.mem_iff]
      refine and_congr_right fun hp => ?_
      have h1 := hlo p (hperm.mem_iff.2 hp)
      have h2 := hhi p (hperm.mem_iff.2 hp)
      have c1 : clip ((along first + along last) * 0.5 - D) (along first) (along last) =
          max ((along first + along last) * 0.5 - D) (along first) := by
        unfold clip
        exact min_eq_left (max_le (by norm_num; linarith) hfl)
      have c2 : clip ((along first + along last) * 0.5 + D) (along first) (along last) =
          min ((along first + along last) * 0.5 + D) (along last) := by
        unfold clip
        rw [max_eq_left (by norm_num; linarith)]
      rw [c1, c2, ge_iff_le, max_le_iff, le_min_iff, abs_le]
      norm_num
      constructor
      · rintro ⟨⟨a, _⟩, b, _⟩
        exact ⟨by linarith, by linarith⟩
      · rintro ⟨a, b⟩
        exact ⟨⟨by linarith, h1⟩, by linarith, h2⟩
    · rw [hband]
      exact (List.filter_sublist.subperm).trans hperm.subperm
  refine ⟨points, band, hrot ▸ hperm, ?_, ?_⟩
  · rw [← hrot, ← hm, ← hD]; exact hisband
  intro hbne groups stale ls longest chosen h1 h2 h3 h4
  rw [← hm] at h1
  rw [← hm, ← hD] at h2
  unfold groupPolyfit
  rw [if_neg (by omega)]
  simp only
  rw [← hrot, ← hpts, hfirst, hlast]
  simp only
  rw [hmiss, ← hm, hDD, ← hD, ← hband, if_pos (List.length_pos_iff.2 hbne), h1, ok_bind, h2, ok_bind]
  simp only [ok_bind]
  rw [h3, ok_bind, h4, ok_bind]

/-- The lines dropped: none, if any two of them have medians far enough apart. -/
theorem dropRepeated_all {lineDist : ℝ} {lines : List (List Pt)} (hne : ∀ l ∈ lines, l ≠ [])
    (hmed : lines.Pairwise fun a b => ∀ v w, IsMedian across a v → IsMedian across b w → 0.1 * lineDist < |w - v|) :
    dropRepeated across lineDist lines = .ok lines := by
  obtain ⟨r, hr⟩ : ∃ r, dropRepeated across lineDist lines = .ok r := by
    unfold dropRepeated
    have : ∃ vals, lines.mapM (fun l => npMedian (l.map across)) = .ok vals := by
      clear hmed
      induction lines with
      | nil => exact ⟨[], rfl⟩
      | cons l lines ih =>
        obtain ⟨vals, hv⟩ := ih fun l' hl' => hne l' (List.mem_cons_of_mem _ hl')
        obtain ⟨v, h⟩ := npMedian_ok (l := l.map across) (by simpa using hne l List.mem_cons_self)
        exact ⟨v :: vals, by rw [List.mapM_cons, h, ok_bind, hv, ok_bind]; rfl⟩
    obtain ⟨vals, hv⟩ := this
    rw [hv, ok_bind]
    simp only
    split_ifs <;> exact ⟨_, rfl⟩
  obtain ⟨pos, hpos, e⟩ := dropRepeated_eq hr
  rw [hr, e]
  have key : ∀ (ls : List (List Pt)) (prev : List Pt), (∀ l ∈ prev :: ls, IsMedian across l (pos l)) →
      (prev :: ls).Pairwise (fun a b => ∀ v w, IsMedian across a v → IsMedian across b w → 0.1 * lineDist < |w - v|) →
      jumpsAfter (0.1 * lineDist) pos prev ls = ls := by
    intro ls
    induction ls with
    | nil => intro prev _ _; rfl
    | cons l ls ih =>
      intro prev h1 h2
      rw [jumpsAfter, if_pos ((List.pairwise_cons.1 h2).1 l List.mem_cons_self _ _ (h1 prev List.mem_cons_self)
        (h1 l (List.mem_cons_of_mem _ List.mem_cons_self))), ih l (fun l' hl' => h1 l' (List.mem_cons_of_mem _ hl'))
        (List.pairwise_cons.1 h2).2]
  cases lines with
  | nil => rfl
  | cons l ls =>
    rw [withoutRepeats, key ls l hpos hmed]
    split_ifs <;> rfl

theorem isMedian_perm {α : Type} {f : α → ℝ} {l l' : List α} {v : ℝ} (h : IsMedian f l v) (hp : l.Perm l') : IsMedian f l' v := by
  unfold IsMedian at h ⊢
  rw [← (hp.filter _).length_eq, ← (hp.filter _).length_eq, ← hp.length_eq]
  exact h

/-- The neighbour on the left. -/
theorem exists_pred {α ι : Type} [DecidableEq ι] (t : α → ℝ) (row : α → ι) (l : List α) {a b : α} (ha : a ∈ l)
    (hr : row a = row b) (hab : t a < t b) :
    ∃ q ∈ l, row q = row b ∧ t q < t b ∧ ∀ e ∈ l, row e = row q → ¬ (t q < t e ∧ t e < t b) := by
  classical
  obtain ⟨q, hq, hmax⟩ := Finset.exists_max_image (l.toFinset.filter fun e => row e = row b ∧ t e < t b) t
    ⟨a, by simp [ha, hr, hab]⟩
  simp only [Finset.mem_filter, List.mem_toFinset] at hq hmax
  refine ⟨q, hq.1, hq.2.1, hq.2.2, fun e he h1 h2 => ?_⟩
  exact absurd (hmax e ⟨he, h1.trans hq.2.1, h2.2⟩) (not_le.2 h2.1)

/-- The neighbour on the right. -/
theorem exists_succ {α ι : Type} [DecidableEq ι] (t : α → ℝ) (row : α → ι) (l : List α) {a b : α} (hb : b ∈ l)
    (hr : row a = row b) (hab : t a < t b) :
    ∃ q ∈ l, row q = row a ∧ t a < t q ∧ ∀ e ∈ l, row e = row a → ¬ (t a < t e ∧ t e < t q) := by
  classical
  obtain ⟨q, hq, hmin⟩ := Finset.exists_min_image (l.toFinset.filter fun e => row e = row a ∧ t a < t e) t
    ⟨b, by simp [hb, hr, hab]⟩
  simp only [Finset.mem_filter, List.mem_toFinset] at hq hmin
  refine ⟨q, hq.1, hq.2.1, hq.2.2, fun e he h1 h2 => ?_⟩
  exact absurd (hmin e ⟨he, h1, h2.1⟩) (not_le.2 h2.2)

theorem toInt16_truncInt_le {x : ℝ} (h0 : 0 ≤ x) (h1 : x < 32768) : ((toInt16 (truncInt x) : ℤ) : ℝ) ≤ x := by
  have h2 : truncInt x = ⌊x⌋ := by unfold truncInt; rw [if_pos h0]
  have h3 : 0 ≤ ⌊x⌋ := Int.floor_nonneg.2 h0
  have h4 : ⌊x⌋ < 32768 := Int.floor_lt.2 (by exact_mod_cast h1)
  rw [h2, toInt16_of_mem (by omega) (by omega)]
  exact Int.floor_le x

include hs in
/-- One group grows to the row it belongs to. -/
theorem polyfitGroup_row {ι : Type} [DecidableEq ι] (hpf : PolyfitSpec pf) {points : List Pt} {row : Pt → ι} {f : ι → List ℝ}
    {D R lo hi : ℝ} (hD : 0 < D) (hR : 0 ≤ R)
    (hlen : ∀ p ∈ points, (f (row p)).length = order + 1)
    (hon : ∀ p ∈ points, across p = polyval (f (row p)) (along p))
    (hoff : ∀ p ∈ points, ∀ q ∈ points, row q ≠ row p → R < |across q - polyval (f (row p)) (along q)|)
    (happart : points.Pairwise fun p q => row p = row q → along p ≠ along q)
    (hgaps : ∀ p ∈ points, ∀ q ∈ points, row p = row q → along p < along q →
      (∀ e ∈ points, row e = row p → ¬ (along p < along e ∧ along e < along q)) → along q - along p ≤ D)
    {g : List Pt} {r : ι} (hg : g.Perm ((points.filter fun p => decide (|along p - (lo + hi) / 2| ≤ D)).filter fun p => decide (row p = r)))
    (hgs : g.Pairwise fun p q => along p < along q) (hg2 : 2 < g.length) (hgo : order + 1 ≤ g.length) (st : List Pt × List (List Pt)) :
    ∃ line, polyfitGroup pf argsort along across points angle D R overlapRatio order st g = .ok (line, st.2 ++ [line]) ∧
      line.Perm (rotatePoints (points.filter fun p => decide (row p = r)) (-angle) false) ∧
      line.Pairwise fun p q => along p ≤ along q := by
  classical
  have hne : g ≠ [] := by rintro rfl; simp at hg2
  have hmem : ∀ p, p ∈ g ↔ p ∈ points ∧ |along p - (lo + hi) / 2| ≤ D ∧ row p = r := by
    intro p
    rw [hg.mem_iff, List.mem_filter, List.mem_filter, decide_eq_true_eq, decide_eq_true_eq, and_assoc]
  have hnd : points.Nodup := happart.imp fun {p q} h e => h (by rw [e]) (by rw [e])
  obtain ⟨a, ha⟩ : ∃ a, g.head? = some a := ⟨_, List.head?_eq_some_head hne⟩
  obtain ⟨b, hb⟩ : ∃ b, g.getLast? = some b := ⟨_, List.getLast?_eq_some_getLast hne⟩
  have ham : a ∈ g := List.mem_of_mem_head? (by rw [ha]; rfl)
  have hbm : b ∈ g := List.mem_of_getLast? hb
  obtain ⟨ha1, ha2, ha3⟩ := (hmem a).1 ham
  obtain ⟨hb1, hb2, hb3⟩ := (hmem b).1 hbm
  have hcur : ∀ p ∈ points, across p = polyval (f r) (along p) ↔ row p = r := by
    intro p hp
    constructor
    · intro h
      by_contra hr
      have := hoff a ha1 p hp (by rw [ha3]; exact hr)
      rw [ha3, h, sub_self, abs_zero] at this
      linarith
    · rintro rfl
      exact hon p hp
  obtain ⟨sel, hsel, hmemsel⟩ := C65_curve pf hpf along across g points (along a) (along b) D R overlapRatio order hD hR (f r)
    (ha3 ▸ hlen a ha1)
    (by
      intro p hp
      by_cases hr : row p = r
      · exact .inl ((hcur p hp).2 hr)
      · right
        have := hoff a ha1 p hp (by rw [ha3]; exact hr)
        rwa [ha3] at this)
    (fun p hp => ⟨((hmem p).1 hp).1, (hcur p ((hmem p).1 hp).1).2 ((hmem p).1 hp).2.2⟩)
    (by
      intro p hp h h1 h2
      refine (hmem p).2 ⟨hp, ?_, (hcur p hp).1 h⟩
      rw [abs_le] at ha2 hb2 ⊢
      exact ⟨by linarith, by linarith⟩)
    (g.map along).toFinset
    (by
      rw [List.toFinset_card_of_nodup, List.length_map]
      · exact hgo
      · rw [List.Nodup, List.pairwise_map]
        exact hgs.imp fun h => ne_of_lt h)
    (by intro t ht; simpa using ht)
    (by
      intro p hp h h1
      have hr := (hcur p hp).1 h
      obtain ⟨q, hq, k1, k2, k3⟩ := exists_pred along row points hb1 (hb3.trans hr.symm) (by linarith)
      have k4 := hgaps q hq p hp k1 k2 k3
      exact ⟨q, hq, (hcur q hq).2 (k1.trans hr), by linarith, k2, k4⟩)
    (by
      intro p hp h h1
      have hr := (hcur p hp).1 h
      obtain ⟨q, hq, k1, k2, k3⟩ := exists_succ along row points ha1 (hr.trans ha3.symm) (by linarith)
      have k4 := hgaps p hp q hq k1.symm k2 k3
      exact ⟨q, hq, (hcur q hq).2 (k1.trans hr), by linarith, k2, k4⟩)
  obtain ⟨sel', hsel', -, -, k3, -⟩ := C39_search pf along across g points hne (along a) (along b) D R overlapRatio order
  rw [hsel] at hsel'
  injection hsel' with hsel'
  subst hsel'
  have hgn : g.Nodup := hgs.imp fun {p q} h e => by rw [e] at h; exact lt_irrefl _ h
  have hsn : sel.Nodup := by
    rcases k3 with k3 | k3
    · rw [k3]; exact hgn
    · exact k3.1
  have hselp : sel.Perm (points.filter fun p => decide (row p = r)) := by
    rw [List.perm_ext_iff_of_nodup hsn (hnd.filter _)]
    intro p
    rw [hmemsel, List.mem_filter, decide_eq_true_eq]
    exact and_congr_right fun hp => hcur p hp
  have hl : sel.length > 2 :=
    lt_of_lt_of_le hg2 (hgn.subperm fun p hp => (hmemsel p).2 ⟨((hmem p).1 hp).1, (hcur p ((hmem p).1 hp).1).2 ((hmem p).1 hp).2.2⟩).length_le
  refine ⟨fancyIndex (rotatePoints sel (-angle) false) (argsort ((rotatePoints sel (-angle) false).map along)), ?_, ?_, hs.fancy_sorted _ _⟩
  · unfold polyfitGroup
    rw [if_pos hg2, ha, hb]
    simp only
    rw [hsel, ok_bind, if_pos hl]
  · refine (hs.fancy_perm _ along).trans ?_
    unfold rotatePoints
    exact hselp.map _

include hs in
/-- All rows are found. -/
theorem groupPolyfit_rows {ι : Type} [DecidableEq ι] (hpf : PolyfitSpec pf) {points0 : List Pt} (hne : points0 ≠ [])
    {coarse : List Pt → ℝ → Except PyErr (List (List Pt))} {lineDist ratio numDotMiss acceptedRatio : ℝ} (hd : 0 < lineDist)
    (hratio : 0 ≤ ratio) (hacc : 0 ≤ acceptedRatio) (hsmall : acceptedRatio * points0.length < 32768)
    {P : List Pt} (hP : P = rotatePoints points0 angle false) {row : Pt → ι} {f : ι → List ℝ} {m D lo hi : ℝ}
    (hm : m = max 1 (min numDotMiss points0.length)) (hD : D = (m + 1 / 2) * lineDist)
    (hlen : ∀ p ∈ P, (f (row p)).length = order + 1)
    (hon : ∀ p ∈ P, across p = polyval (f (row p)) (along p))
    (hoff : ∀ p ∈ P, ∀ q ∈ P, row q ≠ row p → ratio * lineDist < |across q - polyval (f (row p)) (along q)|)
    (happart : P.Pairwise fun p q => row p = row q → along p ≠ along q)
    (hgaps : ∀ p ∈ P, ∀ q ∈ P, row p = row q → along p < along q →
      (∀ e ∈ P, row e = row p → ¬ (along p < along e ∧ along e < along q)) → along q - along p ≤ D)
    (hlo : IsLeast {t | ∃ p ∈ P, along p = t} lo) (hhi : IsGreatest {t | ∃ p ∈ P, along p = t} hi)
    (hcoarse : ∀ band, band.Perm (P.filter fun p => decide (|along p - (lo + hi) / 2| ≤ D)) → ∃ groups, coarse band m = .ok groups ∧
      (∀ g ∈ groups, ∃ r, (∃ p ∈ P, row p = r) ∧ g.Perm (band.filter fun p => decide (row p = r)) ∧ g.Pairwise fun p q => along p < along q) ∧
      (∀ p ∈ P, ∃ g ∈ groups, g.Perm (band.filter fun q => decide (row q = row p))) ∧
      groups.Pairwise fun a b => ∀ p ∈ a, ∀ q ∈ b, row p ≠ row q)
    (hmany : ∀ p ∈ P, 2 < ((P.filter fun p => decide (|along p - (lo + hi) / 2| ≤ D)).filter fun q => decide (row q = row p)).length ∧
      order + 1 ≤ ((P.filter fun p => decide (|along p - (lo + hi) / 2| ≤ D)).filter fun q => decide (row q = row p)).length)
    (hshare : ∀ p ∈ P, ∀ q ∈ P, acceptedRatio * (P.filter fun e => decide (row e = row q)).length < (P.filter fun e => decide (row e = row p)).length)
    (hmed : ∀ p ∈ P, ∀ q ∈ P, row p ≠ row q → ∀ v w,
      IsMedian across (rotatePoints (P.filter fun e => decide (row e = row p)) (-angle) false) v →
      IsMedian across (rotatePoints (P.filter fun e => decide (row e = row q)) (-angle) false) w → 0.1 * lineDist < |w - v|) :
    ∃ lines, groupPolyfit pf argsort along across angle coarse points0 lineDist ratio numDotMiss acceptedRatio overlapRatio order = .ok lines ∧
      (∀ l ∈ lines, ∃ p ∈ P, l.Perm (rotatePoints (P.filter fun e => decide (row e = row p)) (-angle) false) ∧
        l.Pairwise fun p q => along p ≤ along q) ∧
      (∀ p ∈ P, ∃ l ∈ lines, l.Perm (rotatePoints (P.filter fun e => decide (row e = row p)) (-angle) false)) ∧
      lines.Pairwise (fun a b => ∀ p ∈ a, p ∉ b) ∧
      lines.Pairwise fun a b => meanOf across a ≤ meanOf across b := by
  classical
  obtain ⟨points, band, hpp, hband, hrun⟩ := groupPolyfit_start (pf := pf) hs (along := along) (across := across) (angle := angle)
    (overlapRatio := overlapRatio) (order := order) hne (coarse := coarse) (lineDist := lineDist) (ratio := ratio)
    (numDotMiss := numDotMiss) (acceptedRatio := acceptedRatio) hd
  rw [← hP] at hpp hband
  rw [← hm, ← hD] at hband hrun
  have hm1 : 1 ≤ m := hm ▸ le_max_left _ _
  have hDpos : 0 < D := hD ▸ mul_pos (by linarith) hd
  have hnd : P.Nodup := happart.imp fun {p q} h e => h (by rw [e]) (by rw [e])
  have hPne : P ≠ [] := by
    intro h
    apply hne
    have : points0.length = 0 := by
      rw [hP] at h
      simpa [rotatePoints] using h
    exact List.length_eq_zero_iff.1 this
  obtain ⟨p0, hp0⟩ := List.exists_mem_of_ne_nil _ hPne
  have hbp : band.Perm (P.filter fun p => decide (|along p - (lo + hi) / 2| ≤ D)) := by
    obtain ⟨lo', hi', h1, h2, h3, h4, h5⟩ := hband
    have e1 : lo' = lo := le_antisymm (by obtain ⟨p, hp, rfl⟩ := hlo.1; exact (h3 p hp).1) (hlo.2 h1)
    have e2 : hi' = hi := le_antisymm (hhi.2 h2) (by obtain ⟨p, hp, rfl⟩ := hhi.1; exact (h3 p hp).2)
    subst e1 e2
    obtain ⟨l, hl1, hl2⟩ := id h5
    rw [List.perm_ext_iff_of_nodup (hl1.nodup_iff.1 (hnd.sublist hl2)) (hnd.filter _)]
    intro p
    rw [h4, List.mem_filter, decide_eq_true_eq]
  obtain ⟨groups, hg1, hg2, hg3, hg4⟩ := hcoarse band hbp
  have hrowlen : ∀ p ∈ P, 2 < (P.filter fun q => decide (row q = row p)).length := by
    intro p hp
    refine lt_of_lt_of_le (hmany p hp).1 ?_
    rw [List.filter_comm]
    exact List.length_filter_le _ _
  have hbne : band ≠ [] := by
    intro h
    have h1 := (hmany p0 hp0).1
    rw [h] at hbp
    rw [← hbp.nil_eq] at h1
    simp at h1
  -- the growing of the groups
  have hfold : ∀ (todo : List (List Pt)), (∀ g ∈ todo, g ∈ groups) → ∀ st : List Pt × List (List Pt), ∃ stale news,
      todo.foldlM (polyfitGroup pf argsort along across points angle D (ratio * lineDist) overlapRatio order) st = .ok (stale, st.2 ++ news) ∧
      List.Forall₂ (fun g line => ∀ q ∈ g, line.Perm (rotatePoints (P.filter fun e => decide (row e = row q)) (-angle) false) ∧
        line.Pairwise fun p q => along p ≤ along q) todo news := by
    intro todo
    induction todo with
    | nil => intro _ st; exact ⟨st.1, [], by simp; rfl, .nil⟩
    | cons g todo ih =>
      intro hsub st
      obtain ⟨r, ⟨p, hp, rfl⟩, k2, k3⟩ := hg2 g (hsub g List.mem_cons_self)
      have k4 := k2.trans (hbp.filter _)
      have k5 : ∀ q ∈ g, row q = row p := by
        intro q hq
        have := k2.mem_iff.1 hq
        rw [List.mem_filter, decide_eq_true_eq] at this
        exact this.2
      obtain ⟨line, e, l1, l2⟩ := polyfitGroup_row (angle := angle) (overlapRatio := overlapRatio) hs hpf (points := points) (row := row) (f := f)
        (D := D) (R := ratio * lineDist) (lo := lo) (hi := hi) (along := along) (across := across) (order := order) hDpos (mul_nonneg hratio hd.le)
        (fun p hp => hlen p (hpp.mem_iff.1 hp)) (fun p hp => hon p (hpp.mem_iff.1 hp))
        (fun p hp q hq => hoff p (hpp.mem_iff.1 hp) q (hpp.mem_iff.1 hq))
        ((hpp.pairwise_iff fun {a b} h h' => (h h'.symm).symm).2 happart)
        (fun p hp q hq h1 h2 h3 => hgaps p (hpp.mem_iff.1 hp) q (hpp.mem_iff.1 hq) h1 h2 fun e he => h3 e (hpp.mem_iff.2 he))
        (g := g) (r := row p) (k4.trans ((hpp.symm.filter _).filter _)) k3 (by rw [k4.length_eq]; exact (hmany p hp).1)
        (by rw [k4.length_eq]; exact (hmany p hp).2) st
      obtain ⟨stale, news, e2, hF⟩ := ih (fun g' hg' => hsub g' (List.mem_cons_of_mem _ hg')) (line, st.2 ++ [line])
      refine ⟨stale, line :: news, ?_, .cons (fun q hq => ⟨?_, l2⟩) hF⟩
      · rw [List.foldlM_cons, e, ok_bind, e2, List.append_assoc]; rfl
      · rw [k5 q hq]
        refine l1.trans ?_
        unfold rotatePoints
        exact (hpp.filter _).map _
  obtain ⟨stale, ls, hls, hF⟩ := hfold groups (fun _ h => h) (band, [])
  rw [List.nil_append] at hls
  -- what the groups are
  have hgr : ∀ g ∈ groups, ∃ q ∈ g, q ∈ P := by
    intro g hg
    obtain ⟨r, ⟨p, hp, rfl⟩, k2, -⟩ := hg2 g hg
    have k4 := k2.trans (hbp.filter _)
    have h3 := (hmany p hp).1
    rw [← k4.length_eq] at h3
    obtain ⟨q, hq⟩ := List.exists_mem_of_length_pos (by omega : 0 < g.length)
    have := k4.mem_iff.1 hq
    exact ⟨q, hq, (List.mem_filter.1 (List.mem_filter.1 this).1).1⟩
  have hl1 : ∀ l ∈ ls, ∃ p ∈ P, l.Perm (rotatePoints (P.filter fun e => decide (row e = row p)) (-angle) false) ∧
      l.Pairwise fun p q => along p ≤ along q := by
    intro l hl
    obtain ⟨g, hg, h⟩ := forall₂_right hF hl
    obtain ⟨q, hq, hqP⟩ := hgr g hg
    exact ⟨q, hqP, h q hq⟩
  have hl2 : ∀ p ∈ P, ∃ l ∈ ls, l.Perm (rotatePoints (P.filter fun e => decide (row e = row p)) (-angle) false) := by
    intro p hp
    obtain ⟨g, hg, hgp⟩ := hg3 p hp
    obtain ⟨l, hl, h⟩ := forall₂_left hF hg
    obtain ⟨q, hq, hqP⟩ := hgr g hg
    have := hgp.mem_iff.1 hq
    rw [List.mem_filter, decide_eq_true_eq] at this
    refine ⟨l, hl, ?_⟩
    rw [← this.2]
    exact (h q hq).1
  have hl3 : ls.Pairwise fun a b => ∃ p ∈ P, ∃ q ∈ P, row p ≠ row q ∧
      a.Perm (rotatePoints (P.filter fun e => decide (row e = row p)) (-angle) false) ∧
      b.Perm (rotatePoints (P.filter fun e => decide (row e = row q)) (-angle) false) := by
    rw [List.pairwise_iff_getElem] at hg4 ⊢
    intro i j hi hj hij
    have el := hF.length_eq
    obtain ⟨p, hp, hpP⟩ := hgr groups[i] (List.getElem_mem _)
    obtain ⟨q, hq, hqP⟩ := hgr groups[j] (List.getElem_mem _)
    have h1 := (List.forall₂_iff_get.1 hF).2 i (by omega) hi p hp
    have h2 := (List.forall₂_iff_get.1 hF).2 j (by omega) hj q hq
    exact ⟨p, hpP, q, hqP, hg4 i j (by omega) (by omega) hij p hp q hq, h1.1, h2.1⟩
  have hlenl : ∀ l ∈ ls, ∃ p ∈ P, l.length = (P.filter fun e => decide (row e = row p)).length := by
    intro l hl
    obtain ⟨p, hp, h, -⟩ := hl1 l hl
    exact ⟨p, hp, by rw [h.length_eq]; simp [rotatePoints]⟩
  -- the choice among the lines
  obtain ⟨longest, hlong, hlm, -⟩ := npMax_ok (l := lineLengths ls) (by
    obtain ⟨l, hl, -⟩ := hl2 p0 hp0
    intro h
    have : ls = [] := by simpa [lineLengths] using h
    rw [this] at hl
    cases hl)
  have hfil : (ls.filter fun l => decide ((l.length : ℤ) > toInt16 (truncInt (acceptedRatio * longest)))) = ls := by
    rw [List.filter_eq_self]
    intro l hl
    rw [decide_eq_true_eq]
    obtain ⟨l', hl', rfl⟩ := List.mem_map.1 hlm
    obtain ⟨p, hp, e⟩ := hlenl l hl
    obtain ⟨q, hq, e'⟩ := hlenl l' hl'
    rw [e, e']
    have h1 := hshare p hp q hq
    have h2 : ((P.filter fun e => decide (row e = row q)).length : ℝ) ≤ points0.length := by
      have h3 := List.length_filter_le (fun e => decide (row e = row q)) P
      have h4 : P.length = points0.length := by rw [hP]; simp [rotatePoints]
      exact_mod_cast h4 ▸ h3
    have h3 := toInt16_truncInt_le (x := acceptedRatio * (P.filter fun e => decide (row e = row q)).length)
      (by positivity) (lt_of_le_of_lt (mul_le_mul_of_nonneg_left h2 hacc) hsmall)
    exact_mod_cast lt_of_le_of_lt h3 h1
  have hdrop : dropRepeated across lineDist ls = .ok ls := by
    apply dropRepeated_all
    · intro l hl h
      obtain ⟨p, hp, e⟩ := hlenl l hl
      have := hrowlen p hp
      rw [← e, h] at this
      simp at this
    · refine hl3.imp ?_
      rintro a b ⟨p, hp, q, hq, hpq, h1, h2⟩ v w hv hw
      exact hmed p hp q hq hpq v w (isMedian_perm hv h1) (isMedian_perm hw h2)
  refine ⟨sortLines across ls, hrun hbne groups stale ls longest ls hg1 hls hlong (by rw [hfil]; exact hdrop), ?_, ?_, ?_, sortLines_sorted _ _⟩
  · intro l hl
    exact hl1 l ((sortLines_perm _ _).mem_iff.1 hl)
  · intro p hp
    obtain ⟨l, hl, h⟩ := hl2 p hp
    exact ⟨l, (sortLines_perm _ _).mem_iff.2 hl, h⟩
  · refine ((sortLines_perm across ls).pairwise_iff fun {a b} h p hp hp' => h p hp' hp).2 (hl3.imp ?_)
    rintro a b ⟨p, hp, q, hq, hpq, h1, h2⟩ e he he'
    rw [rotatePoints_eq] at h1 h2
    obtain ⟨e1, j1, k1⟩ := List.mem_map.1 (h1.mem_iff.1 he)
    obtain ⟨e2, j2, k2⟩ := List.mem_map.1 (h2.mem_iff.1 he')
    have h12 : e1 = e2 := by rw [← turn_forth angle e1, ← turn_forth angle e2, k1, k2]
    subst h12
    rw [List.mem_filter, decide_eq_true_eq] at j1 j2
    exact hpq (j1.2.symm.trans j2.2)

end

/-- The coarse grouping of nearly straight rows. -/
theorem coarse_hor {ι : Type} [DecidableEq ι] {argsort : List ℝ → List ℕ} (hs : ArgsortSpec argsort) {B : List Pt} {row : Pt → ι}
    {dist ratio m acc : ℝ} (hB : B ≠ []) (hstr : StraightRows Pt.x Pt.y row dist ratio m B)
    (hx : B.Pairwise fun p q => row p = row q → p.x ≠ q.x)
    (htwo : ∀ p ∈ B, 2 ≤ (B.filter fun q => decide (row q = row p)).length)
    (hshare : ∀ p ∈ B, ∀ q ∈ B, acc * (B.filter fun e => decide (row e = row q)).length < (B.filter fun e => decide (row e = row p)).length) :
    ∃ groups, groupDotsHor argsort B 0 dist ratio m acc = .ok groups ∧
      (∀ g ∈ groups, ∃ p ∈ B, g.Perm (B.filter fun q => decide (row q = row p)) ∧ g.Pairwise fun p q => p.x < q.x) ∧
      (∀ p ∈ B, ∃ g ∈ groups, g.Perm (B.filter fun q => decide (row q = row p))) ∧
      groups.Pairwise fun a b => ∀ p ∈ a, ∀ q ∈ b, row p ≠ row q := by
  obtain ⟨p0, hp0⟩ := List.exists_mem_of_ne_nil _ hB
  obtain ⟨groups, longest, e, g1, ⟨r, g2⟩, g3, g4, g5, -⟩ := C64_rows argsort hs B 0 dist ratio m acc row hstr.sep hstr.next hx ⟨_, htwo p0 hp0⟩
  have hex : ∀ r, (B.filter fun p => decide (row p = r)).length ≠ 0 → ∃ q ∈ B, row q = r := by
    intro r hr
    obtain ⟨q, hq⟩ := List.exists_mem_of_length_pos (Nat.pos_of_ne_zero hr)
    rw [List.mem_filter, decide_eq_true_eq] at hq
    exact ⟨q, hq⟩
  obtain ⟨q, hq, rfl⟩ := hex r (by have := g1 (row p0); have := htwo p0 hp0; omega)
  refine ⟨groups, e, fun g hg => ?_, fun p hp => ?_, g5⟩
  · obtain ⟨r, k1, k2⟩ := g3 g hg
    have := ((C29_lines argsort hs _ _ _ _ _ _ groups e).2 g hg).1
    obtain ⟨p, hp, rfl⟩ := hex r (by rw [← k1.length_eq]; intro h; rw [h] at this; simp at this)
    exact ⟨p, hp, k1, k2⟩
  · exact g4 (row p) (htwo p hp) (by rw [← g2]; exact hshare p hp q hq)

theorem coarse_ver {ι : Type} [DecidableEq ι] {argsort : List ℝ → List ℕ} (hs : ArgsortSpec argsort) {B : List Pt} {row : Pt → ι}
    {dist ratio m acc : ℝ} (hB : B ≠ []) (hstr : StraightRows Pt.y Pt.x row dist ratio m B)
    (hx : B.Pairwise fun p q => row p = row q → p.y ≠ q.y)
    (htwo : ∀ p ∈ B, 2 ≤ (B.filter fun q => decide (row q = row p)).length)
    (hshare : ∀ p ∈ B, ∀ q ∈ B, acc * (B.filter fun e => decide (row e = row q)).length < (B.filter fun e => decide (row e = row p)).length) :
    ∃ groups, groupDotsVer argsort B 0 dist ratio m acc = .ok groups ∧
      (∀ g ∈ groups, ∃ p ∈ B, g.Perm (B.filter fun q => decide (row q = row p)) ∧ g.Pairwise fun p q => p.y < q.y) ∧
      (∀ p ∈ B, ∃ g ∈ groups, g.Perm (B.filter fun q => decide (row q = row p))) ∧
      groups.Pairwise fun a b => ∀ p ∈ a, ∀ q ∈ b, row p ≠ row q := by
  have hsw : ∀ p, swapPt (swapPt p) = p := fun p => rfl
  have hfil : ∀ r, (B.map swapPt).filter (fun p => decide (row (swapPt p) = r)) = (B.filter fun p => decide (row p = r)).map swapPt := by
    intro r
    rw [List.filter_map]
    rfl
  have hback : ∀ l : List Pt, (l.map swapPt).map swapPt = l := by
    intro l
    rw [List.map_map]
    exact List.map_id _
  obtain ⟨groups, e, g1, g2, g3⟩ := coarse_hor hs (B := B.map swapPt) (row := fun p => row (swapPt p)) (dist := dist) (ratio := ratio) (m := m)
    (acc := acc) (by simpa using hB)
    ⟨by
      simp only [List.mem_map, forall_exists_index, and_imp, forall_apply_eq_imp_iff₂, hsw]
      intro p hp q hq hpq ho
      rcases hstr.sep p hp q hq hpq ho with h | ⟨r, hr, h⟩
      · exact .inl h
      · exact .inr ⟨swapPt r, ⟨r, hr, rfl⟩, h⟩,
    by
      simp only [List.mem_map, forall_exists_index, and_imp, forall_apply_eq_imp_iff₂, hsw]
      intro p hp q hq h1 h2 h3
      exact hstr.next p hp q hq h1 h2 fun r hr h => by have := h3 r hr h; exact this⟩
    (by rw [List.pairwise_map]; exact hx)
    (by
      simp only [List.mem_map, forall_exists_index, and_imp, forall_apply_eq_imp_iff₂, hsw, hfil, List.length_map]
      exact htwo)
    (by
      simp only [List.mem_map, forall_exists_index, and_imp, forall_apply_eq_imp_iff₂, hsw, hfil, List.length_map]
      exact hshare)
  refine ⟨swapLines groups, by rw [C31_vertical, e]; rfl, ?_, ?_, ?_⟩
  · simp only [swapLines, List.mem_map, forall_exists_index, and_imp, forall_apply_eq_imp_iff₂]
    intro g hg
    obtain ⟨p, hp, k1, k2⟩ := g1 g hg
    obtain ⟨p', hp', rfl⟩ := List.mem_map.1 hp
    rw [hsw, hfil] at k1
    refine ⟨p', hp', ?_, by rw [List.pairwise_map]; exact k2⟩
    have := k1.map swapPt
    rwa [hback] at this
  · intro p hp
    obtain ⟨g, hg, h⟩ := g2 (swapPt p) (List.mem_map.2 ⟨p, hp, rfl⟩)
    rw [hsw, hfil] at h
    refine ⟨g.map swapPt, List.mem_map.2 ⟨g, hg, rfl⟩, ?_⟩
    have := h.map swapPt
    rwa [hback] at this
  · unfold swapLines
    rw [List.pairwise_map]
    refine g3.imp fun {a b} h => ?_
    simp only [List.mem_map, forall_exists_index, and_imp, forall_apply_eq_imp_iff₂]
    exact h

/-- The recovery of all rows, in terms of the dots themselves. -/
theorem groupPolyfit_all {ι : Type} [DecidableEq ι] {pf : PolyfitFn} (hpf : PolyfitSpec pf) {argsort : List ℝ → List ℕ} (hs : ArgsortSpec argsort)
    {along across : Pt → ℝ} {coarse : List Pt → ℝ → Except PyErr (List (List Pt))} {dots : List Pt} (hne : dots ≠ [])
    {angle dist ratio miss acc overlap m D lo hi : ℝ} {order : ℕ} {row : Pt → ι} {f : ι → List ℝ} {t u : Pt → ℝ}
    (ht : t = fun p => along (turn angle p)) (hu : u = fun p => across (turn angle p))
    (hcoarse : ∀ (B : List Pt) (row' : Pt → ι), B ≠ [] → StraightRows along across row' dist ratio m B →
      (B.Pairwise fun p q => row' p = row' q → along p ≠ along q) →
      (∀ p ∈ B, 2 ≤ (B.filter fun q => decide (row' q = row' p)).length) →
      (∀ p ∈ B, ∀ q ∈ B, acc * (B.filter fun e => decide (row' e = row' q)).length < (B.filter fun e => decide (row' e = row' p)).length) →
      ∃ groups, coarse B m = .ok groups ∧
        (∀ g ∈ groups, ∃ p ∈ B, g.Perm (B.filter fun q => decide (row' q = row' p)) ∧ g.Pairwise fun p q => along p < along q) ∧
        (∀ p ∈ B, ∃ g ∈ groups, g.Perm (B.filter fun q => decide (row' q = row' p))) ∧
        groups.Pairwise fun a b => ∀ p ∈ a, ∀ q ∈ b, row' p ≠ row' q)
    (hd : 0 < dist) (hratio : 0 ≤ ratio) (hacc : 0 ≤ acc) (hsmall : acc * dots.length < 32768)
    (hm : m = max 1 (min miss dots.length)) (hD : D = (m + 1 / 2) * dist)
    (hlo : IsLeast {v | ∃ p ∈ dots, t p = v} lo) (hhi : IsGreatest {v | ∃ p ∈ dots, t p = v} hi)
    (hrows : CurvedRows t u row f order (ratio * dist) D dots)
    (hband : StraightRows t u row dist ratio m (midBand t ((lo + hi) / 2) D dots))
    (hmany : ∀ p ∈ dots, 3 ≤ (ofRow row (midBand t ((lo + hi) / 2) D dots) (row p)).length ∧
      order + 1 ≤ (ofRow row (midBand t ((lo + hi) / 2) D dots) (row p)).length)
    (hshare : ∀ p ∈ dots, ∀ q ∈ dots, acc * (ofRow row dots (row q)).length < (ofRow row dots (row p)).length ∧
      acc * (ofRow row (midBand t ((lo + hi) / 2) D dots) (row q)).length < (ofRow row (midBand t ((lo + hi) / 2) D dots) (row p)).length)
    (hmed : ∀ p ∈ dots, ∀ q ∈ dots, row p ≠ row q → ∀ v w,
      IsMedian across (ofRow row dots (row p)) v → IsMedian across (ofRow row dots (row q)) w → 0.1 * dist < |w - v|) :
    ∃ lines, groupPolyfit pf argsort along across angle coarse dots dist ratio miss acc overlap order = .ok lines ∧
      (∀ l ∈ lines, ∃ p ∈ dots, l.Perm (ofRow row dots (row p)) ∧ l.Pairwise fun p q => along p ≤ along q) ∧
      (∀ p ∈ dots, ∃ l ∈ lines, l.Perm (ofRow row dots (row p))) ∧
      lines.Pairwise (fun a b => ∀ p ∈ a, p ∉ b) ∧
      lines.Pairwise fun a b => meanOf across a ≤ meanOf across b := by
  classical
  have hback : ∀ p, turn (-angle) (turn angle p) = p := turn_back angle
  have hfil : ∀ (l : List Pt) r, (l.map (turn angle)).filter (fun p => decide (row (turn (-angle) p) = r)) = (ofRow row l r).map (turn angle) := by
    intro l r
    rw [List.filter_map]
    unfold ofRow
    congr 1
    apply List.filter_congr
    intro p _
    simp [hback]
  have hrot : ∀ l : List Pt, rotatePoints (l.map (turn angle)) (-angle) false = l := by
    intro l
    rw [rotatePoints_eq, List.map_map]
    conv_rhs => rw [← List.map_id l]
    apply List.map_congr_left
    intro p _
    exact hback p
  have haround : (dots.map (turn angle)).filter (fun p => decide (|along p - (lo + hi) / 2| ≤ D)) =
      (midBand t ((lo + hi) / 2) D dots).map (turn angle) := by
    rw [List.filter_map]
    unfold midBand
    rw [ht]
    rfl
  have hmemB : ∀ p, p ∈ midBand t ((lo + hi) / 2) D dots → p ∈ dots := fun p hp => List.mem_of_mem_filter hp
  subst ht hu
  have hrowB : ∀ p ∈ dots, ∃ q ∈ midBand (fun p => along (turn angle p)) ((lo + hi) / 2) D dots, row q = row p := by
    intro p hp
    obtain ⟨q, hq⟩ := List.exists_mem_of_length_pos (l := ofRow row (midBand (fun p => along (turn angle p)) ((lo + hi) / 2) D dots) (row p))
      (by have := (hmany p hp).1; omega)
    unfold ofRow at hq
    rw [List.mem_filter, decide_eq_true_eq] at hq
    exact ⟨q, hq⟩
  obtain ⟨lines, e, k1, k2, k3, k4⟩ := groupPolyfit_rows (overlapRatio := overlap) hs hpf hne (coarse := coarse) (lineDist := dist) (ratio := ratio)
    (along := along) (across := across) (numDotMiss := miss) (acceptedRatio := acc) (angle := angle) (order := order)
    (P := dots.map (turn angle)) (row := fun p => row (turn (-angle) p)) (f := f) (m := m) (D := D) (lo := lo) (hi := hi) hd hratio hacc hsmall
    (rotatePoints_eq _ _).symm hm hD
    (by simp only [List.mem_map, forall_exists_index, and_imp, forall_apply_eq_imp_iff₂, hback]; exact hrows.len)
    (by simp only [List.mem_map, forall_exists_index, and_imp, forall_apply_eq_imp_iff₂, hback]; exact hrows.on)
    (by simp only [List.mem_map, forall_exists_index, and_imp, forall_apply_eq_imp_iff₂, hback]; exact hrows.off)
    (by rw [List.pairwise_map]; simp only [hback]; exact hrows.apart)
    (by simp only [List.mem_map, forall_exists_index, and_imp, forall_apply_eq_imp_iff₂, hback]
        intro p hp q hq h1 h2 h3
        exact hrows.gaps p hp q hq h1 h2 fun e he h h' => h3 e he h h')
    (by simpa using hlo) (by simpa using hhi)
    (by
      intro band hbp
      rw [haround] at hbp
      have hmem : ∀ p, p ∈ band ↔ ∃ q ∈ midBand (fun p => along (turn angle p)) ((lo + hi) / 2) D dots, turn angle q = p := by
        intro p
        rw [hbp.mem_iff, List.mem_map]
      have hcnt : ∀ r, (band.filter fun q => decide (row (turn (-angle) q) = r)).length =
          (ofRow row (midBand (fun p => along (turn angle p)) ((lo + hi) / 2) D dots) r).length := by
        intro r
        rw [(hbp.filter _).length_eq, hfil, List.length_map]
      obtain ⟨groups, e, g1, g2, g3⟩ := hcoarse band (fun p => row (turn (-angle) p))
        (by
          obtain ⟨p0, hp0⟩ := List.exists_mem_of_ne_nil _ hne
          obtain ⟨q, hq, -⟩ := hrowB p0 hp0
          exact List.ne_nil_of_mem ((hmem _).2 ⟨q, hq, rfl⟩))
        ⟨by
          simp only [hmem, forall_exists_index, and_imp, forall_apply_eq_imp_iff₂, hback]
          intro p hp q hq h1 h2
          rcases hband.sep p hp q hq h1 h2 with h | ⟨r, hr, h⟩
          · exact .inl h
          · exact .inr ⟨_, ⟨r, hr, rfl⟩, by rw [hback]; exact h⟩,
        by
          simp only [hmem, forall_exists_index, and_imp, forall_apply_eq_imp_iff₂, hback]
          intro p hp q hq h1 h2 h3
          exact hband.next p hp q hq h1 h2 fun r hr h h' => h3 r hr h h'⟩
        (by
          refine (hbp.pairwise_iff fun {a b} h h' => (h h'.symm).symm).2 ?_
          rw [List.pairwise_map]
          simp only [hback]
          exact hrows.apart.filter _)
        (by
          simp only [hmem, forall_exists_index, and_imp, forall_apply_eq_imp_iff₂, hback, hcnt]
          intro p hp
          have := (hmany p (hmemB p hp)).1
          omega)
        (by
          simp only [hmem, forall_exists_index, and_imp, forall_apply_eq_imp_iff₂, hback, hcnt]
          exact fun p hp q hq => (hshare p (hmemB p hp) q (hmemB q hq)).2)
      refine ⟨groups, e, fun g hg => ?_, ?_, g3⟩
      · obtain ⟨p, hp, h1, h2⟩ := g1 g hg
        obtain ⟨q, hq, rfl⟩ := (hmem p).1 hp
        exact ⟨_, ⟨_, List.mem_map.2 ⟨q, hmemB q hq, rfl⟩, rfl⟩, h1, h2⟩
      · simp only [List.mem_map, forall_exists_index, and_imp, forall_apply_eq_imp_iff₂, hback]
        intro p hp
        obtain ⟨q, hq, hqp⟩ := hrowB p hp
        obtain ⟨g, hg, h⟩ := g2 _ ((hmem _).2 ⟨q, hq, rfl⟩)
        refine ⟨g, hg, ?_⟩
        rw [hback, hqp] at h
        exact h)
    (by
      simp only [haround, List.mem_map, forall_exists_index, and_imp, forall_apply_eq_imp_iff₂, hback, hfil, List.length_map]
      exact hmany)
    (by
      simp only [List.mem_map, forall_exists_index, and_imp, forall_apply_eq_imp_iff₂, hback, hfil, List.length_map]
      exact fun p hp q hq => (hshare p hp q hq).1)
    (by
      simp only [List.mem_map, forall_exists_index, and_imp, forall_apply_eq_imp_iff₂, hback, hfil, hrot]
      exact hmed)
  simp only [List.mem_map, forall_exists_index, and_imp, forall_apply_eq_imp_iff₂, hback, hfil, hrot] at k2
  refine ⟨lines, e, fun l hl => ?_, k2, k3, k4⟩
  obtain ⟨p, hp, h1, h2⟩ := k1 l hl
  obtain ⟨q, hq, rfl⟩ := List.mem_map.1 hp
  simp only [hback, hfil, hrot] at h1
  exact ⟨q, hq, h1, h2⟩

end Discorpy
