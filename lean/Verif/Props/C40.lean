import Verif.Props.C39
import Verif.Props.C35
import Verif.Props.C29
import Verif.Lemmas.Repeats

/-! # C40: grouping based on a polynomial fit -/

namespace Discorpy

open Spec

theorem fancyIndex_sub {α : Type} {l : List α} {idx : List ℕ} {x : α} (h : x ∈ fancyIndex l idx) : x ∈ l := by
  unfold fancyIndex at h
  obtain ⟨i, _, hi⟩ := List.mem_filterMap.1 h
  exact List.mem_of_getElem? hi

theorem dropRepeated_sub {across : Pt → ℝ} {d : ℝ} {lines r : List (List Pt)} (h : dropRepeated across d lines = .ok r) :
    ∀ l ∈ r, l ∈ lines := by
  unfold dropRepeated at h
  rw [bind_ok_iff] at h
  obtain ⟨vals, _, h⟩ := h
  simp only at h
  split at h
  · injection h with h
    subst h
    exact fun l hl => fancyIndex_sub hl
  · injection h with h
    subst h
    exact fun l hl => hl

theorem rotatePoints_mem_back {points : List Pt} {a : ℝ} {sel : List Pt} (h : ∀ p ∈ sel, p ∈ rotatePoints points a false) :
    ∀ p ∈ rotatePoints sel (-a) false, p ∈ points := by
  intro p hp
  have : p ∈ rotatePoints (rotatePoints points a false) (-a) false := by
    unfold rotatePoints at hp ⊢
    obtain ⟨q, hq, rfl⟩ := List.mem_map.1 hp
    exact List.mem_map.2 ⟨q, h q hq, rfl⟩
  rwa [(C35_inverse points a false).2.2.2] at this

section
variable {pf : PolyfitFn} {argsort : List ℝ → List ℕ} (hs : ArgsortSpec argsort) {along across : Pt → ℝ} {points : List Pt}
  {angle D residual overlapRatio : ℝ} {order : ℕ}

include hs in
theorem polyfitGroup_fold (grouped : List (List Pt)) (hbig : ∀ g ∈ grouped, 2 < g.length) :
    ∀ (todo : List (List Pt)), (∀ g ∈ todo, g ∈ grouped) → ∀ st st',
      todo.foldlM (polyfitGroup pf argsort along across points angle D residual overlapRatio order) st = .ok st' →
      (∀ line ∈ st.2, 2 < line.length ∧ line.Pairwise (fun p q => along p ≤ along q) ∧ ∃ g ∈ grouped, ∃ selp,
        line.Perm (rotatePoints selp (-angle) false) ∧ FromGroup pf along across points residual order g selp) →
      ∀ line ∈ st'.2, 2 < line.length ∧ line.Pairwise (fun p q => along p ≤ along q) ∧ ∃ g ∈ grouped, ∃ selp,
        line.Perm (rotatePoints selp (-angle) false) ∧ FromGroup pf along across points residual order g selp := by
  intro todo
  induction todo with
  | nil =>
    intro _ st st' h hI
    rw [List.foldlM_nil] at h
    injection h with h
    subst h
    exact hI
  | cons g todo ih =>
    intro hsub st st' h hI
    rw [List.foldlM_cons, bind_ok_iff] at h
    obtain ⟨st1, h1, h2⟩ := h
    refine ih (fun g' hg' => hsub g' (List.mem_cons_of_mem _ hg')) st1 st' h2 ?_
    have hg := hbig g (hsub g List.mem_cons_self)
    have hne : g ≠ [] := by rintro rfl; simp at hg
    unfold polyfitGroup at h1
    rw [if_pos hg] at h1
    obtain ⟨a, ha⟩ : ∃ a, g.head? = some a := by cases g with
      | nil => exact absurd rfl hne
      | cons a _ => exact ⟨a, rfl⟩
    obtain ⟨b, hb⟩ : ∃ b, g.getLast? = some b := ⟨_, List.getLast?_eq_some_getLast hne⟩
    rw [ha, hb] at h1
    simp only at h1
    obtain ⟨sel, e, k1, k2, _, _⟩ := C39_search pf along across g points hne (along a) (along b) D residual overlapRatio order
    rw [e, ok_bind] at h1
    split at h1
    · rename_i hl
      injection h1 with h1
      subst h1
      intro line hline
      rcases List.mem_append.1 hline with hline | hline
      · exact hI line hline
      · rw [List.mem_singleton] at hline
        subst hline
        have hperm := hs.fancy_perm (rotatePoints sel (-angle) false) along
        refine ⟨?_, hs.fancy_sorted _ along, g, hsub g List.mem_cons_self, sel, hperm, k1, k2⟩
        rw [hperm.length_eq]
        simpa [rotatePoints] using hl
    · injection h1 with h1
      subst h1
      exact hI

include hs in
/-- The steps of the two functions. -/
theorem groupPolyfit_core {points0 : List Pt} {coarse : List Pt → ℝ → Except PyErr (List (List Pt))}
    {lineDist ratio numDotMiss acceptedRatio : ℝ} (hd : 0 < lineDist) {lines : List (List Pt)}
    (h : groupPolyfit pf argsort along across angle coarse points0 lineDist ratio numDotMiss acceptedRatio overlapRatio order =
      .ok lines) :
    ∃ points band groups stale ls longest chosen, points.Perm (rotatePoints points0 angle false) ∧
      IsMiddleBand along ((max 1 (min numDotMiss points0.length) + 1 / 2) * lineDist) (rotatePoints points0 angle false) band ∧
      (∀ p ∈ band, p ∈ points) ∧
      coarse band (max 1 (min numDotMiss points0.length)) = .ok groups ∧
      groups.foldlM (polyfitGroup pf argsort along across points angle
        ((max 1 (min numDotMiss points0.length) + 1 / 2) * lineDist) (ratio * lineDist) overlapRatio order) (band, []) = .ok (stale, ls) ∧
      npMax (lineLengths ls) = .ok longest ∧
      dropRepeated across lineDist (ls.filter fun l => decide ((l.length : ℤ) > toInt16 (truncInt (acceptedRatio * longest)))) =
        .ok chosen ∧ lines = sortLines across chosen := by
  classical
  unfold groupPolyfit at h
  split at h
  · cases h
  rename_i hlen
  simp only at h
  obtain ⟨rotated, hrot⟩ : ∃ r, r = rotatePoints points0 angle false := ⟨_, rfl⟩
  obtain ⟨points, hpts⟩ : ∃ r, r = fancyIndex rotated (argsort (rotated.map along)) := ⟨_, rfl⟩
  rw [← hrot, ← hpts] at h
  have hperm : points.Perm rotated := by rw [hpts]; exact hs.fancy_perm _ _
  have hsort : points.Pairwise fun p q => along p ≤ along q := by rw [hpts]; exact hs.fancy_sorted _ _
  have hlen1 : (1 : ℝ) ≤ points0.length := by
    have : 1 ≤ points0.length := by omega
    exact_mod_cast this
  have hmiss : clip numDotMiss 1 points0.length = max 1 (min numDotMiss points0.length) := by
    rw [clip, max_min_distrib_left, max_comm, max_eq_right hlen1]
  split at h
  swap
  · cases h
  rename_i first last hfirst hlast
  have hf_mem : first ∈ points := List.mem_of_mem_head? (by rw [hfirst]; rfl)
  have hl_mem : last ∈ points := List.mem_of_getLast? hlast
  have hlo : ∀ p ∈ points, along first ≤ along p := by
    intro p hp
    cases hq : points with
    | nil => rw [hq] at hp; cases hp
    | cons q ps =>
      rw [hq] at hfirst hsort hp
      injection hfirst with hfirst
      subst hfirst
      rcases List.mem_cons.1 hp with rfl | hp
      · exact le_rfl
      · exact (List.pairwise_cons.1 hsort).1 p hp
  have hhi : ∀ p ∈ points, along p ≤ along last := by
    intro p hp
    obtain ⟨ys, hys⟩ := List.getLast?_eq_some_iff.1 hlast
    rw [hys] at hp hsort
    rcases List.mem_append.1 hp with hp | hp
    · exact (List.pairwise_append.1 hsort).2.2 p hp last (by simp)
    · rw [List.mem_singleton] at hp
      rw [hp]
  obtain ⟨m, hm⟩ : ∃ m, m = max 1 (min numDotMiss (points0.length : ℝ)) := ⟨_, rfl⟩
  have hm1 : 1 ≤ m := hm ▸ le_max_left _ _
  rw [hmiss, ← hm] at h
  rw [← hm]
  have hDD : m * lineDist + 0.5 * lineDist = (m + 1 / 2) * lineDist := by ring
  rw [hDD] at h
  obtain ⟨D, hD⟩ : ∃ D, D = (m + 1 / 2) * lineDist := ⟨_, rfl⟩
  rw [← hD] at h ⊢
  have hDpos : 0 < D := hD ▸ mul_pos (by linarith) hd
  have hfl : along first ≤ along last := hlo _ hl_mem
  obtain ⟨band, hband⟩ : ∃ b, b = points.filter fun p =>
    decide (along p ≥ clip ((along first + along last) * 0.5 - D) (along first) (along last) ∧
      along p ≤ clip ((along first + along last) * 0.5 + D) (along first) (along last)) := ⟨_, rfl⟩
  rw [← hband] at h
  have hisband : IsMiddleBand along D rotated band := by
    refine ⟨along first, along last, ⟨first, hperm.mem_iff.1 hf_mem, rfl⟩, ⟨last, hperm.mem_iff.1 hl_mem, rfl⟩,
      fun p hp => ⟨hlo p (hperm.mem_iff.2 hp), hhi p (hperm.mem_iff.2 hp)⟩, fun p => ?_, ?_⟩
    · rw [hband, List.mem_filter, decide_eq_true_eq, hperm.mem_iff]
      refine and_congr_right fun hp => ?_
      have h1 := hlo p (hperm.mem_iff.2 hp)
      have h2 := hhi p (hperm.mem_iff.2 hp)
      have c1 : clip ((along first + along last) * 0.5 - D) (along first) (along last) =
          max ((along first + along last) * 0.5 - D) (along first) := by
        unfold clip
        exact min_eq_left (max_le (by norm_num; linarith) hfl)
      have c2 : clip ((along first + along last) * 0.5 + D) (along first) (along last) =
          min ((along first + along last) * 0.5 + D) (along last) := by
        unfold clip
        rw [max_eq_left (by norm_num; linarith)]
      rw [c1, c2, ge_iff_le, max_le_iff, le_min_iff, abs_le]
      norm_num
      constructor
      · rintro ⟨⟨a, _⟩, b, _⟩
        exact ⟨by linarith, by linarith⟩
      · rintro ⟨a, b⟩
        exact ⟨⟨by linarith, h1⟩, by linarith, h2⟩
    · rw [hband]
      exact (List.filter_sublist.subperm).trans hperm.subperm
  split at h
  swap
  · rw [ok_bind, npMax_nil] at h
    cases h
  rw [bind_ok_iff] at h
  obtain ⟨groups, hgroups, h⟩ := h
  rw [bind_ok_iff] at h
  obtain ⟨⟨stale, ls⟩, hfold, h⟩ := h
  simp only [ok_bind] at h
  rw [bind_ok_iff] at h
  obtain ⟨longest, hlongest, h⟩ := h
  rw [bind_ok_iff] at h
  obtain ⟨chosen, hchosen, h⟩ := h
  injection h with h
  refine ⟨points, band, groups, stale, ls, longest, chosen, hrot ▸ hperm, hrot ▸ hisband, fun p hp => ?_, hgroups, hfold, hlongest,
    hchosen, h.symm⟩
  rw [hband] at hp
  exact List.mem_of_mem_filter hp

include hs in
/-- The common part of the two functions. -/
theorem groupPolyfit_lines {points0 : List Pt} {coarse : List Pt → ℝ → Except PyErr (List (List Pt))}
    {lineDist ratio numDotMiss acceptedRatio : ℝ} (hd : 0 < lineDist)
    (hcoarse : ∀ band groups miss, coarse band miss = .ok groups → ∀ g ∈ groups, ∀ p ∈ g, p ∈ band)
    (hbig : ∀ band groups, IsMiddleBand along ((max 1 (min numDotMiss points0.length) + 1 / 2) * lineDist)
        (rotatePoints points0 angle false) band →
      coarse band (max 1 (min numDotMiss points0.length)) = .ok groups → ∀ g ∈ groups, 2 < g.length)
    {lines : List (List Pt)}
    (h : groupPolyfit pf argsort along across angle coarse points0 lineDist ratio numDotMiss acceptedRatio overlapRatio order =
      .ok lines) :
    lines.Pairwise (fun a b => meanOf across a ≤ meanOf across b) ∧
    ∃ band groups, IsMiddleBand along ((max 1 (min numDotMiss points0.length) + 1 / 2) * lineDist)
        (rotatePoints points0 angle false) band ∧
      coarse band (max 1 (min numDotMiss points0.length)) = .ok groups ∧
      ∀ line ∈ lines, 2 < line.length ∧ line.Pairwise (fun p q => along p ≤ along q) ∧ (∀ p ∈ line, p ∈ points0) ∧
        ∃ g ∈ groups, ∃ selp, line.Perm (rotatePoints selp (-angle) false) ∧
          FromGroup pf along across (rotatePoints points0 angle false) (ratio * lineDist) order g selp := by
  obtain ⟨points, band, groups, stale, ls, longest, chosen, hperm, hisband, hsub, hgroups, hfold, hlongest, hchosen, rfl⟩ :=
    groupPolyfit_core hs hd h
  refine ⟨sortLines_sorted across chosen, ?_⟩
  refine ⟨band, groups, hisband, hgroups, fun line hline => ?_⟩
  have hmem : line ∈ ls := List.mem_of_mem_filter (dropRepeated_sub hchosen line ((sortLines_perm across chosen).mem_iff.1 hline))
  obtain ⟨k1, k2, g, hg, selp, k3, k4, k5⟩ := polyfitGroup_fold hs groups (hbig band groups hisband hgroups) groups (fun _ h => h) _ _ hfold
    (by intro l hl; cases hl) line hmem
  have k6 : ∀ p ∈ selp, p ∈ rotatePoints points0 angle false := by
    intro p hp
    rcases k5 p hp with h' | ⟨h', _⟩
    · exact hperm.mem_iff.1 (hsub p (hcoarse band groups _ hgroups g hg p h'))
    · exact hperm.mem_iff.1 h'
  refine ⟨k1, k2, fun p hp => ?_, g, hg, selp, k3, k4, fun p hp => ?_⟩
  · exact rotatePoints_mem_back (points := points0) k6 p (k3.mem_iff.1 hp)
  · rcases k5 p hp with h' | ⟨h', k⟩
    · exact Or.inl h'
    · exact Or.inr ⟨hperm.mem_iff.1 h', k⟩

include hs in
/-- Every group of more than two different dots becomes one line. -/
theorem polyfitGroup_fold_lines (todo : List (List Pt)) (hbig : ∀ g ∈ todo, g.Nodup ∧ 2 < g.length) :
    ∀ st st', todo.foldlM (polyfitGroup pf argsort along across points angle D residual overlapRatio order) st = .ok st' →
      ∃ news, st'.2 = st.2 ++ news ∧ List.Forall₂ (fun g line => line.Pairwise (fun p q => along p ≤ along q) ∧ ∃ selp,
        selp.Nodup ∧ line.Perm (rotatePoints selp (-angle) false) ∧ FromGroup pf along across points residual order g selp) todo news := by
  induction todo with
  | nil =>
    intro st st' h
    rw [List.foldlM_nil] at h
    injection h with h
    subst h
    exact ⟨[], by simp, .nil⟩
  | cons g todo ih =>
    intro st st' h
    rw [List.foldlM_cons, bind_ok_iff] at h
    obtain ⟨st1, h1, h2⟩ := h
    obtain ⟨news, e2, hF⟩ := ih (fun g' hg' => hbig g' (List.mem_cons_of_mem _ hg')) st1 st' h2
    obtain ⟨hnd, hg⟩ := hbig g List.mem_cons_self
    have hne : g ≠ [] := by rintro rfl; simp at hg
    unfold polyfitGroup at h1
    rw [if_pos hg] at h1
    obtain ⟨a, ha⟩ : ∃ a, g.head? = some a := by cases g with
      | nil => exact absurd rfl hne
      | cons a _ => exact ⟨a, rfl⟩
    obtain ⟨b, hb⟩ : ∃ b, g.getLast? = some b := ⟨_, List.getLast?_eq_some_getLast hne⟩
    rw [ha, hb] at h1
    simp only at h1
    obtain ⟨sel, e, k1, k2, k3, _⟩ := C39_search pf along across g points hne (along a) (along b) D residual overlapRatio order
    rw [e, ok_bind] at h1
    have hsn : sel.Nodup := by
      rcases k3 with k3 | k3
      · rw [k3]; exact hnd
      · exact k3.1
    have hl : sel.length > 2 := lt_of_lt_of_le hg (hnd.subperm k1).length_le
    rw [if_pos hl] at h1
    injection h1 with h1
    subst h1
    refine ⟨_ :: news, by rw [e2, List.append_assoc]; rfl, .cons ⟨hs.fancy_sorted _ along, sel, hsn, hs.fancy_perm _ along, k1, k2⟩ hF⟩

include hs in
/-- The selection among the candidate lines. -/
theorem groupPolyfit_selection {points0 : List Pt} {coarse : List Pt → ℝ → Except PyErr (List (List Pt))}
    {lineDist ratio numDotMiss acceptedRatio : ℝ} (hd : 0 < lineDist) (hr : 0 ≤ acceptedRatio)
    {lines : List (List Pt)} (hsmall : acceptedRatio * points0.length < 32768)
    (hcoarse : ∀ band groups miss, coarse band miss = .ok groups → ∀ g ∈ groups, ∀ p ∈ g, p ∈ band)
    (hbig : ∀ band groups, IsMiddleBand along ((max 1 (min numDotMiss points0.length) + 1 / 2) * lineDist)
        (rotatePoints points0 angle false) band →
      coarse band (max 1 (min numDotMiss points0.length)) = .ok groups → ∀ g ∈ groups, g.Nodup ∧ 2 < g.length)
    (h : groupPolyfit pf argsort along across angle coarse points0 lineDist ratio numDotMiss acceptedRatio overlapRatio order =
      .ok lines) :
    ∃ band groups, IsMiddleBand along ((max 1 (min numDotMiss points0.length) + 1 / 2) * lineDist)
        (rotatePoints points0 angle false) band ∧
      coarse band (max 1 (min numDotMiss points0.length)) = .ok groups ∧
      ∃ cands : List (List Pt), List.Forall₂ (fun g line => line.Pairwise (fun p q => along p ≤ along q) ∧ ∃ selp,
          line.Perm (rotatePoints selp (-angle) false) ∧
          FromGroup pf along across (rotatePoints points0 angle false) (ratio * lineDist) order g selp) groups cands ∧
        ∃ longest : ℕ, (∃ l ∈ cands, l.length = longest) ∧ (∀ l ∈ cands, l.length ≤ longest) ∧
          ∃ pos : List Pt → ℝ, (∀ l ∈ cands, IsMedian across l (pos l) ∨ (l.length : ℤ) ≤ ⌊acceptedRatio * longest⌋) ∧
            lines.Perm (withoutRepeats (0.1 * lineDist) pos
              (cands.filter fun l => decide (⌊acceptedRatio * longest⌋ < (l.length : ℤ)))) := by
  obtain ⟨points, band, groups, stale, ls, longest, chosen, hperm, hisband, hsub, hgroups, hfold, hlongest, hchosen, rfl⟩ :=
    groupPolyfit_core hs hd h
  obtain ⟨news, e, hF⟩ := polyfitGroup_fold_lines hs groups (hbig band groups hisband hgroups) _ _ hfold
  simp only [List.nil_append] at e
  subst e
  have hF' : List.Forall₂ (fun g line => line.Pairwise (fun p q => along p ≤ along q) ∧ ∃ selp,
      selp.Nodup ∧ (∀ p ∈ selp, p ∈ rotatePoints points0 angle false) ∧ line.Perm (rotatePoints selp (-angle) false) ∧
      FromGroup pf along across (rotatePoints points0 angle false) (ratio * lineDist) order g selp) groups ls := by
    rw [List.forall₂_iff_get] at hF ⊢
    refine ⟨hF.1, fun i h1 h2 => ?_⟩
    obtain ⟨a1, selp, a2, a3, a4, a5⟩ := hF.2 i h1 h2
    refine ⟨a1, selp, a2, fun p hp => ?_, a3, a4, fun p hp => ?_⟩
    · rcases a5 p hp with h' | ⟨h', _⟩
      · exact hperm.mem_iff.1 (hsub p (hcoarse band groups _ hgroups _ (List.get_mem _ _) p h'))
      · exact hperm.mem_iff.1 h'
    · rcases a5 p hp with h' | ⟨h', k⟩
      · exact .inl h'
      · exact .inr ⟨hperm.mem_iff.1 h', k⟩
  have hlen : ∀ l ∈ ls, l.length ≤ points0.length := by
    intro l hl
    obtain ⟨i, hi, rfl⟩ := List.getElem_of_mem hl
    obtain ⟨_, selp, a2, a3, a4, _⟩ := (List.forall₂_iff_get.1 hF').2 i (by have := hF'.length_eq; omega) hi
    have h1 := (a2.subperm a3).length_le
    have h2 := a4.length_eq
    simp only [rotatePoints, List.length_map, List.get_eq_getElem] at h1 h2
    omega
  have hne : lineLengths ls ≠ [] := by
    intro h0
    rw [h0] at hlongest
    cases hlongest
  obtain ⟨m, em, hm, hmax⟩ := npMax_ok hne
  rw [hlongest] at em
  obtain rfl := Except.ok.inj em
  obtain ⟨l0, hl0, e0⟩ := List.mem_map.1 hm
  have hle : (l0.length : ℝ) ≤ points0.length := by exact_mod_cast hlen l0 hl0
  have hacc : toInt16 (truncInt (acceptedRatio * longest)) = ⌊acceptedRatio * (l0.length : ℝ)⌋ := by
    have h0 : 0 ≤ acceptedRatio * (l0.length : ℝ) := by positivity
    rw [← e0, truncInt, if_pos h0]
    apply toInt16_of_mem
    · have := Int.floor_nonneg.2 h0
      omega
    · have h1 := Int.floor_le (acceptedRatio * (l0.length : ℝ))
      have h2 : acceptedRatio * (l0.length : ℝ) < 32768 := lt_of_le_of_lt (mul_le_mul_of_nonneg_left hle hr) hsmall
      have : (⌊acceptedRatio * (l0.length : ℝ)⌋ : ℝ) < 32768 := lt_of_le_of_lt h1 h2
      have : ⌊acceptedRatio * (l0.length : ℝ)⌋ < 32768 := by exact_mod_cast this
      omega
  rw [hacc] at hchosen
  obtain ⟨pos, hpos, rfl⟩ := dropRepeated_eq hchosen
  refine ⟨band, groups, hisband, hgroups, ls, ?_, l0.length, ⟨l0, hl0, rfl⟩, fun l hl => ?_, pos, fun l hl => ?_, sortLines_perm across _⟩
  · exact hF'.imp fun g l ⟨a1, selp, _, _, a3, a4⟩ => ⟨a1, selp, a3, a4⟩
  · have := hmax _ (List.mem_map.2 ⟨l, hl, rfl⟩)
    rw [← e0] at this
    exact_mod_cast this
  · by_cases hk : (l.length : ℤ) ≤ ⌊acceptedRatio * (l0.length : ℝ)⌋
    · exact .inr hk
    · exact .inl (hpos l (List.mem_filter.2 ⟨hl, by simpa using hk⟩))


end

theorem groupDotsHor_sub {argsort : List ℝ → List ℕ} (hs : ArgsortSpec argsort) {dots : List Pt} {slope dist ratio miss acc : ℝ}
    {lines : List (List Pt)} (h : groupDotsHor argsort dots slope dist ratio miss acc = .ok lines) :
    ∀ g ∈ lines, ∀ p ∈ g, p ∈ dots := by
  intro g hg p hp
  have := (C29_lines argsort hs dots slope dist ratio miss acc lines h).1
  exact this.subset (List.mem_flatten.2 ⟨g, hg, hp⟩)

theorem groupDotsVer_sub {argsort : List ℝ → List ℕ} (hs : ArgsortSpec argsort) {dots : List Pt} {slope dist ratio miss acc : ℝ}
    {lines : List (List Pt)} (h : groupDotsVer argsort dots slope dist ratio miss acc = .ok lines) :
    ∀ g ∈ lines, ∀ p ∈ g, p ∈ dots := by
  rw [C31_vertical] at h
  cases e : groupDotsHor argsort (dots.map swapPt) slope dist ratio miss acc with
  | error x => rw [e] at h; cases h
  | ok ls =>
    rw [e] at h
    injection h with h
    subst h
    intro g hg p hp
    obtain ⟨g', hg', rfl⟩ := List.mem_map.1 hg
    obtain ⟨p', hp', rfl⟩ := List.mem_map.1 hp
    obtain ⟨q, hq, rfl⟩ := List.mem_map.1 (groupDotsHor_sub hs e g' hg' p' hp')
    exact hq

/-- **C40** (horizontal). If every group that `group_dots_hor_lines` finds among the (rotated) points in the middle band has
more than two dots, then every returned line has more than two dots, in order of `x`; they are input points; they were
found from a single one of these groups by adding points close to curves fitted to earlier selections. The lines are
in order of their mean `y`. -/
theorem C40_hor (pf : PolyfitFn) (argsort : List ℝ → List ℕ) (hs : ArgsortSpec argsort) (points : List Pt)
    (slope lineDist ratio numDotMiss acceptedRatio overlapRatio : ℝ) (order : ℕ) (hd : 0 < lineDist) (miss : ℝ)
    (hmiss : miss = max 1 (min numDotMiss points.length)) (rotated : List Pt)
    (hrot : rotated = rotatePoints points (-Real.arctan slope) false)
    (hbig : ∀ band groups, IsMiddleBand Pt.x ((miss + 1 / 2) * lineDist) rotated band →
      groupDotsHor argsort band 0 lineDist ratio miss acceptedRatio = .ok groups → ∀ g ∈ groups, 2 < g.length)
    (lines : List (List Pt))
    (h : groupPolyfitHor pf argsort points slope lineDist ratio numDotMiss acceptedRatio overlapRatio order = .ok lines) :
    lines.Pairwise (fun a b => meanY a ≤ meanY b) ∧
    ∃ band groups, IsMiddleBand Pt.x ((miss + 1 / 2) * lineDist) rotated band ∧
      groupDotsHor argsort band 0 lineDist ratio miss acceptedRatio = .ok groups ∧
      ∀ line ∈ lines, 2 < line.length ∧ line.Pairwise (fun p q => p.x ≤ q.x) ∧ (∀ p ∈ line, p ∈ points) ∧
        ∃ g ∈ groups, ∃ sel, line.Perm (rotatePoints sel (Real.arctan slope) false) ∧
          FromGroup pf Pt.x Pt.y rotated (ratio * lineDist) order g sel := by
  subst hmiss hrot
  have := groupPolyfit_lines (coarse := fun sel miss => groupDotsHor argsort sel 0 lineDist ratio miss acceptedRatio) hs hd
    (fun band groups m hc => groupDotsHor_sub hs hc) hbig h
  rwa [neg_neg] at this

/-- **C40** (vertical). -/
theorem C40_ver (pf : PolyfitFn) (argsort : List ℝ → List ℕ) (hs : ArgsortSpec argsort) (points : List Pt)
    (slope lineDist ratio numDotMiss acceptedRatio overlapRatio : ℝ) (order : ℕ) (hd : 0 < lineDist) (miss : ℝ)
    (hmiss : miss = max 1 (min numDotMiss points.length)) (rotated : List Pt)
    (hrot : rotated = rotatePoints points (Real.arctan slope) false)
    (hbig : ∀ band groups, IsMiddleBand Pt.y ((miss + 1 / 2) * lineDist) rotated band →
      groupDotsVer argsort band 0 lineDist ratio miss acceptedRatio = .ok groups → ∀ g ∈ groups, 2 < g.length)
    (lines : List (List Pt))
    (h : groupPolyfitVer pf argsort points slope lineDist ratio numDotMiss acceptedRatio overlapRatio order = .ok lines) :
    lines.Pairwise (fun a b => meanY (a.map swapPt) ≤ meanY (b.map swapPt)) ∧
    ∃ band groups, IsMiddleBand Pt.y ((miss + 1 / 2) * lineDist) rotated band ∧
      groupDotsVer argsort band 0 lineDist ratio miss acceptedRatio = .ok groups ∧
      ∀ line ∈ lines, 2 < line.length ∧ line.Pairwise (fun p q => p.y ≤ q.y) ∧ (∀ p ∈ line, p ∈ points) ∧
        ∃ g ∈ groups, ∃ sel, line.Perm (rotatePoints sel (-Real.arctan slope) false) ∧
          FromGroup pf Pt.y Pt.x rotated (ratio * lineDist) order g sel := by
  subst hmiss hrot
  have := groupPolyfit_lines (coarse := fun sel miss => groupDotsVer argsort sel 0 lineDist ratio miss acceptedRatio) hs hd
    (fun band groups m hc => groupDotsVer_sub hs hc) hbig h
  refine ⟨this.1.imp fun {a b} h => ?_, this.2⟩
  have e : ∀ l : List Pt, meanY (l.map swapPt) = meanOf Pt.x l := by
    intro l
    simp [meanY, meanOf, swapPt, List.map_map, Function.comp_def]
  rwa [e, e]

/-- **C40** (selection, horizontal). If every coarse group has more than two dots, all different, each of them gives one candidate
line, in the same order. Candidates with more than `⌊accepted_ratio·(largest number of dots)⌋` dots are returned, except those
whose median `y` differs by at most a tenth of the line distance from the candidate before (the first one always stays, and
if there is no larger jump at all then all stay). -/
theorem C40_selection_hor (pf : PolyfitFn) (argsort : List ℝ → List ℕ) (hs : ArgsortSpec argsort) (points : List Pt)
    (slope lineDist ratio numDotMiss acceptedRatio overlapRatio : ℝ) (order : ℕ) (hd : 0 < lineDist) (hr : 0 ≤ acceptedRatio)
    (hsmall : acceptedRatio * points.length < 32768) (miss : ℝ) (hmiss : miss = max 1 (min numDotMiss points.length)) (rotated : List Pt)
    (hrot : rotated = rotatePoints points (-Real.arctan slope) false)
    (hbig : ∀ band groups, IsMiddleBand Pt.x ((miss + 1 / 2) * lineDist) rotated band →
      groupDotsHor argsort band 0 lineDist ratio miss acceptedRatio = .ok groups → ∀ g ∈ groups, g.Nodup ∧ 2 < g.length)
    (lines : List (List Pt))
    (h : groupPolyfitHor pf argsort points slope lineDist ratio numDotMiss acceptedRatio overlapRatio order = .ok lines) :
    ∃ band groups, IsMiddleBand Pt.x ((miss + 1 / 2) * lineDist) rotated band ∧
      groupDotsHor argsort band 0 lineDist ratio miss acceptedRatio = .ok groups ∧
      ∃ cands : List (List Pt), List.Forall₂ (fun g line => line.Pairwise (fun p q => p.x ≤ q.x) ∧ ∃ sel,
          line.Perm (rotatePoints sel (Real.arctan slope) false) ∧
          FromGroup pf Pt.x Pt.y rotated (ratio * lineDist) order g sel) groups cands ∧
        ∃ longest : ℕ, (∃ l ∈ cands, l.length = longest) ∧ (∀ l ∈ cands, l.length ≤ longest) ∧
          ∃ pos : List Pt → ℝ, (∀ l ∈ cands, IsMedian Pt.y l (pos l) ∨ (l.length : ℤ) ≤ ⌊acceptedRatio * longest⌋) ∧
            lines.Perm (withoutRepeats (0.1 * lineDist) pos
              (cands.filter fun l => decide (⌊acceptedRatio * longest⌋ < (l.length : ℤ)))) := by
  subst hmiss hrot
  have := groupPolyfit_selection (coarse := fun sel miss => groupDotsHor argsort sel 0 lineDist ratio miss acceptedRatio) hs hd hr
    hsmall (fun band groups m hc => groupDotsHor_sub hs hc) hbig h
  rwa [neg_neg] at this

/-- **C40** (selection, vertical). -/
theorem C40_selection_ver (pf : PolyfitFn) (argsort : List ℝ → List ℕ) (hs : ArgsortSpec argsort) (points : List Pt)
    (slope lineDist ratio numDotMiss acceptedRatio overlapRatio : ℝ) (order : ℕ) (hd : 0 < lineDist) (hr : 0 ≤ acceptedRatio)
    (hsmall : acceptedRatio * points.length < 32768) (miss : ℝ) (hmiss : miss = max 1 (min numDotMiss points.length)) (rotated : List Pt)
    (hrot : rotated = rotatePoints points (Real.arctan slope) false)
    (hbig : ∀ band groups, IsMiddleBand Pt.y ((miss + 1 / 2) * lineDist) rotated band →
      groupDotsVer argsort band 0 lineDist ratio miss acceptedRatio = .ok groups → ∀ g ∈ groups, g.Nodup ∧ 2 < g.length)
    (lines : List (List Pt))
    (h : groupPolyfitVer pf argsort points slope lineDist ratio numDotMiss acceptedRatio overlapRatio order = .ok lines) :
    ∃ band groups, IsMiddleBand Pt.y ((miss + 1 / 2) * lineDist) rotated band ∧
      groupDotsVer argsort band 0 lineDist ratio miss acceptedRatio = .ok groups ∧
      ∃ cands : List (List Pt), List.Forall₂ (fun g line => line.Pairwise (fun p q => p.y ≤ q.y) ∧ ∃ sel,
          line.Perm (rotatePoints sel (-Real.arctan slope) false) ∧
          FromGroup pf Pt.y Pt.x rotated (ratio * lineDist) order g sel) groups cands ∧
        ∃ longest : ℕ, (∃ l ∈ cands, l.length = longest) ∧ (∀ l ∈ cands, l.length ≤ longest) ∧
          ∃ pos : List Pt → ℝ, (∀ l ∈ cands, IsMedian Pt.x l (pos l) ∨ (l.length : ℤ) ≤ ⌊acceptedRatio * longest⌋) ∧
            lines.Perm (withoutRepeats (0.1 * lineDist) pos
              (cands.filter fun l => decide (⌊acceptedRatio * longest⌋ < (l.length : ℤ)))) := by
  subst hmiss hrot
  exact groupPolyfit_selection (coarse := fun sel miss => groupDotsVer argsort sel 0 lineDist ratio miss acceptedRatio) hs hd hr
    hsmall (fun band groups m hc => groupDotsVer_sub hs hc) hbig h

/-- Lines at 0, 10, 10.2 and 20 with line distance 10: the third one is a repetition; lines at 0 and 0.5 both stay. -/
example : withoutRepeats (0.1 * 10) (fun l => meanOf Pt.y l) [[⟨0, 0⟩], [⟨10, 0⟩], [⟨10.2, 0⟩], [⟨20, 0⟩]] =
      [[⟨0, 0⟩], [⟨10, 0⟩], [⟨20, 0⟩]] ∧
    withoutRepeats (0.1 * 10) (fun l => meanOf Pt.y l) [[⟨0, 0⟩], [⟨0.5, 0⟩]] = [[⟨0, 0⟩], [⟨0.5, 0⟩]] := by
  constructor <;> norm_num [withoutRepeats, jumpsAfter, meanOf] <;> simp

/-- **C40** (no points, no line): an empty input is rejected. -/
theorem C40_empty (pf : PolyfitFn) (argsort : List ℝ → List ℕ)
    (slope lineDist ratio numDotMiss acceptedRatio overlapRatio : ℝ) (order : ℕ) :
    groupPolyfitHor pf argsort [] slope lineDist ratio numDotMiss acceptedRatio overlapRatio order = .error .valueError ∧
    groupPolyfitVer pf argsort [] slope lineDist ratio numDotMiss acceptedRatio overlapRatio order = .error .valueError :=
  ⟨rfl, rfl⟩

/-! ## The reused variable -/

theorem sorted_unique {along : Pt → ℝ} {l l' : List Pt} (hp : l.Perm l') (h : l.Pairwise fun p q => along p ≤ along q)
    (h' : l'.Pairwise fun p q => along p < along q) : l = l' := by
  have hs : l.Pairwise fun p q => along p < along q := by
    have hnd : l.Pairwise fun p q => along p ≠ along q :=
      (hp.pairwise_iff fun {a b} h => h.symm).2 (h'.imp fun h => h.ne)
    exact (h.and hnd).imp fun h => lt_of_le_of_ne h.1 h.2
  refine hp.eq_of_pairwise ?_ hs h'
  intro a b _ _ h1 h2
  exact absurd h1 (not_lt.2 h2.le)

/-- Two rows of dots: two dots at `y = 0`, three dots at `y = 10`. -/
def staleDots : List Pt := [⟨0, 0⟩, ⟨10, 1⟩, ⟨0, 10⟩, ⟨10, 11⟩, ⟨10, 21⟩]

/-- **C40** (the reused variable): with the default parameters, two rows of two and three dots are returned as a single line
of all five dots: the group of two dots makes the function take the previous value of the variable, here the whole band. -/
theorem C40_stale (pf : PolyfitFn) (hpf : PolyfitSpec pf) (argsort : List ℝ → List ℕ) (hs : ArgsortSpec argsort) :
    groupPolyfitHor pf argsort staleDots 0 10 0.1 3 0.65 0.5 2 = .ok [staleDots] := by
  classical
  have hstrict : staleDots.Pairwise fun p q => p.x < q.x := by
    simp [staleDots]; norm_num
  have hfancy : fancyIndex staleDots (argsort (staleDots.map Pt.x)) = staleDots :=
    sorted_unique (hs.fancy_perm _ _) (hs.fancy_sorted _ _) hstrict
  have hrot0 : ∀ l, rotatePoints l 0 false = l := fun l => (C35_inverse l 0 false).1
  have hgroups : groupDotsHor argsort staleDots 0 10 0.1 3 0.65 =
      .ok [[⟨0, 0⟩, ⟨0, 10⟩], [⟨10, 1⟩, ⟨10, 11⟩, ⟨10, 21⟩]] := by
    have hcheck : ∀ p q : Pt, checkDotOnLine 0 10 0.1 3 p q = decide (|q.x - p.x| < 30 ∧ |q.y - p.y| < 1) := by
      intro p q
      rw [Bool.eq_iff_iff, checkDotOnLine_iff, decide_eq_true_eq]
      unfold OnLine
      norm_num [abs_sub_comm]
    have hl : groupLoop (checkDotOnLine 0 10 0.1 3) staleDots = [[⟨0, 0⟩, ⟨0, 10⟩], [⟨10, 1⟩, ⟨10, 11⟩, ⟨10, 21⟩]] := by
      unfold staleDots
      generalize checkDotOnLine 0 10 0.1 3 = check at hcheck
      norm_num [groupLoop_cons, scan, hcheck, groupLoop_nil, abs_lt]
      simp
    unfold groupDotsHor
    rw [if_neg (by simp [staleDots])]
    simp only
    rw [hfancy, hl]
    have hmax : npMax (lineLengths [[⟨0, 0⟩, ⟨0, 10⟩], [⟨10, 1⟩, ⟨10, 11⟩, ⟨10, 21⟩]]) = .ok 3 := by
      simp [npMax, lineLengths, List.max?]
      norm_num
    have htr : truncInt (0.65 * 3) = 1 := by
      unfold truncInt
      rw [if_pos (by norm_num), Int.floor_eq_iff]
      norm_num
    rw [hmax, ok_bind, htr]
    have hfil : ([[⟨0, 0⟩, ⟨0, 10⟩], [⟨10, 1⟩, ⟨10, 11⟩, ⟨10, 21⟩]] : List (List Pt)).filter
        (fun l => decide ((l.length : ℤ) > 1)) = [[⟨0, 0⟩, ⟨0, 10⟩], [⟨10, 1⟩, ⟨10, 11⟩, ⟨10, 21⟩]] := by
      simp
    rw [hfil]
    congr 1
    unfold sortLines
    apply List.mergeSort_of_pairwise
    simp [meanOf]
    norm_num
  -- the search from the row of three dots
  obtain ⟨sel, hsel, hmem⟩ := C65_curve pf hpf Pt.x Pt.y [⟨10, 1⟩, ⟨10, 11⟩, ⟨10, 21⟩] staleDots 1 21 35 1 0.5 2
    (by norm_num) (by norm_num) [0, 0, 10] rfl
    (by intro p hp; simp only [staleDots, List.mem_cons, List.not_mem_nil, or_false] at hp
        rcases hp with rfl | rfl | rfl | rfl | rfl <;> norm_num [polyval])
    (by intro p hp; simp only [List.mem_cons, List.not_mem_nil, or_false] at hp
        rcases hp with rfl | rfl | rfl <;> simp [polyval, staleDots])
    (by intro p hp; simp only [staleDots, List.mem_cons, List.not_mem_nil, or_false] at hp
        rcases hp with rfl | rfl | rfl | rfl | rfl <;> norm_num [polyval])
    {1, 11, 21} (by norm_num)
    (by intro t ht; simp at ht; rcases ht with rfl | rfl | rfl <;> simp)
    (by intro p hp; simp only [staleDots, List.mem_cons, List.not_mem_nil, or_false] at hp
        rcases hp with rfl | rfl | rfl | rfl | rfl <;> norm_num [polyval])
    (by intro p hp; simp only [staleDots, List.mem_cons, List.not_mem_nil, or_false] at hp
        rcases hp with rfl | rfl | rfl | rfl | rfl <;> norm_num [polyval])
  have hlen : sel.length = 3 := by
    obtain ⟨sel', e, _, _, h3, _⟩ := C39_search pf Pt.x Pt.y [⟨10, 1⟩, ⟨10, 11⟩, ⟨10, 21⟩] staleDots (by simp) 1 21 35 1 0.5 2
    rw [hsel] at e
    injection e with e
    subst e
    rcases h3 with h3 | ⟨h3, _⟩
    · rw [h3]; rfl
    · have : sel.Perm [⟨10, 1⟩, ⟨10, 11⟩, ⟨10, 21⟩] := by
        rw [List.perm_ext_iff_of_nodup h3 (by simp)]
        intro p
        rw [hmem]
        constructor
        · rintro ⟨hp, hc⟩
          simp only [staleDots, List.mem_cons, List.not_mem_nil, or_false] at hp
          rcases hp with rfl | rfl | rfl | rfl | rfl <;> simp [polyval] at hc ⊢
        · intro hp
          simp only [List.mem_cons, List.not_mem_nil, or_false] at hp
          rcases hp with rfl | rfl | rfl <;> simp [polyval, staleDots]
      rw [this.length_eq]; rfl
  unfold groupPolyfitHor groupPolyfit
  rw [if_neg (by simp [staleDots])]
  simp only [Real.arctan_zero, neg_zero, hrot0, hfancy]
  have hhead : staleDots.head? = some ⟨0, 0⟩ := rfl
  have hlast : staleDots.getLast? = some ⟨10, 21⟩ := rfl
  rw [hhead, hlast]
  have hclip : clip 3 1 (staleDots.length : ℝ) = 3 := by
    unfold clip staleDots
    norm_num
  have hsd : (3 : ℝ) * 10 + 0.5 * 10 = 35 := by norm_num
  have hc1 : clip ((0 + 21) * 0.5 - 35) 0 21 = 0 := by unfold clip; norm_num
  have hc2 : clip ((0 + 21) * 0.5 + 35) 0 21 = 21 := by unfold clip; norm_num
  simp only [hclip, hsd, hc1, hc2]
  have hband : (staleDots.filter fun p => decide (p.x ≥ 0 ∧ p.x ≤ 21)) = staleDots := by
    unfold staleDots
    norm_num
  rw [hband, if_pos (by simp [staleDots]), hgroups]
  have hres : (0.1 : ℝ) * 10 = 1 := by norm_num
  have hstep1 : polyfitGroup pf argsort Pt.x Pt.y staleDots 0 35 1 0.5 2 (staleDots, []) [⟨0, 0⟩, ⟨0, 10⟩] =
      .ok (staleDots, [staleDots]) := by
    unfold polyfitGroup
    rw [if_neg (by simp), ok_bind]
    simp only
    rw [if_pos (by simp [staleDots])]
    simp only [neg_zero, hrot0, hfancy, List.nil_append]
  have hstep2 : ∃ l2 : List Pt, l2.length = 3 ∧
      polyfitGroup pf argsort Pt.x Pt.y staleDots 0 35 1 0.5 2 (staleDots, [staleDots]) [⟨10, 1⟩, ⟨10, 11⟩, ⟨10, 21⟩] =
      .ok (l2, [staleDots, l2]) := by
    refine ⟨fancyIndex sel (argsort (sel.map Pt.x)), by rw [(hs.fancy_perm _ _).length_eq, hlen], ?_⟩
    unfold polyfitGroup
    rw [if_pos (by simp)]
    simp only [List.head?_cons, List.getLast?_cons_cons, List.getLast?_singleton]
    rw [hsel, ok_bind, if_pos (by omega)]
    simp only [neg_zero, hrot0]
    rfl
  obtain ⟨l2, hl2, hstep2⟩ := hstep2
  rw [ok_bind, hres, List.foldlM_cons, hstep1, ok_bind, List.foldlM_cons, hstep2, ok_bind, List.foldlM_nil]
  have hmax : npMax (lineLengths [staleDots, l2]) = .ok 5 := by
    simp [npMax, lineLengths, List.max?, hl2, staleDots]
    norm_num
  have htr : toInt16 (truncInt (0.65 * 5)) = 3 := by
    have : truncInt (0.65 * 5) = 3 := by
      unfold truncInt
      rw [if_pos (by norm_num), Int.floor_eq_iff]
      norm_num
    rw [this, toInt16_of_mem (by norm_num) (by norm_num)]
  have hdrop : dropRepeated Pt.y 10 [staleDots] = .ok [staleDots] := by
    unfold dropRepeated
    obtain ⟨v, hv⟩ : ∃ v, npMedian (staleDots.map Pt.y) = .ok v := by
      unfold npMedian
      rw [if_neg (by simp [staleDots])]
      simp only
      split
      · exact ⟨_, rfl⟩
      · exact ⟨_, rfl⟩
    have hm : [staleDots].mapM (fun l => npMedian (l.map Pt.y)) = .ok [v] :=
      mapM_ok_iff.2 (.cons hv .nil)
    rw [hm, ok_bind]
    simp [npDiff]
  have hpure : (pure (l2, [staleDots, l2]) : Except PyErr (List Pt × List (List Pt))) = .ok (l2, [staleDots, l2]) := rfl
  rw [hpure, ok_bind]
  simp only [ok_bind]
  rw [hmax, ok_bind, htr]
  have hfil : [staleDots, l2].filter (fun l => decide ((l.length : ℤ) > 3)) = [staleDots] := by
    simp [List.filter, hl2, staleDots]
  rw [hfil, hdrop, ok_bind]
  simp [sortLines]

example := C40_stale refPolyfit refPolyfit_spec refArgsort refArgsort_spec

/-- The only coarse group of three dots of a row. -/
theorem threeDots_hor : ∀ band groups, IsMiddleBand Pt.x ((3 + 1 / 2) * 10) [⟨0, 0⟩, ⟨0, 10⟩, ⟨0, 20⟩] band →
    groupDotsHor refArgsort band 0 10 0.1 3 0.65 = .ok groups → ∀ g ∈ groups, g.Nodup ∧ 2 < g.length := by
  rintro band groups ⟨lo, hi, ⟨p, hp, rfl⟩, ⟨q, hq, rfl⟩, hb, hband, hsub⟩ hg
  have hmem : ∀ r, r ∈ band ↔ r ∈ ([⟨0, 0⟩, ⟨0, 10⟩, ⟨0, 20⟩] : List Pt) := by
    intro r
    rw [hband]
    constructor
    · exact fun h => h.1
    · intro hr
      refine ⟨hr, ?_⟩
      simp only [List.mem_cons, List.not_mem_nil, or_false] at hp hq hr
      rcases hp with rfl | rfl | rfl <;> rcases hq with rfl | rfl | rfl <;> rcases hr with rfl | rfl | rfl <;>
        norm_num [abs_le]
  have hnd : ([⟨0, 0⟩, ⟨0, 10⟩, ⟨0, 20⟩] : List Pt).Nodup := by norm_num
  have hperm : band.Perm [⟨0, 0⟩, ⟨0, 10⟩, ⟨0, 20⟩] := by
    have : band.Nodup := by
      obtain ⟨l, hl1, hl2⟩ := hsub
      exact hl1.nodup_iff.1 (hl2.nodup hnd)
    exact (List.perm_ext_iff_of_nodup this hnd).2 hmem
  have hfancy : fancyIndex band (refArgsort (band.map Pt.x)) = [⟨0, 0⟩, ⟨0, 10⟩, ⟨0, 20⟩] :=
    sorted_unique ((refArgsort_spec.fancy_perm _ _).trans hperm) (refArgsort_spec.fancy_sorted _ _) (by norm_num)
  obtain ⟨_, _, n, _, rfl⟩ := groupDotsHor_ok hg
  have hcheck : ∀ p q : Pt, checkDotOnLine 0 10 0.1 3 p q = decide (|q.x - p.x| < 30 ∧ |q.y - p.y| < 1) := by
    intro p q
    rw [Bool.eq_iff_iff, checkDotOnLine_iff, decide_eq_true_eq]
    unfold OnLine
    norm_num [abs_sub_comm]
  have hall : allLines refArgsort band 0 10 0.1 3 = [[⟨0, 0⟩, ⟨0, 10⟩, ⟨0, 20⟩]] := by
    unfold allLines
    rw [hfancy]
    generalize checkDotOnLine 0 10 0.1 3 = check at hcheck
    norm_num [groupLoop_cons, scan, hcheck, groupLoop_nil, abs_lt]
    simp
  rw [hall]
  intro g hg
  have := List.mem_of_mem_filter ((sortLines_perm _ _).mem_iff.1 hg)
  rw [List.mem_singleton] at this
  rw [this]
  exact ⟨hnd, by simp⟩

/-- The only coarse group of three dots of a column. -/
theorem threeDots_ver : ∀ band groups, IsMiddleBand Pt.y ((3 + 1 / 2) * 10) [⟨0, 0⟩, ⟨10, 0⟩, ⟨20, 0⟩] band →
    groupDotsVer refArgsort band 0 10 0.1 3 0.65 = .ok groups → ∀ g ∈ groups, g.Nodup ∧ 2 < g.length := by
  rintro band groups ⟨lo, hi, ⟨p, hp, hlo⟩, ⟨q, hq, hhi⟩, hb, hband, hsub⟩ hg
  have hsw : Function.Injective swapPt := fun a b h => by
    have h' : swapPt (swapPt a) = swapPt (swapPt b) := congrArg swapPt h
    exact h'
  have em : ([⟨0, 0⟩, ⟨0, 10⟩, ⟨0, 20⟩] : List Pt) = ([⟨0, 0⟩, ⟨10, 0⟩, ⟨20, 0⟩] : List Pt).map swapPt := by simp [swapPt]
  rw [C31_vertical] at hg
  cases e : groupDotsHor refArgsort (band.map swapPt) 0 10 0.1 3 0.65 with
  | error x => rw [e] at hg; cases hg
  | ok ls =>
    rw [e] at hg
    injection hg with hg
    subst hg
    intro g hg
    obtain ⟨g', hg', rfl⟩ := List.mem_map.1 hg
    have := threeDots_hor (band.map swapPt) ls ⟨lo, hi, ⟨swapPt p, by rw [em]; exact List.mem_map_of_mem hp, hlo⟩,
      ⟨swapPt q, by rw [em]; exact List.mem_map_of_mem hq, hhi⟩, by
        rw [em]
        intro r hr
        obtain ⟨r', hr', rfl⟩ := List.mem_map.1 hr
        exact hb r' hr', by
        intro r
        have hr : r = swapPt (swapPt r) := by simp [swapPt]
        rw [em, hr, List.mem_map_of_injective hsw, List.mem_map_of_injective hsw]
        exact hband _, by
        rw [em]
        exact hsub.map hsw⟩ e g' hg'
    exact ⟨this.1.map hsw, by simpa using this.2⟩

theorem threeDots_rot (l : List Pt) : l = rotatePoints l (-Real.arctan 0) false ∧ l = rotatePoints l (Real.arctan 0) false := by
  rw [Real.arctan_zero, neg_zero]
  exact ⟨(C35_inverse _ 0 false).1.symm, (C35_inverse _ 0 false).1.symm⟩

/-- Three dots of a row and three dots of a column satisfy the hypotheses. -/
example := C40_hor refPolyfit refArgsort refArgsort_spec [⟨0, 0⟩, ⟨0, 10⟩, ⟨0, 20⟩] 0 10 0.1 3 0.65 0.5 2
  (by norm_num) 3 (by norm_num) _ (threeDots_rot _).1 fun band groups h1 h2 g hg => (threeDots_hor band groups h1 h2 g hg).2

example := C40_ver refPolyfit refArgsort refArgsort_spec [⟨0, 0⟩, ⟨10, 0⟩, ⟨20, 0⟩] 0 10 0.1 3 0.65 0.5 2
  (by norm_num) 3 (by norm_num) _ (threeDots_rot _).2 fun band groups h1 h2 g hg => (threeDots_ver band groups h1 h2 g hg).2

example := C40_selection_hor refPolyfit refArgsort refArgsort_spec [⟨0, 0⟩, ⟨0, 10⟩, ⟨0, 20⟩] 0 10 0.1 3 0.65 0.5 2
  (by norm_num) (by norm_num) (by norm_num) 3 (by norm_num) _ (threeDots_rot _).1 threeDots_hor

example := C40_selection_ver refPolyfit refArgsort refArgsort_spec [⟨0, 0⟩, ⟨10, 0⟩, ⟨20, 0⟩] 0 10 0.1 3 0.65 0.5 2
  (by norm_num) (by norm_num) (by norm_num) 3 (by norm_num) _ (threeDots_rot _).2 threeDots_ver

end Discorpy
