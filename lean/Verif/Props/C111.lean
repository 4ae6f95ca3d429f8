import Verif.Lemmas.LineRows
import Verif.Props.C110

/-! # C111 — the lines of an upright line pattern are recovered from its image -/

namespace Discorpy
open Spec

/-- The sublist of an increasing list that contains the members with a property. -/
theorem seen_filter {K : ℕ} {f : ℕ → ℝ} {d : ℝ} (hd : 0 < d) (ha : PlacesApart ((List.range K).map f) d) {seen : List ℝ} {a b : ℝ}
    (h1 : seen.Sublist ((List.range K).map f)) (h2 : ∀ c ∈ (List.range K).map f, c ∈ seen ↔ a < c ∧ c < b)
    [DecidablePred fun k => a < f k ∧ f k < b] :
    seen = ((List.range K).filter fun k => decide (a < f k ∧ f k < b)).map f := by
  have hinc : ((List.range K).map f).Pairwise (· < ·) := ha.imp fun h => by linarith
  have hs2 : (((List.range K).filter fun k => decide (a < f k ∧ f k < b)).map f).Sublist ((List.range K).map f) :=
    List.filter_sublist.map f
  have p1 := hinc.sublist h1
  have p2 := hinc.sublist hs2
  refine List.Perm.eq_of_pairwise (le := (· < ·)) (fun a b _ _ hab hba => absurd hab (lt_asymm hba)) p1 p2 ?_
  rw [List.perm_ext_iff_of_nodup (p1.imp fun hab => hab.ne) (p2.imp fun hab => hab.ne)]
  intro c
  constructor
  · intro hc
    obtain ⟨k, hk, rfl⟩ := List.mem_map.1 (h1.subset hc)
    exact List.mem_map.2 ⟨k, List.mem_filter.2 ⟨hk, by simpa using (h2 _ (h1.subset hc)).1 hc⟩, rfl⟩
  · intro hc
    obtain ⟨k, hk, rfl⟩ := List.mem_map.1 hc
    rw [List.mem_filter, decide_eq_true_eq] at hk
    exact (h2 _ (List.mem_map.2 ⟨k, hk.1, rfl⟩)).2 hk.2

theorem starts_unique {lo hi off : ℤ} {step : ℝ} {l l' : List ℝ} (h : IsStarts lo hi off step l) (h' : IsStarts lo hi off step l') : l = l' := by
  refine List.Perm.eq_of_pairwise (le := (· < ·)) (fun a b _ _ hab hba => absurd hab (lt_asymm hba)) h.1 h'.1 ?_
  rw [List.perm_ext_iff_of_nodup (h.1.imp fun hab => hab.ne) (h'.1.imp fun hab => hab.ne)]
  exact fun a => (h.2 a).trans (h'.2 a).symm

theorem start_nonneg {hi off : ℤ} {step : ℝ} {l : List ℝ} {offset : ℝ} {top : ℕ} (h : IsStarts 0 hi off step l) (ho : IsOffset offset top off)
    (hs : 0 < step) {i : ℝ} (hi' : i ∈ l) : 0 ≤ i ∧ i < hi := by
  obtain ⟨k, e, hlt⟩ := (h.2 i).1 hi'
  have h0 : (0 : ℤ) ≤ off := by rw [ho]; exact Int.floor_nonneg.2 (le_max_left _ _)
  have h0' : (0 : ℝ) ≤ off := by exact_mod_cast h0
  refine ⟨?_, by linarith⟩
  rw [e]
  push_cast
  have : (0 : ℝ) ≤ k * step := mul_nonneg (Nat.cast_nonneg _) hs.le
  linarith

open Classical in
/-- **C111 (horizontal lines).** Let the prepared image show, on each of the generated columns, `K` bright lines — straight or bent,
`curve k i` being the row of line `k` at the column `i` — that are wide and distinct enough for the search radius and not halfway between two
samples. A line is seen at a column if it keeps away from the edge by the radius. If seen lines stay apart and continue from column to column
within the tolerances of the grouping, then `get_cross_points_hor_lines` and `group_dots_hor_lines` together return lines of the pattern
without repetition, each complete: one point, less than half a sample away, for every column at which the line is seen. Every line
that is seen at two columns or more and is long enough compared with the others is returned. -/
theorem C111_hor (E : Ext) (hpf : PolyfitSpec E.pf) (S : Sampler) (fft filter2 : Mat ℝ → Mat ℝ) (store : ℝ → ℝ) (mat img : Mat ℝ)
    (hf : ∀ m, (fft m).height = m.height ∧ (fft m).width = m.width)
    (hg : ∀ m, (filter2 m).height = m.height ∧ (filter2 m).width = m.width) (hh : 4 ≤ mat.height) (hw0 : 0 < mat.width) (hw : mat.width ≤ 32767)
    (dist ratio offset : ℝ) (hs : 0 < ratio * dist) (bright sub : Bool) (radius : ℤ) (sensitive : ℝ) (hsen : 0 ≤ sensitive)
    (himg : IsCrossImage fft filter2 bright true true mat img) (b : ℝ → ℝ → ℝ) (hb : ShowsCols S img b) (r : ℕ)
    (hr : (r : ℤ) = min (max radius 1) ((mat.height / 4 : ℕ) : ℤ)) (q : ℝ) (hq : q = mat.height / ((mat.height : ℝ) - 1))
    (off : ℤ) (hoff : IsOffset offset (min mat.height mat.width / 3) off) (starts : List ℝ)
    (hst : IsStarts 0 ((mat.width : ℤ) - 1) off (ratio * dist) starts)
    (K : ℕ) (curve : ℕ → ℝ → ℝ) (φ : ℝ → ℝ → ℝ → ℝ) (w top : ℝ)
    (hR : ∀ i ∈ starts, Ridges ((List.range K).map fun k => curve k i) (φ i) w fun y => b y i)
    (hS : ∀ i ∈ starts, SearchableBy q ((List.range K).map fun k => curve k i) (φ i) w sensitive top r)
    (htop : ∀ y x, Spec.InFrame img y x → b y x ≤ top) (htie : ∀ i ∈ starts, ∀ k < K, ∀ n : ℤ, curve k i ≠ q * (n + 1 / 2))
    (seen : ℕ → ℝ → Prop) (hseen : ∀ k i, seen k i ↔ q * ((r : ℝ) - 1 / 2) < curve k i ∧ curve k i < q * ((mat.height : ℝ) - r - 3 / 2))
    (argsort : List ℝ → List ℕ) (hsort : ArgsortSpec argsort) (gdist gratio miss acc : ℝ) (hreach : 0 < miss * gdist) (hgr : 0 ≤ gratio * gdist)
    (hap : CurvesApart starts K curve seen (miss * gdist) (q * (gratio * gdist + 1)))
    (hco : CurvesContinue starts K curve seen (miss * gdist) (q * (gratio * gdist - 1)))
    (htwo : ∃ k < K, 2 ≤ (seenAt starts seen k).length) :
    ∃ P lines ks,
      getCrossPointsHorLines E S fft filter2 store mat 0 dist ratio offset bright true false true sub radius sensitive none = .ok P ∧
      groupDotsHor argsort P 0 gdist gratio miss acc = .ok lines ∧ ks.Nodup ∧
      List.Forall₂ (fun k l => k < K ∧ 2 ≤ (seenAt starts seen k).length ∧ IsFound Pt.x Pt.y q sub (fun i y => b y i) starts curve seen k l) ks lines ∧
      (∀ k < K, 2 ≤ (seenAt starts seen k).length →
        (∀ k' < K, acc * (seenAt starts seen k').length < (seenAt starts seen k).length) → k ∈ ks) ∧
      lines.Pairwise fun a b => meanY a ≤ meanY b := by
  have hh' : (4 : ℝ) ≤ mat.height := by exact_mod_cast hh
  obtain ⟨P, hP⟩ := (C79_success E S fft filter2 store mat hf hg (by omega) hw0 0 dist ratio offset hs bright sub (fun _ => hpf) radius
    sensitive).1 hh (fun h => absurd h (lt_irrefl _)) (fun _ => by simpa using hw0)
  obtain ⟨hq0, _, hq1, lo, hi, off', starts', groups, h1, h2, h3, h4, h5⟩ := C110_hor_lines E hpf S fft filter2 store mat img hf hg hh hw 0 dist
    ratio offset hs bright sub radius sensitive hsen himg b hb r hr _ rfl P hP
  have eq := hq1 rfl
  rw [← hq] at eq
  rw [eq] at h5 hq0
  obtain ⟨elo, ehi⟩ := h1.2 le_rfl
  rw [neg_zero, mul_zero, Int.floor_zero] at elo
  subst elo ehi
  have eoff : off' = off := by rw [h2, hoff]
  subst eoff
  have est : starts' = starts := starts_unique h3 hst
  subst est
  subst h4
  have hG : List.Forall₂ (fun i g => List.Forall₂ (fun k p => IsPointOf Pt.x Pt.y q sub (fun i y => b y i) curve k i p)
      ((List.range K).filter fun k => decide (seen k i)) g) starts' groups := by
    rw [List.forall₂_iff_get] at h5 ⊢
    refine ⟨h5.1, fun n hn hn' => ?_⟩
    have hi := List.get_mem starts' ⟨n, hn⟩
    have key := h5.2 n hn hn'
    obtain ⟨i, ei⟩ : ∃ i, i = starts'.get ⟨n, hn⟩ := ⟨_, rfl⟩
    rw [← ei] at hi key ⊢
    have h0 := (start_nonneg hst hoff hs hi).1
    have e : (fun y => b y (max (i + 0 * y) 0)) = fun y => b y i := by
      funext y
      rw [zero_mul, add_zero, max_eq_left h0]
    rw [e] at key
    obtain ⟨seen', s1, s2, s3⟩ := key _ (φ i) w top (hR i hi) (hS i hi) htop (by
      intro c hc n
      obtain ⟨k, hk, rfl⟩ := List.mem_map.1 hc
      exact htie i hi k (List.mem_range.1 hk) n)
    have hd : 0 < w + q * ((r : ℝ) + 1 / 2) := by
      have := (hS i hi).wide
      have : 0 ≤ q * (r : ℝ) := by positivity
      linarith
    have es := seen_filter hd (hS i hi).apart s1 s2
    rw [es, List.forall₂_map_left_iff] at s3
    have e2 : ((List.range K).filter fun k => decide (seen k i)) =
        (List.range K).filter fun k => decide (q * ((r : ℝ) - 1 / 2) < curve k i ∧ curve k i < q * ((mat.height : ℝ) - r - 3 / 2)) := by
      refine List.filter_congr fun k _ => ?_
      rw [decide_eq_decide, hseen]
    rw [e2]
    refine s3.imp fun k p h => ⟨by rw [h.1]; ring, ?_, ?_⟩
    · have := h.2.2.1 rfl
      rwa [← hq] at this
    · have := h.2.2.2.1 rfl
      rwa [max_eq_left h0] at this
  obtain ⟨lines, ks, g1, g2, g3, g4, g5⟩ := curves_grouped hsort hst.1 hq0 hreach hgr hG hap hco htwo (acc := acc)
  exact ⟨_, lines, ks, hP, g1, g2, g3, g4, g5⟩

theorem meanY_swap (l : List Pt) : meanY (l.map swapPt) = (l.map Pt.x).sum / l.length := by
  unfold meanY
  rw [List.map_map, List.length_map]
  rfl

open Classical in
/-- **C111 (vertical lines).** The same for vertical lines, generated rows and `get_cross_points_ver_lines`, `group_dots_ver_lines`. -/
theorem C111_ver (E : Ext) (hpf : PolyfitSpec E.pf) (S : Sampler) (fft filter2 : Mat ℝ → Mat ℝ) (store : ℝ → ℝ) (mat img : Mat ℝ)
    (hf : ∀ m, (fft m).height = m.height ∧ (fft m).width = m.width)
    (hg : ∀ m, (filter2 m).height = m.height ∧ (filter2 m).width = m.width) (hw : 4 ≤ mat.width) (hh0 : 0 < mat.height) (hh : mat.height ≤ 32767)
    (dist ratio offset : ℝ) (hs : 0 < ratio * dist) (bright sub : Bool) (radius : ℤ) (sensitive : ℝ) (hsen : 0 ≤ sensitive)
    (himg : IsCrossImage fft filter2 bright true true mat img) (b : ℝ → ℝ → ℝ) (hb : ShowsRows S img b) (r : ℕ)
    (hr : (r : ℤ) = min (max radius 1) ((mat.width / 4 : ℕ) : ℤ)) (q : ℝ) (hq : q = mat.width / ((mat.width : ℝ) - 1))
    (off : ℤ) (hoff : IsOffset offset (min mat.height mat.width / 8) off) (starts : List ℝ)
    (hst : IsStarts 0 ((mat.height : ℤ) - 1) off (ratio * dist) starts)
    (K : ℕ) (curve : ℕ → ℝ → ℝ) (φ : ℝ → ℝ → ℝ → ℝ) (w top : ℝ)
    (hR : ∀ i ∈ starts, Ridges ((List.range K).map fun k => curve k i) (φ i) w fun x => b i x)
    (hS : ∀ i ∈ starts, SearchableBy q ((List.range K).map fun k => curve k i) (φ i) w sensitive top r)
    (htop : ∀ y x, Spec.InFrame img y x → b y x ≤ top) (htie : ∀ i ∈ starts, ∀ k < K, ∀ n : ℤ, curve k i ≠ q * (n + 1 / 2))
    (seen : ℕ → ℝ → Prop) (hseen : ∀ k i, seen k i ↔ q * ((r : ℝ) - 1 / 2) < curve k i ∧ curve k i < q * ((mat.width : ℝ) - r - 3 / 2))
    (argsort : List ℝ → List ℕ) (hsort : ArgsortSpec argsort) (gdist gratio miss acc : ℝ) (hreach : 0 < miss * gdist) (hgr : 0 ≤ gratio * gdist)
    (hap : CurvesApart starts K curve seen (miss * gdist) (q * (gratio * gdist + 1)))
    (hco : CurvesContinue starts K curve seen (miss * gdist) (q * (gratio * gdist - 1)))
    (htwo : ∃ k < K, 2 ≤ (seenAt starts seen k).length) :
    ∃ P lines ks,
      getCrossPointsVerLines E S fft filter2 store mat 0 dist ratio offset bright true false true sub radius sensitive none = .ok P ∧
      groupDotsVer argsort P 0 gdist gratio miss acc = .ok lines ∧ ks.Nodup ∧
      List.Forall₂ (fun k l => k < K ∧ 2 ≤ (seenAt starts seen k).length ∧ IsFound Pt.y Pt.x q sub (fun i x => b i x) starts curve seen k l) ks lines ∧
      (∀ k < K, 2 ≤ (seenAt starts seen k).length →
        (∀ k' < K, acc * (seenAt starts seen k').length < (seenAt starts seen k).length) → k ∈ ks) ∧
      lines.Pairwise fun a b => (a.map Pt.x).sum / (a.length : ℝ) ≤ (b.map Pt.x).sum / (b.length : ℝ) := by
  have hh' : (4 : ℝ) ≤ mat.width := by exact_mod_cast hw
  obtain ⟨P, hP⟩ := (C79_success E S fft filter2 store mat hf hg hh0 (by omega) 0 dist ratio offset hs bright sub (fun _ => hpf) radius
    sensitive).2 hw (fun h => absurd h (lt_irrefl _)) (fun _ => by simpa using hh0)
  obtain ⟨hq0, _, hq1, lo, hi, off', starts', groups, h1, h2, h3, h4, h5⟩ := C110_ver_lines E hpf S fft filter2 store mat img hf hg hw hh 0 dist
    ratio offset hs bright sub radius sensitive hsen himg b hb r hr _ rfl P hP
  have eq := hq1 rfl
  rw [← hq] at eq
  rw [eq] at h5 hq0
  obtain ⟨elo, ehi⟩ := h1.2 le_rfl
  rw [mul_zero, Int.floor_zero, sub_zero] at ehi
  subst elo ehi
  have eoff : off' = off := by rw [h2, hoff]
  subst eoff
  have est : starts' = starts := starts_unique h3 hst
  subst est
  subst h4
  have hG : List.Forall₂ (fun i g => List.Forall₂ (fun k p => IsPointOf Pt.x Pt.y q sub (fun i x => b i x) curve k i p)
      ((List.range K).filter fun k => decide (seen k i)) g) starts' (groups.map fun g => g.map swapPt) := by
    rw [List.forall₂_map_right_iff]
    rw [List.forall₂_iff_get] at h5 ⊢
    refine ⟨h5.1, fun n hn hn' => ?_⟩
    have hi := List.get_mem starts' ⟨n, hn⟩
    have key := h5.2 n hn hn'
    obtain ⟨i, ei⟩ : ∃ i, i = starts'.get ⟨n, hn⟩ := ⟨_, rfl⟩
    rw [← ei] at hi key ⊢
    have h0 := (start_nonneg hst hoff hs hi).2
    push_cast at h0
    have e : (fun x => b (min (i + 0 * x) ((mat.height : ℝ) - 1)) x) = fun x => b i x := by
      funext y
      rw [zero_mul, add_zero, min_eq_left h0.le]
    rw [e] at key
    obtain ⟨seen', s1, s2, s3⟩ := key _ (φ i) w top (hR i hi) (hS i hi) htop (by
      intro c hc n
      obtain ⟨k, hk, rfl⟩ := List.mem_map.1 hc
      exact htie i hi k (List.mem_range.1 hk) n)
    have hd : 0 < w + q * ((r : ℝ) + 1 / 2) := by
      have := (hS i hi).wide
      have : 0 ≤ q * (r : ℝ) := by positivity
      linarith
    have es := seen_filter hd (hS i hi).apart s1 s2
    rw [es, List.forall₂_map_left_iff] at s3
    have e2 : ((List.range K).filter fun k => decide (seen k i)) =
        (List.range K).filter fun k => decide (q * ((r : ℝ) - 1 / 2) < curve k i ∧ curve k i < q * ((mat.width : ℝ) - r - 3 / 2)) := by
      refine List.filter_congr fun k _ => ?_
      rw [decide_eq_decide, hseen]
    rw [e2, List.forall₂_map_right_iff]
    refine s3.imp fun k p h => ⟨?_, ?_, ?_⟩
    · show p.y = i
      rw [h.1]; ring
    · have := h.2.2.1 rfl
      rwa [← hq] at this
    · have := h.2.2.2.1 rfl
      rwa [min_eq_left h0.le] at this
  obtain ⟨lines, ks, g1, g2, g3, g4, g5⟩ := curves_grouped hsort hst.1 hq0 hreach hgr hG hap hco htwo (acc := acc)
  refine ⟨_, swapLines lines, ks, hP, ?_, g2, ?_, g4, ?_⟩
  · rw [C31_vertical, List.map_flatten, g1]
    rfl
  · unfold swapLines
    rw [List.forall₂_map_right_iff]
    refine g3.imp fun k l h => ⟨h.1, h.2.1, ?_⟩
    unfold IsFound
    rw [List.forall₂_map_right_iff]
    exact h.2.2
  · unfold swapLines
    rw [List.pairwise_map]
    refine g5.imp fun {a b} h => ?_
    rw [← meanY_swap, ← meanY_swap, List.map_map, List.map_map]
    have : swapPt ∘ swapPt = id := rfl
    rw [this, List.map_id, List.map_id]
    exact h

open Classical in
/-- If every curve is seen everywhere and each is above the next one, then all of them are found, from top to bottom. -/
theorem all_found {u v : Pt → ℝ} {q acc gap : ℝ} {sub : Bool} {prof : ℝ → ℝ → ℝ} {starts : List ℝ} {K : ℕ} {curve : ℕ → ℝ → ℝ} {seen : ℕ → ℝ → Prop} {lines : List (List Pt)}
    {ks : List ℕ} (hq : 0 < q) (hgap : q ≤ gap) (hacc : acc < 1) (h2 : 2 ≤ starts.length) (hseen : ∀ k < K, ∀ i ∈ starts, seen k i)
    (hord : ∀ k k', k < k' → k' < K → ∀ i ∈ starts, curve k i + gap ≤ curve k' i) (hks : ks.Nodup)
    (hf : List.Forall₂ (fun k l => k < K ∧ 2 ≤ (seenAt starts seen k).length ∧ IsFound u v q sub prof starts curve seen k l) ks lines)
    (hall : ∀ k < K, 2 ≤ (seenAt starts seen k).length →
        (∀ k' < K, acc * (seenAt starts seen k').length < (seenAt starts seen k).length) → k ∈ ks)
    (hmean : lines.Pairwise fun a b => (a.map v).sum / (a.length : ℝ) ≤ (b.map v).sum / (b.length : ℝ)) :
    List.Forall₂ (fun k l => List.Forall₂ (IsPointOf u v q sub prof curve k) starts l) (List.range K) lines := by
  have hsee : ∀ k < K, seenAt starts seen k = starts := by
    intro k hk
    unfold seenAt
    rw [List.filter_eq_self]
    intro i hi
    simpa using hseen k hk i hi
  have hmem : ∀ k, k ∈ ks ↔ k ∈ List.range K := by
    intro k
    rw [List.mem_range]
    constructor
    · intro hk
      obtain ⟨j, hj, rfl⟩ := List.getElem_of_mem hk
      rw [List.forall₂_iff_get] at hf
      exact (hf.2 j hj (by rw [← hf.1]; exact hj)).1
    · intro hk
      refine hall k hk (by rw [hsee k hk]; exact h2) fun k' hk' => ?_
      rw [hsee k hk, hsee k' hk']
      have : (0 : ℝ) < starts.length := by exact_mod_cast (by omega : 0 < starts.length)
      nlinarith
  have hlt : ∀ k k', k < k' → k' < K → ∀ l l', List.Forall₂ (IsPointOf u v q sub prof curve k) starts l →
      List.Forall₂ (IsPointOf u v q sub prof curve k') starts l' →
      (l.map v).sum / (l.length : ℝ) < (l'.map v).sum / (l'.length : ℝ) := by
    intro k k' hkk hk' l l' f1 f2
    have hl : l.length = l'.length := f1.length_eq.symm.trans f2.length_eq
    have hpos : (0 : ℝ) < l.length := by
      rw [← f1.length_eq]
      exact_mod_cast (by omega : 0 < starts.length)
    rw [← hl]
    refine div_lt_div_of_pos_right ?_ hpos
    have hF : List.Forall₂ (fun p p' => v p < v p') l l' := by
      rw [List.forall₂_iff_get] at f1 f2 ⊢
      refine ⟨hl, fun n hn hn' => ?_⟩
      have a1 := (f1.2 n (by rw [f1.1]; exact hn) hn).2.1
      have a2 := (f2.2 n (by rw [f1.1]; exact hn) hn').2.1
      have a3 := hord k k' hkk hk' _ (List.get_mem starts ⟨n, by rw [f1.1]; exact hn⟩)
      rw [abs_lt] at a1 a2
      have : v (l.get ⟨n, hn⟩) * q < v (l'.get ⟨n, hn'⟩) * q := by linarith [a1.2, a2.1]
      exact lt_of_mul_lt_mul_right this hq.le
    have hne : l ≠ [] := by
      rintro rfl
      simp at hpos
    clear f1 f2 hpos hl
    induction hF with
    | nil => exact absurd rfl hne
    | @cons p p' l l' hp hrest ih =>
      rw [List.map_cons, List.map_cons, List.sum_cons, List.sum_cons]
      by_cases hl : l = []
      · subst hl
        cases hrest
        simpa using hp
      · linarith [ih hl]
  have hfr : List.Forall₂ (fun k l => k < K ∧ List.Forall₂ (IsPointOf u v q sub prof curve k) starts l) ks lines := by
    refine hf.imp fun k l h => ⟨h.1, ?_⟩
    have := h.2.2
    unfold IsFound at this
    rwa [hsee k h.1] at this
  have hinc : ks.Pairwise (· < ·) := by
    rw [List.pairwise_iff_getElem] at hmean ⊢
    intro i j hi hj hij
    rw [List.forall₂_iff_get] at hfr
    obtain ⟨b1, c1⟩ := hfr.2 i hi (by rw [← hfr.1]; exact hi)
    obtain ⟨b2, c2⟩ := hfr.2 j hj (by rw [← hfr.1]; exact hj)
    by_contra hcon
    have hne : ks[j] ≠ ks[i] := fun e => by
      have := (List.Nodup.getElem_inj_iff hks).1 e
      omega
    have h' : ks[j] < ks[i] := by omega
    have m1 := hlt _ _ h' b1 _ _ c2 c1
    have m2 := hmean i j (by rw [← hfr.1]; exact hi) (by rw [← hfr.1]; exact hj) hij
    simp only [List.get_eq_getElem] at m1
    linarith
  have : ks = List.range K := increasing_ext hinc List.pairwise_lt_range hmem
  rw [← this]
  exact hfr.imp fun k l h => h.2

/-- **C111 (the whole pattern).** If moreover all lines are seen at all generated columns, of which there are two or more, and the accepted
ratio is below one, then the result is exactly the list of the lines, from top to bottom, each with a point for every column. -/
theorem C111_hor_all (E : Ext) (hpf : PolyfitSpec E.pf) (S : Sampler) (fft filter2 : Mat ℝ → Mat ℝ) (store : ℝ → ℝ) (mat img : Mat ℝ)
    (hf : ∀ m, (fft m).height = m.height ∧ (fft m).width = m.width)
    (hg : ∀ m, (filter2 m).height = m.height ∧ (filter2 m).width = m.width) (hh : 4 ≤ mat.height) (hw0 : 0 < mat.width) (hw : mat.width ≤ 32767)
    (dist ratio offset : ℝ) (hs : 0 < ratio * dist) (bright sub : Bool) (radius : ℤ) (sensitive : ℝ) (hsen : 0 ≤ sensitive)
    (himg : IsCrossImage fft filter2 bright true true mat img) (b : ℝ → ℝ → ℝ) (hb : ShowsCols S img b) (r : ℕ)
    (hr : (r : ℤ) = min (max radius 1) ((mat.height / 4 : ℕ) : ℤ)) (q : ℝ) (hq : q = mat.height / ((mat.height : ℝ) - 1))
    (off : ℤ) (hoff : IsOffset offset (min mat.height mat.width / 3) off) (starts : List ℝ)
    (hst : IsStarts 0 ((mat.width : ℤ) - 1) off (ratio * dist) starts) (h2 : 2 ≤ starts.length)
    (K : ℕ) (hK : 1 ≤ K) (curve : ℕ → ℝ → ℝ) (φ : ℝ → ℝ → ℝ → ℝ) (w top : ℝ)
    (hR : ∀ i ∈ starts, Ridges ((List.range K).map fun k => curve k i) (φ i) w fun y => b y i)
    (hS : ∀ i ∈ starts, SearchableBy q ((List.range K).map fun k => curve k i) (φ i) w sensitive top r)
    (htop : ∀ y x, Spec.InFrame img y x → b y x ≤ top) (htie : ∀ i ∈ starts, ∀ k < K, ∀ n : ℤ, curve k i ≠ q * (n + 1 / 2))
    (hseen : ∀ k < K, ∀ i ∈ starts, q * ((r : ℝ) - 1 / 2) < curve k i ∧ curve k i < q * ((mat.height : ℝ) - r - 3 / 2))
    (argsort : List ℝ → List ℕ) (hsort : ArgsortSpec argsort) (gdist gratio miss acc : ℝ) (hgr : 0 ≤ gratio * gdist)
    (hacc : acc < 1) (hmiss : ratio * dist < miss * gdist)
    (hap : ∀ k k', k < k' → k' < K → ∀ i ∈ starts, ∀ i' ∈ starts, |i' - i| ≤ ratio * dist → curve k i + q * (gratio * gdist + 1) ≤ curve k' i')
    (hco : ∀ k < K, ∀ i ∈ starts, i + ratio * dist ∈ starts → |curve k (i + ratio * dist) - curve k i| ≤ q * (gratio * gdist - 1)) :
    ∃ P lines,
      getCrossPointsHorLines E S fft filter2 store mat 0 dist ratio offset bright true false true sub radius sensitive none = .ok P ∧
      groupDotsHor argsort P 0 gdist gratio miss acc = .ok lines ∧
      List.Forall₂ (fun k l => List.Forall₂ (IsPointOf Pt.x Pt.y q sub (fun i y => b y i) curve k) starts l) (List.range K) lines := by
  classical
  have hh' : (4 : ℝ) ≤ mat.height := by exact_mod_cast hh
  have hq0 : 0 < q := by rw [hq]; exact div_pos (by linarith) (by linarith)
  have hstep : ∀ i ∈ starts, ∀ i' ∈ starts, i < i' → i + ratio * dist ∈ starts ∧ i + ratio * dist ≤ i' := by
    intro i hi i' hi' hlt
    obtain ⟨n, e, l1⟩ := (hst.2 i).1 hi
    obtain ⟨n', e', l2⟩ := (hst.2 i').1 hi'
    have hn : n < n' := by
      by_contra hcon
      have : (n' : ℝ) ≤ n := by exact_mod_cast Nat.le_of_not_lt hcon
      have := mul_le_mul_of_nonneg_right this hs.le
      linarith
    have hn' : (n : ℝ) + 1 ≤ n' := by exact_mod_cast hn
    have := mul_le_mul_of_nonneg_right hn' hs.le
    have hle : i + ratio * dist ≤ i' := by rw [e, e']; linarith
    exact ⟨(hst.2 _).2 ⟨n + 1, by rw [e]; push_cast; ring, by linarith⟩, hle⟩
  obtain ⟨seen, hsee⟩ : ∃ seen : ℕ → ℝ → Prop, seen = fun k i =>
    q * ((r : ℝ) - 1 / 2) < curve k i ∧ curve k i < q * ((mat.height : ℝ) - r - 3 / 2) := ⟨_, rfl⟩
  have hse : ∀ k < K, ∀ i ∈ starts, seen k i := fun k hk i hi => by rw [hsee]; exact hseen k hk i hi
  have hlen : ∀ k < K, seenAt starts seen k = starts := by
    intro k hk
    unfold seenAt
    rw [List.filter_eq_self]
    intro i hi
    simpa using hse k hk i hi
  obtain ⟨P, lines, ks, r1, r2, r3, r4, r5, r6⟩ := C111_hor E hpf S fft filter2 store mat img hf hg hh hw0 hw dist ratio offset hs bright sub radius
    sensitive hsen himg b hb r hr q hq off hoff starts hst K curve φ w top hR hS htop htie seen (fun k i => by rw [hsee]) argsort hsort gdist gratio
    miss acc (by linarith) hgr (by
      intro k hk k' hk' hne i hi i' hi' _ _ hle hreach
      by_cases hcl : i' - i ≤ ratio * dist
      · left
        have hab : |i' - i| ≤ ratio * dist := by rw [abs_of_nonneg (by linarith)]; exact hcl
        rcases Nat.lt_or_ge k k' with h | h
        · have := hap k k' h hk' i hi i' hi' hab
          rw [abs_sub_comm]
          exact (by linarith : q * (gratio * gdist + 1) ≤ curve k' i' - curve k i).trans (le_abs_self _)
        · have := hap k' k (by omega) hk i' hi' i hi (by rw [abs_sub_comm]; exact hab)
          exact (by linarith : q * (gratio * gdist + 1) ≤ curve k i - curve k' i').trans (le_abs_self _)
      · right
        push Not at hcl
        exact ⟨i + ratio * dist, (hstep i hi i' hi' (by linarith)).1, by linarith, by linarith, hse k hk _ (hstep i hi i' hi' (by linarith)).1⟩)
    (by
      intro k hk i hi i' hi' _ _ hlt hno
      obtain ⟨m, hle⟩ := hstep i hi i' hi' hlt
      have e : i' = i + ratio * dist := by
        by_contra hne
        exact hno _ m (hse k hk _ m) ⟨by linarith, lt_of_le_of_ne hle (Ne.symm hne)⟩
      rw [e]
      exact ⟨by linarith, hco k hk i hi m⟩)
    ⟨0, hK, by rw [hlen 0 hK]; exact h2⟩
  refine ⟨P, lines, r1, r2, all_found hq0 (gap := q * (gratio * gdist + 1)) (by nlinarith) hacc h2 hse ?_ r3 r4 r5 r6⟩
  intro k k' hkk hk' i hi
  exact hap k k' hkk hk' i hi i hi (by rw [sub_self, abs_zero]; exact hs.le)

/-- **C111 (the whole pattern, vertical lines).** The same for vertical lines, from left to right. -/
theorem C111_ver_all (E : Ext) (hpf : PolyfitSpec E.pf) (S : Sampler) (fft filter2 : Mat ℝ → Mat ℝ) (store : ℝ → ℝ) (mat img : Mat ℝ)
    (hf : ∀ m, (fft m).height = m.height ∧ (fft m).width = m.width)
    (hg : ∀ m, (filter2 m).height = m.height ∧ (filter2 m).width = m.width) (hw : 4 ≤ mat.width) (hh0 : 0 < mat.height) (hh : mat.height ≤ 32767)
    (dist ratio offset : ℝ) (hs : 0 < ratio * dist) (bright sub : Bool) (radius : ℤ) (sensitive : ℝ) (hsen : 0 ≤ sensitive)
    (himg : IsCrossImage fft filter2 bright true true mat img) (b : ℝ → ℝ → ℝ) (hb : ShowsRows S img b) (r : ℕ)
    (hr : (r : ℤ) = min (max radius 1) ((mat.width / 4 : ℕ) : ℤ)) (q : ℝ) (hq : q = mat.width / ((mat.width : ℝ) - 1))
    (off : ℤ) (hoff : IsOffset offset (min mat.height mat.width / 8) off) (starts : List ℝ)
    (hst : IsStarts 0 ((mat.height : ℤ) - 1) off (ratio * dist) starts) (h2 : 2 ≤ starts.length)
    (K : ℕ) (hK : 1 ≤ K) (curve : ℕ → ℝ → ℝ) (φ : ℝ → ℝ → ℝ → ℝ) (w top : ℝ)
    (hR : ∀ i ∈ starts, Ridges ((List.range K).map fun k => curve k i) (φ i) w fun x => b i x)
    (hS : ∀ i ∈ starts, SearchableBy q ((List.range K).map fun k => curve k i) (φ i) w sensitive top r)
    (htop : ∀ y x, Spec.InFrame img y x → b y x ≤ top) (htie : ∀ i ∈ starts, ∀ k < K, ∀ n : ℤ, curve k i ≠ q * (n + 1 / 2))
    (hseen : ∀ k < K, ∀ i ∈ starts, q * ((r : ℝ) - 1 / 2) < curve k i ∧ curve k i < q * ((mat.width : ℝ) - r - 3 / 2))
    (argsort : List ℝ → List ℕ) (hsort : ArgsortSpec argsort) (gdist gratio miss acc : ℝ) (hgr : 0 ≤ gratio * gdist)
    (hacc : acc < 1) (hmiss : ratio * dist < miss * gdist)
    (hap : ∀ k k', k < k' → k' < K → ∀ i ∈ starts, ∀ i' ∈ starts, |i' - i| ≤ ratio * dist → curve k i + q * (gratio * gdist + 1) ≤ curve k' i')
    (hco : ∀ k < K, ∀ i ∈ starts, i + ratio * dist ∈ starts → |curve k (i + ratio * dist) - curve k i| ≤ q * (gratio * gdist - 1)) :
    ∃ P lines,
      getCrossPointsVerLines E S fft filter2 store mat 0 dist ratio offset bright true false true sub radius sensitive none = .ok P ∧
      groupDotsVer argsort P 0 gdist gratio miss acc = .ok lines ∧
      List.Forall₂ (fun k l => List.Forall₂ (IsPointOf Pt.y Pt.x q sub (fun i x => b i x) curve k) starts l) (List.range K) lines := by
  classical
  have hh' : (4 : ℝ) ≤ mat.width := by exact_mod_cast hw
  have hq0 : 0 < q := by rw [hq]; exact div_pos (by linarith) (by linarith)
  have hstep : ∀ i ∈ starts, ∀ i' ∈ starts, i < i' → i + ratio * dist ∈ starts ∧ i + ratio * dist ≤ i' := by
    intro i hi i' hi' hlt
    obtain ⟨n, e, l1⟩ := (hst.2 i).1 hi
    obtain ⟨n', e', l2⟩ := (hst.2 i').1 hi'
    have hn : n < n' := by
      by_contra hcon
      have : (n' : ℝ) ≤ n := by exact_mod_cast Nat.le_of_not_lt hcon
      have := mul_le_mul_of_nonneg_right this hs.le
      linarith
    have hn' : (n : ℝ) + 1 ≤ n' := by exact_mod_cast hn
    have := mul_le_mul_of_nonneg_right hn' hs.le
    have hle : i + ratio * dist ≤ i' := by rw [e, e']; linarith
    exact ⟨(hst.2 _).2 ⟨n + 1, by rw [e]; push_cast; ring, by linarith⟩, hle⟩
  obtain ⟨seen, hsee⟩ : ∃ seen : ℕ → ℝ → Prop, seen = fun k i =>
    q * ((r : ℝ) - 1 / 2) < curve k i ∧ curve k i < q * ((mat.width : ℝ) - r - 3 / 2) := ⟨_, rfl⟩
  have hse : ∀ k < K, ∀ i ∈ starts, seen k i := fun k hk i hi => by rw [hsee]; exact hseen k hk i hi
  have hlen : ∀ k < K, seenAt starts seen k = starts := by
    intro k hk
    unfold seenAt
    rw [List.filter_eq_self]
    intro i hi
    simpa using hse k hk i hi
  obtain ⟨P, lines, ks, r1, r2, r3, r4, r5, r6⟩ := C111_ver E hpf S fft filter2 store mat img hf hg hw hh0 hh dist ratio offset hs bright sub radius
    sensitive hsen himg b hb r hr q hq off hoff starts hst K curve φ w top hR hS htop htie seen (fun k i => by rw [hsee]) argsort hsort gdist gratio
    miss acc (by linarith) hgr (by
      intro k hk k' hk' hne i hi i' hi' _ _ hle hreach
      by_cases hcl : i' - i ≤ ratio * dist
      · left
        have hab : |i' - i| ≤ ratio * dist := by rw [abs_of_nonneg (by linarith)]; exact hcl
        rcases Nat.lt_or_ge k k' with h | h
        · have := hap k k' h hk' i hi i' hi' hab
          rw [abs_sub_comm]
          exact (by linarith : q * (gratio * gdist + 1) ≤ curve k' i' - curve k i).trans (le_abs_self _)
        · have := hap k' k (by omega) hk i' hi' i hi (by rw [abs_sub_comm]; exact hab)
          exact (by linarith : q * (gratio * gdist + 1) ≤ curve k i - curve k' i').trans (le_abs_self _)
      · right
        push Not at hcl
        exact ⟨i + ratio * dist, (hstep i hi i' hi' (by linarith)).1, by linarith, by linarith, hse k hk _ (hstep i hi i' hi' (by linarith)).1⟩)
    (by
      intro k hk i hi i' hi' _ _ hlt hno
      obtain ⟨m, hle⟩ := hstep i hi i' hi' hlt
      have e : i' = i + ratio * dist := by
        by_contra hne
        exact hno _ m (hse k hk _ m) ⟨by linarith, lt_of_le_of_ne hle (Ne.symm hne)⟩
      rw [e]
      exact ⟨by linarith, hco k hk i hi m⟩)
    ⟨0, hK, by rw [hlen 0 hK]; exact h2⟩
  refine ⟨P, lines, r1, r2, all_found hq0 (gap := q * (gratio * gdist + 1)) (by nlinarith) hacc h2 hse ?_ r3 r4 r5 r6⟩
  intro k k' hkk hk' i hi
  exact hap k k' hkk hk' i hi i hi (by rw [sub_self, abs_zero]; exact hs.le)

/-- An image of 40 by 40 pixels with triangular lines at the rows 10 and 22, and the settings `radius=7, sensitive=0.1, ratio=0.3` of the search
and `ratio=0.3, num_dot_miss=6, accepted_ratio=0.65` of the grouping: both lines are recovered, with equally many points. -/
example (E : Ext) (hpf : PolyfitSpec E.pf) (B : Boundary) (store : ℝ → ℝ) (argsort : List ℝ → List ℕ) (hsort : ArgsortSpec argsort) :
    ∃ P l l', getCrossPointsHorLines E (linearInterp B) id id store ⟨40, 40, fun i _ => tents 2 [10, 22] i⟩ 0 12 0.3 5 false true false true
        true 7 0.1 none = .ok P ∧ groupDotsHor argsort P 0 12 0.3 6 0.65 = .ok [l, l'] ∧ l.length = l'.length ∧ 2 ≤ l.length ∧
      (∀ p ∈ l, |p.y * (40 / 39) - 10| < 20 / 39) ∧ ∀ p ∈ l', |p.y * (40 / 39) - 22| < 20 / 39 := by
  have hlist : ([10, 22] : List ℕ).map (fun c : ℕ => (c : ℝ)) = [10, 22] := by simp
  have hshow := tents_cols B 2 [10, 22] 40 40
  rw [hlist] at hshow
  push_cast at hshow
  have ha : PlacesApart [(10 : ℝ), 22] (2 * 2) := by simp [PlacesApart]; norm_num
  obtain ⟨starts, hst⟩ : ∃ starts, IsStarts 0 (((40 : ℕ) : ℤ) - 1) 5 (0.3 * 12) starts := ⟨_, starts_spec (by norm_num)⟩
  have h2 : 2 ≤ starts.length := by
    have m1 := (hst.2 5).2 ⟨0, by norm_num, by norm_num⟩
    have m2 := (hst.2 (5 + 0.3 * 12)).2 ⟨1, by norm_num, by norm_num⟩
    have : [(5 : ℝ), 5 + 0.3 * 12].Subperm starts := List.subperm_of_subset (by simp; norm_num) (by
      intro x hx
      simp only [List.mem_cons, List.not_mem_nil, or_false] at hx
      rcases hx with rfl | rfl
      · exact m1
      · exact m2)
    exact this.length_le
  have hmap : ((List.range 2).map fun k : ℕ => (if k = 0 then (10 : ℝ) else 22)) = [10, 22] := by simp [List.range_succ]
  obtain ⟨P, lines, r1, r2, r3⟩ := C111_hor_all E hpf (linearInterp B) id id store ⟨40, 40, fun i _ => tents 2 [10, 22] i⟩
    ⟨40, 40, fun i _ => tents 2 [10, 22] i⟩ (fun _ => ⟨rfl, rfl⟩) (fun _ => ⟨rfl, rfl⟩) (by norm_num) (by norm_num) (by norm_num) 12 0.3 5
    (by norm_num) false true 7 0.1 (by norm_num) ⟨_, fun _ => rfl, fun h => absurd h (by simp), _, rfl, rfl⟩ _ hshow 7 (by simp)
    (40 / 39) (by norm_num) 5 (by unfold IsOffset; symm; rw [Int.floor_eq_iff]; norm_num) starts hst h2 2 (by norm_num)
    (fun k _ => if k = 0 then 10 else 22) (fun _ _ d => 2 - d) 2 2 (fun i _ => by rw [hmap]; exact tents_ridges ha)
    (fun i _ => by
      rw [hmap]
      exact ⟨by norm_num, by norm_num, by simp [PlacesApart]; norm_num, by simp; norm_num⟩)
    (fun y x _ => tent_le (by norm_num) ha y)
    (by
      intro i _ k _ n hn
      split_ifs at hn
      · have : (780 : ℤ) = 80 * n + 40 := by exact_mod_cast (by linarith : (780 : ℝ) = 80 * n + 40)
        omega
      · have : (1716 : ℤ) = 80 * n + 40 := by exact_mod_cast (by linarith : (1716 : ℝ) = 80 * n + 40)
        omega)
    (by
      intro k _ i _
      split_ifs <;> norm_num)
    argsort hsort 12 0.3 6 0.65 (by norm_num) (by norm_num) (by norm_num)
    (by
      intro k k' hk hk' i _ i' _ _
      rw [if_pos (by omega), if_neg (by omega)]
      norm_num)
    (by
      intro k _ i _ _
      split_ifs <;> norm_num)
  rw [show List.range 2 = [0, 1] from rfl] at r3
  obtain ⟨l, tl, c1, c2, rfl⟩ := List.forall₂_cons_left_iff.1 r3
  obtain ⟨l', tl', c3, c4, rfl⟩ := List.forall₂_cons_left_iff.1 c2
  rw [List.forall₂_nil_left_iff] at c4
  subst c4
  have hall : ∀ {c : ℝ} {l : List Pt}, List.Forall₂ (fun i p => p.x = i ∧ |p.y * (40 / 39) - c| < 40 / 39 / 2) starts l →
      ∀ p ∈ l, |p.y * (40 / 39) - c| < 20 / 39 := by
    intro c l hl p hp
    obtain ⟨j, hj, rfl⟩ := List.getElem_of_mem hp
    rw [List.forall₂_iff_get] at hl
    have := (hl.2 j (by rw [hl.1]; exact hj) hj).2
    rw [show (40 : ℝ) / 39 / 2 = 20 / 39 by norm_num] at this
    exact this
  refine ⟨P, l, l', r1, r2, c1.length_eq.symm.trans c3.length_eq, ?_, hall ?_, hall ?_⟩
  · rw [← c1.length_eq]; exact h2
  · simpa using c1.imp fun _ _ h => ⟨h.1, h.2.1⟩
  · simpa using c3.imp fun _ _ h => ⟨h.1, h.2.1⟩

end Discorpy
