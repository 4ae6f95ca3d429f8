import Verif.Model.LineScript
import Verif.Props.C111
import Verif.Props.C32
import Verif.Props.C72
import Verif.Props.C105
import Verif.Props.C109

/-! # C112: the calibration scripts for line patterns and chessboards -/

namespace Discorpy
open Spec

/-! ## Lines that are straight stay exactly straight -/

/-- Points found on scan lines that all show the same profile are at the same place of each. -/
theorem straight_found {u v : Pt → ℝ} (mk : ℝ → ℝ → Pt) (hmk : ∀ p, p = mk (v p) (u p)) {q : ℝ} (hq : 0 < q) {sub : Bool} {prof : ℝ → ℝ → ℝ}
    {starts : List ℝ} {K : ℕ} {cs : ℕ → ℝ} {h : ℝ → ℝ} (hs : ∀ i ∈ starts, prof i = h) (hne : starts ≠ []) {lines : List (List Pt)}
    (hf : List.Forall₂ (fun k l => List.Forall₂ (IsPointOf u v q sub prof (fun k _ => cs k) k) starts l) (List.range K) lines) :
    ∃ ys : ℕ → ℝ, (∀ k < K, |ys k * q - cs k| < q / 2) ∧ lines = (List.range K).map fun k => starts.map fun i => mk (ys k) i := by
  obtain ⟨i0, hi0⟩ := List.exists_mem_of_ne_nil _ hne
  have key : ∀ k < K, ∃ y, |y * q - cs k| < q / 2 ∧ ∀ i ∈ starts, ∀ p, IsPointOf u v q sub prof (fun k _ => cs k) k i p → p = mk y i := by
    intro k hk
    have h1 := hf
    rw [List.forall₂_iff_get] at h1
    have h2 := h1.2 k (by simpa using hk) (by rw [← h1.1]; simpa using hk)
    rw [List.forall₂_iff_get] at h2
    obtain ⟨m, hm, em⟩ := List.getElem_of_mem hi0
    obtain ⟨_, a1, n, a2, a3⟩ := h2.2 m hm (by rw [← h2.1]; exact hm)
    simp only [List.get_eq_getElem, List.getElem_range, em] at a1 a2 a3
    refine ⟨_, a1, fun i hi p hp => ?_⟩
    obtain ⟨b0, _, n', b2, b3⟩ := hp
    rw [hs _ hi0] at a3
    rw [hs _ hi] at b3
    have hn : n = n' := by
      rw [abs_lt] at a2 b2
      have e1 : q * (n : ℝ) < q * ((n' : ℝ) + 1) := by linarith [a2.2, b2.1]
      have e2 : q * (n' : ℝ) < q * ((n : ℝ) + 1) := by linarith [a2.1, b2.2]
      have e1 := lt_of_mul_lt_mul_left e1 hq.le
      have e2 := lt_of_mul_lt_mul_left e2 hq.le
      have e1 : n < n' + 1 := by exact_mod_cast e1
      have e2 : n' < n + 1 := by exact_mod_cast e2
      omega
    subst hn
    rw [hmk p, b3, b0, a3]
  choose! ys h1 h2 using key
  refine ⟨ys, h1, ?_⟩
  have : List.Forall₂ (fun k l => l = starts.map fun i => mk (ys k) i) (List.range K) lines := by
    rw [List.forall₂_iff_get] at hf ⊢
    refine ⟨hf.1, fun n hn hn' => ?_⟩
    have hk : n < K := by simpa using hn
    have a := hf.2 n hn hn'
    simp only [List.get_eq_getElem, List.getElem_range] at a ⊢
    have hb : List.Forall₂ (fun i p => p = mk (ys n) i) starts lines[n] := by
      rw [List.forall₂_iff_get] at a ⊢
      exact ⟨a.1, fun m hm hm' => h2 n hk _ (List.get_mem _ _) _ (a.2 m hm hm')⟩
    have := List.forall₂_map_left_iff (R := fun a b => a = b) (f := fun i => mk (ys n) i) (l := starts) (u := lines[n])
    have := this.2 (hb.imp fun _ _ e => e.symm)
    rw [List.forall₂_eq_eq_eq] at this
    exact this.symm
  have h3 := (List.forall₂_map_left_iff (R := fun a b => a = b) (f := fun k => starts.map fun i => mk (ys k) i)).2 (this.imp fun _ _ e => e.symm)
  rw [List.forall₂_eq_eq_eq] at h3
  exact h3.symm

/-- **C112 (straight lines, horizontal).** Horizontal lines that are straight are returned as points of exactly equal height. -/
theorem C112_hor_straight (E : Ext) (hpf : PolyfitSpec E.pf) (S : Sampler) (fft filter2 : Mat ℝ → Mat ℝ) (store : ℝ → ℝ) (mat img : Mat ℝ)
    (hf : ∀ m, (fft m).height = m.height ∧ (fft m).width = m.width)
    (hg : ∀ m, (filter2 m).height = m.height ∧ (filter2 m).width = m.width) (hh : 4 ≤ mat.height) (hw0 : 0 < mat.width) (hw : mat.width ≤ 32767)
    (dist ratio offset : ℝ) (hs : 0 < ratio * dist) (bright sub : Bool) (radius : ℤ) (sensitive : ℝ) (hsen : 0 ≤ sensitive)
    (himg : IsCrossImage fft filter2 bright true true mat img) (b : ℝ → ℝ → ℝ) (hb : ShowsCols S img b) (r : ℕ)
    (hr : (r : ℤ) = min (max radius 1) ((mat.height / 4 : ℕ) : ℤ)) (q : ℝ) (hq : q = mat.height / ((mat.height : ℝ) - 1))
    (off : ℤ) (hoff : IsOffset offset (min mat.height mat.width / 3) off) (starts : List ℝ)
    (hst : IsStarts 0 ((mat.width : ℤ) - 1) off (ratio * dist) starts) (h2 : 2 ≤ starts.length)
    (K : ℕ) (hK : 1 ≤ K) (cs : ℕ → ℝ) (h : ℝ → ℝ) (φ : ℝ → ℝ → ℝ) (w top : ℝ) (htop : ∀ y x, Spec.InFrame img y x → b y x ≤ top)
    (hL : StraightLines (fun i y => b y i) starts mat.height q r sensitive top K cs h φ w)
    (argsort : List ℝ → List ℕ) (hsort : ArgsortSpec argsort) (gdist gratio miss acc : ℝ)
    (hacc : acc < 1) (hmiss : ratio * dist < miss * gdist) (hap : LinesApart q (gratio * gdist) K cs) :
    ∃ (P : List Pt) (ys : ℕ → ℝ), getCrossPointsHorLines E S fft filter2 store mat 0 dist ratio offset bright true false true sub radius sensitive none = .ok P ∧
      (∀ k < K, |ys k * q - cs k| < q / 2) ∧
      groupDotsHor argsort P 0 gdist gratio miss acc = .ok ((List.range K).map fun k => starts.map fun i => ⟨ys k, i⟩) := by
  have hh' : (4 : ℝ) ≤ mat.height := by exact_mod_cast hh
  have hq0 : 0 < q := by rw [hq]; exact div_pos (by linarith) (by linarith)
  obtain ⟨P, lines, r1, r2, r3⟩ := C111_hor_all E hpf S fft filter2 store mat img hf hg hh hw0 hw dist ratio offset hs bright sub radius sensitive
    hsen himg b hb r hr q hq off hoff starts hst h2 K hK (fun k _ => cs k) (fun _ => φ) w top
    (fun i hi => by rw [show (fun y => b y i) = h from hL.same i hi]; exact hL.ridges) (fun _ _ => hL.search) htop
    (fun _ _ k hk n => hL.tie k hk n) (fun k hk _ _ => hL.seen k hk) argsort hsort gdist gratio miss acc (by linarith [hap.1]) hacc hmiss
    (fun k k' hkk hk' _ _ _ _ _ => hap.2 k k' hkk hk') (fun k _ i _ _ => by
      rw [sub_self, abs_zero]
      exact mul_nonneg hq0.le (by linarith [hap.1]))
  obtain ⟨ys, y1, rfl⟩ := straight_found (u := Pt.x) (v := Pt.y) (fun a b => ⟨a, b⟩) (fun _ => rfl) hq0 hL.same
    (by rintro rfl; simp at h2) r3
  exact ⟨P, ys, r1, y1, r2⟩

/-- **C112 (straight lines, vertical).** The same for vertical lines. -/
theorem C112_ver_straight (E : Ext) (hpf : PolyfitSpec E.pf) (S : Sampler) (fft filter2 : Mat ℝ → Mat ℝ) (store : ℝ → ℝ) (mat img : Mat ℝ)
    (hf : ∀ m, (fft m).height = m.height ∧ (fft m).width = m.width)
    (hg : ∀ m, (filter2 m).height = m.height ∧ (filter2 m).width = m.width) (hw : 4 ≤ mat.width) (hh0 : 0 < mat.height) (hh : mat.height ≤ 32767)
    (dist ratio offset : ℝ) (hs : 0 < ratio * dist) (bright sub : Bool) (radius : ℤ) (sensitive : ℝ) (hsen : 0 ≤ sensitive)
    (himg : IsCrossImage fft filter2 bright true true mat img) (b : ℝ → ℝ → ℝ) (hb : ShowsRows S img b) (r : ℕ)
    (hr : (r : ℤ) = min (max radius 1) ((mat.width / 4 : ℕ) : ℤ)) (q : ℝ) (hq : q = mat.width / ((mat.width : ℝ) - 1))
    (off : ℤ) (hoff : IsOffset offset (min mat.height mat.width / 8) off) (starts : List ℝ)
    (hst : IsStarts 0 ((mat.height : ℤ) - 1) off (ratio * dist) starts) (h2 : 2 ≤ starts.length)
    (K : ℕ) (hK : 1 ≤ K) (cs : ℕ → ℝ) (h : ℝ → ℝ) (φ : ℝ → ℝ → ℝ) (w top : ℝ) (htop : ∀ y x, Spec.InFrame img y x → b y x ≤ top)
    (hL : StraightLines (fun i x => b i x) starts mat.width q r sensitive top K cs h φ w)
    (argsort : List ℝ → List ℕ) (hsort : ArgsortSpec argsort) (gdist gratio miss acc : ℝ)
    (hacc : acc < 1) (hmiss : ratio * dist < miss * gdist) (hap : LinesApart q (gratio * gdist) K cs) :
    ∃ (P : List Pt) (xs : ℕ → ℝ), getCrossPointsVerLines E S fft filter2 store mat 0 dist ratio offset bright true false true sub radius sensitive none = .ok P ∧
      (∀ k < K, |xs k * q - cs k| < q / 2) ∧
      groupDotsVer argsort P 0 gdist gratio miss acc = .ok ((List.range K).map fun k => starts.map fun i => ⟨i, xs k⟩) := by
  have hh' : (4 : ℝ) ≤ mat.width := by exact_mod_cast hw
  have hq0 : 0 < q := by rw [hq]; exact div_pos (by linarith) (by linarith)
  obtain ⟨P, lines, r1, r2, r3⟩ := C111_ver_all E hpf S fft filter2 store mat img hf hg hw hh0 hh dist ratio offset hs bright sub radius sensitive
    hsen himg b hb r hr q hq off hoff starts hst h2 K hK (fun k _ => cs k) (fun _ => φ) w top
    (fun i hi => by rw [show (fun x => b i x) = h from hL.same i hi]; exact hL.ridges) (fun _ _ => hL.search) htop
    (fun _ _ k hk n => hL.tie k hk n) (fun k hk _ _ => hL.seen k hk) argsort hsort gdist gratio miss acc (by linarith [hap.1]) hacc hmiss
    (fun k k' hkk hk' _ _ _ _ _ => hap.2 k k' hkk hk') (fun k _ i _ _ => by
      rw [sub_self, abs_zero]
      exact mul_nonneg hq0.le (by linarith [hap.1]))
  obtain ⟨ys, y1, rfl⟩ := straight_found (u := Pt.y) (v := Pt.x) (fun a b => ⟨b, a⟩) (fun _ => rfl) hq0 hL.same
    (by rintro rfl; simp at h2) r3
  exact ⟨P, ys, r1, y1, r2⟩

/-- What is assumed of an image that shows a grid of straight lines parallel to its edges, for the settings of a script: on the columns and rows that
are searched the lines are distinct enough for the radius, and apart enough for the grouping; three columns and rows are searched, and two lines are
seen, at least. -/
structure ShowsStraightGrid (lib : Libs) (ext : LineLibs) (o : LineOpts) (mat : Mat ℝ) (distHor distVer : ℝ) (K L : ℕ) (rows cols : ℕ → ℝ)
    (colsUsed rowsUsed : List ℝ) : Prop where
  height : 4 ≤ mat.height ∧ mat.height ≤ 32767
  width : 4 ≤ mat.width ∧ mat.width ≤ 32767
  steps : 0 < o.ratio * distHor ∧ 0 < o.ratio * distVer
  miss : o.ratio * distVer < o.miss * distHor ∧ o.ratio * distHor < o.miss * distVer
  accepted : o.acceptedHor < 1 ∧ o.acceptedVer < 1
  sensitive : 0 ≤ o.sensitive
  lines : 2 ≤ K ∧ 2 ≤ L
  used : 3 ≤ colsUsed.length ∧ 3 ≤ rowsUsed.length
  colsStarts : ∃ off, IsOffset o.offsetHor (min mat.height mat.width / 3) off ∧
    IsStarts 0 ((mat.width : ℤ) - 1) off (o.ratio * distVer) colsUsed
  rowsStarts : ∃ off, IsOffset o.offsetVer (min mat.height mat.width / 8) off ∧
    IsStarts 0 ((mat.height : ℤ) - 1) off (o.ratio * distHor) rowsUsed
  shows : ∃ img b top, IsCrossImage ext.fft5 ext.filter2 true true true mat img ∧ ShowsCols lib.sample img b ∧ ShowsRows lib.sample img b ∧
    (∀ y x, Spec.InFrame img y x → b y x ≤ top) ∧
    (∃ (r : ℕ) (h : ℝ → ℝ) (φ : ℝ → ℝ → ℝ) (w : ℝ), (r : ℤ) = min (max o.radius 1) ((mat.height / 4 : ℕ) : ℤ) ∧
      StraightLines (fun i y => b y i) colsUsed mat.height (mat.height / ((mat.height : ℝ) - 1)) r o.sensitive top K rows h φ w) ∧
    (∃ (r : ℕ) (h : ℝ → ℝ) (φ : ℝ → ℝ → ℝ) (w : ℝ), (r : ℤ) = min (max o.radius 1) ((mat.width / 4 : ℕ) : ℤ) ∧
      StraightLines (fun i x => b i x) rowsUsed mat.width (mat.width / ((mat.width : ℝ) - 1)) r o.sensitive top L cols h φ w)
  rowsApart : LinesApart (mat.height / ((mat.height : ℝ) - 1)) (o.groupRatio * distHor) K rows
  colsApart : LinesApart (mat.width / ((mat.width : ℝ) - 1)) (o.groupRatio * distVer) L cols

theorem groupDotsHor_ne {argsort : List ℝ → List ℕ} {P : List Pt} {a b c d e : ℝ} {l : List (List Pt)} (h : groupDotsHor argsort P a b c d e = .ok l) :
    P ≠ [] := by
  rintro rfl
  simp [groupDotsHor] at h

theorem groupDotsVer_ne {argsort : List ℝ → List ℕ} {P : List Pt} {a b c d e : ℝ} {l : List (List Pt)} (h : groupDotsVer argsort P a b c d e = .ok l) :
    P ≠ [] := by
  rintro rfl
  simp [groupDotsVer] at h

/-- Three or more scan lines give points at three different places. -/
theorem three_places {starts : List ℝ} (hi : starts.Pairwise (· < ·)) (h3 : 3 ≤ starts.length) :
    ∃ a ∈ starts, ∃ b ∈ starts, ∃ c ∈ starts, a ≠ b ∧ a ≠ c ∧ b ≠ c := by
  match starts, h3 with
  | a :: b :: c :: l, _ =>
    simp only [List.pairwise_cons] at hi
    exact ⟨a, by simp, b, by simp, c, by simp, (hi.1 b (by simp)).ne, (hi.1 c (by simp)).ne, (hi.2.1 c (by simp)).ne⟩

/-- **C112 (the lines of a straight grid).** The scripts find exactly the lines of a straight grid, as points of exactly equal height or equal
horizontal position. -/
theorem C112_grid (lib : Libs) (hpf : PolyfitSpec lib.polyfit) (hsort : ArgsortSpec lib.argsort) (ext : LineLibs)
    (hf : ∀ m, (ext.fft5 m).height = m.height ∧ (ext.fft5 m).width = m.width)
    (hg : ∀ m, (ext.filter2 m).height = m.height ∧ (ext.filter2 m).width = m.width) (o : LineOpts) (mat : Mat ℝ) (distHor distVer : ℝ) (K L : ℕ)
    (rows cols : ℕ → ℝ) (colsUsed rowsUsed : List ℝ) (H : ShowsStraightGrid lib ext o mat distHor distVer K L rows cols colsUsed rowsUsed) :
    ∃ (pts : List Pt × List Pt) (ys xs : ℕ → ℝ), linePoints lib ext o mat 0 distHor 0 distVer = .ok pts ∧
      (∀ k < K, |ys k * (mat.height / ((mat.height : ℝ) - 1)) - rows k| < mat.height / ((mat.height : ℝ) - 1) / 2) ∧
      (∀ k < L, |xs k * (mat.width / ((mat.width : ℝ) - 1)) - cols k| < mat.width / ((mat.width : ℝ) - 1) / 2) ∧
      lineGroups lib o 0 distHor 0 distVer pts = .ok ((List.range K).map fun k => colsUsed.map fun i => ⟨ys k, i⟩,
        (List.range L).map fun k => rowsUsed.map fun i => ⟨i, xs k⟩) := by
  obtain ⟨off, ho, hst⟩ := H.colsStarts
  obtain ⟨off', ho', hst'⟩ := H.rowsStarts
  obtain ⟨img, b, top, c1, c2, c3, c4, ⟨r, h, φ, w, hr, hL⟩, ⟨r', h', φ', w', hr', hL'⟩⟩ := H.shows
  obtain ⟨P, ys, p1, p2, p3⟩ := C112_hor_straight ⟨lib.polyfit, lib.argsort, ext.gaussFilter, ext.gaussFit⟩ hpf lib.sample ext.fft5 ext.filter2
    lib.float32 mat img hf hg H.height.1 (by have := H.width.1; omega) H.width.2 distVer o.ratio o.offsetHor H.steps.2 true true o.radius
    o.sensitive H.sensitive c1 b c2 r hr _ rfl off ho colsUsed hst (by have := H.used.1; omega) K (by have := H.lines.1; omega) rows h φ w top c4 hL
    lib.argsort hsort distHor o.groupRatio o.miss o.acceptedHor H.accepted.1 H.miss.1 H.rowsApart
  obtain ⟨P', xs, p1', p2', p3'⟩ := C112_ver_straight ⟨lib.polyfit, lib.argsort, ext.gaussFilter, ext.gaussFit⟩ hpf lib.sample ext.fft5 ext.filter2
    lib.float32 mat img hf hg H.width.1 (by have := H.height.1; omega) H.height.2 distHor o.ratio o.offsetVer H.steps.1 true true o.radius
    o.sensitive H.sensitive c1 b c3 r' hr' _ rfl off' ho' rowsUsed hst' (by have := H.used.2; omega) L (by have := H.lines.2; omega) cols h' φ' w' top c4
    hL' lib.argsort hsort distVer o.groupRatio o.miss o.acceptedVer H.accepted.2 H.miss.2 H.colsApart
  have hne : colsUsed ≠ [] := by rintro rfl; have := H.used.1; simp at this
  have hne' : rowsUsed ≠ [] := by rintro rfl; have := H.used.2; simp at this
  have hK : List.range K ≠ [] := by have := H.lines.1; simp; omega
  have hLr : List.range L ≠ [] := by have := H.lines.2; simp; omega
  refine ⟨(P, P'), ys, xs, ?_, p2, p2', ?_⟩
  · unfold linePoints
    simp only [p1, p1', ok_bind]
    rw [if_neg]
    have e1 := groupDotsHor_ne p3
    have e2 := groupDotsVer_ne p3'
    simp [e1, e2]
  · unfold lineGroups
    simp only [p3, p3', ok_bind]
    rw [C32_exact lib.polyfit hpf _ (by simpa using hK) (by
        intro l hl
        obtain ⟨k, _, rfl⟩ := List.mem_map.1 hl
        simpa using hne) 0 2.0 (by norm_num) (by
        intro l hl
        obtain ⟨k, _, rfl⟩ := List.mem_map.1 hl
        refine ⟨0, 0, ys k, fun p hp => ?_⟩
        obtain ⟨i, _, rfl⟩ := List.mem_map.1 hp
        simp), ok_bind, C32_vertical, C32_exact lib.polyfit hpf _ (by simpa [swapLines] using hLr) (by
        intro l hl
        obtain ⟨l', hl', rfl⟩ := List.mem_map.1 hl
        obtain ⟨k, _, rfl⟩ := List.mem_map.1 hl'
        simpa using hne') 0 2.0 (by norm_num) (by
        intro l hl
        obtain ⟨l', hl', rfl⟩ := List.mem_map.1 hl
        obtain ⟨k, _, rfl⟩ := List.mem_map.1 hl'
        refine ⟨0, 0, xs k, fun p hp => ?_⟩
        obtain ⟨p', hp', rfl⟩ := List.mem_map.1 hp
        obtain ⟨i, _, rfl⟩ := List.mem_map.1 hp'
        simp [swapPt])]
    show Except.ok (_, swapLines (swapLines _)) = _
    congr 2
    unfold swapLines
    rw [List.map_map, List.map_map]
    refine List.map_congr_left fun k _ => ?_
    simp [swapPt]

/-- **C112 (an undistorted grid, violation).** On an image of a grid of straight lines, for which the slopes found are zero, the scripts fail: the
correction of perspective, which they always apply, divides by zero. (`example_01.py` for dots, without that correction, returns the identity on
an undistorted pattern: C94.) -/
theorem C112_undistorted (lib : Libs) (hpf : PolyfitSpec lib.polyfit) (hsort : ArgsortSpec lib.argsort) (ext : LineLibs)
    (hf : ∀ m, (ext.fft5 m).height = m.height ∧ (ext.fft5 m).width = m.width)
    (hg : ∀ m, (ext.filter2 m).height = m.height ∧ (ext.filter2 m).width = m.width) (fsolve : (ℝ × ℝ → ℝ × ℝ) → ℝ × ℝ → ℝ × ℝ) (numCoef : ℤ)
    (mat : Mat ℝ) (distHor distVer : ℝ) (K L : ℕ) (rows cols : ℕ → ℝ) (colsUsed rowsUsed : List ℝ) :
    (∀ o, ShowsStraightGrid lib ext o mat distHor distVer K L rows cols colsUsed rowsUsed →
      lineExampleRest lib ext o fsolve numCoef mat 0 distHor 0 distVer = .error .nonFinite) ∧
    (ShowsStraightGrid lib ext demo06Opts mat distHor distVer K L rows cols colsUsed rowsUsed → ∀ mat0,
      demo06Rest lib ext fsolve numCoef mat0 mat 0 distHor 0 distVer = .error .nonFinite) := by
  have key : ∀ o, ShowsStraightGrid lib ext o mat distHor distVer K L rows cols colsUsed rowsUsed →
      ∃ pts found before, linePoints lib ext o mat 0 distHor 0 distVer = .ok pts ∧ lineGroups lib o 0 distHor 0 distVer pts = .ok found ∧
        lineResiduals lib found 0 0 = .ok before ∧ regenerateGridParabola lib.polyfit fsolve found.1 found.2 true false = .error .nonFinite := by
    intro o H
    obtain ⟨pts, ys, xs, h1, h2, h3, h4⟩ := C112_grid lib hpf hsort ext hf hg o mat distHor distVer K L rows cols colsUsed rowsUsed H
    obtain ⟨off, _, hst⟩ := H.colsStarts
    obtain ⟨off', _, hst'⟩ := H.rowsStarts
    have hne : colsUsed ≠ [] := by rintro rfl; have := H.used.1; simp at this
    have hne' : rowsUsed ≠ [] := by rintro rfl; have := H.used.2; simp at this
    have hK : List.range K ≠ [] := by have := H.lines.1; simp; omega
    have hL : List.range L ≠ [] := by have := H.lines.2; simp; omega
    obtain ⟨t1, e1, _⟩ := C12_residual_hor lib.polyfit hpf lib.argsort hsort ((List.range K).map fun k => colsUsed.map fun i => ⟨ys k, i⟩) 0 0
      (by simpa using hK) (by
        intro l hl
        obtain ⟨k, _, rfl⟩ := List.mem_map.1 hl
        simpa using hne)
    obtain ⟨t2, e2, _⟩ := C12_residual_ver lib.polyfit hpf lib.argsort hsort ((List.range L).map fun k => rowsUsed.map fun i => ⟨i, xs k⟩) 0 0
      (by simpa using hL) (by
        intro l hl
        obtain ⟨k, _, rfl⟩ := List.mem_map.1 hl
        simpa using hne')
    refine ⟨pts, _, (t1, t2), h1, h4, ?_, ?_⟩
    · unfold lineResiduals
      simp only [e1, e2, ok_bind]
    · have hbent : IsBentPattern ⟨0, 0⟩ 0 0 ((List.range K).map ys) ((List.range L).map xs)
          ((List.range K).map fun k => colsUsed.map fun i => ⟨ys k, i⟩) ((List.range L).map fun k => rowsUsed.map fun i => ⟨i, xs k⟩) := by
        constructor
        · rw [List.forall₂_map_left_iff, List.forall₂_map_right_iff, List.forall₂_same]
          intro k _
          constructor
          · intro p hp
            obtain ⟨i, _, rfl⟩ := List.mem_map.1 hp
            simp
          · obtain ⟨a, ha, b, hb, c, hc, g⟩ := three_places hst.1 H.used.1
            exact ⟨_, List.mem_map_of_mem ha, _, List.mem_map_of_mem hb, _, List.mem_map_of_mem hc, g⟩
        · rw [List.forall₂_map_left_iff, List.forall₂_map_right_iff, List.forall₂_same]
          intro k _
          constructor
          · intro p hp
            obtain ⟨i, _, rfl⟩ := List.mem_map.1 hp
            simp
          · obtain ⟨a, ha, b, hb, c, hc, g⟩ := three_places hst'.1 H.used.2
            exact ⟨_, List.mem_map_of_mem ha, _, List.mem_map_of_mem hb, _, List.mem_map_of_mem hc, g⟩
      have two : ∀ {n : ℕ} {q tol : ℝ} {K : ℕ} {cs ys : ℕ → ℝ}, 4 ≤ n → q = n / ((n : ℝ) - 1) → 2 ≤ K → (∀ k < K, |ys k * q - cs k| < q / 2) →
          LinesApart q tol K cs → TwoValues ((List.range K).map ys) := by
        intro n q tol K cs ys hn hq hK hy ha
        have hn' : (4 : ℝ) ≤ n := by exact_mod_cast hn
        have hq0 : 0 < q := by rw [hq]; exact div_pos (by linarith) (by linarith)
        refine ⟨ys 0, List.mem_map_of_mem (List.mem_range.2 (by omega)), ys 1, List.mem_map_of_mem (List.mem_range.2 (by omega)), ?_⟩
        have a0 := abs_lt.1 (hy 0 (by omega))
        have a1 := abs_lt.1 (hy 1 (by omega))
        have a2 := ha.2 0 1 (by norm_num) (by omega)
        intro e
        rw [e] at a0
        nlinarith [ha.1, a0.2, a1.1]
      have hbad := C72_straight lib.polyfit hpf _ _ _ _ _ hbent (two H.height.1 rfl H.lines.1 h2 H.rowsApart)
        (two H.width.1 rfl H.lines.2 h3 H.colsApart) 2
      unfold regenerateGridParabola paraGridCoefs nonPerspectiveParaCoef
      simp only [if_true, hbad]
      rfl
  constructor
  · intro o H
    obtain ⟨pts, found, before, h1, h2, _, h4⟩ := key _ H
    unfold lineExampleRest
    rw [h1, ok_bind, h2, ok_bind, h4]
    rfl
  · intro H mat0
    obtain ⟨pts, found, before, h1, h2, h3, h4⟩ := key _ H
    unfold demo06Rest
    rw [h1, ok_bind, h2, ok_bind, h3, ok_bind, h4]
    rfl

/-! ## What a finished run returns -/

/-- The rows and the columns of a grid are the same points. -/
def SameGrid (K L : ℕ) (grid : List (List Pt) × List (List Pt)) : Prop :=
  ∃ p : ℕ → ℕ → Pt, grid.1 = (List.range K).map (fun i => (List.range L).map fun j => p i j) ∧
    grid.2 = (List.range L).map fun j => (List.range K).map fun i => p i j

theorem rescalePara_length {num den : ℝ} {l out : List Para} (h : rescalePara num den l = .ok out) : out.length = l.length :=
  (mapM_ok_iff.1 h).length_eq.symm

theorem balance_length {ch cv ch' cv' : List Para} {dh dv : ℝ} (h : balancePara ch cv dh dv = .ok (ch', cv')) :
    ch'.length = ch.length ∧ cv'.length = cv.length := by
  unfold balancePara at h
  split_ifs at h
  · obtain ⟨a, h1, h⟩ := bind_ok_iff.1 h
    cases h
    exact ⟨rfl, rescalePara_length h1⟩
  · obtain ⟨a, h1, h⟩ := bind_ok_iff.1 h
    cases h
    exact ⟨rescalePara_length h1, rfl⟩

theorem regenerate_shape {pf : PolyfitFn} {fsolve : (ℝ × ℝ → ℝ × ℝ) → ℝ × ℝ → ℝ × ℝ} {hor ver : List (List Pt)} {fc : Bool}
    {grid : List (List Pt) × List (List Pt)} (h : regenerateGridParabola pf fsolve hor ver true fc = .ok grid) :
    SameGrid hor.length ver.length grid := by
  unfold regenerateGridParabola paraGridCoefs at h
  rw [if_pos rfl] at h
  obtain ⟨⟨ch, cv, c⟩, h1, h⟩ := bind_ok_iff.1 h
  cases h
  have hl : ch.length = hor.length ∧ cv.length = ver.length := by
    unfold nonPerspectiveParaCoef at h1
    obtain ⟨c', _, h1⟩ := bind_ok_iff.1 h1
    obtain ⟨⟨ch', _⟩, a1, h1⟩ := bind_ok_iff.1 h1
    obtain ⟨⟨cv', _⟩, a2, h1⟩ := bind_ok_iff.1 h1
    obtain ⟨b0, _, h1⟩ := bind_ok_iff.1 h1
    obtain ⟨dh, _, h1⟩ := bind_ok_iff.1 h1
    obtain ⟨dv, _, h1⟩ := bind_ok_iff.1 h1
    obtain ⟨⟨ch2, cv2⟩, a3, h1⟩ := bind_ok_iff.1 h1
    cases h1
    obtain ⟨l1, l2⟩ := balance_length a3
    rw [List.length_map] at l1 l2
    unfold paraFitHor at a1
    unfold paraFitVer at a2
    obtain ⟨q1, b1, a1⟩ := bind_ok_iff.1 a1
    obtain ⟨q2, b2, a2⟩ := bind_ok_iff.1 a2
    cases a1
    cases a2
    exact ⟨l1.trans (mapM_ok_iff.1 b1).length_eq.symm, l2.trans (mapM_ok_iff.1 b2).length_eq.symm⟩
  rw [← hl.1, ← hl.2]
  have hsplit : ∀ {α β : Type} (l : List α) (f : α → β) (d : α), l.map f = (List.range l.length).map fun i => f (l.getD i d) := by
    intro α β l f d
    refine List.ext_getElem (by simp) fun n h1 h2 => ?_
    simp at h1 ⊢
    rw [List.getElem?_eq_getElem h1]
    rfl
  refine ⟨fun i j => paraGridPoint fsolve c (ch.getD i ⟨0, 0, 0⟩) (cv.getD j ⟨0, 0, 0⟩), ?_, ?_⟩
  · simp only
    rw [hsplit ch _ ⟨0, 0, 0⟩]
    refine List.map_congr_left fun i _ => ?_
    rw [hsplit cv _ ⟨0, 0, 0⟩]
  · simp only
    rw [hsplit cv _ ⟨0, 0, 0⟩]
    refine List.map_congr_left fun i _ => ?_
    rw [hsplit ch _ ⟨0, 0, 0⟩]

/-- The two tables of residuals of a pair of families of lines. -/
def AreResiduals (lines : List (List Pt) × List (List Pt)) (c : Pt) (t : List (ℝ × ℝ) × List (ℝ × ℝ)) : Prop :=
  IsResidualTable IsLsqHorLine onHorLine lines.1 c t.1 ∧ IsResidualTable IsLsqVerLine onVerLine lines.2 c t.2

theorem residuals_ok {lib : Libs} (hpf : PolyfitSpec lib.polyfit) (hsort : ArgsortSpec lib.argsort) {lines : List (List Pt) × List (List Pt)} {xc yc : ℝ}
    {t : List (ℝ × ℝ) × List (ℝ × ℝ)} (h : lineResiduals lib lines xc yc = .ok t) : AreResiduals lines ⟨yc, xc⟩ t := by
  unfold lineResiduals at h
  obtain ⟨a, h1, h⟩ := bind_ok_iff.1 h
  obtain ⟨b, h2, h⟩ := bind_ok_iff.1 h
  cases h
  have hne : ∀ ls : List (List Pt), calcResidualHor lib.polyfit lib.argsort ls xc yc ≠ .error .indexError ∨
      calcResidualVer lib.polyfit lib.argsort ls xc yc ≠ .error .indexError → ls ≠ [] ∧ ∀ l ∈ ls, l ≠ [] := by
    intro ls hh
    by_contra hcon
    have := C12_errors lib.polyfit hpf lib.argsort ls xc yc (by
      by_cases h0 : ls = []
      · exact .inl h0
      · right
        push Not at hcon
        obtain ⟨l, hl, rfl⟩ := hcon h0
        exact hl)
    rcases hh with hh | hh
    · exact hh this.1
    · exact hh this.2
  obtain ⟨n1, n2⟩ := hne lines.1 (.inl (by rw [h1]; simp))
  obtain ⟨n3, n4⟩ := hne lines.2 (.inr (by rw [h2]; simp))
  obtain ⟨o1, e1, r1, _⟩ := C12_residual_hor lib.polyfit hpf lib.argsort hsort lines.1 xc yc n1 n2
  obtain ⟨o2, e2, r2, _⟩ := C12_residual_ver lib.polyfit hpf lib.argsort hsort lines.2 xc yc n3 n4
  rw [h1] at e1
  rw [h2] at e2
  cases e1
  cases e2
  exact ⟨r1, r2⟩

/-- What a finished run consists of: the lines found are made of the reference points, each used at most once, in order; the regenerated lines are
one grid, with a point for each pair of lines; the model is the one found by the functions of the package for this grid; the residuals are
those of the lines `used` before and of the unwarped grid after the correction; the corrected image is read where the model says. -/
structure IsLineRun (lib : Libs) (fsolve : (ℝ × ℝ → ℝ × ℝ) → ℝ × ℝ → ℝ × ℝ) (numCoef : ℤ) (mat0 : Mat ℝ) (pts : List Pt × List Pt)
    (used : List (List Pt) × List (List Pt)) (run : LineRun) : Prop where
  found : AreLinesOf Pt.x pts.1 run.found.1 ∧ AreLinesOf Pt.y pts.2 run.found.2
  grid : regenerateGridParabola lib.polyfit fsolve run.found.1 run.found.2 true false = .ok run.grid ∧
    SameGrid run.found.1.length run.found.2.length run.grid
  before : AreResiduals used ⟨0, 0⟩ run.before
  centre : findCodCoarse lib.polyfit run.grid.1 run.grid.2 = .ok run.model.centre
  coefs : calcCoefBackward lib.polyfit lib.lstsq lib.minimize run.grid.1 run.grid.2 run.model.centre.x run.model.centre.y numCoef false 0.3 =
    .ok (run.model.coefs, run.model.warned)
  unwarped : run.unwarped.1 = unwarpLineBackward lib.minimize id run.grid.1 run.model.centre.x run.model.centre.y run.model.coefs ∧
    run.unwarped.2 = unwarpLineBackward lib.minimize id run.grid.2 run.model.centre.x run.model.centre.y run.model.coefs
  after : AreResiduals run.unwarped run.model.centre run.after
  corrected : ReadsBackward lib.sample lib.float32 mat0 run.model.centre run.model.coefs run.corrected
  size : run.difference.height = mat0.height ∧ run.difference.width = mat0.width

theorem reads_any {S : Sampler} {rnd : ℝ → ℝ} (m : Mat ℝ) (c : Pt) (f : List ℝ) : ReadsBackward S rnd m c f (unwarpImageBackward S rnd m c.x c.y f) :=
  ⟨rfl, rfl, fun i hi j hj => (reads_unwarp (by omega) (by omega) c.x c.y f).2.2 i hi j hj⟩

theorem groups_found {lib : Libs} (hpf : PolyfitSpec lib.polyfit) (hsort : ArgsortSpec lib.argsort) {o : LineOpts} {sh dh sv dv : ℝ}
    {pts : List Pt × List Pt} {found : List (List Pt) × List (List Pt)} (h : lineGroups lib o sh dh sv dv pts = .ok found) :
    AreLinesOf Pt.x pts.1 found.1 ∧ AreLinesOf Pt.y pts.2 found.2 := by
  unfold lineGroups at h
  obtain ⟨a, h1, h⟩ := bind_ok_iff.1 h
  obtain ⟨b, h2, h⟩ := bind_ok_iff.1 h
  obtain ⟨c, h3, h⟩ := bind_ok_iff.1 h
  obtain ⟨d, h4, h⟩ := bind_ok_iff.1 h
  cases h
  exact ⟨lines_hor hpf hsort h1 h3, lines_ver hpf hsort h2 h4⟩

theorem radialModel_ok {lib : Libs} {numCoef : ℤ} {lines : List (List Pt) × List (List Pt)} {m : RadialModel} (h : radialModel lib numCoef lines = .ok m) :
    findCodCoarse lib.polyfit lines.1 lines.2 = .ok m.centre ∧
    calcCoefBackward lib.polyfit lib.lstsq lib.minimize lines.1 lines.2 m.centre.x m.centre.y numCoef false 0.3 = .ok (m.coefs, m.warned) := by
  unfold radialModel at h
  obtain ⟨a, h1, h⟩ := bind_ok_iff.1 h
  obtain ⟨⟨b, w⟩, h2, h⟩ := bind_ok_iff.1 h
  cases h
  exact ⟨h1, h2⟩

/-- **C112 (line pattern).** Whenever `line_pattern/example_01.py` or `demo_04.py` finishes for a readable image: the image is averaged to a grey one, slopes and distances
are those of the functions for lines, the result is as described by `IsLineRun`, the residuals before the correction are those of the grid, and
the saved difference is the image minus the corrected image. -/
theorem C112_line_run {α : Type} (lib : Libs) (hpf : PolyfitSpec lib.polyfit) (hsort : ArgsortSpec lib.argsort) (ext : LineLibs) (o : LineOpts)
    (fsolve : (ℝ × ℝ → ℝ × ℝ) → ℝ × ℝ → ℝ × ℝ) (numCoef : ℤ) (D : Disk α) (file : FilePath) (run : LineRun)
    (h : lineExample lib ext o fsolve numCoef D file = .ok run) :
    ∃ mat0 sh dh sv dv pts, loadImageAt D.decode D.fs file true = .ok (.gray mat0) ∧
      lineSlopes lib ext o mat0 = .ok ((sh, dh), (sv, dv)) ∧ linePoints lib ext o mat0 sh dh sv dv = .ok pts ∧
      lineGroups lib o sh dh sv dv pts = .ok run.found ∧
      IsLineRun lib fsolve numCoef mat0 pts run.grid run ∧ ∀ i j, run.difference.get i j = mat0.get i j - run.corrected.get i j := by
  unfold lineExample at h
  obtain ⟨img, h1, k1⟩ := bind_ok_iff.1 h
  obtain ⟨mat0, h2, k2⟩ := bind_ok_iff.1 k1
  obtain ⟨⟨⟨sh, dh⟩, ⟨sv, dv⟩⟩, h3, k3⟩ := bind_ok_iff.1 k2
  have himg : img = .gray mat0 := by
    cases img with
    | gray m => cases h2; rfl
    | color _ _ _ _ => cases h2
  subst himg
  unfold lineExampleRest at k3
  clear h k1 k2
  obtain ⟨pts, h4, h⟩ := bind_ok_iff.1 k3
  obtain ⟨found, h5, h⟩ := bind_ok_iff.1 h
  obtain ⟨grid, h6, h⟩ := bind_ok_iff.1 h
  obtain ⟨before, h7, h⟩ := bind_ok_iff.1 h
  obtain ⟨model, h8, h⟩ := bind_ok_iff.1 h
  obtain ⟨after, h9, h⟩ := bind_ok_iff.1 h
  cases h
  obtain ⟨m1, m2⟩ := radialModel_ok h8
  exact ⟨mat0, sh, dh, sv, dv, pts, h1, h3, h4, h5, ⟨groups_found hpf hsort h5, ⟨h6, regenerate_shape h6⟩, residuals_ok hpf hsort h7, m1, m2, ⟨rfl, rfl⟩,
    residuals_ok hpf hsort h9, reads_any _ _ _, rfl, rfl⟩, fun _ _ => rfl⟩

/-- **C112 (chessboard).** Whenever `demo_06.py` finishes for readable images: the points are found in the line pattern made from the averaged image, there
are points in both directions, the result is as described by `IsLineRun` for the averaged image, the residuals before the correction are those
of the lines found, the saved difference is the corrected image minus the image, and each channel of the two colour images is read where the model says. -/
theorem C112_chessboard_run {α : Type} (lib : Libs) (hpf : PolyfitSpec lib.polyfit) (hsort : ArgsortSpec lib.argsort) (ext : LineLibs)
    (fsolve : (ℝ × ℝ → ℝ × ℝ) → ℝ × ℝ → ℝ × ℝ) (numCoef : ℤ) (D : Disk α) (file test : FilePath) (mat1 : Mat ℝ) (run : LineRun) (out out' : Img)
    (h : demo06 lib ext fsolve numCoef D file test = .ok (mat1, run, out, out')) :
    ∃ mat0 sh dh sv dv pts img img', loadImageAt D.decode D.fs file true = .ok (.gray mat0) ∧ convertChessboard ext.chess mat0 true true = .ok mat1 ∧
      lineSlopes lib ext demo06Opts mat1 = .ok ((sh, dh), (sv, dv)) ∧ linePoints lib ext demo06Opts mat1 sh dh sv dv = .ok pts ∧
      pts.1 ≠ [] ∧ pts.2 ≠ [] ∧ lineGroups lib demo06Opts sh dh sv dv pts = .ok run.found ∧
      IsLineRun lib fsolve numCoef mat0 pts run.found run ∧ (∀ i j, run.difference.get i j = run.corrected.get i j - mat0.get i j) ∧
      loadImageAt D.decode D.fs file false = .ok img ∧ loadImageAt D.decode D.fs test false = .ok img' ∧
      CorrectsChannels lib.sample lib.float32 run.model.centre run.model.coefs img out ∧
      CorrectsChannels lib.sample lib.float32 run.model.centre run.model.coefs img' out' := by
  unfold demo06 at h
  obtain ⟨img0, h1, h⟩ := bind_ok_iff.1 h
  obtain ⟨mat0, h2, h⟩ := bind_ok_iff.1 h
  obtain ⟨mat1', hc, h⟩ := bind_ok_iff.1 h
  obtain ⟨⟨⟨sh, dh⟩, ⟨sv, dv⟩⟩, h3, h⟩ := bind_ok_iff.1 h
  obtain ⟨run', hrun, h⟩ := bind_ok_iff.1 h
  obtain ⟨img, hl, h⟩ := bind_ok_iff.1 h
  obtain ⟨out1, ho, h⟩ := bind_ok_iff.1 h
  obtain ⟨img', hl', h⟩ := bind_ok_iff.1 h
  obtain ⟨out2, ho', h⟩ := bind_ok_iff.1 h
  cases h
  have himg : img0 = .gray mat0 := by
    cases img0 with
    | gray m => cases h2; rfl
    | color _ _ _ _ => cases h2
  subst himg
  have hch : ∀ {img out : Img} {c : Pt} {f : List ℝ}, unwarpChannels lib.sample lib.float32 img c.x c.y f = .ok out →
      CorrectsChannels lib.sample lib.float32 c f img out := by
    intro img out c f he
    cases img with
    | gray m => cases he
    | color h w n get =>
      cases he
      exact ⟨h, w, n, get, _, rfl, rfl, fun k _ => reads_any (channel h w get k) c f⟩
  unfold demo06Rest at hrun
  obtain ⟨pts, h4, h⟩ := bind_ok_iff.1 hrun
  obtain ⟨found, h5, h⟩ := bind_ok_iff.1 h
  obtain ⟨before, h7, h⟩ := bind_ok_iff.1 h
  obtain ⟨grid, h6, h⟩ := bind_ok_iff.1 h
  obtain ⟨model, h8, h⟩ := bind_ok_iff.1 h
  obtain ⟨after, h9, h⟩ := bind_ok_iff.1 h
  cases h
  obtain ⟨m1, m2⟩ := radialModel_ok h8
  have hp : pts.1 ≠ [] ∧ pts.2 ≠ [] := by
    have := h5
    unfold lineGroups at this
    obtain ⟨a, a1, this⟩ := bind_ok_iff.1 this
    obtain ⟨b, a2, this⟩ := bind_ok_iff.1 this
    exact ⟨groupDotsHor_ne a1, groupDotsVer_ne a2⟩
  exact ⟨mat0, sh, dh, sv, dv, pts, img, img', h1, hc, h3, h4, hp.1, hp.2, h5, ⟨groups_found hpf hsort h5, ⟨h6, regenerate_shape h6⟩,
    residuals_ok hpf hsort h7, m1, m2, ⟨rfl, rfl⟩, residuals_ok hpf hsort h9, reads_any _ _ _, rfl, rfl⟩, fun _ _ => rfl, hl, hl',
    hch ho, hch ho'⟩

/-! ## The settings -/

/-- The lines `found` in the image `mat`, call by call: the slopes and distances of `calc_slope_distance_hor_lines` and `calc_slope_distance_ver_lines`; the points
of `get_cross_points_hor_lines` along the vertical slope and of `get_cross_points_ver_lines` along the horizontal one; the lines of `group_dots_hor_lines`
and `group_dots_ver_lines`; and what `remove_residual_dots_hor` and `remove_residual_dots_ver` leave of them at the distance 2. -/
def FoundByCalls (lib : Libs) (ext : LineLibs) (mat : Mat ℝ) (slopeRadius : ℤ) (slopeSensitive ratio offsetHor offsetVer : ℝ) (radius : ℤ)
    (sensitive groupRatio miss acceptedHor acceptedVer : ℝ) (found : List (List Pt) × List (List Pt)) : Prop :=
  ∃ (E : Ext) (sh dh sv dv : ℝ) (ph pv : List Pt) (gh gv : List (List Pt)), E = ⟨lib.polyfit, lib.argsort, ext.gaussFilter, ext.gaussFit⟩ ∧
    calcSlopeDistanceHor E ext.filter2 ext.chess lib.radon mat 0.3 30 slopeRadius slopeSensitive true true true true false none = .ok (sh, dh) ∧
    calcSlopeDistanceVer E ext.filter2 ext.chess lib.radon mat 0.3 30 slopeRadius slopeSensitive true true true true false none = .ok (sv, dv) ∧
    getCrossPointsHorLines E lib.sample ext.fft5 ext.filter2 lib.float32 mat sv dv ratio offsetHor true true false true true radius sensitive none = .ok ph ∧
    getCrossPointsVerLines E lib.sample ext.fft5 ext.filter2 lib.float32 mat sh dh ratio offsetVer true true false true true radius sensitive none = .ok pv ∧
    groupDotsHor lib.argsort ph sh dh groupRatio miss acceptedHor = .ok gh ∧ groupDotsVer lib.argsort pv sv dv groupRatio miss acceptedVer = .ok gv ∧
    removeResidualHor lib.polyfit gh sh 2 = .ok found.1 ∧ removeResidualVer lib.polyfit gv sv 2 = .ok found.2

theorem found_calls {lib : Libs} {ext : LineLibs} {o : LineOpts} {mat : Mat ℝ} {sh dh sv dv : ℝ} {pts : List Pt × List Pt}
    {found : List (List Pt) × List (List Pt)} (h1 : lineSlopes lib ext o mat = .ok ((sh, dh), (sv, dv))) (h2 : linePoints lib ext o mat sh dh sv dv = .ok pts)
    (h3 : lineGroups lib o sh dh sv dv pts = .ok found) :
    FoundByCalls lib ext mat o.slopeRadius o.slopeSensitive o.ratio o.offsetHor o.offsetVer o.radius o.sensitive o.groupRatio o.miss o.acceptedHor
      o.acceptedVer found := by
  unfold lineSlopes at h1
  obtain ⟨hor, a1, h1⟩ := bind_ok_iff.1 h1
  obtain ⟨ver, a2, h1⟩ := bind_ok_iff.1 h1
  cases h1
  unfold linePoints at h2
  obtain ⟨ph, b1, h2⟩ := bind_ok_iff.1 h2
  obtain ⟨pv, b2, h2⟩ := bind_ok_iff.1 h2
  split at h2
  · cases h2
  cases h2
  unfold lineGroups at h3
  obtain ⟨gh, c1, h3⟩ := bind_ok_iff.1 h3
  obtain ⟨gv, c2, h3⟩ := bind_ok_iff.1 h3
  obtain ⟨gh', c3, h3⟩ := bind_ok_iff.1 h3
  obtain ⟨gv', c4, h3⟩ := bind_ok_iff.1 h3
  cases h3
  have e2 : (2.0 : ℝ) = 2 := by norm_num
  exact ⟨_, sh, dh, sv, dv, ph, pv, gh, gv, rfl, a1, a2, b1, b2, c1, c2, e2 ▸ c3, e2 ▸ c4⟩

/-- **C112 (settings).** Whenever the scripts finish, the lines are found with these arguments: `example_01.py` looks for points along every line and `demo_04.py` also
halfway between two lines, both with radius 11, sensitivity 0.1 and no offset, 6 points may be missing, and horizontal lines with 0.65, vertical ones with 0.75 of the
median number of points are kept; `demo_06.py` looks at 0.3 of the distance, with radius 15, sensitivity 0.5 and the offsets 450 and 150, 2 points may be missing, and
0.8 is asked of all lines. -/
theorem C112_settings {α : Type} (lib : Libs) (hpf : PolyfitSpec lib.polyfit) (hsort : ArgsortSpec lib.argsort) (ext : LineLibs)
    (fsolve : (ℝ × ℝ → ℝ × ℝ) → ℝ × ℝ → ℝ × ℝ) (numCoef : ℤ) (D : Disk α) (file : FilePath) (run : LineRun) :
    (lineExample lib ext lineExampleOpts fsolve numCoef D file = .ok run → ∃ mat0, loadImageAt D.decode D.fs file true = .ok (.gray mat0) ∧
      FoundByCalls lib ext mat0 9 0.1 1 0 0 11 0.1 0.3 6 0.65 0.75 run.found) ∧
    (lineExample lib ext demo04Opts fsolve numCoef D file = .ok run → ∃ mat0, loadImageAt D.decode D.fs file true = .ok (.gray mat0) ∧
      FoundByCalls lib ext mat0 9 0.1 0.5 0 0 11 0.1 0.3 6 0.65 0.75 run.found) ∧
    ∀ test mat1 out out', demo06 lib ext fsolve numCoef D file test = .ok (mat1, run, out, out') →
      ∃ mat0, loadImageAt D.decode D.fs file true = .ok (.gray mat0) ∧ convertChessboard ext.chess mat0 true true = .ok mat1 ∧
        FoundByCalls lib ext mat1 15 0.5 0.3 450 150 15 0.5 0.1 2 0.8 0.8 run.found := by
  refine ⟨fun h => ?_, fun h => ?_, fun test mat1 out out' h => ?_⟩
  · obtain ⟨mat0, sh, dh, sv, dv, pts, h1, h2, h3, h4, _⟩ := C112_line_run lib hpf hsort ext _ fsolve numCoef D file run h
    have e : (1.0 : ℝ) = 1 := by norm_num
    have := found_calls h2 h3 h4
    simp only [lineExampleOpts, e] at this
    exact ⟨mat0, h1, this⟩
  · obtain ⟨mat0, sh, dh, sv, dv, pts, h1, h2, h3, h4, _⟩ := C112_line_run lib hpf hsort ext _ fsolve numCoef D file run h
    have := found_calls h2 h3 h4
    simp only [demo04Opts] at this
    exact ⟨mat0, h1, this⟩
  · obtain ⟨mat0, sh, dh, sv, dv, pts, img, img', h1, hc, h2, h3, _, _, h4, _⟩ :=
      C112_chessboard_run lib hpf hsort ext fsolve numCoef D file test mat1 run out out' h
    have := found_calls h2 h3 h4
    simp only [demo06Opts] at this
    exact ⟨mat0, h1, hc, this⟩

/-- **C112 (no points).** If in one of the directions no point is found, the scripts end with a ValueError: `demo_06.py` by its own check, the scripts for line
patterns when the points are grouped. -/
theorem C112_no_points (lib : Libs) (ext : LineLibs) (o : LineOpts) (fsolve : (ℝ × ℝ → ℝ × ℝ) → ℝ × ℝ → ℝ × ℝ) (numCoef : ℤ) (mat0 mat : Mat ℝ)
    (sh dh sv dv : ℝ) (E : Ext) (hE : E = ⟨lib.polyfit, lib.argsort, ext.gaussFilter, ext.gaussFit⟩) (hor ver : List Pt) (hempty : hor = [] ∨ ver = [])
    (h1 : getCrossPointsHorLines E lib.sample ext.fft5 ext.filter2 lib.float32 mat sv dv o.ratio o.offsetHor true true false true true o.radius
      o.sensitive none = .ok hor)
    (h2 : getCrossPointsVerLines E lib.sample ext.fft5 ext.filter2 lib.float32 mat sh dh o.ratio o.offsetVer true true false true true o.radius
      o.sensitive none = .ok ver) :
    lineExampleRest lib ext o fsolve numCoef mat sh dh sv dv = .error .valueError ∧
    (o = demo06Opts → demo06Rest lib ext fsolve numCoef mat0 mat sh dh sv dv = .error .valueError) := by
  subst hE
  have key : ∀ {β : Type} (f : List Pt × List Pt → List (List Pt) × List (List Pt) → Except PyErr β), (do
      let pts ← linePoints lib ext o mat sh dh sv dv
      let found ← lineGroups lib o sh dh sv dv pts
      f pts found) = .error .valueError := by
    intro β f
    unfold linePoints
    simp only [h1, h2, ok_bind]
    split_ifs with hc
    · rfl
    · unfold lineGroups
      rcases hempty with rfl | rfl
      · simp only [ok_bind, groupDotsHor, if_true]
        rfl
      · simp only [ok_bind]
        cases hg : groupDotsHor lib.argsort hor sh dh o.groupRatio o.miss o.acceptedHor with
        | ok l =>
          simp only [ok_bind, groupDotsVer, if_true]
          rfl
        | error e =>
          have : e = .valueError := by
            unfold groupDotsHor npMax at hg
            split_ifs at hg
            · cases hg; rfl
            · simp only at hg
              split at hg
              · cases hg
              · cases hg; rfl
          subst this
          rfl
  constructor
  · exact key _
  · rintro rfl
    exact key _

/-! ## An example -/

/-- Dark lines on a bright ground, 65 by 65 pixels, at the rows and columns 24 and 40. -/
noncomputable def straightGridImage : Mat ℝ := ⟨65, 65, fun i j => 4 - (tentGrid 2 [24, 40] [24, 40] 65 65).get i j⟩

/-- The example shows a straight grid, for the settings of `line_pattern/example_01.py`. -/
theorem straightGrid_shows (lib : Libs) (B : Boundary) (hS : lib.sample = linearInterp B) (ext : LineLibs) (hf : ext.fft5 = id) (hg : ext.filter2 = id) :
    ShowsStraightGrid lib ext lineExampleOpts straightGridImage 16 16 2 2 (fun k => if k = 0 then 24 else 40) (fun k => if k = 0 then 24 else 40)
      [0, 16, 32, 48] [0, 16, 32, 48] := by
  have hst : IsStarts 0 (((65 : ℕ) : ℤ) - 1) 0 (1.0 * 16) [0, 16, 32, 48] := by
    constructor
    · simp; norm_num
    · intro a
      simp only [List.mem_cons, List.not_mem_nil, or_false]
      constructor
      · rintro (rfl | rfl | rfl | rfl)
        · exact ⟨0, by norm_num, by norm_num⟩
        · exact ⟨1, by norm_num, by norm_num⟩
        · exact ⟨2, by norm_num, by norm_num⟩
        · exact ⟨3, by norm_num, by norm_num⟩
      · rintro ⟨k, rfl, hk⟩
        norm_num at hk
        have : k < 4 := by
          have : (k : ℝ) < 4 := by linarith
          exact_mod_cast this
        interval_cases k <;> norm_num
  have hlist : ([24, 40] : List ℕ).map (fun c : ℕ => (c : ℝ)) = [24, 40] := by simp
  have ha : PlacesApart [(24 : ℝ), 40] (2 * 2) := by simp [PlacesApart]; norm_num
  have hzero : ∀ i ∈ [(0 : ℝ), 16, 32, 48], tents 2 [24, 40] i = 0 := by
    intro i hi
    simp only [List.mem_cons, List.not_mem_nil, or_false] at hi
    refine tents_off fun c hc => ?_
    simp only [List.mem_cons, List.not_mem_nil, or_false] at hc
    rcases hi with rfl | rfl | rfl | rfl <;> rcases hc with rfl | rfl <;> norm_num [abs_of_nonneg, abs_of_nonpos]
  have hmap : ((List.range 2).map fun k : ℕ => (if k = 0 then (24 : ℝ) else 40)) = [24, 40] := by simp [List.range_succ]
  have hsl : ∀ prof : ℝ → ℝ → ℝ, (∀ i ∈ [(0 : ℝ), 16, 32, 48], prof i = tents 2 [24, 40]) →
      StraightLines prof [0, 16, 32, 48] 65 (((65 : ℕ) : ℝ) / (((65 : ℕ) : ℝ) - 1)) 11 0.1 4 2 (fun k => if k = 0 then 24 else 40) (tents 2 [24, 40])
        (fun _ d => 2 - d) 2 := by
    intro prof hprof
    refine ⟨hprof, ?_, ?_, ?_, ?_⟩
    · rw [hmap]; exact tents_ridges ha
    · rw [hmap]
      exact ⟨by norm_num, by norm_num, by simp [PlacesApart]; norm_num, by simp; norm_num⟩
    · intro k _ m hm
      split_ifs at hm
      · have h1 : (3072 : ℝ) = 65 * (2 * m + 1) := by push_cast at hm; norm_num at hm; linarith
        have : (3072 : ℤ) = 65 * (2 * m + 1) := by exact_mod_cast h1
        omega
      · have h1 : (5120 : ℝ) = 65 * (2 * m + 1) := by push_cast at hm; norm_num at hm; linarith
        have : (5120 : ℤ) = 65 * (2 * m + 1) := by exact_mod_cast h1
        omega
    · intro k _
      split_ifs <;> norm_num
  have happ : LinesApart (((65 : ℕ) : ℝ) / (((65 : ℕ) : ℝ) - 1)) (0.3 * 16) 2 (fun k => if k = 0 then 24 else 40) := by
    refine ⟨by norm_num, fun k k' h1 h2 => ?_⟩
    dsimp only
    rw [if_pos (by omega), if_neg (by omega)]
    norm_num
  exact {
    height := by simp [straightGridImage]
    width := by simp [straightGridImage]
    steps := by norm_num [lineExampleOpts]
    miss := by norm_num [lineExampleOpts]
    accepted := by norm_num [lineExampleOpts]
    sensitive := by norm_num [lineExampleOpts]
    lines := by norm_num
    used := by simp
    colsStarts := ⟨0, by simp [IsOffset, lineExampleOpts], hst⟩
    rowsStarts := ⟨0, by simp [IsOffset, lineExampleOpts], hst⟩
    shows := by
      refine ⟨tentGrid 2 [24, 40] [24, 40] 65 65, _, 4, ?_, by rw [hS]; exact tentGrid_cols B _ _ _ _ _,
        by rw [hS]; exact tentGrid_rows B _ _ _ _ _, ?_, ?_, ?_⟩
      · refine ⟨tentGrid 2 [24, 40] [24, 40] 65 65, by simp, fun _ => ⟨rfl, rfl, 4, ?_, ?_, ?_⟩, tentGrid 2 [24, 40] [24, 40] 65 65, by simp [hf], by simp [hg]⟩
        · refine ⟨0, 0, by simp [straightGridImage], by simp [straightGridImage], ?_⟩
          simp only [straightGridImage, tentGrid, hlist]
          push_cast
          rw [hzero 0 (by simp)]
          norm_num
        · intro i j _ _
          have hnn : ∀ t, 0 ≤ tents 2 [24, 40] t := fun t => by
            unfold tents
            refine List.sum_nonneg fun x hx => ?_
            obtain ⟨c, _, rfl⟩ := List.mem_map.1 hx
            exact le_max_left _ _
          simp only [straightGridImage, tentGrid, hlist]
          push_cast
          linarith [hnn i, hnn j]
        · intro i j
          simp [straightGridImage]
      · intro y x _
        simp only [hlist]
        push_cast
        linarith [tent_le (by norm_num) ha y, tent_le (by norm_num) ha x]
      · refine ⟨11, tents 2 [24, 40], fun _ d => 2 - d, 2, by simp [lineExampleOpts, straightGridImage], hsl _ fun i hi => ?_⟩
        funext y
        simp only [hlist]
        push_cast
        rw [hzero i hi, add_zero]
      · refine ⟨11, tents 2 [24, 40], fun _ d => 2 - d, 2, by simp [lineExampleOpts, straightGridImage], hsl _ fun i hi => ?_⟩
        funext y
        simp only [hlist]
        push_cast
        rw [hzero i hi, zero_add]
    rowsApart := happ
    colsApart := happ }

/-- The script fails on the example (as computed in exact numbers). -/
example (lib : Libs) (hpf : PolyfitSpec lib.polyfit) (hsort : ArgsortSpec lib.argsort) (B : Boundary) (hS : lib.sample = linearInterp B) (ext : LineLibs)
    (hf : ext.fft5 = id) (hg : ext.filter2 = id) (fsolve : (ℝ × ℝ → ℝ × ℝ) → ℝ × ℝ → ℝ × ℝ) :
    lineExampleRest lib ext lineExampleOpts fsolve 5 straightGridImage 0 16 0 16 = .error .nonFinite :=
  (C112_undistorted lib hpf hsort ext (by simp [hf]) (by simp [hg]) fsolve 5 straightGridImage 16 16 2 2
    (fun k => if k = 0 then 24 else 40) (fun k => if k = 0 then 24 else 40) [0, 16, 32, 48] [0, 16, 32, 48]).1 lineExampleOpts
    (straightGrid_shows lib B hS ext hf hg)

/-- The points of the example are found and grouped into two lines each way. -/
example (lib : Libs) (hpf : PolyfitSpec lib.polyfit) (hsort : ArgsortSpec lib.argsort) (B : Boundary) (hS : lib.sample = linearInterp B) (ext : LineLibs)
    (hf : ext.fft5 = id) (hg : ext.filter2 = id) := C112_grid lib hpf hsort ext (by simp [hf]) (by simp [hg]) lineExampleOpts straightGridImage 16 16 2 2
  _ _ _ _ (straightGrid_shows lib B hS ext hf hg)

end Discorpy
