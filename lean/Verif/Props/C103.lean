import Verif.Spec.Script
import Verif.Model.Example
import Verif.Props.C07
import Verif.Props.C11
import Verif.Props.C12
import Verif.Props.C29
import Verif.Props.C32
import Verif.Props.C41
import Verif.Props.C67
import Verif.Props.C81
import Verif.Props.C94

/-! # C103: grouping of the dots of an image, and what the results of the calibration script mean for any image -/

namespace Discorpy

open Spec

/-! ## Grouping of the dots of an image -/

theorem dotCentres_centresOf {m : Mat ℤ} {pts : List Pt} (h : dotCentres m = .ok pts) : CentresOf m pts := by
  obtain ⟨cent, rfl, hc⟩ := dotCentres_ok h
  refine ⟨(dotReps m).map (dotSet m), dots_scanned m, fun D => ?_, ?_⟩
  · rw [isDot_iff, List.mem_map]
    exact ⟨fun ⟨p, hp, e⟩ => ⟨p, hp, e.symm⟩, fun ⟨p, hp, e⟩ => ⟨p, hp, e.symm⟩⟩
  · rw [List.forall₂_map_left_iff, List.forall₂_map_right_iff, List.forall₂_same]
    exact hc

theorem dotCentres_total {m : Mat ℤ} (h : ∀ D, IsDot m D → dotSum m D ≠ 0) : ∃ pts, dotCentres m = .ok pts := by
  refine exists_mapM_ok fun p hp => ?_
  have h0 := h _ (isDot_iff.2 ⟨p, hp, rfl⟩)
  have : ∃ c, IsCentre m (dotSet m p) c := by
    unfold dotSum at h0
    exact ⟨⟨_, _⟩, h0, div_mul_cancel₀ _ h0, div_mul_cancel₀ _ h0⟩
  obtain ⟨c, hc⟩ := this
  exact ⟨c, isCentre_iff.2 hc⟩

theorem centresOf_eq_nil {m : Mat ℤ} {pts : List Pt} (h : CentresOf m pts) : pts = [] ↔ ∀ p, ¬ Lit m p := by
  obtain ⟨dots, _, hd, hf⟩ := h
  constructor
  · rintro rfl p hp
    cases hf
    have := (hd (dotSet m p)).2 (isDot_dotSet hp)
    cases this
  · intro hno
    cases hf with
    | nil => rfl
    | cons _ _ =>
      obtain ⟨p, hp⟩ := ((hd _).1 List.mem_cons_self).nonempty
      exact absurd (((hd _).1 List.mem_cons_self).lit p hp) (hno p)

/-- **C103 (grouping, image).** For an image with more than two columns in which no dot has the sum 0: if a pixel is lit the result is that
for the list of the centres of the dots, otherwise the horizontal grouping raises `IndexError` and the vertical one `ValueError`. -/
theorem C103_image (argsort : List ℝ → List ℕ) (m : Mat ℤ) (hw : 2 < m.width) (h : ∀ D, IsDot m D → dotSum m D ≠ 0)
    (slope dist ratio miss acc : ℝ) :
    ∃ pts, CentresOf m pts ∧
      ((∃ p, Lit m p) → groupDotsHorImage argsort m slope dist ratio miss acc = groupDotsHor argsort pts slope dist ratio miss acc ∧
        groupDotsVerImage argsort m slope dist ratio miss acc = groupDotsVer argsort pts slope dist ratio miss acc) ∧
      ((∀ p, ¬ Lit m p) → groupDotsHorImage argsort m slope dist ratio miss acc = .error .indexError ∧
        groupDotsVerImage argsort m slope dist ratio miss acc = .error .valueError) := by
  obtain ⟨pts, e⟩ := dotCentres_total h
  have hc := dotCentres_centresOf e
  refine ⟨pts, hc, fun ⟨p, hp⟩ => ?_, fun hno => ?_⟩
  · have : pts ≠ [] := fun h0 => (centresOf_eq_nil hc).1 h0 p hp
    unfold groupDotsHorImage groupDotsVerImage
    rw [if_pos hw, if_pos hw, e, ok_bind, ok_bind, if_neg this, if_neg this]
    exact ⟨rfl, rfl⟩
  · unfold groupDotsHorImage groupDotsVerImage
    rw [if_pos hw, if_pos hw, e, ok_bind, ok_bind, if_pos ((centresOf_eq_nil hc).2 hno), if_pos ((centresOf_eq_nil hc).2 hno)]
    exact ⟨rfl, rfl⟩

/-- **C103 (grouping, narrow image).** An image with two columns is not searched for dots: its rows are taken as the `(y, x)` coordinates of
dots. One column or none raises `IndexError`, an image without rows `ValueError`. -/
theorem C103_narrow (argsort : List ℝ → List ℕ) (m : Mat ℤ) (hw : m.width ≤ 2) (slope dist ratio miss acc : ℝ) :
    (m.height = 0 → groupDotsHorImage argsort m slope dist ratio miss acc = .error .valueError ∧
      groupDotsVerImage argsort m slope dist ratio miss acc = .error .valueError) ∧
    (0 < m.height → m.width < 2 → groupDotsHorImage argsort m slope dist ratio miss acc = .error .indexError ∧
      groupDotsVerImage argsort m slope dist ratio miss acc = .error .indexError) ∧
    ∀ pts : List Pt, 0 < m.height → m.width = 2 → pts.length = m.height →
      (∀ (i : ℕ) (p : Pt), pts[i]? = some p → p.y = m.get i 0 ∧ p.x = m.get i 1) →
      groupDotsHorImage argsort m slope dist ratio miss acc = groupDotsHor argsort pts slope dist ratio miss acc ∧
      groupDotsVerImage argsort m slope dist ratio miss acc = groupDotsVer argsort pts slope dist ratio miss acc := by
  have hn : ¬ 2 < m.width := by omega
  unfold groupDotsHorImage groupDotsVerImage
  simp only [if_neg hn]
  refine ⟨fun h => ?_, fun h1 h2 => ?_, fun pts h1 h2 hl hp => ?_⟩
  · simp only [if_pos h, and_self]
  · simp only [if_neg h1.ne', if_pos h2, and_self]
  · have : ((List.range m.height).map fun i => (⟨(m.get i 0 : ℝ), (m.get i 1 : ℝ)⟩ : Pt)) = pts := by
      refine List.ext_getElem (by simp [hl]) fun i h1 h2 => ?_
      obtain ⟨hy, hx⟩ := hp i pts[i] (List.getElem?_eq_getElem h2)
      rw [List.getElem_map, List.getElem_range]
      ext
      · exact hy.symm
      · exact hx.symm
    simp only [if_neg h1.ne', if_neg (show ¬ m.width < 2 by omega), this, and_self]

/-! ## Parts of the script -/

theorem linesDistorted_verdict {lib : Libs} (hpf : PolyfitSpec lib.polyfit) (has : ArgsortSpec lib.argsort) {hor ver : List (List Pt)}
    (h0 : hor ≠ []) (v0 : ver ≠ []) (hh : ∀ l ∈ hor, l ≠ []) (hv : ∀ l ∈ ver, l ≠ []) {xc yc : ℝ} {b : Bool}
    (h : linesDistorted lib hor ver xc yc = .ok b) : IsVerdict hor ver ⟨yc, xc⟩ b := by
  obtain ⟨th, e1, t1, l1, _⟩ := C12_residual_hor lib.polyfit hpf lib.argsort has hor xc yc h0 hh
  obtain ⟨tv, e2, t2, l2, _⟩ := C12_residual_ver lib.polyfit hpf lib.argsort has ver xc yc v0 hv
  have ne : ∀ {lines : List (List Pt)} {t : List (ℝ × ℝ)}, lines ≠ [] → (∀ l ∈ lines, l ≠ []) → t.length = (lines.map List.length).sum → t ≠ [] := by
    rintro lines t hne hl hlen rfl
    obtain ⟨l, hm⟩ := List.exists_mem_of_ne_nil _ hne
    rw [List.length_nil] at hlen
    have := List.sum_eq_zero_iff.1 hlen.symm l.length (List.mem_map.2 ⟨l, hm, rfl⟩)
    exact hl l hm (List.length_eq_zero_iff.1 this)
  obtain ⟨b1, c1, i1⟩ := C14_check_iff th (ne h0 hh l1)
  obtain ⟨b2, c2, i2⟩ := C14_check_iff tv (ne v0 hv l2)
  unfold linesDistorted at h
  rw [e1, ok_bind, e2, ok_bind, c1, ok_bind, c2, ok_bind] at h
  cases h
  refine ⟨th, tv, t1, t2, ?_⟩
  unfold farDots
  rw [Bool.or_eq_true, i1, i2]
  norm_num

/-- Dropping dots far from the parabola of their line. -/
theorem residual_sub {pf : PolyfitFn} (hpf : PolyfitSpec pf) {lines out : List (List Pt)} (hne : ∀ l ∈ lines, l ≠ []) {slope residual : ℝ}
    (h : removeResidualHor pf lines slope residual = .ok out) :
    out ≠ [] ∧ (∀ k ∈ out, k ≠ [] ∧ ∃ l ∈ lines, k.Sublist l) ∧ out.flatten.Sublist lines.flatten := by
  obtain ⟨kept, hf, h1, h2⟩ := C32_filter pf hpf lines hne slope residual
  have hsome : ∃ k ∈ kept, k ≠ [] := by
    by_contra hno
    push Not at hno
    rw [h1 hno] at h
    cases h
  rw [h2 hsome] at h
  cases h
  refine ⟨?_, ?_, ?_⟩
  · obtain ⟨k, hk, hk0⟩ := hsome
    exact List.ne_nil_of_mem (List.mem_filter.2 ⟨hk, by simpa using hk0⟩)
  · intro k hk
    obtain ⟨hk1, hk2⟩ := List.mem_filter.1 hk
    refine ⟨by simpa using hk2, ?_⟩
    clear h1 h2 hsome hk hne
    induction hf with
    | nil => cases hk1
    | cons hab _ ih =>
      rcases List.mem_cons.1 hk1 with rfl | hk1
      · obtain ⟨a, b, c, _, rfl⟩ := hab
        exact ⟨_, List.mem_cons_self, List.filter_sublist⟩
      · obtain ⟨l, hl, h⟩ := ih hk1
        exact ⟨l, List.mem_cons_of_mem _ hl, h⟩
  · refine (List.Sublist.flatten List.filter_sublist).trans ?_
    clear h1 h2 hsome hne
    induction hf with
    | nil => exact List.Sublist.refl _
    | cons hab _ ih =>
      obtain ⟨a, b, c, _, rfl⟩ := hab
      rw [List.flatten_cons, List.flatten_cons]
      exact List.filter_sublist.append ih

theorem swapLines_flatten (lines : List (List Pt)) : (swapLines lines).flatten = lines.flatten.map swapPt := by
  unfold swapLines
  rw [List.map_flatten]

theorem swapLines_swapLines (lines : List (List Pt)) : swapLines (swapLines lines) = lines := by
  unfold swapLines
  rw [List.map_map]
  conv_rhs => rw [← List.map_id lines]
  refine List.map_congr_left fun l _ => ?_
  rw [Function.comp, List.map_map]
  conv_rhs => rw [id, ← List.map_id l]
  rfl

theorem map_ok_iff {α β : Type} {x : Except PyErr α} {f : α → β} {b : β} : x.map f = .ok b ↔ ∃ a, x = .ok a ∧ f a = b := by
  cases x with
  | error e => simp [Except.map]
  | ok a => simp [Except.map]

theorem lines_hor {pf : PolyfitFn} (hpf : PolyfitSpec pf) {argsort : List ℝ → List ℕ} (has : ArgsortSpec argsort) {pts : List Pt}
    {slope dist ratio miss acc residual : ℝ} {lines out : List (List Pt)} (h : groupDotsHor argsort pts slope dist ratio miss acc = .ok lines)
    (h' : removeResidualHor pf lines slope residual = .ok out) : AreLinesOf Pt.x pts out := by
  obtain ⟨hsub, hl⟩ := C29_lines argsort has pts slope dist ratio miss acc lines h
  obtain ⟨r1, r2, r3⟩ := residual_sub hpf (fun l hm => by
    have := (hl l hm).1
    rintro rfl
    simp at this) h'
  refine ⟨r1, r3.subperm.trans hsub, fun k hk => ?_⟩
  obtain ⟨hk0, l, hm, hs⟩ := r2 k hk
  exact ⟨hk0, (hl l hm).2.1.sublist hs⟩

theorem lines_ver {pf : PolyfitFn} (hpf : PolyfitSpec pf) {argsort : List ℝ → List ℕ} (has : ArgsortSpec argsort) {pts : List Pt}
    {slope dist ratio miss acc residual : ℝ} {lines out : List (List Pt)} (h : groupDotsVer argsort pts slope dist ratio miss acc = .ok lines)
    (h' : removeResidualVer pf lines slope residual = .ok out) : AreLinesOf Pt.y pts out := by
  rw [C31_vertical, map_ok_iff] at h
  obtain ⟨l0, h, rfl⟩ := h
  rw [C32_vertical, map_ok_iff, swapLines_swapLines] at h'
  obtain ⟨o0, h', rfl⟩ := h'
  obtain ⟨a1, a2, a3⟩ := lines_hor hpf has h h'
  refine ⟨by simpa [swapLines] using a1, ?_, fun k hk => ?_⟩
  · rw [swapLines_flatten]
    obtain ⟨l, hp, hs⟩ := a2
    have := hs.map swapPt
    rw [List.map_map, show swapPt ∘ swapPt = id from rfl, List.map_id] at this
    exact ⟨l.map swapPt, hp.map _, this⟩
  · obtain ⟨l, hl, rfl⟩ := List.mem_map.1 hk
    obtain ⟨b1, b2⟩ := a3 l hl
    exact ⟨by simpa using b1, List.pairwise_map.2 b2⟩

theorem dark_of_narrow {otsu : Mat ℝ → Except PyErr ℝ} {m : Mat ℝ} {ratio : ℝ} {thres : Option ℝ} {denoise : Bool} {b : Mat ℤ}
    (h : binarization otsu m ratio thres denoise = .ok b) (hn : checkNumDots b = false) : 2 < b.width ∧ 2 < b.height := by
  obtain ⟨e1, e2, D, hD, h1, h0, hrim, _⟩ := C81_shape otsu m ratio thres denoise b h
  by_contra hno
  have hdark : ∀ p, ¬ Lit b p := by
    rintro p ⟨p1, p2, p3⟩
    have hf : p ∈ frame m.height m.width := ⟨by omega, by omega⟩
    refine p3 (h0 p hf fun hp => hrim p ⟨hf, ?_⟩ hp)
    omega
  have : {D | IsDot b D}.encard < 25 := by
    have : {D | IsDot b D} = ∅ := by
      ext D
      simp only [Set.mem_ofPred_eq, Set.mem_empty_iff_false, iff_false]
      intro hd
      obtain ⟨p, hp⟩ := hd.nonempty
      exact hdark p (hd.lit p hp)
    rw [this, Set.encard_empty]
    norm_num
  rw [(C67_count b).2 this] at hn
  cases hn

/-- The steps of a successful run. -/
structure RunSteps (lib : Libs) (mat0 : Mat ℝ) (numCoef : ℤ) (cal : Calibration) : Prop where
  binary : binarization lib.otsu mat0 0.3 none true = .ok cal.binarized
  many : checkNumDots cal.binarized = false
  size : calcSizeDistance (realMat cal.binarized) 0.3 = .ok (cal.dotSize, cal.dotDist)
  selected : selectDotsBasedRatio lib.axes (realMat (selectDotsBasedSize (realMat cal.binarized) cal.dotSize 0.3)) 0.5 = .ok cal.selected
  horSlope : calcHorSlope lib.polyfit lib.argsort lib.radon (realMat cal.selected) 0.3 = .ok cal.horSlope
  verSlope : calcVerSlope lib.polyfit lib.argsort lib.radon (realMat cal.selected) 0.3 = .ok cal.verSlope
  hor : ∃ l, groupDotsHorImage lib.argsort cal.selected cal.horSlope cal.dotDist 0.3 6 0.7 = .ok l ∧
    removeResidualHor lib.polyfit l cal.horSlope 2 = .ok cal.hor
  ver : ∃ l, groupDotsVerImage lib.argsort cal.selected cal.verSlope cal.dotDist 0.3 6 0.7 = .ok l ∧
    removeResidualVer lib.polyfit l cal.verSlope 2 = .ok cal.ver
  significant : linesDistorted lib cal.hor cal.ver 0 0 = .ok cal.significant
  centre : findCodCoarse lib.polyfit cal.hor cal.ver = .ok cal.centre
  bw : calcCoefBackward lib.polyfit lib.lstsq lib.minimize cal.hor cal.ver cal.centre.x cal.centre.y numCoef false 0.3 =
    .ok (cal.backward.coefs, cal.backward.warned)
  backward : correctBackward lib mat0 cal.hor cal.ver cal.centre cal.backward.coefs cal.backward.warned = .ok cal.backward
  fw : calcCoefForward lib.polyfit lib.lstsq lib.minimize cal.hor cal.ver cal.centre.x cal.centre.y numCoef false 0.3 =
    .ok (cal.forward.coefs, cal.forward.warned)
  forward : correctForward lib mat0 cal.hor cal.ver cal.centre cal.forward.coefs cal.forward.warned = .ok cal.forward
  bf : ∃ ff, calcCoefBackwardFromForward lib.polyfit lib.lstsq lib.minimize cal.hor cal.ver cal.centre.x cal.centre.y numCoef false 0.3 =
    .ok (ff, cal.backFromForward.coefs, cal.backFromForward.warned)
  backFromForward : correctBackward lib mat0 cal.hor cal.ver cal.centre cal.backFromForward.coefs cal.backFromForward.warned = .ok cal.backFromForward

theorem correctBackward_ok {lib : Libs} {mat0 : Mat ℝ} {hor ver : List (List Pt)} {c : Pt} {coefs : List ℝ} {w : Bool} {r : Corrected}
    (h : correctBackward lib mat0 hor ver c coefs w = .ok r) :
    r.coefs = coefs ∧ r.warned = w ∧ r.image = unwarpImageBackward lib.sample lib.float32 mat0 c.x c.y coefs ∧
      r.hor = unwarpLineBackward lib.minimize id hor c.x c.y coefs ∧ r.ver = unwarpLineBackward lib.minimize id ver c.x c.y coefs ∧
      linesDistorted lib r.hor r.ver c.x c.y = .ok r.bad := by
  unfold correctBackward at h
  obtain ⟨bad, hb, h⟩ := bind_ok_iff.1 h
  cases h
  exact ⟨rfl, rfl, rfl, rfl, rfl, hb⟩

theorem correctForward_ok {lib : Libs} {mat0 : Mat ℝ} {hor ver : List (List Pt)} {c : Pt} {coefs : List ℝ} {w : Bool} {r : Corrected}
    (h : correctForward lib mat0 hor ver c coefs w = .ok r) :
    r.coefs = coefs ∧ r.warned = w ∧ unwarpImageForward mat0 c.x c.y coefs = .ok r.image ∧
      r.hor = unwarpLineForward id hor c.x c.y coefs ∧ r.ver = unwarpLineForward id ver c.x c.y coefs ∧
      linesDistorted lib r.hor r.ver c.x c.y = .ok r.bad := by
  unfold correctForward at h
  obtain ⟨img, hi, h⟩ := bind_ok_iff.1 h
  obtain ⟨bad, hb, h⟩ := bind_ok_iff.1 h
  cases h
  exact ⟨rfl, rfl, hi, rfl, rfl, hb⟩

theorem run_steps {lib : Libs} {mat0 : Mat ℝ} {numCoef : ℤ} {cal : Calibration} (h : runExample lib mat0 numCoef = .ok cal) :
    RunSteps lib mat0 numCoef cal := by
  unfold runExample at h
  obtain ⟨mat1, h1, h⟩ := bind_ok_iff.1 h
  split_ifs at h with hn
  obtain ⟨⟨ds, dd⟩, h2, h⟩ := bind_ok_iff.1 h
  obtain ⟨mat3, h3, h⟩ := bind_ok_iff.1 h
  obtain ⟨hs, h4, h⟩ := bind_ok_iff.1 h
  obtain ⟨vs, h5, h⟩ := bind_ok_iff.1 h
  obtain ⟨hl, h6, h⟩ := bind_ok_iff.1 h
  obtain ⟨vl, h7, h⟩ := bind_ok_iff.1 h
  obtain ⟨hor, h8, h⟩ := bind_ok_iff.1 h
  obtain ⟨ver, h9, h⟩ := bind_ok_iff.1 h
  obtain ⟨sig, h10, h⟩ := bind_ok_iff.1 h
  obtain ⟨c, h11, h⟩ := bind_ok_iff.1 h
  obtain ⟨⟨bw, w1⟩, h12, h⟩ := bind_ok_iff.1 h
  obtain ⟨b, h13, h⟩ := bind_ok_iff.1 h
  obtain ⟨⟨fw, w2⟩, h14, h⟩ := bind_ok_iff.1 h
  obtain ⟨f, h15, h⟩ := bind_ok_iff.1 h
  obtain ⟨⟨ff, bf, w3⟩, h16, h⟩ := bind_ok_iff.1 h
  obtain ⟨r, h17, h⟩ := bind_ok_iff.1 h
  cases h
  obtain ⟨rfl, rfl, _⟩ := correctBackward_ok h13
  obtain ⟨rfl, rfl, _⟩ := correctForward_ok h15
  obtain ⟨rfl, rfl, _⟩ := correctBackward_ok h17
  exact ⟨h1, by simpa using hn, h2, h3, h4, h5, ⟨hl, h6, h8⟩, ⟨vl, h7, h9⟩, h10, h11, h12, h13, h14, h15, ⟨ff, h16⟩, h17⟩

theorem keepsDots_pixels {m out : Mat ℤ} {P : Set (ℕ × ℕ) → Prop} (h : KeepsDots m out P) :
    out.height = m.height ∧ out.width = m.width ∧ ∀ i < m.height, ∀ j < m.width, out.get i j = m.get i j ∨ out.get i j = 0 := by
  obtain ⟨h1, h2, h3⟩ := h
  refine ⟨h1, h2, fun i hi j hj => ?_⟩
  by_cases hd : ∃ D, IsDot m D ∧ P D ∧ InBox D i j
  · exact .inl ((h3 i hi j hj).1 hd)
  · exact .inr ((h3 i hi j hj).2 hd)

theorem int16_of_small {m : Mat ℤ} {i j : ℕ} (h : m.get i j = 0 ∨ m.get i j = 1) : (int16Mat (realMat m)).get i j = m.get i j := by
  simp only [int16Mat, realMat]
  have ht : truncInt ((m.get i j : ℤ) : ℝ) = m.get i j := by unfold truncInt; split <;> simp
  rw [ht, toInt16_of_mem (by omega) (by omega)]

theorem RunSteps.pixels {lib : Libs} {mat0 : Mat ℝ} {numCoef : ℤ} {cal : Calibration} (s : RunSteps lib mat0 numCoef cal) :
    cal.selected.height = mat0.height ∧ cal.selected.width = mat0.width ∧
    cal.binarized.height = mat0.height ∧ cal.binarized.width = mat0.width ∧
    ∀ i < mat0.height, ∀ j < mat0.width, (cal.binarized.get i j = 0 ∨ cal.binarized.get i j = 1) ∧
      (cal.selected.get i j = 1 → cal.binarized.get i j = 1) ∧ (cal.selected.get i j = 0 ∨ cal.selected.get i j = 1) := by
  obtain ⟨e1, e2, D, hD, h1, h0, _⟩ := C81_shape _ _ _ _ _ _ s.binary
  obtain ⟨a1, a2, a3⟩ := keepsDots_pixels (C41_size (realMat cal.binarized) cal.dotSize 0.3)
  obtain ⟨b1, b2, b3⟩ := keepsDots_pixels (C41_ratio lib.axes _ 0.5 _ s.selected)
  refine ⟨b1.trans (a1.trans e1), b2.trans (a2.trans e2), e1, e2, fun i hi j hj => ?_⟩
  have hb : cal.binarized.get i j = 0 ∨ cal.binarized.get i j = 1 := by
    by_cases hm : (i, j) ∈ D
    · exact .inr (h1 _ hm)
    · exact .inl (h0 (i, j) ⟨hi, hj⟩ hm)
  have ha := a3 i (by show i < cal.binarized.height; omega) j (by show j < cal.binarized.width; omega)
  rw [int16_of_small hb] at ha
  have hc := b3 i (by show i < (selectDotsBasedSize _ _ _).height; rw [a1]; show i < cal.binarized.height; omega) j
    (by show j < (selectDotsBasedSize _ _ _).width; rw [a2]; show j < cal.binarized.width; omega)
  rw [int16_of_small (by rcases ha with ha | ha <;> rw [ha] <;> simp [hb])] at hc
  refine ⟨hb, fun h => ?_, ?_⟩
  · rcases hc with hc | hc
    · rcases ha with ha | ha <;> omega
    · omega
  · rcases hc with hc | hc
    · rcases ha with ha | ha <;> omega
    · omega

/-! ## The script -/

/-- **C103 (few dots).** If the binarized image has fewer than 25 dots the script stops with `ValueError`. An error of the binarization is
passed on. -/
theorem C103_few (lib : Libs) (mat0 : Mat ℝ) (numCoef : ℤ) :
    (∀ b, binarization lib.otsu mat0 0.3 none true = .ok b → {D | IsDot b D}.encard < 25 → runExample lib mat0 numCoef = .error .valueError) ∧
    ∀ e, binarization lib.otsu mat0 0.3 none true = .error e → runExample lib mat0 numCoef = .error e := by
  constructor
  · intro b hb hn
    unfold runExample
    rw [hb, ok_bind, if_pos ((C67_count b).2 hn)]
  · intro e he
    unfold runExample
    rw [he]
    rfl

/-- **C103 (dots).** Whenever the script finishes: the image has at least 25 dots after binarization; the selected image is binary and lit only
where the binarized image is; the lines are made of the centres of its dots, each dot belongs to at most one horizontal and one vertical
line, and the dots of a line come in order. -/
theorem C103_lines (lib : Libs) (hpf : PolyfitSpec lib.polyfit) (has : ArgsortSpec lib.argsort) (mat0 : Mat ℝ) (numCoef : ℤ) (cal : Calibration)
    (h : runExample lib mat0 numCoef = .ok cal) :
    25 ≤ {D | IsDot cal.binarized D}.encard ∧
    cal.selected.height = mat0.height ∧ cal.selected.width = mat0.width ∧
    (∀ i < mat0.height, ∀ j < mat0.width, (cal.selected.get i j = 0 ∨ cal.selected.get i j = 1) ∧
      (cal.selected.get i j = 1 → cal.binarized.get i j = 1)) ∧
    ∃ pts, CentresOf cal.selected pts ∧ AreLinesOf Pt.x pts cal.hor ∧ AreLinesOf Pt.y pts cal.ver := by
  have s := run_steps h
  obtain ⟨p1, p2, p3, p4, p5⟩ := s.pixels
  refine ⟨?_, p1, p2, fun i hi j hj => ⟨(p5 i hi j hj).2.2, (p5 i hi j hj).2.1⟩, ?_⟩
  · by_contra hno
    rw [not_le] at hno
    have := s.many
    rw [(C67_count _).2 hno] at this
    cases this
  · obtain ⟨hw, _⟩ := dark_of_narrow s.binary s.many
    rw [p4, ← p2] at hw
    obtain ⟨l1, g1, r1⟩ := s.hor
    obtain ⟨l2, g2, r2⟩ := s.ver
    unfold groupDotsHorImage at g1
    unfold groupDotsVerImage at g2
    rw [if_pos hw] at g1 g2
    obtain ⟨pts, hp, g1⟩ := bind_ok_iff.1 g1
    rw [hp, ok_bind] at g2
    split_ifs at g1 g2
    exact ⟨pts, dotCentres_centresOf hp, lines_hor hpf has g1 r1, lines_ver hpf has g2 r2⟩

/-- **C103 (size and distance).** The size is a median of the numbers of pixels of the dots in the middle part of the image, the distance a
median of the distances to the nearest other dot. -/
theorem C103_size (lib : Libs) (mat0 : Mat ℝ) (numCoef : ℤ) (cal : Calibration) (h : runExample lib mat0 numCoef = .ok cal) :
    ∃ roi mask, IsMiddlePart (realMat cal.binarized) 0.3 roi ∧ IsInnerMask roi mask ∧
      DotMedian mask (fun D x => x = D.ncard) cal.dotSize ∧ DotMedian mask (NearestDist mask) cal.dotDist := by
  have s := run_steps h
  obtain ⟨_, _, p3, p4, p5⟩ := s.pixels
  obtain ⟨hw, hh⟩ := dark_of_narrow s.binary s.many
  refine C67_median (realMat cal.binarized) (fun i hi j hj => ?_) (by show 0 < cal.binarized.height; omega) (by show 0 < cal.binarized.width; omega) 0.3
    cal.dotSize cal.dotDist s.size
  have := (p5 i (by rw [← p3]; exact hi) j (by rw [← p4]; exact hj)).1
  simp only [realMat]
  exact_mod_cast this

/-- **C103 (models).** Whenever the script finishes, the centre and the coefficients are those found by the functions of the package for its
lines of dots (whose meaning is that of C25 and C80). -/
theorem C103_models (lib : Libs) (mat0 : Mat ℝ) (numCoef : ℤ) (cal : Calibration) (h : runExample lib mat0 numCoef = .ok cal) :
    findCodCoarse lib.polyfit cal.hor cal.ver = .ok cal.centre ∧
    calcCoefBackward lib.polyfit lib.lstsq lib.minimize cal.hor cal.ver cal.centre.x cal.centre.y numCoef false 0.3 =
      .ok (cal.backward.coefs, cal.backward.warned) ∧
    calcCoefForward lib.polyfit lib.lstsq lib.minimize cal.hor cal.ver cal.centre.x cal.centre.y numCoef false 0.3 =
      .ok (cal.forward.coefs, cal.forward.warned) ∧
    ∃ ff, calcCoefBackwardFromForward lib.polyfit lib.lstsq lib.minimize cal.hor cal.ver cal.centre.x cal.centre.y numCoef false 0.3 =
      .ok (ff, cal.backFromForward.coefs, cal.backFromForward.warned) := by
  have s := run_steps h
  exact ⟨s.centre, s.bw, s.fw, s.bf⟩

theorem map_lines_ne {lines : List (List Pt)} {f : Pt → Pt} (h0 : lines ≠ []) (h : ∀ l ∈ lines, l ≠ []) :
    (lines.map fun l => l.map f) ≠ [] ∧ ∀ l ∈ lines.map (fun l => l.map f), l ≠ [] := by
  refine ⟨by simpa using h0, fun l hl => ?_⟩
  obtain ⟨l0, h1, rfl⟩ := List.mem_map.1 hl
  simpa using h l0 h1

/-- **C103 (verdicts).** Whenever the script finishes: "distortion is not significant" is printed exactly if in both families at most 15 % of
the dots are more than one pixel away from the straight line fitted to their line, and the correction by each of the three models is called
not accurate exactly if this does not hold for the unwarped lines. -/
theorem C103_verdicts (lib : Libs) (hpf : PolyfitSpec lib.polyfit) (has : ArgsortSpec lib.argsort) (mat0 : Mat ℝ) (numCoef : ℤ) (cal : Calibration)
    (h : runExample lib mat0 numCoef = .ok cal) :
    IsVerdict cal.hor cal.ver ⟨0, 0⟩ cal.significant ∧
    ∀ r, r = cal.backward ∨ r = cal.forward ∨ r = cal.backFromForward → IsVerdict r.hor r.ver cal.centre r.bad := by
  have s := run_steps h
  obtain ⟨_, _, _, _, pts, _, lh, lv⟩ := C103_lines lib hpf has mat0 numCoef cal h
  have h0 := lh.1
  have v0 := lv.1
  have hh : ∀ l ∈ cal.hor, l ≠ [] := fun l hl => (lh.2.2 l hl).1
  have hv : ∀ l ∈ cal.ver, l ≠ [] := fun l hl => (lv.2.2 l hl).1
  refine ⟨linesDistorted_verdict hpf has h0 v0 hh hv s.significant, ?_⟩
  have back : ∀ {r : Corrected}, correctBackward lib mat0 cal.hor cal.ver cal.centre r.coefs r.warned = .ok r →
      IsVerdict r.hor r.ver cal.centre r.bad := by
    intro r hr
    obtain ⟨_, _, _, e1, e2, e3⟩ := correctBackward_ok hr
    rw [unwarpLineBackward_eq] at e1 e2
    obtain ⟨a1, a2⟩ := map_lines_ne (f := fun p => _) h0 hh
    obtain ⟨a3, a4⟩ := map_lines_ne (f := fun p => _) v0 hv
    rw [← e1] at a1 a2
    rw [← e2] at a3 a4
    exact linesDistorted_verdict hpf has a1 a3 a2 a4 e3
  rintro r (rfl | rfl | rfl)
  · exact back s.backward
  · obtain ⟨_, _, _, e1, e2, e3⟩ := correctForward_ok s.forward
    rw [unwarpLineForward_eq] at e1 e2
    obtain ⟨a1, a2⟩ := map_lines_ne (f := fun p => _) h0 hh
    obtain ⟨a3, a4⟩ := map_lines_ne (f := fun p => _) v0 hv
    rw [← e1] at a1 a2
    rw [← e2] at a3 a4
    exact linesDistorted_verdict hpf has a1 a3 a2 a4 e3
  · exact back s.backFromForward

/-- **C103 (forward).** Whenever the script finishes, the lines unwarped by the forward model are the lines of dots with each dot moved by the
model, and the pixels of the image are moved in the same way. -/
theorem C103_forward (lib : Libs) (mat0 : Mat ℝ) (numCoef : ℤ) (cal : Calibration) (h : runExample lib mat0 numCoef = .ok cal) :
    cal.forward.hor = cal.hor.map (fun l => l.map (radialMap cal.centre cal.forward.coefs)) ∧
    cal.forward.ver = cal.ver.map (fun l => l.map (radialMap cal.centre cal.forward.coefs)) ∧
    MovesForward mat0 cal.centre cal.forward.coefs cal.forward.image := by
  have s := run_steps h
  obtain ⟨hw, hh⟩ := dark_of_narrow s.binary s.many
  obtain ⟨_, _, p3, p4, _⟩ := s.pixels
  obtain ⟨_, _, e0, e1, e2, _⟩ := correctForward_ok s.forward
  rw [unwarpLineForward_eq] at e1 e2
  refine ⟨e1, e2, ?_⟩
  obtain ⟨out, e, ho⟩ := C11_forward_scatter mat0 cal.centre.x cal.centre.y cal.forward.coefs (by omega) (by omega)
  rw [e0] at e
  cases e
  exact ho

/-- **C103 (backward).** Whenever the script finishes: each pixel of the image corrected by a backward model is read where the model moves it.
If the model reaches the dots and the optimiser finds the best radius, the model moves the unwarped lines exactly onto the lines of dots. -/
theorem C103_backward (lib : Libs) (mat0 : Mat ℝ) (numCoef : ℤ) (cal : Calibration) (h : runExample lib mat0 numCoef = .ok cal)
    (r : Corrected) (hr : r = cal.backward ∨ r = cal.backFromForward) :
    ReadsBackward lib.sample lib.float32 mat0 cal.centre r.coefs r.image ∧
    ((∀ l ∈ cal.hor ++ cal.ver, ∀ p ∈ l, ∃ t, 0 ≤ t ∧ ptDist p cal.centre = t * radial r.coefs t) →
      (∀ l ∈ cal.hor ++ cal.ver, ∀ p ∈ l,
        0 ≤ lib.minimize (fun t => (ptDist p cal.centre - t * radial r.coefs t) ^ 2) (ptDist p cal.centre) ∧ ∀ t, 0 ≤ t →
          (ptDist p cal.centre - lib.minimize (fun t => (ptDist p cal.centre - t * radial r.coefs t) ^ 2) (ptDist p cal.centre) *
            radial r.coefs (lib.minimize (fun t => (ptDist p cal.centre - t * radial r.coefs t) ^ 2) (ptDist p cal.centre))) ^ 2 ≤
          (ptDist p cal.centre - t * radial r.coefs t) ^ 2) →
      r.hor.map (fun l => l.map (radialMap cal.centre r.coefs)) = cal.hor ∧
      r.ver.map (fun l => l.map (radialMap cal.centre r.coefs)) = cal.ver) := by
  have s := run_steps h
  obtain ⟨hw, hh⟩ := dark_of_narrow s.binary s.many
  obtain ⟨_, _, p3, p4, _⟩ := s.pixels
  have hc : correctBackward lib mat0 cal.hor cal.ver cal.centre r.coefs r.warned = .ok r := by
    rcases hr with rfl | rfl
    · exact s.backward
    · exact s.backFromForward
  obtain ⟨_, _, e0, e1, e2, _⟩ := correctBackward_ok hc
  have hfun : (fun q => mappedPoint q cal.centre r.coefs) = radialMap cal.centre r.coefs := funext fun q => mappedPoint_eq _ _ _
  refine ⟨?_, fun hreach hopt => ⟨?_, ?_⟩⟩
  · rw [e0]
    refine ⟨rfl, rfl, fun i hi j hj => ?_⟩
    have c1 : (0 : ℝ) ≤ (mat0.height : ℝ) - 1 := by
      have : (1 : ℝ) ≤ mat0.height := by exact_mod_cast (by omega : 1 ≤ mat0.height)
      linarith
    have c2 : (0 : ℝ) ≤ (mat0.width : ℝ) - 1 := by
      have : (1 : ℝ) ≤ mat0.width := by exact_mod_cast (by omega : 1 ≤ mat0.width)
      linarith
    simp only [unwarpImageBackward, polySum_eq_radial, clip_eq_clampTo c1, clip_eq_clampTo c2]
    rfl
  · rw [e1]
    have := C10_line_backward_inverts lib.minimize cal.hor cal.centre r.coefs (fun l hl => hreach l (List.mem_append_left _ hl))
      (fun l hl => hopt l (List.mem_append_left _ hl))
    rwa [hfun] at this
  · rw [e2]
    have := C10_line_backward_inverts lib.minimize cal.ver cal.centre r.coefs (fun l hl => hreach l (List.mem_append_right _ hl))
      (fun l hl => hopt l (List.mem_append_right _ hl))
    rwa [hfun] at this

/-- The script finishes for the drawing of C94, and the dots of its rows are centres of dots. -/
theorem drawn13_finishes : ∃ m c, makeDotPattern 200 200 15 9 (.int 1) = .ok m ∧ runExample refLibs m 5 = .ok c ∧
    ∃ pts, CentresOf c.selected pts ∧ AreLinesOf Pt.x pts c.hor := by
  obtain ⟨m, b, hm, hb, h⟩ := C94_script drawn13 (by norm_num) (by norm_num) (by norm_num) (by norm_num) (by norm_num) (by norm_num) (by norm_num)
    drawn13_middle drawn13_middle 5 (by norm_num) (by norm_num) (by norm_num) refLibs refPolyfit_spec refArgsort_spec refLstsq_spec
    refMinimize_exact (fun _ _ => ⟨by simp [refLibs], rfl⟩) (linearInterp_interpolates _) coordRounding_id 512 (by norm_num) rfl rfl
  obtain ⟨c, hc, _⟩ := h (refLibs_upright _ _)
  obtain ⟨_, _, _, _, pts, h1, h2, _⟩ := C103_lines refLibs refPolyfit_spec refArgsort_spec m 5 c hc
  exact ⟨m, c, hm, hc, pts, h1, h2⟩

/-- The image with two columns whose rows name the points (0, 0) and (0, 10): a line of two dots, though both pixels of the first row are
dark. -/
example : groupDotsHorImage refArgsort ⟨2, 2, fun i j => if i = 1 ∧ j = 1 then 10 else 0⟩ 0 10 0.3 6 0.7 =
    groupDotsHor refArgsort [⟨0, 0⟩, ⟨0, 10⟩] 0 10 0.3 6 0.7 := by
  refine ((C103_narrow refArgsort ⟨2, 2, fun i j => if i = 1 ∧ j = 1 then 10 else 0⟩ le_rfl 0 10 0.3 6 0.7).2.2 [⟨0, 0⟩, ⟨0, 10⟩] (by norm_num) rfl rfl ?_).1
  rintro (_ | _ | i) p hp
  · cases hp
    simp
  · cases hp
    simp
  · simp at hp

/-- What the theorems say about this run. -/
example := C103_size refLibs _ 5 _ drawn13_finishes.choose_spec.choose_spec.2.1
example := C103_models refLibs _ 5 _ drawn13_finishes.choose_spec.choose_spec.2.1
example := C103_verdicts refLibs refPolyfit_spec refArgsort_spec _ 5 _ drawn13_finishes.choose_spec.choose_spec.2.1
example := C103_forward refLibs _ 5 _ drawn13_finishes.choose_spec.choose_spec.2.1
example := C103_backward refLibs _ 5 _ drawn13_finishes.choose_spec.choose_spec.2.1 _ (.inl rfl)

/-- A dark image with three columns. -/
example := C103_image refArgsort ⟨2, 3, fun _ _ => 0⟩ (by norm_num) (by
  intro D hD
  obtain ⟨p, hp⟩ := hD.nonempty
  exact absurd rfl (hD.lit p hp).2.2) 0 10 0.3 6 0.7

example := C103_lines refLibs refPolyfit_spec refArgsort_spec _ 5 _ drawn13_finishes.choose_spec.choose_spec.2.1

end Discorpy
