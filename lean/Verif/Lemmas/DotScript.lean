import Verif.Model.DotScript
import Verif.Props.C94
import Verif.Lemmas.UnwarpScript
import Verif.Props.C103
import Verif.Props.C112

/-! # The common part of the scripts for dot patterns -/

namespace Discorpy

open Spec

/-- The options are of use: nonnegative ratios for the size, positive ones for the shape, a tolerance across of at most the distance of the dots, one
along of more than it, and less than all the dots of a line required. -/
structure DotOpts.Usable (o : DotOpts) : Prop where
  select : ∀ a b, o.select = some (a, b) → 0 ≤ a ∧ 0 < b
  ratio : 0 < o.groupRatio ∧ o.groupRatio ≤ 1
  miss : 1 < o.miss
  accepted : o.acceptedHor < 1 ∧ o.acceptedVer < 1
  residual : ∀ r, o.residual = some r → 0 < r

section

variable {height width : ℕ} {d ds s : ℤ} {margin : MarginArg} {mv mh : ℤ} {K L : ℕ}

/-- The lines found in the binarized drawing. -/
theorem dotLines_drawn (hp : DrawnPattern height width d ds s margin mv mh K L) (hK : 3 ≤ K) (hL : 3 ≤ L) {k l : ℕ} (hk : k + 1 < K) (hl : l + 1 < L)
    (w1 : TwoInMiddle height 0.3 (mv + (s / 2 + 1)) d s k) (w2 : TwoInMiddle width 0.3 (mh + (s / 2 + 1)) d s l)
    {lib : Libs} (hpf : PolyfitSpec lib.polyfit) (has : ArgsortSpec lib.argsort)
    (hr : ∀ img angles, 0 < (lib.radon img angles).height ∧ (lib.radon img angles).width = angles.length) (hax : lib.axes = ellipseAxes)
    {b : Mat ℤ} (b1 : b.height = height) (b2 : b.width = width)
    (g : ShowsGrid b 1 (s / 2) (centreSet height mv s d) (centreSet width mh s d) (zPluses (zMed (InDot s)))) (hup : Upright lib.radon (realMat b) 0.3)
    {o : DotOpts} (ho : o.Usable) :
    ∃ f, dotLines lib o b = .ok f ∧ (∀ D, IsDot b D → (D.ncard : ℝ) = f.dotSize) ∧ f.dotDist = d ∧ SameImage (realMat f.selected) (realMat b) ∧ f.horSlope = 0 ∧ f.verSlope = 0 ∧
      f.hor = latticeRows ((mv + (s / 2 + 1) : ℤ) + 1 / 2) ((mh + (s / 2 + 1) : ℤ) + 1 / 2) d K L ∧
      f.ver = latticeCols ((mv + (s / 2 + 1) : ℤ) + 1 / 2) ((mh + (s / 2 + 1) : ℤ) + 1 / 2) d K L := by
  have h5 := hp.large
  have hap := hp.apart
  have ht : (0.3 : ℝ) = max 0.05 (min 0.3 1) := by norm_num
  have t1 := inDot_far hp.odd hp.large
  have t2 := zPluses_symm (zMed_symm inDot_symm) _ _ t1
  obtain ⟨N, hN⟩ := pattern_number hp g
  have hd : 0 < d := by omega
  have hd0 : (0 : ℝ) < d := by exact_mod_cast hd
  have s1 := centreSet_steps (n := height) (mv := mv) (s := s) hd
  have s2 := centreSet_steps (n := width) (mv := mh) (s := s) hd
  have m1 := twoInMiddle_window hp.rows hk w1
  have m2 := twoInMiddle_window hp.cols hl w2
  have hne : ∃ u v, zPluses (zMed (InDot s)) u v := ⟨_, _, t1⟩
  set y0 : ℝ := (mv + (s / 2 + 1) : ℤ) + 1 / 2 with hy0
  set x0 : ℝ := (mh + (s / 2 + 1) : ℤ) + 1 / 2 with hx0
  have lattice : ∀ {b' : Mat ℤ}, ShowsGrid b' 1 (s / 2) (centreSet height mv s d) (centreSet width mh s d) (zPluses (zMed (InDot s))) →
      ∃ pts, dotCentres b' = .ok pts ∧ pts.Nodup ∧ ∀ c, c ∈ pts ↔ ∃ k < K, ∃ l < L, c = ⟨y0 + (k : ℕ) * (d : ℝ), x0 + (l : ℕ) * (d : ℝ)⟩ := by
    intro b' g'
    obtain ⟨pts, ep, hmid⟩ := g'.centres
    obtain ⟨hnd, hmem⟩ := g'.grid.middles g'.lit hne hmid
    refine ⟨pts, ep, hnd, fun c => (hmem c).trans ?_⟩
    simp only [Int.cast_one]
    constructor
    · rintro ⟨p, ⟨k, ek, h1⟩, q, ⟨l, el, h2⟩, rfl⟩
      refine ⟨k, (hp.rows k).2 (by omega), l, (hp.cols l).2 (by omega), ?_⟩
      rw [ek, el, Pt.mk.injEq]
      constructor <;> push_cast [hy0, hx0] <;> ring
    · rintro ⟨k, hk, l, hl, rfl⟩
      refine ⟨_, ⟨k, rfl, (hp.rows k).1 hk⟩, _, ⟨l, rfl, (hp.cols l).1 hl⟩, ?_⟩
      rw [Pt.mk.injEq]
      constructor <;> push_cast [hy0, hx0] <;> ring
  have esd := g.sizeDistance ⟨0, t1⟩ ⟨0, t2⟩ hd s1 s2 ht (by rw [b1]; exact m1) (by rw [b2]; exact m2) hN
  -- the selection changes nothing
  have hsel : ∃ sel, selectDots lib o b N = .ok sel ∧
      ShowsGrid sel 1 (s / 2) (centreSet height mv s d) (centreSet width mh s d) (zPluses (zMed (InDot s))) ∧ SameImage (realMat sel) (realMat b) := by
    unfold selectDots
    cases hs : o.select with
    | none => exact ⟨b, rfl, g, rfl, rfl, fun _ _ _ _ => rfl⟩
    | some ac =>
      obtain ⟨a, c⟩ := ac
      obtain ⟨ha, hc⟩ := ho.select a c hs
      obtain ⟨g2, v2⟩ := g.size hne hN (ratio := a) ha
      obtain ⟨sel, esel, g3, v3⟩ := g2.ratio ⟨0, t1⟩ (by omega) (zPluses_symm (zMed_symm inDot_symm)) (ratio := c) hc
      set mat2 := selectDotsBasedSize (realMat b) N a with hmat2
      obtain ⟨d1, d2, _⟩ := C41_size (realMat b) N a
      obtain ⟨sel', esel', d3, d4, _⟩ := C93_binary (realMat mat2) g2.binary c
      rw [esel] at esel'
      injection esel' with esel'
      subst esel'
      refine ⟨sel, by simp only; rw [hax]; exact esel, g3, d3.trans d1, d4.trans d2, fun i hi j hj => ?_⟩
      have hi' : i < b.height := by rw [← show sel.height = b.height from d3.trans d1]; exact hi
      have hj' : j < b.width := by rw [← show sel.width = b.width from d4.trans d2]; exact hj
      simp only [realMat]
      rw [v3 i (by rw [show mat2.height = b.height from d1]; exact hi') j (by rw [show mat2.width = b.width from d2]; exact hj'), v2 i hi' j hj']
  obtain ⟨sel, esel, g3, ss⟩ := hsel
  have dh : sel.height = height := ss.1.trans b1
  have dw : sel.width = width := ss.2.1.trans b2
  obtain ⟨eh, ev⟩ := g3.slopes ⟨0, t1⟩ ⟨0, t2⟩ hd ht (by rw [dh]; exact m1) (by rw [dw]; exact m2) hpf has hr ss hup
  obtain ⟨pts, ep, hnd, hmem⟩ := lattice g3
  have gh := group_lattice lib.argsort has hd0 (by omega) (by omega) hnd hmem ho.ratio.1 ho.ratio.2 ho.miss ho.accepted.1
  have gv := group_lattice_ver lib.argsort has hd0 (by omega) (by omega) hnd hmem ho.ratio.1 ho.ratio.2 ho.miss ho.accepted.2
  have hpne : pts ≠ [] := List.ne_nil_of_mem ((hmem _).2 ⟨0, by omega, 0, by omega, rfl⟩)
  have hw2 : 2 < sel.width := by
    have h1 := hp.size
    omega
  have egh : groupDotsHorImage lib.argsort sel 0 d o.groupRatio o.miss o.acceptedHor = .ok (latticeRows y0 x0 d K L) := by
    unfold groupDotsHorImage
    rw [if_pos hw2, ep, ok_bind, if_neg hpne, gh]
  have egv : groupDotsVerImage lib.argsort sel 0 d o.groupRatio o.miss o.acceptedVer = .ok (latticeCols y0 x0 d K L) := by
    unfold groupDotsVerImage
    rw [if_pos hw2, ep, ok_bind, if_neg hpne, gv]
  have hres : dropHor lib o (latticeRows y0 x0 d K L) 0 = .ok (latticeRows y0 x0 d K L) ∧
      dropVer lib o (latticeCols y0 x0 d K L) 0 = .ok (latticeCols y0 x0 d K L) := by
    unfold dropHor dropVer
    cases hs : o.residual with
    | none => exact ⟨rfl, rfl⟩
    | some r => exact residual_lattice hpf (by omega) (by omega) 0 (ho.residual r hs)
  refine ⟨⟨N, d, sel, 0, 0, latticeRows y0 x0 d K L, latticeCols y0 x0 d K L⟩, ?_, ?_, rfl, ss, rfl, rfl, rfl, rfl⟩
  · unfold dotLines
    rw [esd, ok_bind]
    simp only
    rw [esel, ok_bind, eh, ok_bind, ev, ok_bind, egh, ok_bind, egv, ok_bind, hres.1, ok_bind, hres.2, ok_bind]
  · intro D hD
    obtain ⟨p, hp, q, hq, rfl⟩ := (g.grid.isDot_iff g.lit hne D).1 hD
    simp only
    rw [hN p hp q hq]

end

/-- The rows and columns of an undistorted grid, as lines that are not bent. -/
theorem lattice_bent {y0 x0 d : ℝ} {K L : ℕ} (hd : 0 < d) (hK : 3 ≤ K) (hL : 3 ≤ L) :
    IsBentPattern ⟨0, 0⟩ 0 0 ((List.range K).map fun k : ℕ => y0 + k * d) ((List.range L).map fun k : ℕ => x0 + k * d)
      (latticeRows y0 x0 d K L) (latticeCols y0 x0 d K L) ∧
    TwoValues ((List.range K).map fun k : ℕ => y0 + k * d) ∧ TwoValues ((List.range L).map fun k : ℕ => x0 + k * d) := by
  have ne : ∀ (z : ℝ) (a b : ℕ), a ≠ b → z + a * d ≠ z + b * d := by
    intro z a b hab h
    have : (a : ℝ) * d = b * d := by linarith
    exact hab (by exact_mod_cast mul_right_cancel₀ hd.ne' this)
  have two : ∀ (z : ℝ) (n : ℕ), 3 ≤ n → TwoValues ((List.range n).map fun k : ℕ => z + k * d) := by
    intro z n hn
    exact ⟨_, List.mem_map.2 ⟨0, List.mem_range.2 (by omega), rfl⟩, _, List.mem_map.2 ⟨1, List.mem_range.2 (by omega), rfl⟩, ne z 0 1 (by omega)⟩
  refine ⟨⟨?_, ?_⟩, two y0 K hK, two x0 L hL⟩
  · unfold latticeRows
    rw [List.forall₂_map_left_iff, List.forall₂_map_right_iff, List.forall₂_same]
    intro k _
    have hm : ∀ i : ℕ, i < L → (⟨y0 + k * d, x0 + i * d⟩ : Pt) ∈ (List.range L).map fun l : ℕ => (⟨y0 + k * d, x0 + l * d⟩ : Pt) := fun i hi =>
      List.mem_map.2 ⟨i, List.mem_range.2 hi, rfl⟩
    refine ⟨?_, _, hm 0 (by omega), _, hm 1 (by omega), _, hm 2 (by omega), ne x0 0 1 (by omega), ne x0 0 2 (by omega), ne x0 1 2 (by omega)⟩
    intro p hp
    obtain ⟨i, _, rfl⟩ := List.mem_map.1 hp
    simp
  · unfold latticeCols
    rw [List.forall₂_map_left_iff, List.forall₂_map_right_iff, List.forall₂_same]
    intro k _
    have hm : ∀ i : ℕ, i < K → (⟨y0 + i * d, x0 + k * d⟩ : Pt) ∈ (List.range K).map fun l : ℕ => (⟨y0 + l * d, x0 + k * d⟩ : Pt) := fun i hi =>
      List.mem_map.2 ⟨i, List.mem_range.2 hi, rfl⟩
    refine ⟨?_, _, hm 0 (by omega), _, hm 1 (by omega), _, hm 2 (by omega), ne y0 0 1 (by omega), ne y0 0 2 (by omega), ne y0 1 2 (by omega)⟩
    intro p hp
    obtain ⟨i, _, rfl⟩ := List.mem_map.1 hp
    simp

theorem bailey_lattice {pf : PolyfitFn} (hpf : PolyfitSpec pf) {y0 x0 d : ℝ} {K L : ℕ} (hd : 0 < d) (hK : 3 ≤ K) (hL : 3 ≤ L) (n : ℕ) :
    findCodBailey pf (latticeRows y0 x0 d K L) (latticeCols y0 x0 d K L) n = .error .nonFinite := by
  obtain ⟨h, h1, h2⟩ := lattice_bent (y0 := y0) (x0 := x0) hd hK hL
  exact C72_straight pf hpf _ _ _ _ _ h h1 h2 n

theorem regenerate_lattice {pf : PolyfitFn} (hpf : PolyfitSpec pf) {y0 x0 d : ℝ} {K L : ℕ} (hd : 0 < d) (hK : 3 ≤ K) (hL : 3 ≤ L)
    (fsolve : (ℝ × ℝ → ℝ × ℝ) → ℝ × ℝ → ℝ × ℝ) :
    regenerateGridParabola pf fsolve (latticeRows y0 x0 d K L) (latticeCols y0 x0 d K L) true false = .error .nonFinite := by
  unfold regenerateGridParabola paraGridCoefs
  rw [if_pos rfl]
  unfold nonPerspectiveParaCoef
  rw [bailey_lattice hpf hd hK hL]
  rfl

theorem binOpt_pixels {lib : Libs} {zoom : List ℝ → ℕ → List ℝ} {mat0 : Mat ℝ} {o : BinOpt} {b : Mat ℤ} (h : dotBinary lib zoom mat0 o = .ok b) :
    ∃ mat1 ratio thres, binarization lib.otsu mat1 ratio thres true = .ok b := by
  cases o with
  | plain => exact ⟨_, _, _, h⟩
  | normed _ _ =>
    obtain ⟨m, _, h⟩ := bind_ok_iff.1 h
    exact ⟨_, _, _, h⟩
  | noise _ _ _ =>
    obtain ⟨m, _, h⟩ := bind_ok_iff.1 h
    obtain ⟨t, _, h⟩ := bind_ok_iff.1 h
    exact ⟨_, _, _, h⟩

theorem binarized_pixels {otsu : Mat ℝ → Except PyErr ℝ} {m : Mat ℝ} {ratio : ℝ} {thres : Option ℝ} {dn : Bool} {b : Mat ℤ}
    (h : binarization otsu m ratio thres dn = .ok b) : ∀ i < b.height, ∀ j < b.width, b.get i j = 0 ∨ b.get i j = 1 := by
  obtain ⟨e1, e2, D, hD, h1, h0, _⟩ := C81_shape _ _ _ _ _ _ h
  intro i hi j hj
  by_cases hm : (i, j) ∈ D
  · exact .inr (h1 _ hm)
  · exact .inl (h0 (i, j) ⟨e1 ▸ hi, e2 ▸ hj⟩ hm)

/-- Size and distance are found only in images of more than two rows and columns. -/
theorem wide_of_size {otsu : Mat ℝ → Except PyErr ℝ} {m : Mat ℝ} {ratio : ℝ} {thres : Option ℝ} {dn : Bool} {b : Mat ℤ}
    (h : binarization otsu m ratio thres dn = .ok b) {t : ℝ} {v : ℝ × ℝ} (hs : calcSizeDistance (realMat b) t = .ok v) : 2 < b.width ∧ 2 < b.height := by
  obtain ⟨e1, e2, D, hD, h1, h0, hrim, _⟩ := C81_shape _ _ _ _ _ _ h
  by_contra hno
  have hdark : ∀ i < b.height, ∀ j < b.width, b.get i j = 0 := by
    intro i hi j hj
    have hf : (i, j) ∈ frame m.height m.width := ⟨by show i < _; omega, by show j < _; omega⟩
    refine h0 (i, j) hf fun hp => hrim (i, j) ⟨hf, ?_⟩ hp
    show i = 0 ∨ _
    omega
  obtain ⟨p1, p2⟩ := binarization_pos h
  obtain ⟨roi, mask, hm, hi, hz, _⟩ := C67_outcome (realMat b) (fun i hi j hj => .inl (by simp only [realMat]; rw [hdark i hi j hj]; simp)) p1 p2 t
  rw [hz] at hs
  · cases hs
  · rw [Set.encard_eq_zero]
    ext E
    simp only [Set.mem_ofPred_eq, Set.mem_empty_iff_false, iff_false]
    intro hE
    obtain ⟨p, hp⟩ := hE.nonempty
    obtain ⟨l1, l2, l3⟩ := hE.lit p hp
    rw [hi.1] at l1
    rw [hi.2.1] at l2
    refine l3 ((hi.2.2 p ⟨l1, l2⟩).2 fun hin => ?_)
    have hmem : p ∈ {q ∈ frame roi.height roi.width | roi.get q.1 q.2 = 1} := hin.1
    obtain ⟨a, c, hpart, q1, q2, _⟩ := hm
    have h2 := hmem.2
    have h3 := hpart.rows
    have h4 := hpart.cols
    rw [hpart.get] at h2
    simp only [realMat] at h2 h3 h4
    rw [hdark _ (by omega) _ (by omega)] at h2
    norm_num at h2

/-- What is found in a binarized image: size and distance are medians of the middle part; the selected image is binary, and lit only where the
binarized one is; the slopes are those of the functions for slopes; the lines are made of the centres of its dots. -/
structure AreDotsFound (lib : Libs) (bin : Mat ℤ) (f : DotsFound) : Prop where
  size : ∃ roi mask, IsMiddlePart (realMat bin) 0.3 roi ∧ IsInnerMask roi mask ∧ DotMedian mask (fun D x => x = D.ncard) f.dotSize ∧
    DotMedian mask (NearestDist mask) f.dotDist
  shape : f.selected.height = bin.height ∧ f.selected.width = bin.width
  selected : ∀ i < bin.height, ∀ j < bin.width, (f.selected.get i j = 0 ∨ f.selected.get i j = 1) ∧ (f.selected.get i j = 1 → bin.get i j = 1)
  horSlope : calcHorSlope lib.polyfit lib.argsort lib.radon (realMat f.selected) 0.3 = .ok f.horSlope
  verSlope : calcVerSlope lib.polyfit lib.argsort lib.radon (realMat f.selected) 0.3 = .ok f.verSlope
  lines : ∃ pts, CentresOf f.selected pts ∧ AreLinesOf Pt.x pts f.hor ∧ AreLinesOf Pt.y pts f.ver

theorem grouped_hor {argsort : List ℝ → List ℕ} (has : ArgsortSpec argsort) {pts : List Pt} {slope dist ratio miss acc : ℝ} {lines : List (List Pt)}
    (h : groupDotsHor argsort pts slope dist ratio miss acc = .ok lines) (hne : lines ≠ []) : AreLinesOf Pt.x pts lines := by
  obtain ⟨hsub, hl⟩ := C29_lines argsort has pts slope dist ratio miss acc lines h
  refine ⟨hne, hsub, fun l hm => ⟨?_, (hl l hm).2.1⟩⟩
  rintro rfl
  have := (hl [] hm).1
  simp at this

theorem grouped_ver {argsort : List ℝ → List ℕ} (has : ArgsortSpec argsort) {pts : List Pt} {slope dist ratio miss acc : ℝ} {lines : List (List Pt)}
    (h : groupDotsVer argsort pts slope dist ratio miss acc = .ok lines) (hne : lines ≠ []) : AreLinesOf Pt.y pts lines := by
  rw [C31_vertical, map_ok_iff] at h
  obtain ⟨l0, h, rfl⟩ := h
  obtain ⟨a1, a2, a3⟩ := grouped_hor has h (by rintro rfl; exact hne rfl)
  refine ⟨hne, ?_, fun k hk => ?_⟩
  · rw [swapLines_flatten]
    obtain ⟨l, hp, hs⟩ := a2
    have := hs.map swapPt
    rw [List.map_map, show swapPt ∘ swapPt = id from rfl, List.map_id] at this
    exact ⟨l.map swapPt, hp.map _, this⟩
  · obtain ⟨l, hl, rfl⟩ := List.mem_map.1 hk
    obtain ⟨b1, b2⟩ := a3 l hl
    exact ⟨by simpa using b1, List.pairwise_map.2 b2⟩

/-- A finished search in a binary image more than two columns wide, with lines in both directions. -/
theorem dotLines_ok {lib : Libs} (hpf : PolyfitSpec lib.polyfit) (has : ArgsortSpec lib.argsort) {o : DotOpts} {bin : Mat ℤ} {f : DotsFound}
    (h : dotLines lib o bin = .ok f) (hb : ∀ i < bin.height, ∀ j < bin.width, bin.get i j = 0 ∨ bin.get i j = 1) (hw : 2 < bin.width)
    (h0 : 0 < bin.height) (hh : f.hor ≠ []) (hv : f.ver ≠ []) : AreDotsFound lib bin f := by
  unfold dotLines at h
  obtain ⟨⟨ds, dd⟩, k1, h⟩ := bind_ok_iff.1 h
  obtain ⟨sel, k2, h⟩ := bind_ok_iff.1 h
  obtain ⟨hs, k3, h⟩ := bind_ok_iff.1 h
  obtain ⟨vs, k4, h⟩ := bind_ok_iff.1 h
  obtain ⟨gh, k5, h⟩ := bind_ok_iff.1 h
  obtain ⟨gv, k6, h⟩ := bind_ok_iff.1 h
  obtain ⟨hor, k7, h⟩ := bind_ok_iff.1 h
  obtain ⟨ver, k8, h⟩ := bind_ok_iff.1 h
  cases h
  simp only at hh hv k2
  have hsel : (sel.height = bin.height ∧ sel.width = bin.width) ∧
      ∀ i < bin.height, ∀ j < bin.width, (sel.get i j = 0 ∨ sel.get i j = 1) ∧ (sel.get i j = 1 → bin.get i j = 1) := by
    unfold selectDots at k2
    split at k2
    · cases k2
      exact ⟨⟨rfl, rfl⟩, fun i hi j hj => ⟨hb i hi j hj, id⟩⟩
    · rename_i a c _
      obtain ⟨a1, a2, a3⟩ := keepsDots_pixels (C41_size (realMat bin) ds a)
      obtain ⟨b1, b2, b3⟩ := keepsDots_pixels (C41_ratio lib.axes _ c _ k2)
      refine ⟨⟨b1.trans a1, b2.trans a2⟩, fun i hi j hj => ?_⟩
      have hbij := hb i hi j hj
      have ha := a3 i hi j hj
      rw [int16_of_small hbij] at ha
      have hc := b3 i (by show i < (selectDotsBasedSize _ _ _).height; rw [a1]; exact hi) j
        (by show j < (selectDotsBasedSize _ _ _).width; rw [a2]; exact hj)
      rw [int16_of_small (by rcases ha with ha | ha <;> rw [ha] <;> simp [hbij])] at hc
      refine ⟨?_, fun h => ?_⟩
      · rcases hc with hc | hc
        · rcases ha with ha | ha <;> omega
        · omega
      · rcases hc with hc | hc
        · rcases ha with ha | ha <;> omega
        · omega
  refine ⟨C67_median (realMat bin) (fun i hi j hj => ?_) h0 (by show 0 < bin.width; omega) 0.3 ds dd k1, hsel.1, hsel.2, k3, k4, ?_⟩
  · have := hb i hi j hj
    simp only [realMat]
    exact_mod_cast this
  · unfold groupDotsHorImage at k5
    unfold groupDotsVerImage at k6
    rw [if_pos (by rw [hsel.1.2]; exact hw)] at k5 k6
    obtain ⟨pts, hp, k5⟩ := bind_ok_iff.1 k5
    obtain ⟨pts', hp', k6⟩ := bind_ok_iff.1 k6
    rw [hp] at hp'
    cases hp'
    split_ifs at k5 k6
    refine ⟨pts, dotCentres_centresOf hp, ?_, ?_⟩
    · unfold dropHor at k7
      split at k7
      · cases k7
        exact grouped_hor has k5 hh
      · exact lines_hor hpf has k5 k7
    · unfold dropVer at k8
      split at k8
      · cases k8
        exact grouped_ver has k6 hv
      · exact lines_ver hpf has k6 k8

theorem residuals_ne {lib : Libs} (hpf : PolyfitSpec lib.polyfit) {lines : List (List Pt) × List (List Pt)} {xc yc : ℝ}
    {t : List (ℝ × ℝ) × List (ℝ × ℝ)} (h : lineResiduals lib lines xc yc = .ok t) :
    (lines.1 ≠ [] ∧ ∀ l ∈ lines.1, l ≠ []) ∧ lines.2 ≠ [] ∧ ∀ l ∈ lines.2, l ≠ [] := by
  unfold lineResiduals at h
  obtain ⟨a, h1, h⟩ := bind_ok_iff.1 h
  obtain ⟨b, h2, h⟩ := bind_ok_iff.1 h
  have key : ∀ ls : List (List Pt), calcResidualHor lib.polyfit lib.argsort ls xc yc ≠ .error .indexError ∨
      calcResidualVer lib.polyfit lib.argsort ls xc yc ≠ .error .indexError → ls ≠ [] ∧ ∀ l ∈ ls, l ≠ [] := by
    intro ls hh
    by_contra hcon
    have := C12_errors lib.polyfit hpf lib.argsort ls xc yc (by
      by_cases h0 : ls = []
      · exact .inl h0
      · right
        push Not at hcon
        obtain ⟨l, hl, rfl⟩ := hcon h0
        exact hl)
    rcases hh with hh | hh
    · exact hh this.1
    · exact hh this.2
  exact ⟨key _ (.inl (by rw [h1]; simp)), key _ (.inr (by rw [h2]; simp))⟩

/-- A verdict is given only on lines with points. -/
theorem verdict_ne {lib : Libs} (hpf : PolyfitSpec lib.polyfit) {hor ver : List (List Pt)} {xc yc : ℝ} {b : Bool}
    (h : linesDistorted lib hor ver xc yc = .ok b) : (hor ≠ [] ∧ ∀ l ∈ hor, l ≠ []) ∧ ver ≠ [] ∧ ∀ l ∈ ver, l ≠ [] := by
  unfold linesDistorted at h
  obtain ⟨a, h1, h⟩ := bind_ok_iff.1 h
  obtain ⟨b, h2, _⟩ := bind_ok_iff.1 h
  refine residuals_ne hpf (lines := (hor, ver)) (xc := xc) (yc := yc) (t := (a, b)) ?_
  unfold lineResiduals
  rw [h1, ok_bind, h2]
  rfl

/-- Lines regenerated without correction of the perspective are one grid too. -/
theorem regenerate_shape_plain {pf : PolyfitFn} {fsolve : (ℝ × ℝ → ℝ × ℝ) → ℝ × ℝ → ℝ × ℝ} {hor ver : List (List Pt)} {fc : Bool}
    {grid : List (List Pt) × List (List Pt)} (h : regenerateGridParabola pf fsolve hor ver false fc = .ok grid) :
    SameGrid hor.length ver.length grid := by
  unfold regenerateGridParabola paraGridCoefs at h
  rw [if_neg (by simp)] at h
  obtain ⟨⟨ch, cv, c⟩, h1, h⟩ := bind_ok_iff.1 h
  cases h
  have hl : ch.length = hor.length ∧ cv.length = ver.length := by
    obtain ⟨c', _, h1⟩ := bind_ok_iff.1 h1
    obtain ⟨⟨ch', _⟩, a1, h1⟩ := bind_ok_iff.1 h1
    obtain ⟨⟨cv', _⟩, a2, h1⟩ := bind_ok_iff.1 h1
    cases h1
    unfold paraFitHor at a1
    unfold paraFitVer at a2
    obtain ⟨q1, b1, a1⟩ := bind_ok_iff.1 a1
    obtain ⟨q2, b2, a2⟩ := bind_ok_iff.1 a2
    cases a1
    cases a2
    exact ⟨(mapM_ok_iff.1 b1).length_eq.symm, (mapM_ok_iff.1 b2).length_eq.symm⟩
  rw [← hl.1, ← hl.2]
  have hsplit : ∀ {α β : Type} (l : List α) (f : α → β) (d : α), l.map f = (List.range l.length).map fun i => f (l.getD i d) := by
    intro α β l f d
    refine List.ext_getElem (by simp) fun n h1 h2 => ?_
    simp at h1 ⊢
    rw [List.getElem?_eq_getElem h1]
    rfl
  refine ⟨fun i j => paraGridPoint fsolve c (ch.getD i ⟨0, 0, 0⟩) (cv.getD j ⟨0, 0, 0⟩), ?_, ?_⟩
  · simp only
    rw [hsplit ch _ ⟨0, 0, 0⟩]
    refine List.map_congr_left fun i _ => ?_
    rw [hsplit cv _ ⟨0, 0, 0⟩]
  · simp only
    rw [hsplit cv _ ⟨0, 0, 0⟩]
    refine List.map_congr_left fun i _ => ?_
    rw [hsplit ch _ ⟨0, 0, 0⟩]

end Discorpy
