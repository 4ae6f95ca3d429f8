import Verif.Lemmas.Path
import Verif.Lemmas.Normalize
import Verif.Model.UnwarpScript
import Verif.Spec.UnwarpScript
import Verif.Props.C103
import Verif.Props.C90

/-! # Lemmas about the standalone script -/

namespace Discorpy

open Spec

/-! ## Loading -/

theorem splitExt_append {stem ext : PyStr} (hd : '.' ∉ ext) :
    splitExt (stem ++ '.' :: ext) = if ∃ c ∈ stem, c ≠ '.' then '.' :: ext else [] := by
  unfold splitExt
  rw [lastDot_append hd]
  simp only [List.take_left', List.drop_left']
  by_cases h : ∃ c ∈ stem, c ≠ '.'
  · rw [if_pos h, if_neg]
    intro hall
    obtain ⟨c, hc, hne⟩ := h
    exact hne (by simpa using List.all_eq_true.1 hall c hc)
  · rw [if_neg h, if_pos]
    push Not at h
    exact List.all_eq_true.2 fun c hc => by simpa using h c hc

theorem splitExt_iff {s ext : PyStr} (hd : '.' ∉ ext) :
    splitExt s = '.' :: ext ↔ ∃ stem : PyStr, (∃ c ∈ stem, c ≠ '.') ∧ s = stem ++ '.' :: ext := by
  constructor
  · intro h
    by_cases hs : '.' ∈ s
    · obtain ⟨a, b, rfl, hb⟩ := exists_lastDot hs
      rw [splitExt_append hb] at h
      split_ifs at h with hc
      injection h with _ h
      subst h
      exact ⟨a, hc, rfl⟩
    · unfold splitExt lastDot at h
      rw [if_neg hs] at h
      cases h
  · rintro ⟨stem, hc, rfl⟩
    rw [splitExt_append hd, if_pos hc]

theorem hasHdfName_iff (s : PyStr) : (splitExt s = ".hdf".toList ∨ splitExt s = ".nxs".toList) ↔ HasHdfName s := by
  have e1 : ".hdf".toList = '.' :: ['h', 'd', 'f'] := rfl
  have e2 : ".nxs".toList = '.' :: ['n', 'x', 's'] := rfl
  rw [e1, e2, splitExt_iff (by decide), splitExt_iff (by decide)]
  constructor
  · rintro (⟨stem, hc, rfl⟩ | ⟨stem, hc, rfl⟩)
    · exact ⟨stem, hc, .inl rfl⟩
    · exact ⟨stem, hc, .inr rfl⟩
  · rintro ⟨stem, hc, rfl | rfl⟩
    · exact .inl ⟨stem, hc, rfl⟩
    · exact .inr ⟨stem, hc, rfl⟩

/-! ## The image of the dots -/

theorem reflectIdx_lt {n : ℕ} (hn : 0 < n) (k : ℤ) : reflectIdx n k < n := by
  have h1 := Int.emod_nonneg k (show ((2 * n : ℕ) : ℤ) ≠ 0 by omega)
  have h2 := Int.emod_lt_of_pos k (show (0 : ℤ) < ((2 * n : ℕ) : ℤ) by omega)
  simp only [reflectIdx]
  split_ifs <;> omega

/-- The binarization with denoising does not see more than the pixels of the image. -/
theorem binarization_sameImage {m m' : Mat ℝ} (h : SameImage m m') (h0 : 0 < m.height) (w0 : 0 < m.width) (otsu : Mat ℝ → Except PyErr ℝ)
    (ratio : ℝ) (thres : Option ℝ) : binarization otsu m ratio thres true = binarization otsu m' ratio thres true := by
  have e : medianFilter { m with get := fun i j => |m.get i j| } 2 2 = medianFilter { m' with get := fun i j => |m'.get i j| } 2 2 := by
    obtain ⟨a, b, c⟩ := h
    unfold medianFilter
    simp only [Mat.mk.injEq]
    refine ⟨a, b, ?_⟩
    funext i j
    congr 2
    unfold medianWindow
    simp only [← a, ← b]
    refine List.map_congr_left fun p _ => ?_
    rw [c _ (reflectIdx_lt h0 _) _ (reflectIdx_lt w0 _)]
  unfold binarization
  simp only [if_true]
  rw [e]

theorem thresholdOtsu_total {m : Mat ℝ} {n : ℕ} (hn : 2 ≤ n) (h0 : 0 < m.height) (w0 : 0 < m.width) : ∃ t, thresholdOtsu false n m = .ok t := by
  by_cases hv : ∃ a ∈ m.flat, ∃ b ∈ m.flat, a < b
  · obtain ⟨t, _, _, _, e, _⟩ := C90_float m n hn hv
    exact ⟨t, e⟩
  · push Not at hv
    refine ⟨_, C90_constant false n m (m.get 0 0) h0 w0 fun i hi j hj => ?_⟩
    have a := mem_flat.2 ⟨i, hi, j, hj, rfl⟩
    have b := mem_flat.2 ⟨0, h0, 0, w0, rfl⟩
    exact le_antisymm (hv _ b _ a) (hv _ a _ b)

/-- The binarization with Otsu's threshold does not depend on the unit of the pixels. -/
theorem binarization_scale {m : Mat ℝ} {n : ℕ} (hn : 2 ≤ n) {c : ℝ} (hc : 0 < c) (h0 : 0 < m.height) (w0 : 0 < m.width) (ratio : ℝ) :
    binarization (thresholdOtsu false n) ⟨m.height, m.width, fun i j => c * m.get i j⟩ ratio none true =
      binarization (thresholdOtsu false n) m ratio none true := by
  set f : Mat ℝ := medianFilter { m with get := fun i j => |m.get i j| } 2 2 with hf
  have e : medianFilter ⟨m.height, m.width, fun i j => |c * m.get i j|⟩ 2 2 = { f with get := fun i j => c * f.get i j } := by
    unfold medianFilter at hf ⊢
    rw [hf]
    simp only [Mat.mk.injEq, true_and]
    funext i j
    have hw : medianWindow ⟨m.height, m.width, fun i j => |c * m.get i j|⟩ 2 2 i j =
        (medianWindow { m with get := fun i j => |m.get i j| } 2 2 i j).map fun x => c * x := by
      unfold medianWindow
      rw [List.map_map]
      refine List.map_congr_left fun p _ => ?_
      simp [abs_mul, abs_of_pos hc]
    rw [hw, ← List.map_mergeSort (r := fun a b => decide (a ≤ b)) (fun a _ b _ => by simp [mul_le_mul_iff_right₀ hc]),
      List.getD_eq_getElem?_getD, List.getD_eq_getElem?_getD, List.getElem?_map]
    cases ((medianWindow { m with get := fun i j => |m.get i j| } 2 2 i j).mergeSort fun a b => decide (a ≤ b))[2 * 2 / 2]? <;> simp
  have hroi : selectRoi { f with get := fun i j => c * f.get i j } ratio false =
      { selectRoi f ratio false with get := fun i j => c * (selectRoi f ratio false).get i j + 0 } := by
    simp only [add_zero]
    rfl
  obtain ⟨_, _, _, _, _, _, p1, p2⟩ := C37_roi f ratio
  obtain ⟨t, ht⟩ := thresholdOtsu_total hn (p1 h0) (p2 w0)
  have ht' := C90_contrast false _ n c 0 hc (fun h => by cases h) t ht
  unfold binarization chooseThreshold
  simp only [if_true]
  rw [e, hroi, ← hf, ht', ht, ok_bind, ok_bind]
  congr 2
  unfold aboveMat
  simp only [Mat.mk.injEq, true_and]
  funext i j
  simp only [add_zero, gt_iff_lt, mul_lt_mul_iff_right₀ hc]

theorem binarization_pos {otsu : Mat ℝ → Except PyErr ℝ} {m : Mat ℝ} {ratio : ℝ} {thres : Option ℝ} {denoise : Bool} {b : Mat ℤ}
    (h : binarization otsu m ratio thres denoise = .ok b) : 0 < b.height ∧ 0 < b.width := by
  obtain ⟨e1, e2, _⟩ := C81_shape otsu m ratio thres denoise b h
  unfold binarization at h
  obtain ⟨t, _, h⟩ := bind_ok_iff.1 h
  obtain ⟨b1, _, h⟩ := bind_ok_iff.1 h
  obtain ⟨b2, hb, h⟩ := bind_ok_iff.1 h
  unfold clearBorder at hb
  split_ifs at hb with hz
  cases hb
  cases h
  simp only [fillHoles, openingCross, dilateCross, erodeCross]
  omega

/-- If the size of the dots can be measured, the binarized image has at least three rows and columns. -/
theorem wide_of_measured {otsu : Mat ℝ → Except PyErr ℝ} {m : Mat ℝ} {ratio r : ℝ} {thres : Option ℝ} {denoise : Bool} {b : Mat ℤ} {v : ℝ × ℝ}
    (h : binarization otsu m ratio thres denoise = .ok b) (hs : calcSizeDistance (realMat b) r = .ok v) : 2 < b.width ∧ 2 < b.height := by
  obtain ⟨p1, p2⟩ := binarization_pos h
  obtain ⟨e1, e2, D, hD, h1, h0, hrim, _⟩ := C81_shape otsu m ratio thres denoise b h
  have hbin : IsBinary (realMat b) := by
    intro i hi j hj
    simp only [realMat]
    by_cases hm : (i, j) ∈ D
    · rw [h1 _ hm]
      simp
    · rw [h0 (i, j) ⟨by rw [← e1]; exact hi, by rw [← e2]; exact hj⟩ hm]
      simp
  obtain ⟨roi, mask, hp, hm, hno, _⟩ := C67_outcome (realMat b) hbin p1 p2 r
  by_contra hnarrow
  have hdark : ∀ p, ¬ Lit b p := by
    rintro p ⟨p1, p2, p3⟩
    have hf : p ∈ frame m.height m.width := ⟨by omega, by omega⟩
    refine p3 (h0 p hf fun hp => hrim p ⟨hf, ?_⟩ hp)
    omega
  have hmask : {D | IsDot mask D}.encard = 0 := by
    have : {D | IsDot mask D} = ∅ := by
      ext D
      simp only [Set.mem_ofPred_eq, Set.mem_empty_iff_false, iff_false]
      intro hd
      obtain ⟨p, hp'⟩ := hd.nonempty
      obtain ⟨l1, l2, l3⟩ := hd.lit p hp'
      obtain ⟨m1, m2, m3⟩ := hm
      rw [m1] at l1
      rw [m2] at l2
      refine l3 ((m3 p ⟨l1, l2⟩).2 fun haway => ?_)
      have hone := haway.1
      obtain ⟨x, y, hpart, _⟩ := hp
      have g1 := hpart.rows
      have g2 := hpart.cols
      have g3 := hpart.get p.1 p.2
      rw [hone.2] at g3
      simp only [realMat] at g1 g2 g3
      refine hdark (x + p.1, y + p.2) ⟨by show x + p.1 < b.height; omega, by show y + p.2 < b.width; omega, ?_⟩
      have : (b.get (x + p.1) (y + p.2) : ℤ) = 1 := by exact_mod_cast g3.symm
      simp only
      omega
    rw [this, Set.encard_empty]
  rw [hno hmask] at hs
  cases hs

/-! ## The steps -/

/-- The steps of a successful run. -/
structure ScriptSteps (lib : Libs) (mat0 mat1 : Mat ℝ) (order : ℤ) (r : UnwarpRun) : Prop where
  binary : binarization lib.otsu mat1 0.3 none true = .ok r.found.binarized
  size : calcSizeDistance (realMat r.found.binarized) 0.5 = .ok (r.found.dotSize, r.found.dotDist)
  selected : selectDotsBasedRatio lib.axes (realMat (selectDotsBasedSize (realMat r.found.binarized) r.found.dotSize 0.5)) 0.3 = .ok r.found.selected
  horSlope : calcHorSlope lib.polyfit lib.argsort lib.radon (realMat r.found.selected) 0.3 = .ok r.found.horSlope
  verSlope : calcVerSlope lib.polyfit lib.argsort lib.radon (realMat r.found.selected) 0.3 = .ok r.found.verSlope
  hor : ∃ l, groupDotsHorImage lib.argsort r.found.selected r.found.horSlope r.found.dotDist 0.3 6 0.65 = .ok l ∧
    removeResidualHor lib.polyfit l r.found.horSlope 2 = .ok r.found.hor
  ver : ∃ l, groupDotsVerImage lib.argsort r.found.selected r.found.verSlope r.found.dotDist 0.3 6 0.65 = .ok l ∧
    removeResidualVer lib.polyfit l r.found.verSlope 2 = .ok r.found.ver
  usedHor : r.found.usedHor = r.found.hor
  usedVer : r.found.usedVer = r.found.ver
  centre : findCodCoarse lib.polyfit r.found.hor r.found.ver = .ok r.found.centre
  coefs : ∃ ff, calcCoefBackwardFromForward lib.polyfit lib.lstsq lib.minimize r.found.hor r.found.ver r.found.centre.x r.found.centre.y order
    false 0.3 = .ok (ff, r.found.coefs, r.found.warned)
  corrected : correctBackward lib mat0 r.found.hor r.found.ver r.found.centre r.found.coefs r.found.warned =
    .ok ⟨r.found.coefs, r.found.warned, r.image, r.found.unwarpedHor, r.found.unwarpedVer, r.found.bad⟩

theorem unwarpSteps_ok {lib : Libs} {fsolve : (ℝ × ℝ → ℝ × ℝ) → ℝ × ℝ → ℝ × ℝ} {mat0 mat1 : Mat ℝ} {order : ℤ} {r : UnwarpRun}
    (h : unwarpSteps lib fsolve mat0 mat1 order false = .ok r) : ScriptSteps lib mat0 mat1 order r := by
  unfold unwarpSteps at h
  obtain ⟨bin, h1, h⟩ := bind_ok_iff.1 h
  obtain ⟨⟨ds, dd⟩, h2, h⟩ := bind_ok_iff.1 h
  obtain ⟨sel, h3, h⟩ := bind_ok_iff.1 h
  obtain ⟨hs, h4, h⟩ := bind_ok_iff.1 h
  obtain ⟨vs, h5, h⟩ := bind_ok_iff.1 h
  obtain ⟨hl, h6, h⟩ := bind_ok_iff.1 h
  obtain ⟨vl, h7, h⟩ := bind_ok_iff.1 h
  obtain ⟨hor, h8, h⟩ := bind_ok_iff.1 h
  obtain ⟨ver, h9, h⟩ := bind_ok_iff.1 h
  obtain ⟨_, _, h⟩ := bind_ok_iff.1 h
  obtain ⟨_, _, h⟩ := bind_ok_iff.1 h
  obtain ⟨⟨uh, uv⟩, h10, h⟩ := bind_ok_iff.1 h
  obtain ⟨c, h11, h⟩ := bind_ok_iff.1 h
  obtain ⟨⟨ff, bf, w⟩, h12, h⟩ := bind_ok_iff.1 h
  obtain ⟨q, h13, h⟩ := bind_ok_iff.1 h
  cases h
  unfold modelLines at h10
  cases h10
  obtain ⟨rfl, rfl, _⟩ := correctBackward_ok h13
  exact ⟨h1, h2, h3, h4, h5, ⟨hl, h6, h8⟩, ⟨vl, h7, h9⟩, rfl, rfl, h11, ⟨ff, h12⟩, h13⟩

end Discorpy
