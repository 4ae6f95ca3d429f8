import Verif.Lemmas.Otsu
import Verif.Lemmas.Tilted
import Verif.Lemmas.Chessboard
import Verif.Lemmas.Normalize
import Verif.Props.C87

/-! # C90 — the automatic threshold -/

namespace Discorpy

open Spec

theorem thresholdOtsu_constant {integer : Bool} {n : ℕ} {m : Mat ℝ} {v : ℝ} (hne : m.flat ≠ []) (h : ∀ x ∈ m.flat, x = v) :
    thresholdOtsu integer n m = .ok v := by
  unfold thresholdOtsu
  cases hm : m.flat with
  | nil => exact absurd hm hne
  | cons x r =>
    rw [hm] at h
    simp only
    rw [if_pos]
    · rw [h x (by simp)]
    · intro y hy
      rw [h x (by simp), h y (by simp [hy])]

theorem thresholdOtsu_varied {integer : Bool} {n : ℕ} {m : Mat ℝ} {a b : ℝ} (ha : a ∈ m.flat) (hb : b ∈ m.flat) (hab : a < b) :
    ∃ lo hi, lo ∈ m.flat ∧ hi ∈ m.flat ∧ (∀ x ∈ m.flat, lo ≤ x ∧ x ≤ hi) ∧ lo < hi ∧
      thresholdOtsu integer n m = otsuOfHistogram (if integer then intHistogram m.flat lo hi else floatHistogram m.flat lo hi n).1
        (if integer then intHistogram m.flat lo hi else floatHistogram m.flat lo hi n).2 := by
  have hne : m.flat ≠ [] := List.ne_nil_of_mem ha
  obtain ⟨lo, e1, h1, h2⟩ := npMin_ok hne
  obtain ⟨hi, e2, h3, h4⟩ := npMax_ok hne
  refine ⟨lo, hi, h1, h3, fun x hx => ⟨h2 x hx, h4 x hx⟩, (h2 a ha).trans_lt (hab.trans_le (h4 b hb)), ?_⟩
  unfold thresholdOtsu
  cases hm : m.flat with
  | nil => exact absurd hm hne
  | cons x r =>
    simp only
    rw [if_neg, ← hm, e1, e2]
    · rfl
    · intro hc
      rw [hm] at ha hb
      have key : ∀ y ∈ x :: r, y = x := by
        intro y hy
        rcases List.mem_cons.1 hy with e | e
        · exact e
        · exact hc y e
      rw [key a ha, key b hb] at hab
      exact lt_irrefl _ hab

/-- **C90 (floats).** For an image of floats with different values and at least two bins, the threshold is strictly between the
least and the largest value, and it meets Otsu's criterion for the centres of the bins of the pixels. -/
theorem C90_float (m : Mat ℝ) (n : ℕ) (hn : 2 ≤ n) (hv : ∃ a ∈ m.flat, ∃ b ∈ m.flat, a < b) :
    ∃ t lo hi ys, thresholdOtsu false n m = .ok t ∧ lo ∈ m.flat ∧ hi ∈ m.flat ∧ (∀ x ∈ m.flat, lo ≤ x ∧ x ≤ hi) ∧ lo < t ∧ t < hi ∧
      List.Forall₂ (Binned lo hi n) m.flat ys ∧ OtsuThreshold ys t := by
  obtain ⟨a, ha, b, hb, hab⟩ := hv
  obtain ⟨lo, hi, h1, h2, h3, h4, e⟩ := thresholdOtsu_varied (integer := false) (n := n) ha hb hab
  obtain ⟨idx, hidx, e', ho⟩ := otsu_float h1 h2 h4 hn
  refine ⟨_, lo, hi, _, e.trans e', h1, h2, h3, ?_, ?_, ?_, ho⟩
  · rw [binCentre_eq]
    have : 0 < (hi - lo) / n := div_pos (sub_pos.2 h4) (Nat.cast_pos.2 (by omega))
    have : (0 : ℝ) ≤ idx := Nat.cast_nonneg _
    have := mul_pos (by linarith : (0 : ℝ) < idx + 1 / 2) ‹0 < (hi - lo) / (n : ℝ)›
    linarith
  · rw [binCentre_eq]
    have hn' : (0 : ℝ) < n := Nat.cast_pos.2 (by omega)
    have hw : 0 < (hi - lo) / n := div_pos (sub_pos.2 h4) hn'
    have hi' : (idx : ℝ) + 1 ≤ n := by exact_mod_cast (by omega : idx + 1 ≤ n)
    have e2 : lo + n * ((hi - lo) / n) = hi := by
      field_simp
      ring
    nlinarith
  · rw [List.forall₂_map_right_iff, List.forall₂_same]
    exact fun x hx => binned_index h4 (by omega) (h3 x hx).1 (h3 x hx).2

/-- **C90 (integers).** For an image of integers with different values, the threshold meets Otsu's criterion for the pixels
themselves, whatever the number of bins. -/
theorem C90_integer (m : Mat ℝ) (n : ℕ) (hz : ∀ x ∈ m.flat, ∃ z : ℤ, x = z) (hv : ∃ a ∈ m.flat, ∃ b ∈ m.flat, a < b) :
    ∃ t, thresholdOtsu true n m = .ok t ∧ OtsuThreshold m.flat t ∧ ∃ b ∈ m.flat, t < b := by
  obtain ⟨a, ha, b, hb, hab⟩ := hv
  obtain ⟨lo, hi, h1, h2, h3, h4, e⟩ := thresholdOtsu_varied (integer := true) (n := n) ha hb hab
  obtain ⟨t, e', ho, _, h6⟩ := otsu_integer h1 h2 h4 (fun x hx => (h3 x hx).1) (fun x hx => (h3 x hx).2) hz
  exact ⟨t, e.trans e', ho, hi, h2, h6⟩

/-- **C90 (one value).** An image with a single value gives this value; no pixel is above the threshold. -/
theorem C90_constant (integer : Bool) (n : ℕ) (m : Mat ℝ) (v : ℝ) (h0 : 0 < m.height) (h1 : 0 < m.width)
    (h : ∀ i < m.height, ∀ j < m.width, m.get i j = v) : thresholdOtsu integer n m = .ok v := by
  refine thresholdOtsu_constant (flat_ne_nil h0 h1) fun x hx => ?_
  obtain ⟨i, j, hi, hj, rfl⟩ := mem_flat_iff.1 hx
  exact h i hi j hj

/-- **C90 (refused).** An image without pixels is an `IndexError`; different floats with less than two bins are a `ValueError`. -/
theorem C90_refused (m : Mat ℝ) (n : ℕ) : (m.height = 0 ∨ m.width = 0 → ∀ integer, thresholdOtsu integer n m = .error .indexError) ∧
    (n < 2 → (∃ a ∈ m.flat, ∃ b ∈ m.flat, a < b) → thresholdOtsu false n m = .error .valueError) := by
  constructor
  · intro h integer
    have hf : m.flat = [] := by
      rw [← List.length_eq_zero_iff, flat_length]
      rcases h with h | h <;> simp [h]
    unfold thresholdOtsu
    rw [hf]
  · rintro hn ⟨a, ha, b, hb, hab⟩
    obtain ⟨lo, hi, h1, h2, h3, h4, e⟩ := thresholdOtsu_varied (integer := false) (n := n) ha hb hab
    rw [e]
    simp only [Bool.false_eq_true, if_false]
    interval_cases n
    · rfl
    · have hc : (m.flat.countP fun x => binIndex lo hi 1 x = 0) = m.flat.length := by
        rw [List.countP_eq_length]
        intro x _
        simp [binIndex]
      have hl : (m.flat.length : ℝ) ≠ 0 := by
        rw [Nat.cast_ne_zero]
        exact (List.length_pos_of_mem ha).ne'
      simp only [floatHistogram, List.range_one, List.map_cons, List.map_nil, hc]
      unfold otsuOfHistogram
      simp [npCumsum, finDiv, hl, npArgmax, bind, Except.bind, pure, Except.pure]

/-- **C90 (two values).** If the pixels have two values only, exactly the ones with the larger value are above the threshold. -/
theorem C90_two (integer : Bool) (m : Mat ℝ) (n : ℕ) (hn : 2 ≤ n) (a b : ℝ) (hab : a < b) (hz : integer = true → ∃ z w : ℤ, a = z ∧ b = w)
    (hm : ∀ x ∈ m.flat, x = a ∨ x = b) (ha : a ∈ m.flat) (hb : b ∈ m.flat) :
    ∃ t, thresholdOtsu integer n m = .ok t ∧ a ≤ t ∧ t < b := by
  cases integer with
  | false =>
    obtain ⟨t, lo, hi, ys, e, h1, h2, h3, h4, h5, _⟩ := C90_float m n hn ⟨a, ha, b, hb, hab⟩
    refine ⟨t, e, ?_, ?_⟩
    · rcases hm lo h1 with rfl | rfl
      · exact h4.le
      · exact absurd (h3 a ha).1 (not_le.2 hab)
    · rcases hm hi h2 with rfl | rfl
      · exact absurd (h3 b hb).2 (not_le.2 hab)
      · exact h5
  | true =>
    obtain ⟨z, w, ez, ew⟩ := hz rfl
    obtain ⟨t, e, ho, c, hc, hlt⟩ := C90_integer m n (by
      intro x hx
      rcases hm x hx with rfl | rfl
      · exact ⟨z, ez⟩
      · exact ⟨w, ew⟩) ⟨a, ha, b, hb, hab⟩
    refine ⟨t, e, ?_, ?_⟩
    · rcases hm t ho.mem with rfl | rfl
      · exact le_rfl
      · exact hab.le
    · rcases hm c hc with rfl | rfl
      · exact hlt.trans hab
      · exact hlt

/-- **C90 (contrast).** If all pixels are replaced by `α * pixel + β` with `α` positive, so is the threshold. -/
theorem C90_contrast (integer : Bool) (m : Mat ℝ) (n : ℕ) (α β : ℝ) (hα : 0 < α)
    (hz : integer = true → ∀ x ∈ m.flat, (∃ z : ℤ, x = z) ∧ ∃ z : ℤ, α * x + β = z) (t : ℝ) (ht : thresholdOtsu integer n m = .ok t) :
    thresholdOtsu integer n { m with get := fun i j => α * m.get i j + β } = .ok (α * t + β) := by
  have hflat := flat_map m fun x => α * x + β
  set m' : Mat ℝ := { m with get := fun i j => α * m.get i j + β } with hm'
  have hne : m.flat ≠ [] := by
    intro hc
    unfold thresholdOtsu at ht
    rw [hc] at ht
    cases ht
  by_cases hv : ∃ a ∈ m.flat, ∃ b ∈ m.flat, a < b
  · obtain ⟨a, ha, b, hb, hab⟩ := hv
    have ha' : α * a + β ∈ m'.flat := by rw [hflat]; exact List.mem_map.2 ⟨a, ha, rfl⟩
    have hb' : α * b + β ∈ m'.flat := by rw [hflat]; exact List.mem_map.2 ⟨b, hb, rfl⟩
    have hab' : α * a + β < α * b + β := by nlinarith
    cases integer with
    | true =>
      obtain ⟨t1, e1, o1, _⟩ := C90_integer m n (fun x hx => (hz rfl x hx).1) ⟨a, ha, b, hb, hab⟩
      obtain ⟨t2, e2, o2, _⟩ := C90_integer m' n (by
        intro x hx
        rw [hflat] at hx
        obtain ⟨y, hy, rfl⟩ := List.mem_map.1 hx
        exact (hz rfl y hy).2) ⟨_, ha', _, hb', hab'⟩
      rw [ht] at e1
      injection e1 with e1
      subst e1
      rw [hflat] at o2
      rw [e2, otsuThreshold_unique o2 (otsuThreshold_affine o1 hα β)]
    | false =>
      have hn : 2 ≤ n := by
        by_contra hc
        rw [(C90_refused m n).2 (by omega) ⟨a, ha, b, hb, hab⟩] at ht
        cases ht
      obtain ⟨lo, hi, h1, h2, h3, h4, e⟩ := thresholdOtsu_varied (integer := false) (n := n) ha hb hab
      obtain ⟨lo', hi', h1', h2', h3', h4', e'⟩ := thresholdOtsu_varied (integer := false) (n := n) ha' hb' hab'
      have elo : lo' = α * lo + β := by
        rw [hflat] at h1' h3'
        obtain ⟨y, hy, ey⟩ := List.mem_map.1 h1'
        have a1 := (h3 y hy).1
        have a2 := (h3' _ (List.mem_map.2 ⟨lo, h1, rfl⟩)).1
        nlinarith
      have ehi : hi' = α * hi + β := by
        rw [hflat] at h2' h3'
        obtain ⟨y, hy, ey⟩ := List.mem_map.1 h2'
        have a1 := (h3 y hy).2
        have a2 := (h3' _ (List.mem_map.2 ⟨hi, h2, rfl⟩)).2
        nlinarith
      obtain ⟨idx, _, f1, o1⟩ := otsu_float h1 h2 h4 hn
      obtain ⟨idx', _, f2, o2⟩ := otsu_float h1' h2' h4' hn
      rw [e] at ht
      have ht' := ht.symm.trans f1
      injection ht' with ht'
      rw [e']
      simp only [Bool.false_eq_true, if_false]
      rw [f2, ht']
      congr 1
      refine otsuThreshold_unique o2 ?_
      have := otsuThreshold_affine o1 hα β
      rw [List.map_map] at this
      rw [hflat, List.map_map]
      refine (?_ : List.map _ _ = List.map _ _) ▸ this
      refine List.map_congr_left fun z _ => ?_
      simp only [Function.comp]
      have hd : hi - lo ≠ 0 := (sub_pos.2 h4).ne'
      have eb : binIndex lo' hi' n (α * z + β) = binIndex lo hi n z := by
        unfold binIndex
        congr 2
        rw [elo, ehi]
        have : (α * z + β - (α * lo + β)) / (α * hi + β - (α * lo + β)) = (z - lo) / (hi - lo) := by
          rw [show α * z + β - (α * lo + β) = α * (z - lo) by ring, show α * hi + β - (α * lo + β) = α * (hi - lo) by ring,
            mul_div_mul_left _ _ hα.ne']
        rw [this]
      rw [eb, binCentre_eq, binCentre_eq, elo, ehi]
      ring
  · push Not at hv
    obtain ⟨v, hvm⟩ := List.exists_mem_of_ne_nil _ hne
    have hc : ∀ x ∈ m.flat, x = v := fun x hx => le_antisymm (hv v hvm x hx) (hv x hx v hvm)
    rw [thresholdOtsu_constant hne hc] at ht
    injection ht with ht
    subst ht
    refine thresholdOtsu_constant (by rw [hflat]; simpa using hne) fun x hx => ?_
    rw [hflat] at hx
    obtain ⟨y, hy, rfl⟩ := List.mem_map.1 hx
    rw [hc y hy]

theorem foreground_congr {h w : ℕ} {f f' : ℕ → ℕ → ℝ} {t t' : ℝ}
    (hc : ∀ i < h, ∀ j < w, t < f i j ↔ t' < f' i j) : foreground h w f t = foreground h w f' t' := by
  have e1 : {p ∈ frame h w | t < f p.1 p.2} = {p ∈ frame h w | t' < f' p.1 p.2} := by
    ext p
    simp only [Set.mem_ofPred_eq]
    constructor
    · exact fun ⟨a, b⟩ => ⟨a, (hc _ a.1 _ a.2).1 b⟩
    · exact fun ⟨a, b⟩ => ⟨a, (hc _ a.1 _ a.2).2 b⟩
  have e2 : {p ∈ frame h w | f p.1 p.2 ≤ t} = {p ∈ frame h w | f' p.1 p.2 ≤ t'} := by
    ext p
    simp only [Set.mem_ofPred_eq]
    constructor
    · exact fun ⟨a, b⟩ => ⟨a, not_lt.1 fun hn => absurd ((hc _ a.1 _ a.2).2 hn) (not_lt.2 b)⟩
    · exact fun ⟨a, b⟩ => ⟨a, not_lt.1 fun hn => absurd ((hc _ a.1 _ a.2).1 hn) (not_lt.2 b)⟩
  unfold foreground
  rw [e1, e2]

/-- The two masks are the same. -/
def SameMask (b b' : Mat ℤ) : Prop :=
  b.height = b'.height ∧ b.width = b'.width ∧ ∀ i < b.height, ∀ j < b.width, b.get i j = b'.get i j

theorem binarization_congr {otsu : Mat ℝ → Except PyErr ℝ} {m m' : Mat ℝ} {ratio t t' : ℝ} (h0 : 0 < m.height) (h1 : 0 < m.width)
    (eh : m'.height = m.height) (ew : m'.width = m.width)
    (hc : ∀ i < m.height, ∀ j < m.width, t < m.get i j ↔ t' < m'.get i j) :
    ∃ b b', binarization otsu m ratio (some t) false = .ok b ∧ binarization otsu m' ratio (some t') false = .ok b' ∧ SameMask b b' := by
  obtain ⟨b, e, b1, b2, hb⟩ := C81_exact otsu m ratio t h0 h1
  obtain ⟨b', e', b1', b2', hb'⟩ := C81_exact otsu m' ratio t' (by omega) (by omega)
  refine ⟨b, b', e, e', by omega, by omega, fun i hi j hj => ?_⟩
  rw [eh, ew, ← foreground_congr hc] at hb'
  rw [b1] at hi
  rw [b2] at hj
  by_cases hin : (i, j) ∈ dotMask m.height m.width (foreground m.height m.width m.get t)
  · rw [(hb i hi j hj).1 hin, (hb' i hi j hj).1 hin]
  · rw [(hb i hi j hj).2 hin, (hb' i hi j hj).2 hin]

theorem binarization_none {otsu : Mat ℝ → Except PyErr ℝ} {m : Mat ℝ} {ratio t : ℝ} (ht : otsu (selectRoi m ratio false) = .ok t) :
    binarization otsu m ratio none false = binarization otsu m ratio (some t) false := by
  unfold binarization chooseThreshold
  simp only [Bool.false_eq_true, if_false, ht]

theorem binarization_denoise (otsu : Mat ℝ → Except PyErr ℝ) (m : Mat ℝ) (ratio : ℝ) (thres : Option ℝ) :
    binarization otsu m ratio thres true = binarization otsu (medianFilter { m with get := fun i j => |m.get i j| } 2 2) ratio thres false := by
  unfold binarization
  simp only [Bool.false_eq_true, if_false, if_true]

/-- **C90 (binarization of two values).** If the pixels of an image have two values only and both occur in its middle part, then
`binarization` without a given threshold is the same as with any threshold from the smaller value up to the larger one. -/
theorem C90_binarization (integer : Bool) (m : Mat ℝ) (n : ℕ) (hn : 2 ≤ n) (a b : ℝ) (hab : a < b)
    (hz : integer = true → ∃ z w : ℤ, a = z ∧ b = w) (hm : ∀ i < m.height, ∀ j < m.width, m.get i j = a ∨ m.get i j = b) (ratio : ℝ)
    (hroi : ∀ roi, IsMiddlePart m ratio roi → a ∈ roi.flat ∧ b ∈ roi.flat) (t : ℝ) (ht0 : a ≤ t) (ht1 : t < b) :
    ∃ b1 b2, binarization (thresholdOtsu integer n) m ratio none false = .ok b1 ∧
      binarization (thresholdOtsu integer n) m ratio (some t) false = .ok b2 ∧ SameMask b1 b2 := by
  obtain ⟨y, x, hp, e1, e2, hr, _⟩ := C37_roi m ratio
  obtain ⟨ha, hb⟩ := hroi _ ⟨y, x, hp, e1, e2, hr⟩
  have hlow : ∀ z ∈ (selectRoi m ratio false).flat, z = a ∨ z = b := by
    intro z hz'
    obtain ⟨i, j, hi, hj, rfl⟩ := mem_flat_iff.1 hz'
    rw [hp.get]
    exact hm _ (by have := hp.rows; omega) _ (by have := hp.cols; omega)
  obtain ⟨t', ht', h1, h2⟩ := C90_two integer (selectRoi m ratio false) n hn a b hab hz hlow ha hb
  obtain ⟨i, j, hi, hj, _⟩ := mem_flat_iff.1 ha
  have := hp.rows
  have := hp.cols
  rw [binarization_none ht']
  refine binarization_congr (by omega) (by omega) rfl rfl fun i hi j hj => ?_
  rcases hm i hi j hj with e | e
  · rw [e]
    exact ⟨fun h => absurd h (not_lt.2 h1), fun h => absurd h (not_lt.2 ht0)⟩
  · rw [e]
    exact ⟨fun _ => ht1, fun _ => h2⟩

theorem isRank_affine {l : List ℝ} {k : ℕ} {v a : ℝ} (ha : 0 < a) (b : ℝ) (h : IsRank l k v) : IsRank (l.map fun x => a * x + b) k (a * v + b) := by
  classical
  obtain ⟨h1, h2, h3⟩ := h
  refine ⟨List.mem_map.2 ⟨v, h1, rfl⟩, ?_, ?_⟩
  · rw [List.countP_map]
    convert h2 using 2
    ext x
    simp [ha]
  · rw [List.countP_map]
    convert h3 using 2
    ext x
    simp [ha]

theorem medianFilter_affine {m : Mat ℝ} (h0 : 0 < m.height) (h1 : 0 < m.width) {α β : ℝ} (hα : 0 < α)
    (hp : ∀ i < m.height, ∀ j < m.width, 0 ≤ m.get i j ∧ 0 ≤ α * m.get i j + β) :
    medianFilter { m with get := fun i j => |α * m.get i j + β| } 2 2 =
      { medianFilter { m with get := fun i j => |m.get i j| } 2 2 with
        get := fun i j => α * (medianFilter { m with get := fun i j => |m.get i j| } 2 2).get i j + β } := by
  have key : ∀ i j, (medianFilter { m with get := fun i j => |α * m.get i j + β| } 2 2).get i j =
      α * (medianFilter { m with get := fun i j => |m.get i j| } 2 2).get i j + β := by
    intro i j
    have hw : medianWindow { m with get := fun i j => |α * m.get i j + β| } 2 2 i j =
        (medianWindow { m with get := fun i j => |m.get i j| } 2 2 i j).map fun x => α * x + β := by
      unfold medianWindow
      rw [List.map_map]
      refine List.map_congr_left fun p _ => ?_
      simp only [Function.comp]
      obtain ⟨q1, q2⟩ := hp _ (reflectIdx_mirror h0 ((i : ℤ) + p.1 - (2 / 2 : ℕ))).1 _ (reflectIdx_mirror h1 ((j : ℤ) + p.2 - (2 / 2 : ℕ))).1
      rw [abs_of_nonneg q1, abs_of_nonneg q2]
    have hl : ∀ m : Mat ℝ, 2 * 2 / 2 < (medianWindow m 2 2 i j).length := by
      intro m
      simp [medianWindow, pixels, List.range_succ]
    have r1 := isRank_sorted (hl { m with get := fun i j => |α * m.get i j + β| })
    have r2 := isRank_affine hα β (isRank_sorted (hl { m with get := fun i j => |m.get i j| }))
    rw [← hw] at r2
    exact isRank_unique r1 r2
  have e : (medianFilter { m with get := fun i j => |α * m.get i j + β| } 2 2).get =
      fun i j => α * (medianFilter { m with get := fun i j => |m.get i j| } 2 2).get i j + β := by
    funext i j
    exact key i j
  rw [← e]
  rfl

theorem binarization_none_ok {integer : Bool} {n : ℕ} {m : Mat ℝ} {ratio : ℝ} {b : Mat ℤ}
    (hb : binarization (thresholdOtsu integer n) m ratio none false = .ok b) :
    (∃ t, thresholdOtsu integer n (selectRoi m ratio false) = .ok t) ∧ 0 < m.height ∧ 0 < m.width := by
  obtain ⟨y, x, hpart, e1, e2, hr, _⟩ := C37_roi m ratio
  have ht : ∃ t, thresholdOtsu integer n (selectRoi m ratio false) = .ok t := by
    cases ht : thresholdOtsu integer n (selectRoi m ratio false) with
    | ok t => exact ⟨t, rfl⟩
    | error e =>
      unfold binarization chooseThreshold at hb
      simp only [Bool.false_eq_true, if_false, ht] at hb
      cases hb
  refine ⟨ht, ?_⟩
  obtain ⟨t, ht⟩ := ht
  by_contra hc
  have hf : (selectRoi m ratio false).height = 0 ∨ (selectRoi m ratio false).width = 0 := by
    have := hpart.rows
    have := hpart.cols
    omega
  rw [(C90_refused _ n).1 hf] at ht
  cases ht

/-- **C90 (contrast of the image).** The mask made without a given threshold does not change if all pixels are replaced by
`α * pixel + β` with `α` positive (with denoising: for images without negative pixels). -/
theorem C90_mask (integer : Bool) (m : Mat ℝ) (n : ℕ) (α β : ℝ) (hα : 0 < α) (ratio : ℝ) (denoise : Bool)
    (hp : denoise = true → ∀ i < m.height, ∀ j < m.width, 0 ≤ m.get i j ∧ 0 ≤ α * m.get i j + β)
    (hz : integer = true → ∀ i < m.height, ∀ j < m.width, (∃ z : ℤ, m.get i j = z) ∧ ∃ z : ℤ, α * m.get i j + β = z)
    (b : Mat ℤ) (hb : binarization (thresholdOtsu integer n) m ratio none denoise = .ok b) :
    ∃ b', binarization (thresholdOtsu integer n) { m with get := fun i j => α * m.get i j + β } ratio none denoise = .ok b' ∧ SameMask b b' := by
  have plain : ∀ m : Mat ℝ, (integer = true → ∀ i < m.height, ∀ j < m.width, (∃ z : ℤ, m.get i j = z) ∧ ∃ z : ℤ, α * m.get i j + β = z) →
      binarization (thresholdOtsu integer n) m ratio none false = .ok b →
      ∃ b', binarization (thresholdOtsu integer n) { m with get := fun i j => α * m.get i j + β } ratio none false = .ok b' ∧ SameMask b b' := by
    intro m hz hb
    obtain ⟨y, x, hpart, e1, e2, hr, _⟩ := C37_roi m ratio
    obtain ⟨⟨t, ht⟩, hsz⟩ := binarization_none_ok hb
    have ht' := C90_contrast integer (selectRoi m ratio false) n α β hα (by
      intro hi z hz'
      obtain ⟨i, j, hi', hj, rfl⟩ := mem_flat_iff.1 hz'
      rw [hpart.get]
      exact hz hi _ (by have := hpart.rows; omega) _ (by have := hpart.cols; omega)) t ht
    have ht'' : thresholdOtsu integer n (selectRoi { m with get := fun i j => α * m.get i j + β } ratio false) = .ok (α * t + β) := by
      rw [← ht']
      rfl
    rw [binarization_none ht] at hb
    rw [binarization_none ht'']
    obtain ⟨c, c', h1, h2, h3⟩ := binarization_congr (otsu := thresholdOtsu integer n) (m := m) (m' := { m with get := fun i j => α * m.get i j + β })
      (ratio := ratio) (t := t) (t' := α * t + β) hsz.1 hsz.2 rfl rfl (by
        intro i _ j _
        simp only [add_lt_add_iff_right]
        exact (mul_lt_mul_iff_right₀ hα).symm)
    rw [hb] at h1
    injection h1 with h1
    subst h1
    exact ⟨c', h2, h3⟩
  cases denoise with
  | false => exact plain m hz hb
  | true =>
    rw [binarization_denoise] at hb ⊢
    have hsz := (binarization_none_ok hb).2
    rw [medianFilter_affine (m := m) hsz.1 hsz.2 hα (hp rfl)]
    refine plain _ ?_ hb
    intro hi i hi' j hj'
    have hr := (medianFilter_two { m with get := fun i j => |m.get i j| } hi' hj').1
    have key : ∀ k < m.height, ∀ l < m.width, ∀ v, v = |m.get k l| → (∃ z : ℤ, v = z) ∧ ∃ z : ℤ, α * v + β = z := by
      rintro k hk l hl v rfl
      rw [abs_of_nonneg (hp rfl k hk l hl).1]
      exact hz hi k hk l hl
    have hi1 : i < m.height := hi'
    have hj1 : j < m.width := hj'
    simp only [List.mem_cons, List.not_mem_nil, or_false] at hr
    rcases hr with hr | hr | hr | hr
    · exact key _ (by omega) _ (by omega) _ hr
    · exact key _ (by omega) _ hj1 _ hr
    · exact key _ hi1 _ (by omega) _ hr
    · exact key _ hi1 _ hj1 _ hr

/-- The threshold found for a drawn pattern lies between its two values. -/
theorem pattern_threshold {height width : ℕ} {d ds s : ℤ} {margin : MarginArg} {mv mh : ℤ}
    (hmarg : margin = .int mv ∧ mh = mv ∨ ∃ rest, margin = .seq (mv :: mh :: rest)) (hv : 0 ≤ mv) (hh : 0 ≤ mh)
    (hs : s = min (max ds 1) ((min height width / 8 : ℕ) : ℤ)) (hs5 : 5 ≤ s) (hodd : s % 2 = 1) (hd : 5 * s ≤ 3 * d)
    (n : ℕ) (hn : 2 ≤ n) (ratio r : ℝ) (hr : r = max 0.05 (min ratio 1))
    (hone : ∃ k l p q, DotCentre (mv + (s / 2 + 1)) (height - (mv + (s / 2 + 1))) d k p ∧
      DotCentre (mh + (s / 2 + 1)) (width - (mh + (s / 2 + 1))) d l q ∧
      height - r * height ≤ 2 * (p : ℝ) ∧ 2 * ((p : ℝ) + s) < height + r * height ∧ width - r * width ≤ 2 * (q : ℝ) ∧ 2 * (q : ℝ) < width + r * width) :
    ∃ m t, makeDotPattern height width d ds margin = .ok m ∧ 0 ≤ t ∧ t < 1 ∧
      binarization (thresholdOtsu false n) m ratio none true = binarization (thresholdOtsu false n) m ratio (some t) true := by
  obtain ⟨m, hm, e1, e2, hpix⟩ := C68_pixels hmarg hv hh hs (by omega) (by omega : s ≤ d)
  have g := pattern_grid (h := height) (w := width) hv hh (by omega) hodd (by omega : s < d)
  have hval : ∀ x ∈ frame m.height m.width, (x ∈ gridSet (centreSet height mv s d) (centreSet width mh s d) (InDot s) ∧ m.get x.1 x.2 = 0) ∨
      (x ∉ gridSet (centreSet height mv s d) (centreSet width mh s d) (InDot s) ∧ m.get x.1 x.2 = 1) := by
    rw [e1, e2]
    intro x hx
    obtain ⟨h0, h1⟩ := hpix x.1 x.2 hx.1 hx.2
    by_cases hb : x ∈ gridSet (centreSet height mv s d) (centreSet width mh s d) (InDot s)
    · left
      obtain ⟨p, ⟨k, hp⟩, q, ⟨l, hq⟩, hi⟩ := hb
      exact ⟨⟨p, ⟨k, hp⟩, q, ⟨l, hq⟩, hi⟩, h0 ⟨k, l, p, q, hp, hq, hi⟩⟩
    · right
      refine ⟨hb, h1 ?_⟩
      rintro ⟨k, l, p, q, hp, hq, hi⟩
      exact hb ⟨p, ⟨k, hp⟩, q, ⟨l, hq⟩, hi⟩
  have gm : Grid m.height m.width 0 (s / 2) (centreSet height mv s d) (centreSet width mh s d) (InDot s) := by rw [e1, e2]; exact g
  set M := medianFilter { m with get := fun i j => |m.get i j| } 2 2 with hM
  have hmed := gm.med_values hval (f := M.get) fun i hi j hj => medianFilter_two { m with get := fun i j => |m.get i j| } hi hj
  have g1 := gm.med
  obtain ⟨a, b, hpart, f1, f2, hsz, _⟩ := C37_roi M ratio
  obtain ⟨z1, _, z3, _⟩ := hsz r hr
  have eMh : M.height = height := e1
  have eMw : M.width = width := e2
  rw [eMh] at f1 z1
  rw [eMw] at f2 z3
  obtain ⟨k, l, p, q, hp, hq, h1, h2, h3, h4⟩ := hone
  have hp0 := g.rows.low p ⟨k, hp⟩
  have hq0 := g.cols.low q ⟨l, hq⟩
  have f1' : (2 : ℝ) * a + (selectRoi M ratio false).height = height := by exact_mod_cast f1
  have f2' : (2 : ℝ) * b + (selectRoi M ratio false).width = width := by exact_mod_cast f2
  have i1 : (a : ℤ) ≤ p := by
    have : (a : ℝ) ≤ (p : ℝ) := by linarith
    exact_mod_cast this
  have i2 : p + s < a + (selectRoi M ratio false).height := by
    have : (p : ℝ) + s < a + ((selectRoi M ratio false).height : ℝ) := by linarith
    exact_mod_cast this
  have i3 : (b : ℤ) ≤ q := by
    have : (b : ℝ) ≤ (q : ℝ) := by linarith
    exact_mod_cast this
  have i4 : q < b + (selectRoi M ratio false).width := by
    have : (q : ℝ) < b + ((selectRoi M ratio false).width : ℝ) := by linarith
    exact_mod_cast this
  have hrows := hpart.rows
  have hcols := hpart.cols
  -- the values in the middle part
  have hin : ∀ y x : ℤ, a ≤ y → y < a + (selectRoi M ratio false).height → b ≤ x → x < b + (selectRoi M ratio false).width →
      M.get y.toNat x.toNat ∈ (selectRoi M ratio false).flat := by
    intro y x y1 y2 x1 x2
    refine mem_flat_iff.2 ⟨(y - a).toNat, (x - b).toNat, by omega, by omega, ?_⟩
    rw [hpart.get]
    congr 1 <;> omega
  have hzero : (0 : ℝ) ∈ (selectRoi M ratio false).flat := by
    have := hin p q i1 (by omega) i3 i4
    rcases hmed (p.toNat, q.toNat) ⟨by omega, by omega⟩ with ⟨_, e⟩ | ⟨hn', _⟩
    · simp only at e
      rwa [e] at this
    · refine absurd ⟨p, ⟨k, hp⟩, q, ⟨l, hq⟩, ?_⟩ hn'
      simp only [dotAt, Set.mem_ofPred_eq]
      rw [Int.toNat_of_nonneg (by omega), Int.toNat_of_nonneg (by omega), sub_self, sub_self]
      exact zPluses_le (inDot_med hodd hs5)
  have hlight : (1 : ℝ) ∈ (selectRoi M ratio false).flat := by
    have := hin (p + s) q (by omega) i2 i3 i4
    rcases hmed ((p + s).toNat, q.toNat) ⟨by omega, by omega⟩ with ⟨hn', _⟩ | ⟨_, e⟩
    · exfalso
      obtain ⟨p', ⟨k', hp'⟩, q', _, hz⟩ := hn'
      simp only [dotAt, Set.mem_ofPred_eq] at hz
      rw [Int.toNat_of_nonneg (by omega)] at hz
      have u1 := g1.le1 _ _ hz
      have u2 := g1.ge1 hz
      have c1 := hp.eq
      have c2 := hp'.eq
      rcases lt_or_ge k k' with hk | hk
      · have : ((k : ℤ) + 1) * d ≤ k' * d := mul_le_mul_of_nonneg_right (by omega) (by omega)
        rw [add_mul, one_mul] at this
        omega
      · have : (k' : ℤ) * d ≤ k * d := mul_le_mul_of_nonneg_right (by omega) (by omega)
        omega
    · simp only at e
      rwa [e] at this
  obtain ⟨t, ht, t0, t1⟩ := C90_two false (selectRoi M ratio false) n hn 0 1 one_pos (by simp) (by
    intro x hx
    obtain ⟨i, j, hi, hj, rfl⟩ := mem_flat_iff.1 hx
    rw [hpart.get]
    rcases hmed (a + i, b + j) ⟨by show a + i < m.height; omega, by show b + j < m.width; omega⟩ with ⟨_, e⟩ | ⟨_, e⟩
    · exact .inl e
    · exact .inr e) hzero hlight
  exact ⟨m, t, hm, t0, t1, by rw [binarization_denoise, binarization_denoise, ← hM, binarization_none ht]⟩

/-- **C90 (drawn pattern).** The dots of a drawn pattern are found without a given threshold as well, if the middle part from which the
threshold is found contains the centre of a dot and a pixel below this dot. -/
theorem C90_pattern {height width : ℕ} {d ds s : ℤ} {margin : MarginArg} {mv mh : ℤ}
    (hmarg : margin = .int mv ∧ mh = mv ∨ ∃ rest, margin = .seq (mv :: mh :: rest)) (hv : 0 ≤ mv) (hh : 0 ≤ mh)
    (hs : s = min (max ds 1) ((min height width / 8 : ℕ) : ℤ)) (hs5 : 5 ≤ s) (hodd : s % 2 = 1) (hd : 5 * s ≤ 3 * d)
    (n : ℕ) (hn : 2 ≤ n) (ratio r : ℝ) (hr : r = max 0.05 (min ratio 1))
    (hone : ∃ k l p q, DotCentre (mv + (s / 2 + 1)) (height - (mv + (s / 2 + 1))) d k p ∧
      DotCentre (mh + (s / 2 + 1)) (width - (mh + (s / 2 + 1))) d l q ∧
      height - r * height ≤ 2 * (p : ℝ) ∧ 2 * ((p : ℝ) + s) < height + r * height ∧ width - r * width ≤ 2 * (q : ℝ) ∧ 2 * (q : ℝ) < width + r * width) :
    ∃ m pts, makeDotPattern height width d ds margin = .ok m ∧ getPointsDotPattern (thresholdOtsu false n) m true ratio none = .ok pts ∧
      pts.Nodup ∧ ∀ c, c ∈ pts ↔ ∃ k l p q, DotCentre (mv + (s / 2 + 1)) (height - (mv + (s / 2 + 1))) d k p ∧
        DotCentre (mh + (s / 2 + 1)) (width - (mh + (s / 2 + 1))) d l q ∧ c = ⟨p + 1 / 2, q + 1 / 2⟩ := by
  obtain ⟨m, t, hm, t0, t1, hb⟩ := pattern_threshold hmarg hv hh hs hs5 hodd hd n hn ratio r hr hone
  obtain ⟨m', pts, hm', hpts, hrest⟩ := C87_binarized hmarg hv hh hs hs5 hodd hd (thresholdOtsu false n) ratio t t0 t1
  rw [hm] at hm'
  injection hm' with hm'
  subst hm'
  refine ⟨m, pts, hm, ?_, hrest⟩
  rw [← hpts]
  unfold getPointsDotPattern
  simp only [if_true]
  rw [hb]

/-- An image with three values: 0 (twice), 1 and 5; the integers up to 1 are the lower class. -/
example : thresholdOtsu true 512 ⟨2, 2, fun i j => if i = 0 then 0 else if j = 0 then 1 else 5⟩ = .ok 1 := by
  have hf : (⟨2, 2, fun i j => if i = 0 then 0 else if j = 0 then 1 else 5⟩ : Mat ℝ).flat = [0, 0, 1, 5] := by
    simp [Mat.flat, List.range_succ]
  obtain ⟨t, e, ho, _⟩ := C90_integer ⟨2, 2, fun i j => if i = 0 then 0 else if j = 0 then 1 else 5⟩ 512 (by
    rw [hf]
    intro x hx
    simp only [List.mem_cons, List.not_mem_nil, or_false] at hx
    rcases hx with rfl | rfl | rfl | rfl
    exacts [⟨0, by norm_num⟩, ⟨0, by norm_num⟩, ⟨1, by norm_num⟩, ⟨5, by norm_num⟩]) (by rw [hf]; exact ⟨0, by simp, 1, by simp, by norm_num⟩)
  rw [e]
  rw [hf] at ho
  have h1 : classSpread [0, 0, 1, 5] 1 = 3 * 1 * (1 / 3 - 5) ^ 2 := by
    unfold classSpread
    norm_num
  have hm := ho.mem
  have hb := ho.best 1
  rw [h1] at hb
  simp only [List.mem_cons, List.not_mem_nil, or_false] at hm
  rcases hm with rfl | rfl | rfl | rfl
  · unfold classSpread at hb
    norm_num at hb
  · unfold classSpread at hb
    norm_num at hb
  · rfl
  · unfold classSpread at hb
    norm_num at hb

/-- The hypotheses of the theorem on drawn patterns can be met with the default settings: 5 × 6 dots of size 9 with distance 15. -/
example : ∃ m pts, makeDotPattern 80 90 15 9 (.int 1) = .ok m ∧
    getPointsDotPattern (thresholdOtsu false 512) m true 0.3 none = .ok pts ∧ (⟨6.5, 6.5⟩ : Pt) ∈ pts := by
  obtain ⟨m, pts, hm, hp, _, h⟩ := C90_pattern (height := 80) (width := 90) (d := 15) (ds := 9) (s := 9) (margin := .int 1) (mv := 1) (mh := 1)
    (.inl ⟨rfl, rfl⟩) (by norm_num) (by norm_num) (by norm_num) (by norm_num) (by norm_num) (by norm_num) 512 (by norm_num) 0.3 0.3 (by norm_num)
    ⟨2, 2, 36, 36, ⟨by norm_num, by norm_num⟩, ⟨by norm_num, by norm_num⟩, by norm_num, by norm_num, by norm_num, by norm_num⟩
  refine ⟨m, pts, hm, hp, (h _).2 ⟨0, 0, 6, 6, ⟨by norm_num, by norm_num⟩, ⟨by norm_num, by norm_num⟩, ?_⟩⟩
  norm_num

/-- Three different values. -/
example := C90_float ⟨1, 3, fun _ j => (j : ℝ)⟩ 512 (by norm_num) ⟨0, by simp [Mat.flat, List.range_succ], 1, by simp [Mat.flat, List.range_succ], by norm_num⟩
example (integer : Bool) (v : ℝ) := C90_constant integer 512 ⟨2, 3, fun _ _ => v⟩ v (by norm_num) (by norm_num) (fun _ _ _ _ => rfl)
example (integer : Bool) := C90_two integer ⟨1, 3, fun _ j => if j = 0 then 0 else 5⟩ 512 (by norm_num) 0 5 (by norm_num) (fun _ => ⟨0, 5, by norm_num⟩)
  (by simp [Mat.flat, List.range_succ]) (by simp [Mat.flat, List.range_succ]) (by simp [Mat.flat, List.range_succ])
/-- Two values: the threshold of the changed contrast is the changed threshold. -/
example : ∃ t, thresholdOtsu true 512 ⟨1, 3, fun _ j => if j = 0 then 0 else 5⟩ = .ok t ∧
    thresholdOtsu true 512 ⟨1, 3, fun _ j => 3 * (if j = 0 then 0 else 5) + 7⟩ = .ok (3 * t + 7) := by
  obtain ⟨t, h, _⟩ := C90_two true ⟨1, 3, fun _ j => if j = 0 then 0 else 5⟩ 512 (by norm_num) 0 5 (by norm_num) (fun _ => ⟨0, 5, by norm_num⟩)
    (by simp [Mat.flat, List.range_succ]) (by simp [Mat.flat, List.range_succ]) (by simp [Mat.flat, List.range_succ])
  refine ⟨t, h, C90_contrast true _ 512 3 7 (by norm_num) (fun _ x hx => ?_) t h⟩
  simp only [Mat.flat, List.range_succ, List.range_zero, List.nil_append, List.flatMap_cons, List.flatMap_nil, List.map_cons, List.map_nil, List.cons_append,
    List.append_nil, List.mem_cons, List.not_mem_nil, or_false] at hx
  rcases hx with rfl | rfl | rfl
  · exact ⟨⟨0, by norm_num⟩, 7, by norm_num⟩
  · exact ⟨⟨5, by norm_num⟩, 22, by norm_num⟩
  · exact ⟨⟨5, by norm_num⟩, 22, by norm_num⟩
/-- The threshold of Otsu and a threshold between the two values give the same mask. -/
example (integer : Bool) := C90_binarization integer ⟨2, 3, fun _ j => if j = 0 then 0 else 5⟩ 512 (by norm_num) 0 5 (by norm_num) (fun _ => ⟨0, 5, by norm_num⟩)
  (fun i _ j _ => by by_cases h : j = 0 <;> simp [h]) 1

/-- The middle part for the ratio 1 is the whole image. -/
theorem middlePart_flat {m roi : Mat ℝ} (h : IsMiddlePart m 1 roi) : roi.flat = m.flat := by
  obtain ⟨a, b, hp, e1, e2, hr⟩ := h
  obtain ⟨r1, _, r3, _⟩ := hr 1 (by norm_num)
  rw [one_mul] at r1 r3
  have r1' : m.height ≤ roi.height := by exact_mod_cast r1
  have r3' : m.width ≤ roi.width := by exact_mod_cast r3
  have ha : a = 0 := by omega
  have hb : b = 0 := by omega
  subst ha hb
  have eg : roi.get = m.get := by
    funext i j
    rw [hp.get]
    simp
  unfold Mat.flat
  rw [show roi.height = m.height by omega, show roi.width = m.width by omega, eg]

/-- Three columns of 0, 5 and 5, and of 7, 22 and 22: the mask is the same. -/
example : ∃ b b', binarization (thresholdOtsu true 512) ⟨2, 3, fun _ j => if j = 0 then 0 else 5⟩ 1 none false = .ok b ∧
    binarization (thresholdOtsu true 512) ⟨2, 3, fun _ j => 3 * (if j = 0 then 0 else 5) + 7⟩ 1 none false = .ok b' ∧ SameMask b b' := by
  obtain ⟨b, _, e, _⟩ := C90_binarization true ⟨2, 3, fun _ j => if j = 0 then 0 else 5⟩ 512 (by norm_num) 0 5 (by norm_num) (fun _ => ⟨0, 5, by norm_num⟩)
    (fun i _ j _ => by by_cases h : j = 0 <;> simp [h]) 1 (fun roi h => by
      rw [middlePart_flat h]
      simp [Mat.flat, List.range_succ]) 1 (by norm_num) (by norm_num)
  obtain ⟨b', e', hs⟩ := C90_mask true ⟨2, 3, fun _ j => if j = 0 then 0 else 5⟩ 512 3 7 (by norm_num) 1 false (by simp) (fun _ i _ j _ => by
    by_cases h : j = 0
    · exact ⟨⟨0, by simp [h]⟩, 7, by simp [h]⟩
    · exact ⟨⟨5, by simp [h]⟩, 22, by simp [h]; norm_num⟩) b e
  exact ⟨b, b', e, e', hs⟩

end Discorpy
