import Verif.Lemmas.Binary
import Verif.Spec.InnerMask
import Verif.Props.C35
import Verif.Lemmas.Num

/-! # C81 — from a grey image to dots -/

namespace Discorpy

open Spec

theorem above_indicates (m : Mat ℝ) (t : ℝ) : Indicates (aboveMat m t) {p ∈ frame m.height m.width | t < m.get p.1 p.2} := by
  intro p hp
  simp only [aboveMat] at hp ⊢
  by_cases h : t < m.get p.1 p.2
  · exact Or.inl ⟨⟨hp, h⟩, if_pos h⟩
  · exact Or.inr ⟨fun hc => h hc.2, if_neg h⟩

theorem indicates_sum {m : Mat ℝ} {A : Set (ℕ × ℕ)} (h : Indicates m A) (hA : A ⊆ frame m.height m.width) :
    m.flat.sum = A.ncard := by
  classical
  rw [flat_sum, ← Finset.sum_product']
  have e : A = ((Finset.range m.height ×ˢ Finset.range m.width).filter fun p => p ∈ A : Finset (ℕ × ℕ)) := by
    ext p
    simp only [Finset.coe_filter, Finset.mem_product, Finset.mem_range, Set.mem_ofPred_eq]
    exact ⟨fun hp => ⟨hA hp, hp⟩, fun hp => hp.2⟩
  rw [e, Set.ncard_coe_finset, Finset.card_filter]
  push_cast
  apply Finset.sum_congr rfl
  intro p hp
  rw [Finset.mem_product, Finset.mem_range, Finset.mem_range] at hp
  rcases h p hp with ⟨h1, h2⟩ | ⟨h1, h2⟩
  · rw [h2]; simp [h1, hp]
  · rw [h2]; simp [h1]

theorem foreground_frame (h w : ℕ) (f : ℕ → ℕ → ℝ) (t : ℝ) : foreground h w f t ⊆ frame h w := by
  unfold foreground
  split_ifs <;> exact fun p hp => hp.1

theorem invert_indicates (m : Mat ℝ) (t : ℝ) (h0 : 0 < m.height) (h1 : 0 < m.width) :
    ∃ b, invertDotsContrast (aboveMat m t) = .ok b ∧ b.height = m.height ∧ b.width = m.width ∧
      Indicates b (foreground m.height m.width m.get t) := by
  have hi := above_indicates m t
  have hs := indicates_sum hi fun p hp => hp.1
  set U := {p ∈ frame m.height m.width | t < m.get p.1 p.2} with hU
  have hne : (aboveMat m t).flat ≠ [] := by
    have : (aboveMat m t).get 0 0 ∈ (aboveMat m t).flat := mem_flat.2 ⟨0, h0, 0, h1, rfl⟩
    exact List.ne_nil_of_mem this
  obtain ⟨M, hM, hmem, hmax⟩ := npMax_ok hne
  have hhw : (0 : ℝ) < (m.height : ℝ) * m.width := by positivity
  unfold invertDotsContrast
  simp only
  rw [hM, ok_bind, hs]
  have hiff : ((U.ncard : ℝ) / (((aboveMat m t).height : ℝ) * (aboveMat m t).width) > 0.5) ↔ m.height * m.width < 2 * U.ncard := by
    rw [gt_iff_lt, show (aboveMat m t).height = m.height from rfl, show (aboveMat m t).width = m.width from rfl, lt_div_iff₀ hhw]
    have e : (m.height * m.width < 2 * U.ncard) ↔ ((m.height : ℝ) * m.width < 2 * U.ncard) := by norm_cast
    rw [e]
    constructor <;> intro h <;> linarith
  split_ifs with hr
  · have hlt := hiff.1 hr
    refine ⟨_, rfl, rfl, rfl, ?_⟩
    have hne' : U.Nonempty := by
      by_contra hc
      rw [Set.not_nonempty_iff_eq_empty] at hc
      rw [hc, Set.ncard_empty] at hlt
      omega
    obtain ⟨p, hp⟩ := hne'
    have hM1 : M = 1 := by
      apply le_antisymm
      · obtain ⟨i, hi', j, hj', e⟩ := mem_flat.1 hmem
        rw [← e]
        rcases hi (i, j) ⟨hi', hj'⟩ with ⟨_, e⟩ | ⟨_, e⟩ <;> simp only at e <;> rw [e]
        norm_num
      · exact hmax 1 (mem_flat.2 ⟨p.1, hp.1.1, p.2, hp.1.2, (hi.one hp.1).2 hp⟩)
    unfold foreground
    rw [if_neg (by rw [← hU]; omega), hM1]
    intro q hq
    have hq' : q ∈ frame m.height m.width := hq
    rcases hi q hq' with ⟨a, e⟩ | ⟨a, e⟩
    · right
      exact ⟨fun hc => absurd a.2 (not_lt.2 hc.2), by simp only; rw [e]; norm_num⟩
    · left
      refine ⟨⟨hq', not_lt.1 fun hc => a ⟨hq', hc⟩⟩, by simp only; rw [e]; norm_num⟩
  · refine ⟨_, rfl, rfl, rfl, ?_⟩
    unfold foreground
    rw [if_pos (by rw [← hU]; rw [hiff] at hr; omega)]
    exact hi

/-- **C81 (exact).** Without denoising and with a given threshold, the result has the size of the image and is one exactly on the
dots of the foreground: objects that reach the rim are removed, of the rest the union of the plus signs is kept, and its
holes are filled. -/
theorem C81_exact (otsu : Mat ℝ → Except PyErr ℝ) (m : Mat ℝ) (ratio t : ℝ) (h0 : 0 < m.height) (h1 : 0 < m.width) :
    ∃ b, binarization otsu m ratio (some t) false = .ok b ∧ b.height = m.height ∧ b.width = m.width ∧
      ∀ i < m.height, ∀ j < m.width,
        ((i, j) ∈ dotMask m.height m.width (foreground m.height m.width m.get t) → b.get i j = 1) ∧
        ((i, j) ∉ dotMask m.height m.width (foreground m.height m.width m.get t) → b.get i j = 0) := by
  obtain ⟨b, hb, bh, bw, bi⟩ := invert_indicates m t h0 h1
  have hfr : foreground m.height m.width m.get t ⊆ frame b.height b.width := by rw [bh, bw]; exact foreground_frame _ _ _ _
  obtain ⟨c, hc, ch, cw, ci⟩ := clearBorder_indicates bi hfr (by omega) (by omega)
  have hcr : awayFromRim b.height b.width (foreground m.height m.width m.get t) ⊆ frame c.height c.width := by
    rw [ch, cw]; exact fun p hp => hfr hp.1
  have oi := opening_indicates ci hcr (by rw [ch, cw]; exact fun p hp => rim_not_mem_awayFromRim hp)
  refine ⟨fillHoles (openingCross c), ?_, show c.height = m.height from ch.trans bh,
    show c.width = m.width from cw.trans bw, fun i hi j hj => ?_⟩
  · unfold binarization chooseThreshold
    simp only [Bool.false_eq_true, if_false]
    rw [ok_bind, hb, ok_bind, hc, ok_bind]
  · have hh : (openingCross c).height = m.height := ch.trans bh
    have hw : (openingCross c).width = m.width := cw.trans bw
    have := fillHoles_indicates oi (i, j) (by rw [hh, hw]; exact ⟨hi, hj⟩)
    rw [hh, hw, bh, bw] at this
    rcases this with ⟨a, e⟩ | ⟨a, e⟩
    · exact ⟨fun _ => e, fun hn => absurd a hn⟩
    · exact ⟨fun hn => absurd hn a, fun _ => e⟩

theorem reflectIdx_of_lt {n i : ℕ} (h : i < n) : reflectIdx n (i : ℤ) = i := by
  have e : ((i : ℤ) % ((2 * n : ℕ) : ℤ)).toNat = i := by
    rw [Int.emod_eq_of_lt (by omega) (by push_cast; omega)]; rfl
  unfold reflectIdx
  simp only [e, if_pos h]

theorem reflectIdx_neg_one {n : ℕ} (h : 0 < n) : reflectIdx n (-1) = 0 := by
  have e : ((-1 : ℤ) % ((2 * n : ℕ) : ℤ)).toNat = 2 * n - 1 := by
    rw [Int.emod_eq_add_self_emod, Int.emod_eq_of_lt (by push_cast; omega) (by push_cast; omega)]
    omega
  unfold reflectIdx
  simp only [e]
  rw [if_neg (by omega)]
  omega

theorem reflectIdx_pred {n i : ℕ} (h : i < n) : reflectIdx n ((i : ℤ) - 1) = i - 1 := by
  rcases Nat.eq_zero_or_pos i with rfl | hi
  · exact reflectIdx_neg_one h
  · rw [show ((i : ℤ) - 1) = ((i - 1 : ℕ) : ℤ) by omega]
    exact reflectIdx_of_lt (by omega)

theorem isRank_sorted {l : List ℝ} {k : ℕ} (hk : k < l.length) :
    IsRank l k ((l.mergeSort fun a b => decide (a ≤ b)).getD k 0) := by
  classical
  set s := l.mergeSort fun a b => decide (a ≤ b) with hs
  have hperm : s.Perm l := List.mergeSort_perm _ _
  have hsl : s.length = l.length := hperm.length_eq
  have hsort : s.Pairwise (· ≤ ·) := by
    have := List.pairwise_mergeSort (le := fun a b : ℝ => decide (a ≤ b)) (by intro a b c; simp; exact le_trans)
      (by intro a b; simp; exact le_total a b) l
    exact this.imp (by simp)
  have hk' : k < s.length := by omega
  have e : s.getD k 0 = s[k] := by rw [List.getD_eq_getElem?_getD, List.getElem?_eq_getElem hk']; rfl
  rw [e]
  have hmono : ∀ a b (ha : a < s.length) (hb : b < s.length), a ≤ b → s[a] ≤ s[b] := by
    intro a b ha hb hab
    rcases Nat.lt_or_eq_of_le hab with h | h
    · exact List.pairwise_iff_getElem.1 hsort a b ha hb h
    · subst h; exact le_refl _
  have hlow : ∀ x ∈ s.drop k, s[k] ≤ x := by
    intro x hx
    obtain ⟨i, hi, rfl⟩ := List.getElem_of_mem hx
    rw [List.length_drop] at hi
    rw [List.getElem_drop]
    exact hmono _ _ hk' (by omega) (by omega)
  have hhigh : ∀ x ∈ s.take (k + 1), x ≤ s[k] := by
    intro x hx
    obtain ⟨i, hi, rfl⟩ := List.getElem_of_mem hx
    rw [List.length_take] at hi
    rw [List.getElem_take]
    exact hmono _ _ (by omega) hk' (by omega)
  have hmem : s[k] ∈ s := List.getElem_mem hk'
  generalize s[k] = v at hlow hhigh hmem
  refine ⟨hperm.mem_iff.1 hmem, ?_, ?_⟩
  · rw [← hperm.countP_eq, ← List.take_append_drop k s, List.countP_append]
    have hz : (s.drop k).countP (fun x => decide (x < v)) = 0 := by
      rw [List.countP_eq_zero]
      intro x hx
      simpa using hlow x hx
    have hle := List.countP_le_length (p := fun x => decide (x < v)) (l := s.take k)
    rw [List.length_take] at hle
    omega
  · rw [← hperm.countP_eq]
    have h1 : (s.take (k + 1)).countP (fun x => decide (x ≤ v)) = k + 1 := by
      rw [List.countP_eq_length.2, List.length_take]
      · omega
      · intro x hx
        simpa using hhigh x hx
    have h2 := (List.take_sublist (k + 1) s).countP_le (p := fun x => decide (x ≤ v))
    omega

theorem medianFilter_two (m : Mat ℝ) {i j : ℕ} (hi : i < m.height) (hj : j < m.width) :
    IsRank [m.get (i - 1) (j - 1), m.get (i - 1) j, m.get i (j - 1), m.get i j] 2 ((medianFilter m 2 2).get i j) := by
  have hw : medianWindow m 2 2 i j = [m.get (i - 1) (j - 1), m.get (i - 1) j, m.get i (j - 1), m.get i j] := by
    have e1 := reflectIdx_pred hi
    have e2 := reflectIdx_pred hj
    have e3 := reflectIdx_of_lt hi
    have e4 := reflectIdx_of_lt hj
    simp [medianWindow, pixels, List.range_succ, e1, e2, e3, e4]
  unfold medianFilter
  simp only
  rw [hw]
  exact isRank_sorted (by simp)

/-- **C81 (denoising).** With denoising, the same holds for the image in which each pixel is replaced by the third smallest of
the absolute values of itself and its left, upper and upper left neighbours (a missing neighbour is replaced by the border
pixel). -/
theorem C81_denoise (otsu : Mat ℝ → Except PyErr ℝ) (m : Mat ℝ) (ratio t : ℝ) (h0 : 0 < m.height) (h1 : 0 < m.width) :
    ∃ (f : ℕ → ℕ → ℝ) (b : Mat ℤ),
      (∀ i < m.height, ∀ j < m.width,
        IsRank [|m.get (i - 1) (j - 1)|, |m.get (i - 1) j|, |m.get i (j - 1)|, |m.get i j|] 2 (f i j)) ∧
      binarization otsu m ratio (some t) true = .ok b ∧ b.height = m.height ∧ b.width = m.width ∧
      ∀ i < m.height, ∀ j < m.width,
        ((i, j) ∈ dotMask m.height m.width (foreground m.height m.width f t) → b.get i j = 1) ∧
        ((i, j) ∉ dotMask m.height m.width (foreground m.height m.width f t) → b.get i j = 0) := by
  obtain ⟨b, hb, e⟩ := C81_exact otsu (medianFilter { m with get := fun i j => |m.get i j| } 2 2) ratio t h0 h1
  refine ⟨(medianFilter { m with get := fun i j => |m.get i j| } 2 2).get, b, fun i hi j hj => ?_, ?_, e⟩
  · exact medianFilter_two { m with get := fun i j => |m.get i j| } hi hj
  · rw [← hb]
    unfold binarization chooseThreshold
    simp only [Bool.false_eq_true, if_false, if_true]

/-- **C81 (automatic threshold).** Without a given threshold, the one found on the region of interest in the middle is used. -/
theorem C81_otsu (m : Mat ℝ) (ratio : ℝ) : ∃ roi, IsMiddlePart m ratio roi ∧ ∀ otsu : Mat ℝ → Except PyErr ℝ,
    (∀ t, otsu roi = .ok t → binarization otsu m ratio none false = binarization otsu m ratio (some t) false) ∧
    ∀ e, otsu roi = .error e → binarization otsu m ratio none false = .error e := by
  obtain ⟨a, b, hp, e1, e2, hr, _⟩ := C37_roi m ratio
  refine ⟨selectRoi m ratio false, ⟨a, b, hp, e1, e2, hr⟩, fun otsu => ⟨fun t ht => ?_, fun e he => ?_⟩⟩
  · unfold binarization chooseThreshold
    simp only [Bool.false_eq_true, if_false]
    rw [ht]
  · unfold binarization chooseThreshold
    simp only [Bool.false_eq_true, if_false]
    rw [he]
    rfl

/-- **C81 (empty image).** An image without pixels is refused. -/
theorem C81_empty (otsu : Mat ℝ → Except PyErr ℝ) (m : Mat ℝ) (ratio t : ℝ) (h : m.height = 0 ∨ m.width = 0) :
    binarization otsu m ratio (some t) false = .error .valueError := by
  have hf : (aboveMat m t).flat = [] := by
    rw [List.eq_nil_iff_forall_not_mem]
    intro v hv
    obtain ⟨i, hi, j, hj, _⟩ := mem_flat.1 hv
    simp only [aboveMat] at hi hj
    omega
  unfold binarization chooseThreshold
  simp only [Bool.false_eq_true, if_false]
  rw [ok_bind]
  unfold invertDotsContrast npMax
  rw [hf]
  rfl

/-- **C81 (shape of dots).** Whatever the image and settings: the result is binary, the rim of the image is dark, every lit pixel
belongs to a lit plus sign, and from every dark pixel one can walk to the rim over dark pixels sharing edges. -/
theorem C81_shape (otsu : Mat ℝ → Except PyErr ℝ) (m : Mat ℝ) (ratio : ℝ) (thres : Option ℝ) (denoise : Bool) (b : Mat ℤ)
    (h : binarization otsu m ratio thres denoise = .ok b) :
    b.height = m.height ∧ b.width = m.width ∧ ∃ D ⊆ frame m.height m.width,
      (∀ p ∈ D, b.get p.1 p.2 = 1) ∧ (∀ p ∈ frame m.height m.width, p ∉ D → b.get p.1 p.2 = 0) ∧
      (∀ p ∈ rim m.height m.width, p ∉ D) ∧ (∀ p ∈ D, ∃ c, p ∈ plus c ∧ plus c ⊆ D) ∧
      ∀ p ∈ frame m.height m.width, p ∉ D → ∃ q ∈ rim m.height m.width, Joined EdgeTouch (frame m.height m.width \ D) p q := by
  unfold binarization at h
  simp only at h
  set m' := (if denoise = true then medianFilter { m with get := fun i j => |m.get i j| } 2 2 else m) with hm'
  have hh : m'.height = m.height := by rw [hm']; split <;> rfl
  have hw : m'.width = m.width := by rw [hm']; split <;> rfl
  rw [bind_ok_iff] at h
  obtain ⟨t, ht, h⟩ := h
  have hpos : 0 < m.height ∧ 0 < m.width := by
    rw [bind_ok_iff] at h
    obtain ⟨b1, hb1, h⟩ := h
    rw [bind_ok_iff] at h
    obtain ⟨b2, hb2, h⟩ := h
    have hs : b1.height = m.height ∧ b1.width = m.width := by
      unfold invertDotsContrast at hb1
      simp only at hb1
      rw [bind_ok_iff] at hb1
      obtain ⟨M, _, hb1⟩ := hb1
      split_ifs at hb1 <;> (injection hb1 with hb1; rw [← hb1]; exact ⟨hh, hw⟩)
    unfold clearBorder at hb2
    split_ifs at hb2 with hc
    omega
  obtain ⟨b', hb', e1, e2, e3⟩ := C81_exact otsu m' ratio t (by omega) (by omega)
  have hbb : b' = b := by
    unfold binarization chooseThreshold at hb'
    simp only [Bool.false_eq_true, if_false] at hb'
    rw [ok_bind, h] at hb'
    exact (Except.ok.inj hb').symm
  subst hbb
  rw [hh, hw] at e3
  refine ⟨e1.trans hh, e2.trans hw, dotMask m.height m.width (foreground m.height m.width m'.get t), fun p hp => hp.1,
    fun p hp => (e3 p.1 hp.1.1 p.2 hp.1.2).1 hp, fun p hp hd => (e3 p.1 hp.1 p.2 hp.2).2 hd, fun p hp => rim_not_mem_dotMask hp,
    fun p hp => dotMask_plus (foreground_frame _ _ _ _) hp, fun p hp hd => dotMask_outside (foreground_frame _ _ _ _) hp hd⟩

theorem frame_joined {h w : ℕ} {p : ℕ × ℕ} (hp : p ∈ frame h w) : ∃ q ∈ rim h w, Joined EdgeTouch (frame h w) p q := by
  obtain ⟨i, j⟩ := p
  induction i with
  | zero => exact ⟨(0, j), ⟨hp, Or.inl rfl⟩, .self hp⟩
  | succ i ih =>
    have hp' : (i, j) ∈ frame h w := ⟨by have := hp.1; simp only at this ⊢; omega, hp.2⟩
    obtain ⟨q, hq, hj⟩ := ih hp'
    exact ⟨q, hq, .head hp (by rw [edgeTouch_iff]; unfold Adj4; simp) hj⟩

theorem mask_foreground {otsu : Mat ℝ → Except PyErr ℝ} {m : Mat ℝ} {ratio : ℝ} {thres : Option ℝ} {denoise : Bool} {b : Mat ℤ}
    (h : binarization otsu m ratio thres denoise = .ok b) {t : ℝ} (ht0 : 0 ≤ t) (ht1 : t < 1) {p : ℕ × ℕ}
    (hp : p ∈ frame b.height b.width) : t < (realMat b).get p.1 p.2 ↔ b.get p.1 p.2 = 1 := by
  obtain ⟨e1, e2, D, hD, h1, h0, _⟩ := C81_shape otsu m ratio thres denoise b h
  simp only [realMat]
  rw [e1, e2] at hp
  by_cases hd : p ∈ D
  · rw [h1 p hd]; simpa using ht1
  · rw [h0 p hp hd]; simpa using ht0

/-- **C81 (stable).** The result of a binarization in which at most half of the pixels are lit is not changed by another one. -/
theorem C81_stable (otsu : Mat ℝ → Except PyErr ℝ) (m : Mat ℝ) (ratio : ℝ) (thres : Option ℝ) (denoise : Bool) (b : Mat ℤ)
    (h : binarization otsu m ratio thres denoise = .ok b)
    (hhalf : 2 * {p : ℕ × ℕ | p.1 < b.height ∧ p.2 < b.width ∧ b.get p.1 p.2 = 1}.ncard ≤ b.height * b.width)
    (otsu' : Mat ℝ → Except PyErr ℝ) (ratio' t : ℝ) (ht0 : 0 ≤ t) (ht1 : t < 1) :
    ∃ b', binarization otsu' (realMat b) ratio' (some t) false = .ok b' ∧ b'.height = b.height ∧ b'.width = b.width ∧
      ∀ i < b.height, ∀ j < b.width, b'.get i j = b.get i j := by
  have hsh := h
  unfold binarization at hsh
  obtain ⟨e1, e2, D, hD, h1, h0, h3, h4, h5⟩ := C81_shape otsu m ratio thres denoise b h
  have hset : {p ∈ frame b.height b.width | t < (realMat b).get p.1 p.2} = D := by
    ext p
    constructor
    · rintro ⟨hp, hlt⟩
      by_contra hd
      rw [mask_foreground h ht0 ht1 hp, h0 p (by rw [← e1, ← e2]; exact hp) hd] at hlt
      omega
    · intro hp
      have hf : p ∈ frame b.height b.width := by rw [e1, e2]; exact hD hp
      exact ⟨hf, (mask_foreground h ht0 ht1 hf).2 (h1 p hp)⟩
  have hset' : {p : ℕ × ℕ | p.1 < b.height ∧ p.2 < b.width ∧ b.get p.1 p.2 = 1} = D := by
    rw [← hset]
    ext p
    constructor
    · rintro ⟨ha, hb, hc⟩; exact ⟨⟨ha, hb⟩, (mask_foreground h ht0 ht1 ⟨ha, hb⟩).2 hc⟩
    · rintro ⟨hp, hlt⟩; exact ⟨hp.1, hp.2, (mask_foreground h ht0 ht1 hp).1 hlt⟩
  have hfg : foreground b.height b.width (realMat b).get t = D := by
    unfold foreground
    rw [hset, if_pos (by rw [← hset']; exact hhalf)]
  have hdm : dotMask b.height b.width D = D := by
    rw [e1, e2]
    have a1 : awayFromRim m.height m.width D = D := by
      ext p
      exact ⟨fun hp => hp.1, fun hp => ⟨hp, fun q hq hj => h3 q hq hj.mem⟩⟩
    have a2 : pluses D = D := Set.Subset.antisymm (pluses_subset _) fun p hp => h4 p hp
    unfold dotMask
    rw [a1, a2]
    apply Set.Subset.antisymm
    · intro p hp
      by_contra hc
      obtain ⟨q, hq, hj⟩ := h5 p hp.1 hc
      exact hp.2 q hq hj
    · exact subset_withHoles hD
  by_cases hz : b.height = 0 ∨ b.width = 0
  · exfalso
    simp only at hsh
    rw [bind_ok_iff] at hsh
    obtain ⟨t', _, hsh⟩ := hsh
    rw [bind_ok_iff] at hsh
    obtain ⟨b1, hb1, hsh⟩ := hsh
    rw [bind_ok_iff] at hsh
    obtain ⟨b2, hb2, hsh⟩ := hsh
    injection hsh with hsh
    have e1' : b.height = b2.height := by rw [← hsh]; rfl
    have e2' : b.width = b2.width := by rw [← hsh]; rfl
    unfold clearBorder at hb2
    split_ifs at hb2 with hc
    injection hb2 with hb2
    have a1 : b2.height = b1.height := by rw [← hb2]
    have a2 : b2.width = b1.width := by rw [← hb2]
    omega
  obtain ⟨b', hb', f1, f2, f3⟩ := C81_exact otsu' (realMat b) ratio' t (show 0 < b.height by omega) (show 0 < b.width by omega)
  refine ⟨b', hb', f1, f2, fun i hi j hj => ?_⟩
  have := f3 i hi j hj
  simp only [realMat] at this
  simp only [realMat] at hfg
  rw [hfg, hdm] at this
  by_cases hd : (i, j) ∈ D
  · rw [this.1 hd, h1 _ hd]
  · rw [this.2 hd, h0 (i, j) (by rw [← e1, ← e2]; exact ⟨hi, hj⟩) hd]

/-- **C81 (not stable).** If more than half of its pixels are lit, another binarization takes the background for dots and returns
an image without any. -/
theorem C81_unstable (otsu : Mat ℝ → Except PyErr ℝ) (m : Mat ℝ) (ratio : ℝ) (thres : Option ℝ) (denoise : Bool) (b : Mat ℤ)
    (h : binarization otsu m ratio thres denoise = .ok b)
    (hhalf : b.height * b.width < 2 * {p : ℕ × ℕ | p.1 < b.height ∧ p.2 < b.width ∧ b.get p.1 p.2 = 1}.ncard)
    (otsu' : Mat ℝ → Except PyErr ℝ) (ratio' t : ℝ) (ht0 : 0 ≤ t) (ht1 : t < 1) :
    ∃ b', binarization otsu' (realMat b) ratio' (some t) false = .ok b' ∧ b'.height = b.height ∧ b'.width = b.width ∧
      ∀ i < b.height, ∀ j < b.width, b'.get i j = 0 := by
  obtain ⟨e1, e2, D, hD, h1, h0, h3, h4, h5⟩ := C81_shape otsu m ratio thres denoise b h
  have hne : {p : ℕ × ℕ | p.1 < b.height ∧ p.2 < b.width ∧ b.get p.1 p.2 = 1}.Nonempty := by
    by_contra hc
    rw [Set.not_nonempty_iff_eq_empty] at hc
    rw [hc, Set.ncard_empty] at hhalf
    omega
  obtain ⟨p0, hp1, hp2, _⟩ := hne
  have hset : {p ∈ frame b.height b.width | t < (realMat b).get p.1 p.2} =
      {p : ℕ × ℕ | p.1 < b.height ∧ p.2 < b.width ∧ b.get p.1 p.2 = 1} := by
    ext p
    constructor
    · rintro ⟨hp, hlt⟩; exact ⟨hp.1, hp.2, (mask_foreground h ht0 ht1 hp).1 hlt⟩
    · rintro ⟨ha, hb, hc⟩; exact ⟨⟨ha, hb⟩, (mask_foreground h ht0 ht1 ⟨ha, hb⟩).2 hc⟩
  have hfg : foreground b.height b.width (realMat b).get t = frame b.height b.width \ D := by
    unfold foreground
    rw [hset, if_neg (by omega)]
    ext p
    constructor
    · rintro ⟨hp, hle⟩
      refine ⟨hp, fun hd => ?_⟩
      exact absurd ((mask_foreground h ht0 ht1 hp).2 (h1 p hd)) (not_lt.2 hle)
    · rintro ⟨hp, hd⟩
      refine ⟨hp, not_lt.1 fun hc => ?_⟩
      rw [mask_foreground h ht0 ht1 hp, h0 p (by rw [← e1, ← e2]; exact hp) hd] at hc
      omega
  have haw : awayFromRim b.height b.width (frame b.height b.width \ D) = ∅ := by
    rw [Set.eq_empty_iff_forall_notMem]
    rintro p ⟨hp, hall⟩
    rw [e1, e2] at hp hall
    obtain ⟨q, hq, hj⟩ := h5 p hp.1 hp.2
    refine hall q hq ?_
    refine ⟨hj.1, fun E hE hc => hj.2 E hE fun a ha c hcA hac => hc a ha c hcA ?_⟩
    rw [edgeTouch_iff] at hac
    rw [cornerTouch_iff]
    obtain ⟨a1, a2⟩ := a
    obtain ⟨c1, c2⟩ := c
    unfold Adj4 at hac
    unfold Adj8
    simp only [ne_eq, Prod.mk.injEq] at hac ⊢
    omega
  have hdm : dotMask b.height b.width (frame b.height b.width \ D) = ∅ := by
    unfold dotMask
    rw [haw]
    have hpl : pluses (∅ : Set (ℕ × ℕ)) = ∅ := Set.subset_empty_iff.1 (pluses_subset _)
    rw [hpl, Set.eq_empty_iff_forall_notMem]
    rintro p ⟨hp, hall⟩
    obtain ⟨q, hq, hj⟩ := frame_joined hp
    exact hall q hq (by rw [Set.sdiff_empty]; exact hj)
  obtain ⟨b', hb', f1, f2, f3⟩ := C81_exact otsu' (realMat b) ratio' t (show 0 < b.height by omega) (show 0 < b.width by omega)
  refine ⟨b', hb', f1, f2, fun i hi j hj => ?_⟩
  have := f3 i hi j hj
  simp only [realMat] at this
  simp only [realMat] at hfg
  rw [hfg, hdm] at this
  exact this.2 (Set.notMem_empty _)

/-- A plus sign in the middle of a 5 × 5 image survives (not all is removed), the rim is dark, and the image meets the hypothesis
of the stability theorem. -/
example : ∃ b, binarization (fun _ => .error .valueError) ⟨5, 5, fun i j => if (i = 2 ∧ 1 ≤ j ∧ j ≤ 3) ∨ (j = 2 ∧ 1 ≤ i ∧ i ≤ 3) then 7 else 1⟩ 0.3
      (some 3) false = .ok b ∧ (∀ i < 5, ∀ j < 5, b.get i j = 1 ↔ (i, j) ∈ plus (2, 2)) ∧ b.get 0 0 = 0 := by
  classical
  set m : Mat ℝ := ⟨5, 5, fun i j => if (i = 2 ∧ 1 ≤ j ∧ j ≤ 3) ∨ (j = 2 ∧ 1 ≤ i ∧ i ≤ 3) then 7 else 1⟩ with hm
  have hp : ∀ p : ℕ × ℕ, p ∈ plus (2, 2) ↔ (p.1 = 2 ∧ 1 ≤ p.2 ∧ p.2 ≤ 3) ∨ (p.2 = 2 ∧ 1 ≤ p.1 ∧ p.1 ≤ 3) := by
    rintro ⟨i, j⟩
    refine (or_congr Iff.rfl edgeTouch_iff).trans ?_
    unfold Adj4
    simp only [Prod.mk.injEq]
    omega
  have hpf : ∀ p ∈ plus (2, 2), p.1 < 5 ∧ p.2 < 5 ∧ p ∉ rim 5 5 := by
    intro p h
    rw [hp] at h
    obtain ⟨i, j⟩ := p
    simp only [rim, frame, Set.mem_ofPred_eq, not_and_or] at h ⊢
    omega
  have hU : {p ∈ frame 5 5 | (3 : ℝ) < m.get p.1 p.2} = plus (2, 2) := by
    ext p
    constructor
    · rintro ⟨_, h⟩
      rw [hp]
      by_contra hc
      simp only [hm] at h
      rw [if_neg hc] at h
      norm_num at h
    · intro h
      refine ⟨⟨(hpf p h).1, (hpf p h).2.1⟩, ?_⟩
      simp only [hm]
      rw [if_pos ((hp p).1 h)]
      norm_num
  have hcard : (plus (2, 2)).ncard ≤ 5 := by
    have hs : plus (2, 2) ⊆ (({(2, 2), (1, 2), (3, 2), (2, 1), (2, 3)} : Finset (ℕ × ℕ)) : Set (ℕ × ℕ)) := by
      intro p h
      rw [hp] at h
      obtain ⟨i, j⟩ := p
      simp only [Prod.mk.injEq, Finset.coe_insert, Finset.coe_singleton, Set.mem_insert_iff, Set.mem_singleton_iff] at h ⊢
      omega
    calc (plus (2, 2)).ncard ≤ _ := Set.ncard_le_ncard hs (Finset.finite_toSet _)
      _ ≤ 5 := by rw [Set.ncard_coe_finset]; decide
  have hfg : foreground 5 5 m.get 3 = plus (2, 2) := by
    unfold foreground
    rw [hU, if_pos (by omega)]
  have haw : awayFromRim 5 5 (plus (2, 2)) = plus (2, 2) := by
    ext p
    exact ⟨fun h => h.1, fun h => ⟨h, fun q hq hj => (hpf q hj.mem).2.2 hq⟩⟩
  have hpl : pluses (plus (2, 2)) = plus (2, 2) :=
    Set.Subset.antisymm (pluses_subset _) fun p h => ⟨(2, 2), h, subset_refl _⟩
  have hdm : dotMask 5 5 (plus (2, 2)) = plus (2, 2) := by
    unfold dotMask
    rw [haw, hpl]
    apply Set.Subset.antisymm
    · rintro ⟨i, j⟩ ⟨hf, hall⟩
      by_contra hc
      have hf1 : i < 5 := hf.1
      have hf2 : j < 5 := hf.2
      have hc' := hc
      rw [hp] at hc'
      simp only at hc'
      have hr : (i, j) ∈ rim 5 5 ∨ (((i = 1 ∨ i = 3) ∧ (j = 1 ∨ j = 3))) := by
        simp only [rim, frame, Set.mem_ofPred_eq]
        omega
      rcases hr with hr | hr
      · exact hall _ hr (.self ⟨hf, hc⟩)
      · have hq : (if i = 1 then 0 else 4, j) ∈ rim 5 5 := by
          simp only [rim, frame, Set.mem_ofPred_eq]
          split_ifs <;> omega
        refine hall _ hq (.head ⟨hf, hc⟩ ?_ (.self ⟨hq.1, fun h => (hpf _ h).2.2 hq⟩))
        rw [edgeTouch_iff]
        unfold Adj4
        simp only [true_and]
        split_ifs <;> omega
    · exact subset_withHoles fun p h => ⟨(hpf p h).1, (hpf p h).2.1⟩
  obtain ⟨b, hb, _, _, h⟩ := C81_exact (fun _ => .error .valueError) m 0.3 3 (by norm_num [hm]) (by norm_num [hm])
  have hh : m.height = 5 := rfl
  have hw : m.width = 5 := rfl
  rw [hh, hw, hfg, hdm] at h
  refine ⟨b, hb, fun i hi j hj => ?_, (h 0 (by norm_num) 0 (by norm_num)).2 fun hc => (hpf _ hc).2.2 ?_⟩
  · by_cases hd : (i, j) ∈ plus (2, 2)
    · simp [hd, (h i hi j hj).1 hd]
    · simp [hd, (h i hi j hj).2 hd]
  · exact ⟨⟨by norm_num, by norm_num⟩, Or.inl rfl⟩

/-- A bright pixel that the median filter removes. -/
example (otsu : Mat ℝ → Except PyErr ℝ) (ratio : ℝ) := C81_denoise otsu ⟨5, 5, fun i j => if i = 2 ∧ j = 2 then 7 else 1⟩ ratio 3 (by norm_num) (by norm_num)
example (otsu : Mat ℝ → Except PyErr ℝ) (ratio t : ℝ) := C81_empty otsu ⟨0, 5, fun _ _ => 1⟩ ratio t (Or.inl rfl)
/-- An image with a threshold gives a mask, and this is a fixed point or is cleared, as at most or more than half of it is lit. -/
example (otsu otsu' : Mat ℝ → Except PyErr ℝ) : ∃ b b', binarization otsu ⟨5, 5, fun i j => if i = 2 ∧ j = 2 then 7 else 1⟩ 0.3 (some 3) false = .ok b ∧
    binarization otsu' (realMat b) 0.3 (some 0.5) false = .ok b' ∧
    ((∀ i < 5, ∀ j < 5, b'.get i j = b.get i j) ∨ ∀ i < 5, ∀ j < 5, b'.get i j = 0) := by
  obtain ⟨b, hb, hh, hw, _⟩ := C81_exact otsu ⟨5, 5, fun i j => if i = 2 ∧ j = 2 then 7 else 1⟩ 0.3 3 (by norm_num) (by norm_num)
  rcases le_or_gt (2 * {p : ℕ × ℕ | p.1 < b.height ∧ p.2 < b.width ∧ b.get p.1 p.2 = 1}.ncard) (b.height * b.width) with h | h
  · obtain ⟨b', e, _, _, hs⟩ := C81_stable otsu _ 0.3 (some 3) false b hb h otsu' 0.3 0.5 (by norm_num) (by norm_num)
    rw [hh, hw] at hs
    exact ⟨b, b', hb, e, Or.inl hs⟩
  · obtain ⟨b', e, _, _, hs⟩ := C81_unstable otsu _ 0.3 (some 3) false b hb h otsu' 0.3 0.5 (by norm_num) (by norm_num)
    rw [hh, hw] at hs
    exact ⟨b, b', hb, e, Or.inr hs⟩
example (otsu : Mat ℝ → Except PyErr ℝ) : ∃ b, binarization otsu ⟨5, 5, fun i j => if i = 2 ∧ j = 2 then 7 else 1⟩ 0.3 (some 3) false = .ok b ∧
    ∃ D : Set (ℕ × ℕ), (∀ p ∈ D, b.get p.1 p.2 = 1) ∧ ∀ p ∈ D, ∃ c, p ∈ plus c ∧ plus c ⊆ D := by
  obtain ⟨b, hb, -⟩ := C81_exact otsu ⟨5, 5, fun i j => if i = 2 ∧ j = 2 then 7 else 1⟩ 0.3 3 (by norm_num) (by norm_num)
  obtain ⟨-, -, D, -, h1, -, -, h2, -⟩ := C81_shape otsu _ 0.3 (some 3) false b hb
  exact ⟨b, hb, D, h1, h2⟩

end Discorpy
