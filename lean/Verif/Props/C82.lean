import Verif.Props.C81
import Verif.Lemmas.Tilted

/-! # C82 — points of a dot pattern -/

namespace Discorpy

open Spec

theorem middle_real {m : Mat ℝ} {ps : List Pix} (hne : ps ≠ []) (hnd : ps.Nodup) (h1 : ∀ p ∈ ps, m.get p.1 p.2 = 1) :
    ∃ c, centerOfMassReal m ps = .ok c ∧ IsMiddle {p | p ∈ ps} c := by
  classical
  have e0 : (ps.map fun p => m.get p.1 p.2) = ps.map fun _ => (1 : ℝ) := List.map_congr_left h1
  have e1 : (ps.map fun p => m.get p.1 p.2 * (p.1 : ℝ)) = ps.map fun p => (p.1 : ℝ) :=
    List.map_congr_left fun p hp => by rw [h1 p hp, one_mul]
  have e2 : (ps.map fun p => m.get p.1 p.2 * (p.2 : ℝ)) = ps.map fun p => (p.2 : ℝ) :=
    List.map_congr_left fun p hp => by rw [h1 p hp, one_mul]
  have hl : (0 : ℝ) < ps.length := by exact_mod_cast List.length_pos_iff.2 hne
  have hs : (ps.map fun _ : Pix => (1 : ℝ)).sum = ps.length := by simp
  unfold centerOfMassReal
  simp only
  rw [e0, e1, e2, hs, if_neg hl.ne']
  refine ⟨_, rfl, ps.toFinset, ?_, by ext; simp, ?_, ?_⟩
  · obtain ⟨p, hp⟩ := List.exists_mem_of_ne_nil _ hne
    exact ⟨p, List.mem_toFinset.2 hp⟩
  · simp only
    rw [List.toFinset_card_of_nodup hnd, div_mul_cancel₀ _ hl.ne', List.sum_toFinset _ hnd]
  · simp only
    rw [List.toFinset_card_of_nodup hnd, div_mul_cancel₀ _ hl.ne', List.sum_toFinset _ hnd]

theorem middles_of {m : Mat ℤ} {f : Pix → Except PyErr Pt}
    (h : ∀ p ∈ dotReps m, ∃ c, f p = .ok c ∧ IsMiddle (dotSet m p) c) : ∃ pts, (dotReps m).mapM f = .ok pts ∧ MiddlesOf m pts := by
  have key : ∀ l : List Pix, (∀ p ∈ l, ∃ c, f p = .ok c ∧ IsMiddle (dotSet m p) c) →
      ∃ pts, l.mapM f = .ok pts ∧ List.Forall₂ IsMiddle (l.map (dotSet m)) pts := by
    intro l
    induction l with
    | nil => exact fun _ => ⟨[], rfl, .nil⟩
    | cons p l ih =>
      intro hl
      obtain ⟨c, hc, hm⟩ := hl p (by simp)
      obtain ⟨pts, hp, hf⟩ := ih fun q hq => hl q (by simp [hq])
      exact ⟨c :: pts, by rw [List.mapM_cons, hc, ok_bind, hp]; rfl, .cons hm hf⟩
  obtain ⟨pts, h1, h2⟩ := key _ h
  refine ⟨pts, h1, (dotReps m).map (dotSet m), ?_, fun D => ?_, h2⟩
  · exact dots_scanned m
  · rw [isDot_iff, List.mem_map]
    exact ⟨fun ⟨p, hp, e⟩ => ⟨p, hp, e.symm⟩, fun ⟨p, hp, e⟩ => ⟨p, hp, e.symm⟩⟩

theorem dotPixels_ne {m : Mat ℤ} {p : Pix} (hp : p ∈ dotReps m) : dotPixels m p ≠ [] :=
  List.ne_nil_of_mem (mem_dotPixels.2 (SameDot.refl (mem_dotReps.1 hp).1))

theorem dotPixels_set (m : Mat ℤ) (p : Pix) : {q | q ∈ dotPixels m p} = dotSet m p := by
  ext q
  exact mem_dotPixels

/-- The dots depend on which pixels are not zero only. -/
theorem isDot_congr {m m' : Mat ℤ} (h : ∀ p, Lit m p ↔ Lit m' p) {D : Set (ℕ × ℕ)} : IsDot m D ↔ IsDot m' D := by
  have hc : ∀ E, ClosedSet m E ↔ ClosedSet m' E := fun E =>
    ⟨fun hE p hp q hq => hE p hp q ((h q).2 hq), fun hE p hp q hq => hE p hp q ((h q).1 hq)⟩
  exact ⟨fun hD => ⟨hD.nonempty, fun p hp => (h p).1 (hD.lit p hp), (hc D).1 hD.closed, fun E hE hn hcl => hD.minimal E hE hn ((hc E).2 hcl)⟩,
    fun hD => ⟨hD.nonempty, fun p hp => (h p).2 (hD.lit p hp), (hc D).2 hD.closed, fun E hE hn hcl => hD.minimal E hE hn ((hc E).1 hcl)⟩⟩

theorem middlesOf_congr {m m' : Mat ℤ} (h : ∀ p, Lit m p ↔ Lit m' p) {pts : List Pt} (hm : MiddlesOf m pts) : MiddlesOf m' pts := by
  obtain ⟨dots, h1, h2, h3⟩ := hm
  exact ⟨dots, h1, fun D => (h2 D).trans (isDot_congr h), h3⟩

open Classical in
/-- The pixels equal to one. -/
noncomputable def onesOf (m : Mat ℝ) : Mat ℤ := ⟨m.height, m.width, fun i j => if m.get i j = 1 then 1 else 0⟩

theorem int16_unit {v : ℝ} (h0 : 0 ≤ v) (h1 : v ≤ 1) : toInt16 (truncInt v) ≠ 0 ↔ v = 1 := by
  unfold truncInt
  rw [if_pos h0]
  rcases lt_or_eq_of_le h1 with h | h
  · rw [Int.floor_eq_zero_iff.2 ⟨h0, h⟩]
    simp only [ne_eq, h.ne, iff_false, not_not]
    rfl
  · rw [h, Int.floor_one]
    simp only [iff_true]
    decide

/-- **C82 (binary image).** Without binarization, an image with smallest value zero and largest value one is accepted; the result
names the mean pixel position of each dot made of the pixels equal to one, once. Values in between count as background. -/
theorem C82_binary (otsu : Mat ℝ → Except PyErr ℝ) (m : Mat ℝ) (ratio : ℝ) (thres : Option ℝ)
    (hr : ∀ i < m.height, ∀ j < m.width, 0 ≤ m.get i j ∧ m.get i j ≤ 1)
    (h0 : ∃ i < m.height, ∃ j < m.width, m.get i j = 0) (h1 : ∃ i < m.height, ∃ j < m.width, m.get i j = 1) :
    ∃ pts, getPointsDotPattern otsu m false ratio thres = .ok pts ∧ MiddlesOf (onesOf m) pts := by
  have hne : m.flat ≠ [] := by
    obtain ⟨i, hi, j, hj, _⟩ := h0
    exact List.ne_nil_of_mem (mem_flat.2 ⟨i, hi, j, hj, rfl⟩)
  obtain ⟨hi, ehi, himem, himax⟩ := npMax_ok hne
  obtain ⟨lo, elo, lomem, lomin⟩ := npMin_ok hne
  have e1 : hi = 1 := by
    apply le_antisymm
    · obtain ⟨i, a, j, b, e⟩ := mem_flat.1 himem
      rw [← e]; exact (hr i a j b).2
    · obtain ⟨i, a, j, b, e⟩ := h1
      exact himax 1 (mem_flat.2 ⟨i, a, j, b, e⟩)
  have e0 : lo = 0 := by
    apply le_antisymm
    · obtain ⟨i, a, j, b, e⟩ := h0
      exact lomin 0 (mem_flat.2 ⟨i, a, j, b, e⟩)
    · obtain ⟨i, a, j, b, e⟩ := mem_flat.1 lomem
      rw [← e]; exact (hr i a j b).1
  have hlit : ∀ p, Lit (int16Mat m) p ↔ Lit (onesOf m) p := by
    intro p
    unfold Lit int16Mat onesOf
    simp only
    constructor
    · rintro ⟨a, b, c⟩
      rw [int16_unit (hr _ a _ b).1 (hr _ a _ b).2] at c
      exact ⟨a, b, by rw [if_pos c]; exact one_ne_zero⟩
    · rintro ⟨a, b, c⟩
      refine ⟨a, b, ?_⟩
      rw [int16_unit (hr _ a _ b).1 (hr _ a _ b).2]
      by_contra hc
      rw [if_neg hc] at c
      exact c rfl
  obtain ⟨pts, hp, hm⟩ := middles_of (m := int16Mat m) (f := fun p => centerOfMassReal m (dotPixels (int16Mat m) p)) (by
    intro p hp
    rw [← dotPixels_set]
    refine middle_real (dotPixels_ne hp) (dotPixels_nodup _ _) fun q hq => ?_
    have hl := SameDot.lit (mem_dotPixels.1 hq)
    have := (int16_unit (hr _ hl.1 _ hl.2.1).1 (hr _ hl.1 _ hl.2.1).2).1 hl.2.2
    exact this)
  refine ⟨pts, ?_, middlesOf_congr hlit hm⟩
  unfold getPointsDotPattern
  simp only [Bool.false_eq_true, if_false]
  rw [ehi, ok_bind, elo, ok_bind, if_neg (by simp [e0, e1])]
  exact hp

/-- **C82 (refused).** Without binarization, any other image is refused. -/
theorem C82_refused (otsu : Mat ℝ → Except PyErr ℝ) (m : Mat ℝ) (ratio : ℝ) (thres : Option ℝ)
    (h : (∃ i < m.height, ∃ j < m.width, m.get i j < 0 ∨ 1 < m.get i j) ∨ (¬ ∃ i < m.height, ∃ j < m.width, m.get i j = 0) ∨
      ¬ ∃ i < m.height, ∃ j < m.width, m.get i j = 1) :
    getPointsDotPattern otsu m false ratio thres = .error .valueError := by
  unfold getPointsDotPattern
  simp only [Bool.false_eq_true, if_false]
  by_cases hne : m.flat = []
  · rw [hne]
    rfl
  obtain ⟨hi, ehi, himem, himax⟩ := npMax_ok hne
  obtain ⟨lo, elo, lomem, lomin⟩ := npMin_ok hne
  rw [ehi, ok_bind, elo, ok_bind, if_pos]
  by_contra hc
  push Not at hc
  obtain ⟨rfl, rfl⟩ := hc
  rcases h with ⟨i, a, j, b, hv⟩ | hv | hv
  · have h1 := himax _ (mem_flat.2 ⟨i, a, j, b, rfl⟩)
    have h2 := lomin _ (mem_flat.2 ⟨i, a, j, b, rfl⟩)
    rcases hv with hv | hv <;> linarith
  · exact hv (by obtain ⟨i, a, j, b, e⟩ := mem_flat.1 lomem; exact ⟨i, a, j, b, e⟩)
  · exact hv (by obtain ⟨i, a, j, b, e⟩ := mem_flat.1 himem; exact ⟨i, a, j, b, e⟩)

/-- An image with a value above one. -/
example (otsu : Mat ℝ → Except PyErr ℝ) (ratio : ℝ) (thres : Option ℝ) := C82_refused otsu ⟨1, 2, fun _ j => 2 * j⟩ ratio thres
  (Or.inl ⟨0, by norm_num, 1, by norm_num, Or.inr (by norm_num)⟩)

/-- **C82 (grey image).** With binarization, the result names the middle of each dot of the binarized (and denoised) image, once;
an error of the binarization is passed on. -/
theorem C82_binarize (otsu : Mat ℝ → Except PyErr ℝ) (m : Mat ℝ) (ratio : ℝ) (thres : Option ℝ) :
    (∀ b, binarization otsu m ratio thres true = .ok b →
      ∃ pts, getPointsDotPattern otsu m true ratio thres = .ok pts ∧ MiddlesOf b pts) ∧
    ∀ e, binarization otsu m ratio thres true = .error e → getPointsDotPattern otsu m true ratio thres = .error e := by
  constructor
  · intro b hb
    obtain ⟨e1, e2, D, hD, h1, h0, _⟩ := C81_shape otsu m ratio thres true b hb
    have hone : ∀ q, IsDotPix b q → b.get q.1 q.2 = 1 := by
      intro q hq
      by_cases hd : q ∈ D
      · exact h1 q hd
      · exact absurd (h0 q ⟨by rw [← e1]; exact hq.1, by rw [← e2]; exact hq.2.1⟩ hd) hq.2.2
    obtain ⟨pts, hp, hm⟩ := middles_of (m := b) (f := fun p => centerOfMass b (dotPixels b p)) (by
      intro p hp
      rw [← dotPixels_set]
      refine middle_real (m := realMat b) (dotPixels_ne hp) (dotPixels_nodup _ _) fun q hq => ?_
      have := hone q (SameDot.lit (mem_dotPixels.1 hq))
      simp only [realMat]
      exact_mod_cast this)
    refine ⟨pts, ?_, hm⟩
    unfold getPointsDotPattern
    simp only [if_true]
    rw [hb, ok_bind]
    exact hp
  · intro e he
    unfold getPointsDotPattern
    simp only [if_true]
    rw [he]
    rfl

/-- **C82 (inside).** The points of a grey image are inside the image, at least one pixel away from its rim. -/
theorem C82_inside (otsu : Mat ℝ → Except PyErr ℝ) (m : Mat ℝ) (ratio : ℝ) (thres : Option ℝ) (pts : List Pt)
    (h : getPointsDotPattern otsu m true ratio thres = .ok pts) :
    ∀ c ∈ pts, 1 ≤ c.y ∧ c.y ≤ m.height - 2 ∧ 1 ≤ c.x ∧ c.x ≤ m.width - 2 := by
  have hb : ∃ b, binarization otsu m ratio thres true = .ok b := by
    unfold getPointsDotPattern at h
    simp only [if_true] at h
    rw [bind_ok_iff] at h
    obtain ⟨b, hb, _⟩ := h
    exact ⟨b, hb⟩
  obtain ⟨b, hb⟩ := hb
  obtain ⟨pts', hp', dots, hnd, hdots, hf⟩ := (C82_binarize otsu m ratio thres).1 b hb
  rw [h] at hp'
  obtain rfl := Except.ok.inj hp'
  obtain ⟨e1, e2, D, hD, h1, h0, hrim, _⟩ := C81_shape otsu m ratio thres true b hb
  intro c hc
  obtain ⟨E, hE, F, hFne, hF, hy, hx⟩ : ∃ E ∈ dots, IsMiddle E c := by
    clear h hdots hp' hnd
    induction hf with
    | nil => cases hc
    | cons hab _ ih =>
      rcases List.mem_cons.1 hc with rfl | hc
      · exact ⟨_, by simp, hab⟩
      · obtain ⟨E, hE, h⟩ := ih hc
        exact ⟨E, by simp [hE], h⟩
  have hpix : ∀ q ∈ F, 1 ≤ q.1 ∧ q.1 + 2 ≤ m.height ∧ 1 ≤ q.2 ∧ q.2 + 2 ≤ m.width := by
    intro q hq
    have hl := ((hdots E).1 hE).lit q (by rw [← hF]; exact hq)
    have hqf : q ∈ frame m.height m.width := ⟨by rw [← e1]; exact hl.1, by rw [← e2]; exact hl.2.1⟩
    have hqD : q ∈ D := by
      by_contra hd
      exact hl.2.2 (h0 q hqf hd)
    have hnr : q ∉ rim m.height m.width := fun hr => hrim q hr hqD
    simp only [rim, frame, Set.mem_ofPred_eq, not_and_or] at hnr hqf
    omega
  have hcard : (0 : ℝ) < F.card := by exact_mod_cast hFne.card_pos
  have lower : ∀ (f : ℕ × ℕ → ℕ) (v : ℝ), v * F.card = ∑ q ∈ F, (f q : ℝ) → (∀ q ∈ F, 1 ≤ f q) → 1 ≤ v := by
    intro f v hv hq
    have : (F.card : ℝ) ≤ ∑ q ∈ F, (f q : ℝ) := by
      rw [Finset.card_eq_sum_ones]
      push_cast
      exact Finset.sum_le_sum fun q h => by exact_mod_cast hq q h
    rw [← hv] at this
    by_contra hlt
    push Not at hlt
    nlinarith
  have upper : ∀ (f : ℕ × ℕ → ℕ) (v : ℝ) (n : ℕ), v * F.card = ∑ q ∈ F, (f q : ℝ) → (∀ q ∈ F, f q + 2 ≤ n) → v ≤ n - 2 := by
    intro f v n hv hq
    have : ∑ q ∈ F, (f q : ℝ) ≤ F.card * ((n : ℝ) - 2) := by
      rw [← nsmul_eq_mul]
      refine Finset.sum_le_card_nsmul _ _ _ fun q h => ?_
      have : ((f q + 2 : ℕ) : ℝ) ≤ n := by exact_mod_cast hq q h
      push_cast at this
      linarith
    rw [← hv] at this
    by_contra hlt
    push Not at hlt
    nlinarith
  exact ⟨lower (fun q => q.1) _ hy fun q hq => (hpix q hq).1, upper (fun q => q.1) _ _ hy fun q hq => (hpix q hq).2.1,
    lower (fun q => q.2) _ hx fun q hq => (hpix q hq).2.2.1, upper (fun q => q.2) _ _ hx fun q hq => (hpix q hq).2.2.2⟩

/-- The hypotheses of C82 can be met by an image with a grey pixel: the two pixels equal to one are one dot. -/
example : ∃ pts, getPointsDotPattern (fun _ => .error .valueError) ⟨1, 4, fun _ j => if j = 0 then 0 else if j = 3 then 1 / 2 else 1⟩ false
    0.3 none = .ok pts ∧
    MiddlesOf (onesOf ⟨1, 4, fun _ j => if j = 0 then 0 else if j = 3 then 1 / 2 else 1⟩) pts := by
  apply C82_binary
  · intro i _ j _
    simp only
    split_ifs <;> norm_num
  · exact ⟨0, by norm_num, 0, by norm_num, by norm_num⟩
  · exact ⟨0, by norm_num, 1, by norm_num, by norm_num⟩
/-- A bright 5 × 5 block in a 9 × 9 image: if the image can be binarised, all dots found keep off the rim. -/
example (otsu : Mat ℝ → Except PyErr ℝ) : ∃ pts, getPointsDotPattern otsu ⟨9, 9, fun i j => if 2 ≤ i ∧ i ≤ 6 ∧ 2 ≤ j ∧ j ≤ 6 then 7 else 1⟩ true 0.3 (some 3) = .ok pts ∧
    ∀ c ∈ pts, 1 ≤ c.y ∧ c.y ≤ 7 ∧ 1 ≤ c.x ∧ c.x ≤ 7 := by
  obtain ⟨f, b, -, hb, -⟩ := C81_denoise otsu ⟨9, 9, fun i j => if 2 ≤ i ∧ i ≤ 6 ∧ 2 ≤ j ∧ j ≤ 6 then 7 else 1⟩ 0.3 3 (by norm_num) (by norm_num)
  obtain ⟨pts, hp, -⟩ := (C82_binarize otsu _ 0.3 (some 3)).1 b hb
  refine ⟨pts, hp, fun c hc => ?_⟩
  have := C82_inside otsu _ 0.3 (some 3) pts hp c hc
  norm_num at this
  exact this

end Discorpy
