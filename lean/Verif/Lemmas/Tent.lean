import Verif.Spec.Ridge
import Verif.Lemmas.Num

/-! # Helper lemmas: triangular ridges -/

namespace Discorpy
open Spec

/-- A triangular ridge of half-width `w`. -/
noncomputable def tent (w c t : ℝ) : ℝ := max 0 (w - |t - c|)

/-- Several of them. -/
noncomputable def tents (w : ℝ) (cs : List ℝ) (t : ℝ) : ℝ := (cs.map fun c => tent w c t).sum

theorem tent_off {w c t : ℝ} (h : w ≤ |t - c|) : tent w c t = 0 := max_eq_left (by linarith)

theorem tent_on {w c t : ℝ} (h : |t - c| < w) : tent w c t = w - |t - c| := max_eq_right (by linarith)

theorem tents_off {w : ℝ} {cs : List ℝ} {t : ℝ} (h : ∀ c ∈ cs, w ≤ |t - c|) : tents w cs t = 0 := by
  unfold tents
  rw [List.sum_eq_zero]
  intro x hx
  obtain ⟨c, hc, rfl⟩ := List.mem_map.1 hx
  exact tent_off (h c hc)

theorem tents_on {w : ℝ} {cs : List ℝ} (ha : PlacesApart cs (2 * w)) {t c : ℝ} (hc : c ∈ cs) (ht : |t - c| < w) :
    tents w cs t = w - |t - c| := by
  induction cs with
  | nil => cases hc
  | cons a l ih =>
    unfold PlacesApart at ha
    rw [List.pairwise_cons] at ha
    have e : tents w (a :: l) t = tent w a t + tents w l t := by simp [tents]
    rw [e]
    have hb := abs_lt.1 ht
    rcases List.mem_cons.1 hc with rfl | hc
    · rw [tent_on ht, tents_off, add_zero]
      intro c' hc'
      have := ha.1 c' hc'
      rw [abs_of_nonpos (by linarith)]; linarith
    · have := ha.1 c hc
      rw [ih ha.2 hc, tent_off, zero_add]
      rw [abs_of_nonneg (by linarith)]; linarith

theorem tents_ridges {w : ℝ} {cs : List ℝ} (ha : PlacesApart cs (2 * w)) : Ridges cs (fun _ d => w - d) w (tents w cs) where
  on c hc t ht := tents_on ha hc ht
  off t ht := tents_off ht
  falls c _ a b _ hab _ := by linarith
  pos c _ a _ ha := by linarith

theorem tent_le {w : ℝ} (hw : 0 ≤ w) {cs : List ℝ} (ha : PlacesApart cs (2 * w)) (t : ℝ) : tents w cs t ≤ w := by
  by_cases h : ∀ c ∈ cs, w ≤ |t - c|
  · rw [tents_off h]; exact hw
  · push Not at h
    obtain ⟨c, hc, hl⟩ := h
    rw [tents_on ha hc hl]
    linarith [abs_nonneg (t - c)]

/-- Between neighbouring integers a tent with integer corners is straight. -/
theorem tent_straight (w c : ℕ) (n : ℕ) {θ : ℝ} (h0 : 0 ≤ θ) (h1 : θ ≤ 1) :
    (1 - θ) * tent w c n + θ * tent w c ((n + 1 : ℕ) : ℝ) = tent w c (n + θ) := by
  have hc : n + 1 + w ≤ c ∨ (c ≤ n + w ∧ n + 1 ≤ c) ∨ (c ≤ n ∧ n + 1 ≤ c + w) ∨ c + w ≤ n := by omega
  have e : ((n + 1 : ℕ) : ℝ) = (n : ℝ) + 1 := by push_cast; ring
  rw [e]
  rcases hc with h | ⟨h, h'⟩ | ⟨h, h'⟩ | h
  · have h : (n : ℝ) + 1 + w ≤ c := by exact_mod_cast h
    have hw : (0 : ℝ) ≤ w := Nat.cast_nonneg _
    rw [tent_off, tent_off, tent_off]
    · ring
    all_goals (rw [abs_of_nonpos (by linarith)]; linarith)
  · have h : (c : ℝ) ≤ n + w := by exact_mod_cast h
    have h' : (n : ℝ) + 1 ≤ c := by exact_mod_cast h'
    unfold tent
    rw [abs_of_nonpos (by linarith), abs_of_nonpos (by linarith), abs_of_nonpos (by linarith), max_eq_right (by linarith),
      max_eq_right (by linarith), max_eq_right (by linarith)]
    ring
  · have h : (c : ℝ) ≤ n := by exact_mod_cast h
    have h' : (n : ℝ) + 1 ≤ c + w := by exact_mod_cast h'
    unfold tent
    rw [abs_of_nonneg (by linarith), abs_of_nonneg (by linarith), abs_of_nonneg (by linarith), max_eq_right (by linarith),
      max_eq_right (by linarith), max_eq_right (by linarith)]
    ring
  · have h : (c : ℝ) + w ≤ n := by exact_mod_cast h
    have hw : (0 : ℝ) ≤ w := Nat.cast_nonneg _
    rw [tent_off, tent_off, tent_off]
    · ring
    all_goals (rw [abs_of_nonneg (by linarith)]; linarith)

theorem tents_straight (w : ℕ) (cs : List ℕ) (n : ℕ) {θ : ℝ} (h0 : 0 ≤ θ) (h1 : θ ≤ 1) :
    (1 - θ) * tents w (cs.map fun c : ℕ => (c : ℝ)) n + θ * tents w (cs.map fun c : ℕ => (c : ℝ)) ((n + 1 : ℕ) : ℝ) =
      tents w (cs.map fun c : ℕ => (c : ℝ)) (n + θ) := by
  induction cs with
  | nil => simp [tents]
  | cons a l ih =>
    have e : ∀ t, tents w ((a :: l).map fun c : ℕ => (c : ℝ)) t = tent w a t + tents w (l.map fun c : ℕ => (c : ℝ)) t := by
      intro t; simp [tents]
    rw [e, e, e, ← ih, ← tent_straight w a n h0 h1]
    ring

/-- Linear interpolation of an image of horizontal tents shows the tents. -/
theorem tents_cols (B : Boundary) (w : ℕ) (cs : List ℕ) (H W : ℕ) :
    ShowsCols (linearInterp B) ⟨H, W, fun i _ => tents w (cs.map fun c : ℕ => (c : ℝ)) i⟩
      fun y _ => tents w (cs.map fun c : ℕ => (c : ℝ)) y := by
  intro lo hi _ _ y x hf
  rw [linearInterp_eq B _ hf]
  obtain ⟨f1, f2, _, _⟩ := hf
  have hH : ((Mat.cols ⟨H, W, fun i _ => tents w (cs.map fun c : ℕ => (c : ℝ)) i⟩ lo hi : Mat ℝ).height) = H := rfl
  have hfl := Nat.floor_le f1
  have hlt := Nat.lt_floor_add_one y
  have e : y = ⌊y⌋₊ + (y - ⌊y⌋₊) := by ring
  show _ = tents w (cs.map fun c : ℕ => (c : ℝ)) y
  conv_rhs => rw [e]
  rw [← tents_straight w cs ⌊y⌋₊ (by linarith) (by linarith)]
  unfold bilinear
  simp only [Mat.cols]
  rw [hH] at f2
  by_cases hend : ⌊y⌋₊ + 1 ≤ H - 1
  · rw [min_eq_left hend]; ring
  · have hH1 : 1 ≤ H := by
      rcases Nat.eq_zero_or_pos H with h | h
      · subst h; push_cast at f2; linarith
      · exact h
    have h3 : ((H - 1 : ℕ) : ℝ) = (H : ℝ) - 1 := by rw [Nat.cast_sub hH1]; simp
    have h4 : H - 1 ≤ ⌊y⌋₊ := by omega
    have h5 : (H : ℝ) - 1 ≤ ⌊y⌋₊ := by rw [← h3]; exact_mod_cast h4
    have h6 : y - ⌊y⌋₊ = 0 := by linarith
    rw [h6]; ring

/-- Linear interpolation between the samples `lo`, `lo + 1`, … of tents, of which there are `n`, shows the tents. -/
theorem tents_interp (w : ℕ) (cs : List ℕ) (lo n : ℕ) {y : ℝ} (h0 : 0 ≤ y) (h1 : y ≤ (n : ℝ) - 1) :
    (1 - (y - ⌊y⌋₊)) * tents w (cs.map fun c : ℕ => (c : ℝ)) ((⌊y⌋₊ + lo : ℕ) : ℝ) +
      (y - ⌊y⌋₊) * tents w (cs.map fun c : ℕ => (c : ℝ)) ((min (⌊y⌋₊ + 1) (n - 1) + lo : ℕ) : ℝ) =
      tents w (cs.map fun c : ℕ => (c : ℝ)) (y + lo) := by
  have hfl := Nat.floor_le h0
  have hlt := Nat.lt_floor_add_one y
  have e : y + lo = ((⌊y⌋₊ + lo : ℕ) : ℝ) + (y - ⌊y⌋₊) := by push_cast; ring
  rw [e, ← tents_straight w cs (⌊y⌋₊ + lo) (by linarith) (by linarith)]
  by_cases hend : ⌊y⌋₊ + 1 ≤ n - 1
  · rw [min_eq_left hend, show ⌊y⌋₊ + 1 + lo = ⌊y⌋₊ + lo + 1 by ring]
  · have hn : 1 ≤ n := by
      rcases Nat.eq_zero_or_pos n with h | h
      · subst h; push_cast at h1; linarith
      · exact h
    have h3 : ((n - 1 : ℕ) : ℝ) = (n : ℝ) - 1 := by rw [Nat.cast_sub hn]; simp
    have h4 : n - 1 ≤ ⌊y⌋₊ := by omega
    have h5 : (n : ℝ) - 1 ≤ ⌊y⌋₊ := by rw [← h3]; exact_mod_cast h4
    have h6 : y - ⌊y⌋₊ = 0 := by linarith
    rw [h6]; ring

/-- An image of horizontal and of vertical tents, added. -/
noncomputable def tentGrid (w : ℕ) (rows cols : List ℕ) (H W : ℕ) : Mat ℝ :=
  ⟨H, W, fun i j => tents w (rows.map fun c : ℕ => (c : ℝ)) i + tents w (cols.map fun c : ℕ => (c : ℝ)) j⟩

theorem tentGrid_cols (B : Boundary) (w : ℕ) (rows cols : List ℕ) (H W : ℕ) :
    ShowsCols (linearInterp B) (tentGrid w rows cols H W)
      fun y x => tents w (rows.map fun c : ℕ => (c : ℝ)) y + tents w (cols.map fun c : ℕ => (c : ℝ)) x := by
  intro lo hi h1 h2 y x hf
  rw [linearInterp_eq B _ hf]
  obtain ⟨f1, f2, f3, f4⟩ := hf
  have hlo : sliceBound W (lo : ℤ) = lo := by
    simp only [tentGrid] at h2
    unfold sliceBound; split_ifs <;> omega
  have t1 := tents_interp w rows 0 H f1 f2
  have t2 := tents_interp w cols lo (Mat.cols (tentGrid w rows cols H W) lo hi).width f3 f4
  rw [show x - lo + lo = x by ring] at t2
  simp only [Nat.cast_zero, add_zero] at t1
  show _ = tents w (rows.map fun c : ℕ => (c : ℝ)) y + tents w (cols.map fun c : ℕ => (c : ℝ)) x
  rw [← t1, ← t2]
  unfold bilinear
  simp only [Mat.cols, tentGrid, hlo, add_zero]
  ring

theorem tentGrid_rows (B : Boundary) (w : ℕ) (rows cols : List ℕ) (H W : ℕ) :
    ShowsRows (linearInterp B) (tentGrid w rows cols H W)
      fun y x => tents w (rows.map fun c : ℕ => (c : ℝ)) y + tents w (cols.map fun c : ℕ => (c : ℝ)) x := by
  intro lo hi h1 h2 y x hf
  rw [linearInterp_eq B _ hf]
  obtain ⟨f1, f2, f3, f4⟩ := hf
  have hlo : sliceBound H (lo : ℤ) = lo := by
    simp only [tentGrid] at h2
    unfold sliceBound; split_ifs <;> omega
  have t1 := tents_interp w cols 0 W f3 f4
  have t2 := tents_interp w rows lo (Mat.rows (tentGrid w rows cols H W) lo hi).height f1 f2
  rw [show y - lo + lo = y by ring] at t2
  simp only [Nat.cast_zero, add_zero] at t1
  show _ = tents w (rows.map fun c : ℕ => (c : ℝ)) y + tents w (cols.map fun c : ℕ => (c : ℝ)) x
  rw [← t1, ← t2]
  unfold bilinear
  simp only [Mat.rows, tentGrid, hlo, add_zero]
  ring

end Discorpy
