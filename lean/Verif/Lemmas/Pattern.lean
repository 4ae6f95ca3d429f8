import Verif.Model.Pattern
import Verif.Spec.Pattern
import Verif.Lemmas.Except

/-! # Helper lemmas: integer ranges, painting of blocks -/

namespace Discorpy
open Spec

theorem lt_rangeLen {start stop step : ℤ} (hs : 0 < step) (k : ℕ) : k < rangeLen start stop step ↔ start + k * step < stop := by
  unfold rangeLen
  rw [if_pos hs, Int.lt_toNat, Int.lt_iff_add_one_le, Int.le_ediv_iff_mul_le hs]
  constructor <;> intro h <;> nlinarith

theorem sliceBound_toNat {len : ℕ} {a : ℤ} (ha : 0 ≤ a) {i : ℕ} (hi : i < len) : sliceBound len a ≤ i ↔ a ≤ i := by
  unfold sliceBound; rw [if_neg (by omega)]; omega

theorem lt_sliceBound {len : ℕ} {a : ℤ} (ha : 0 ≤ a) {i : ℕ} (hi : i < len) : i < sliceBound len a ↔ (i : ℤ) < a := by
  unfold sliceBound; rw [if_neg (by omega)]; omega

/-- Reading an in-frame pixel after `mat[a:b, c:d] = v`. -/
theorem setBlock_get {m : Mat ℝ} {a b c d : ℤ} {v : ℝ} (ha : 0 ≤ a) (hb : 0 ≤ b) (hc : 0 ≤ c) (hd : 0 ≤ d) {i j : ℕ}
    (hi : i < m.height) (hj : j < m.width) :
    (setBlock m a b c d v).get i j = if a ≤ i ∧ (i : ℤ) < b ∧ c ≤ j ∧ (j : ℤ) < d then v else m.get i j := by
  unfold setBlock
  simp only [sliceBound_toNat ha hi, lt_sliceBound hb hi, sliceBound_toNat hc hj, lt_sliceBound hd hj]

/-- Adjacent cells are disjoint. -/
theorem cell_unique {start step : ℤ} {a b : ℕ} {y : ℤ} (h1 : start + a * step ≤ y) (h2 : y < start + a * step + step)
    (h3 : start + b * step ≤ y) (h4 : y < start + b * step + step) : a = b := by
  have hs : 0 < step := by linarith
  by_contra hne
  rcases Nat.lt_or_gt_of_ne hne with h | h
  · have : ((a : ℤ) + 1) * step ≤ b * step := mul_le_mul_of_nonneg_right (by omega) hs.le
    nlinarith
  · have : ((b : ℤ) + 1) * step ≤ a * step := mul_le_mul_of_nonneg_right (by omega) hs.le
    nlinarith

/-- A left fold that counts its turns. -/
theorem foldl_count {α β : Type*} (f : β → ℕ → α → β) (g : ℕ → α) (n : ℕ) (b : β) :
    ((List.range n).map g).foldl (fun (s : β × ℕ) x => (f s.1 s.2 x, s.2 + 1)) (b, 0) =
      ((List.range n).foldl (fun s k => f s k (g k)) b, n) := by
  induction n with
  | zero => rfl
  | succ n ih => rw [List.range_succ, List.map_append, List.foldl_append, ih, List.foldl_append]; rfl

/-- What a row of cells looks like. -/
theorem chessRow_get {m : Mat ℝ} {i size start stop : ℤ} {v w : ℝ} (hi0 : 0 ≤ i) (hs : 0 < size) (hst : 0 ≤ start) :
    (chessRow m i size v w (rangeList start stop size)).height = m.height ∧
    (chessRow m i size v w (rangeList start stop size)).width = m.width ∧
    ∀ y x : ℕ, y < m.height → x < m.width →
      (∀ k : ℕ, i ≤ y → (y : ℤ) < i + size → InCell start stop size size k x →
        (chessRow m i size v w (rangeList start stop size)).get y x = if k % 2 = 0 then v else w) ∧
      (¬ (i ≤ y ∧ (y : ℤ) < i + size ∧ ∃ k, InCell start stop size size k x) →
        (chessRow m i size v w (rangeList start stop size)).get y x = m.get y x) := by
  unfold chessRow rangeList
  rw [foldl_count (fun m k j => setBlock m i (i + size) j (j + size) (if k % 2 = 0 then v else w))]
  simp only
  have key : ∀ n : ℕ, ∀ M, M = (List.range n).foldl (fun (s : Mat ℝ) (k : ℕ) => setBlock s i (i + size) (start + (k : ℤ) * size)
      (start + (k : ℤ) * size + size) (if k % 2 = 0 then v else w)) m →
      M.height = m.height ∧ M.width = m.width ∧ ∀ y x : ℕ, y < m.height → x < m.width →
      (∀ k : ℕ, k < n → i ≤ y → (y : ℤ) < i + size → start + (k : ℤ) * size ≤ x → (x : ℤ) < start + k * size + size →
        M.get y x = if k % 2 = 0 then v else w) ∧
      (¬ (i ≤ y ∧ (y : ℤ) < i + size ∧ ∃ k : ℕ, k < n ∧ start + (k : ℤ) * size ≤ x ∧ (x : ℤ) < start + k * size + size) →
        M.get y x = m.get y x) := by
    intro n
    induction n with
    | zero => rintro M rfl; exact ⟨rfl, rfl, fun y x _ _ => ⟨fun k hk => absurd hk (by omega), fun _ => rfl⟩⟩
    | succ n ih =>
      rintro M rfl
      rw [List.range_succ, List.foldl_append]
      simp only [List.foldl_cons, List.foldl_nil]
      obtain ⟨h1, h2, h3⟩ := ih _ rfl
      generalize (List.range n).foldl _ m = M at *
      have hp : 0 ≤ (n : ℤ) * size := by positivity
      refine ⟨h1, h2, fun y x hy hx => ?_⟩
      rw [setBlock_get hi0 (by omega) (by omega) (by omega) (h1 ▸ hy) (h2 ▸ hx)]
      obtain ⟨h4, h5⟩ := h3 y x hy hx
      constructor
      · intro k hk hy1 hy2 hx1 hx2
        by_cases hc : i ≤ (y : ℤ) ∧ (y : ℤ) < i + size ∧ start + (n : ℤ) * size ≤ x ∧ (x : ℤ) < start + (n : ℤ) * size + size
        · rw [if_pos hc, cell_unique hx1 hx2 hc.2.2.1 hc.2.2.2]
        · rw [if_neg hc]
          have hkn : k < n := by
            rcases Nat.lt_succ_iff_lt_or_eq.1 hk with h | h
            · exact h
            · subst h; exact absurd ⟨hy1, hy2, hx1, hx2⟩ hc
          exact h4 k hkn hy1 hy2 hx1 hx2
      · intro hc
        rw [if_neg fun h => hc ⟨h.1, h.2.1, n, by omega, h.2.2⟩]
        exact h5 fun ⟨a, b, k, hk, h⟩ => hc ⟨a, b, k, by omega, h⟩
  obtain ⟨h1, h2, h3⟩ := key (rangeLen start stop size) _ rfl
  refine ⟨h1, h2, fun y x hy hx => ?_⟩
  obtain ⟨h4, h5⟩ := h3 y x hy hx
  refine ⟨fun k a b c => h4 k ((lt_rangeLen hs k).2 c.lt_stop) a b c.le c.lt, fun hc => h5 ?_⟩
  rintro ⟨a, b, k, hk, hl, hr⟩
  exact hc ⟨a, b, k, (lt_rangeLen hs k).1 hk, hl, hr⟩

theorem mem_rangeList {start stop step : ℤ} (hs : 0 < step) {i : ℤ} :
    i ∈ rangeList start stop step ↔ ∃ k : ℕ, start + k * step < stop ∧ start + k * step = i := by
  unfold rangeList
  simp only [List.mem_map, List.mem_range, lt_rangeLen hs]

theorem rangeList_eq_nil {start stop step : ℤ} (hs : 0 < step) : rangeList start stop step = [] ↔ stop ≤ start := by
  rw [List.eq_nil_iff_forall_not_mem]
  simp only [mem_rangeList hs]
  constructor
  · intro h
    by_contra hc
    exact h start ⟨0, by simpa using hc, by simp⟩
  · rintro h i ⟨k, hk, rfl⟩
    have : 0 ≤ (k : ℤ) * step := by positivity
    omega

/-- The first and the last element of a non-empty range. -/
theorem firstLast_rangeList {start stop step : ℤ} (hs : 0 < step) (h : start < stop) :
    ∃ n : ℕ, start + n * step < stop ∧ (∀ k : ℕ, start + k * step < stop → k ≤ n) ∧
      firstLast (rangeList start stop step) = .ok (start, start + n * step) := by
  have hpos : 0 < rangeLen start stop step := (lt_rangeLen hs 0).2 (by simpa using h)
  obtain ⟨n, hn⟩ : ∃ n, rangeLen start stop step = n + 1 := ⟨rangeLen start stop step - 1, by omega⟩
  refine ⟨n, (lt_rangeLen hs n).1 (by omega), fun k hk => ?_, ?_⟩
  · have := (lt_rangeLen (stop := stop) hs k).2 hk
    omega
  · have h1 : (rangeList start stop step).head? = some start := by
      unfold rangeList; rw [hn, List.range_succ_eq_map]; simp
    have h2 : (rangeList start stop step).getLast? = some (start + n * step) := by
      unfold rangeList; rw [hn, List.range_succ]; simp
    unfold firstLast
    rw [h1, h2]

theorem firstLast_nil : firstLast [] = .error .indexError := rfl

/-- Painting horizontal or vertical strips one after the other. -/
theorem paint_foldl (f : ℤ → ℤ × ℤ × ℤ × ℤ) (v : ℝ) (is : List ℤ)
    (h0 : ∀ i ∈ is, 0 ≤ (f i).1 ∧ 0 ≤ (f i).2.1 ∧ 0 ≤ (f i).2.2.1 ∧ 0 ≤ (f i).2.2.2) (m : Mat ℝ) :
    let M := is.foldl (fun m i => setBlock m (f i).1 (f i).2.1 (f i).2.2.1 (f i).2.2.2 v) m
    M.height = m.height ∧ M.width = m.width ∧ ∀ y x : ℕ, y < m.height → x < m.width →
      ((∃ i ∈ is, (f i).1 ≤ y ∧ (y : ℤ) < (f i).2.1 ∧ (f i).2.2.1 ≤ x ∧ (x : ℤ) < (f i).2.2.2) → M.get y x = v) ∧
      ((¬ ∃ i ∈ is, (f i).1 ≤ y ∧ (y : ℤ) < (f i).2.1 ∧ (f i).2.2.1 ≤ x ∧ (x : ℤ) < (f i).2.2.2) → M.get y x = m.get y x) := by
  induction is generalizing m with
  | nil => exact ⟨rfl, rfl, fun y x _ _ => ⟨fun ⟨_, h, _⟩ => absurd h List.not_mem_nil, fun _ => rfl⟩⟩
  | cons a is ih =>
    intro M
    obtain ⟨h1, h2, h3⟩ := ih (fun i hi => h0 i (List.mem_cons_of_mem _ hi)) (setBlock m (f a).1 (f a).2.1 (f a).2.2.1 (f a).2.2.2 v)
    refine ⟨h1, h2, fun y x hy hx => ?_⟩
    obtain ⟨h4, h5⟩ := h3 y x hy hx
    obtain ⟨a1, a2, a3, a4⟩ := h0 a List.mem_cons_self
    have hg := setBlock_get (m := m) (v := v) a1 a2 a3 a4 hy hx
    by_cases hc : ∃ i ∈ is, (f i).1 ≤ y ∧ (y : ℤ) < (f i).2.1 ∧ (f i).2.2.1 ≤ x ∧ (x : ℤ) < (f i).2.2.2
    · refine ⟨fun _ => h4 hc, fun hn => ?_⟩
      obtain ⟨i, hi, h⟩ := hc
      exact absurd ⟨i, List.mem_cons_of_mem _ hi, h⟩ hn
    · have h6 := h5 hc
      rw [hg] at h6
      constructor
      · rintro ⟨i, hi, h⟩
        rcases List.mem_cons.1 hi with rfl | hi
        · rw [if_pos h] at h6; exact h6
        · exact absurd ⟨i, hi, h⟩ hc
      · intro hn
        rw [if_neg fun h => hn ⟨a, List.mem_cons_self, h⟩] at h6
        exact h6

/-- A loop whose turns cannot fail. -/
theorem foldlM_ok {α β : Type*} (f : β → α → Except PyErr β) (g : β → α → β) (h : ∀ b a, f b a = .ok (g b a)) (l : List α) (b : β) :
    l.foldlM f b = .ok (l.foldl g b) := by
  induction l generalizing b with
  | nil => rfl
  | cons a l ih => rw [List.foldlM_cons, h]; exact ih _

end Discorpy
