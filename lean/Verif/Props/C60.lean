import Verif.Lemmas.HdfKey

/-! # C60 — HDF slicing -/

namespace Discorpy

open Spec

/-- **C60 (integer index).** The slice along the (clamped) axis, provided the first or second axis of the slice that is checked afterwards
is longer than 1. -/
theorem C60_int (h5List : ℕ → List ℤ → Except PyErr (List ℕ)) (f32 : ℝ → ℝ) (arr : NdArr ℝ) (axis i : ℤ) (len m n k : ℕ)
    (hshape : arr.shape = at3 (clampAxis axis) len m n) (hi : IndexMeans len i k) (hthick : 2 ≤ if clampAxis axis = 0 then m else n) :
    ∃ res, hdfSlice h5List f32 arr (.int i) axis = .ok res ∧ IsSlice f32 arr (clampAxis axis) m n k res := by
  unfold hdfSlice
  simp only [clampAxis_eq]
  rcases clampAxis_cases axis with h | h | h <;> rw [h] at hshape hthick ⊢ <;> simp only [at3] at hshape <;>
    simp only [hshape, List.length_cons, List.length_nil, npGet, List.getElem?_cons_zero, List.getElem?_cons_succ, ok_bind,
      h5IntIndex_means hi] <;> simp only [if_true, one_ne_zero, OfNat.ofNat_ne_zero, if_false] at hthick
  · refine ⟨⟨[m, n], fun idx => f32 (arr.get (idx.insertIdx 0 k))⟩, ?_, by rw [hshape]; rfl, rfl, fun p _ q _ => rfl⟩
    simp [hdfFinish, takeIndex, hshape, npGet, ok_bind, show m ≠ 1 by omega, show m ≠ 0 by omega]
  · refine ⟨⟨[m, n], fun idx => f32 (arr.get (idx.insertIdx 1 k))⟩, ?_, by rw [hshape]; rfl, rfl, fun p _ q _ => rfl⟩
    simp [hdfFinish, takeIndex, hshape, npGet, ok_bind, show n ≠ 1 by omega, show n ≠ 0 by omega]
  · refine ⟨⟨[m, n], fun idx => f32 (arr.get (idx.insertIdx 2 k))⟩, ?_, by rw [hshape]; rfl, rfl, fun p _ q _ => rfl⟩
    simp [hdfFinish, takeIndex, hshape, npGet, ok_bind, show n ≠ 1 by omega, show n ≠ 0 by omega]

/-- **C60 (thin slices).** If that axis of the slice has length 1, a slice along axis 0 is returned as a 1D array, and slicing along axis 1
or 2 raises `IndexError`; with length 0 the exception is `ValueError`. -/
theorem C60_thin (h5List : ℕ → List ℤ → Except PyErr (List ℕ)) (f32 : ℝ → ℝ) (arr : NdArr ℝ) (axis i : ℤ) (len m n k : ℕ)
    (hshape : arr.shape = at3 (clampAxis axis) len m n) (hi : IndexMeans len i k) :
    (clampAxis axis = 0 → m = 1 → 0 < n → ∃ res, hdfSlice h5List f32 arr (.int i) axis = .ok res ∧ res.shape = [n] ∧
      ∀ q < n, res.get [q] = f32 (arr.get [k, 0, q])) ∧
    (clampAxis axis ≠ 0 → n = 1 → hdfSlice h5List f32 arr (.int i) axis = .error .indexError) ∧
    ((if clampAxis axis = 0 then m else n) = 0 → hdfSlice h5List f32 arr (.int i) axis = .error .valueError) := by
  unfold hdfSlice
  simp only [clampAxis_eq]
  rcases clampAxis_cases axis with h | h | h <;> rw [h] at hshape ⊢ <;> simp only [at3] at hshape <;>
    simp only [hshape, List.length_cons, List.length_nil, npGet, List.getElem?_cons_zero, List.getElem?_cons_succ, ok_bind,
      h5IntIndex_means hi]
  · refine ⟨fun _ hm hn => ⟨⟨[n], fun idx => f32 (arr.get ((swapFirst 0 (0 :: idx)).insertIdx 0 k))⟩, ?_, rfl, fun q _ => rfl⟩,
      fun h => absurd rfl h, fun hm => ?_⟩
    · simp [hdfFinish, takeIndex, squeezeAxis, swapFirst, hshape, npGet, ok_bind, hm, show n ≠ 0 by omega]
    · simp only [if_true] at hm
      simp [hdfFinish, takeIndex, hshape, npGet, ok_bind, hm]
  · refine ⟨fun h => absurd h (by simp), fun _ hn => ?_, fun hn => ?_⟩
    · simp [hdfFinish, takeIndex, squeezeAxis, swapFirst, hshape, npGet, ok_bind, hn]
    · simp only [one_ne_zero, if_false] at hn
      simp [hdfFinish, takeIndex, hshape, npGet, ok_bind, hn]
  · refine ⟨fun h => absurd h (by simp), fun _ hn => ?_, fun hn => ?_⟩
    · simp [hdfFinish, takeIndex, squeezeAxis, swapFirst, hshape, npGet, ok_bind, hn]
    · simp only [OfNat.ofNat_ne_zero, if_false] at hn
      simp [hdfFinish, takeIndex, hshape, npGet, ok_bind, hn]

/-- **C60 (index list).** Two or more positions: the slices stacked along the axis. -/
theorem C60_list {h5List : ℕ → List ℤ → Except PyErr (List ℕ)} (hh : H5ListSpec h5List) (f32 : ℝ → ℝ) (arr : NdArr ℝ) (axis : ℤ)
    (l : List ℤ) (ks : List ℕ) (len m n : ℕ) (hshape : arr.shape = at3 (clampAxis axis) len m n) (hl : IndicesMean l ks)
    (hinc : ks.Pairwise (· < ·)) (hin : ∀ k ∈ ks, k < len) (htwo : 2 ≤ ks.length) :
    ∃ res, hdfSlice h5List f32 arr (.list l) axis = .ok res ∧ IsStack f32 arr (clampAxis axis) m n ks res := by
  unfold hdfSlice
  simp only [clampAxis_eq]
  rcases clampAxis_cases axis with h | h | h <;> rw [h] at hshape ⊢ <;> simp only [at3] at hshape <;>
    simp only [hshape, List.length_cons, List.length_nil, npGet, List.getElem?_cons_zero, List.getElem?_cons_succ, ok_bind,
      hdfIndexList_means hl, hh len ks hinc hin]
  · refine ⟨⟨[ks.length, m, n], fun idx => f32 (arr.get (idx.modify 0 fun k => ks.getD k 0))⟩, ?_, rfl, fun j hj p _ q _ => ?_⟩
    · simp [hdfFinish, takeList, hshape, npGet, ok_bind, show ks.length ≠ 1 by omega, show ks ≠ [] by rintro rfl; simp at htwo]
    · simp [at3, List.getD_eq_getElem?_getD, hj]
  · refine ⟨⟨[m, ks.length, n], fun idx => f32 (arr.get (idx.modify 1 fun k => ks.getD k 0))⟩, ?_, rfl, fun j hj p _ q _ => ?_⟩
    · simp [hdfFinish, takeList, hshape, npGet, ok_bind, show ks.length ≠ 1 by omega, show ks ≠ [] by rintro rfl; simp at htwo]
    · simp [at3, List.getD_eq_getElem?_getD, hj]
  · refine ⟨⟨[m, n, ks.length], fun idx => f32 (arr.get (idx.modify 2 fun k => ks.getD k 0))⟩, ?_, rfl, fun j hj p _ q _ => ?_⟩
    · simp [hdfFinish, takeList, hshape, npGet, ok_bind, show ks.length ≠ 1 by omega, show ks ≠ [] by rintro rfl; simp at htwo]
    · simp [at3, List.getD_eq_getElem?_getD, hj]

/-- **C60 (one position).** A list with one position gives the 2D slice along axis 0 and 1, but raises `IndexError` along axis 2. -/
theorem C60_single {h5List : ℕ → List ℤ → Except PyErr (List ℕ)} (hh : H5ListSpec h5List) (f32 : ℝ → ℝ) (arr : NdArr ℝ) (axis : ℤ)
    (l : List ℤ) (k len m n : ℕ) (hshape : arr.shape = at3 (clampAxis axis) len m n) (hl : IndicesMean l [k]) (hk : k < len) :
    (clampAxis axis ≠ 2 → 0 < (if clampAxis axis = 0 then m else n) →
      ∃ res, hdfSlice h5List f32 arr (.list l) axis = .ok res ∧ IsSlice f32 arr (clampAxis axis) m n k res) ∧
    (clampAxis axis = 2 → hdfSlice h5List f32 arr (.list l) axis = .error .indexError) := by
  have hs := hh len [k] (by simp) (by simpa using hk)
  unfold hdfSlice
  simp only [clampAxis_eq]
  rcases clampAxis_cases axis with h | h | h <;> rw [h] at hshape ⊢ <;> simp only [at3] at hshape <;>
    simp only [hshape, List.length_cons, List.length_nil, npGet, List.getElem?_cons_zero, List.getElem?_cons_succ, ok_bind,
      hdfIndexList_means hl, hs]
  · refine ⟨fun _ hm => ⟨⟨[m, n], fun idx => f32 (arr.get ((swapFirst 0 (0 :: idx)).modify 0 fun j => [k].getD j 0))⟩, ?_,
      by rw [hshape]; rfl, rfl, fun p _ q _ => rfl⟩, fun h => absurd h (by simp)⟩
    simp only [if_true] at hm
    simp [hdfFinish, takeList, squeezeAxis, swapFirst, hshape, npGet, ok_bind, show m ≠ 0 by omega]
  · refine ⟨fun _ hm => ⟨⟨[m, n], fun idx => f32 (arr.get ((swapFirst 1 (0 :: idx)).modify 1 fun j => [k].getD j 0))⟩, ?_,
      by rw [hshape]; rfl, rfl, fun p _ q _ => rfl⟩, fun h => absurd h (by simp)⟩
    simp only [one_ne_zero, if_false] at hm
    simp [hdfFinish, takeList, squeezeAxis, swapFirst, hshape, npGet, ok_bind, show n ≠ 0 by omega]
  · refine ⟨fun h => absurd rfl h, fun _ => ?_⟩
    simp [hdfFinish, takeList, squeezeAxis, swapFirst, hshape, npGet, ok_bind]

/-- **C60 (no position).** An empty selection raises `ValueError`. -/
theorem C60_empty {h5List : ℕ → List ℤ → Except PyErr (List ℕ)} (hh : H5ListSpec h5List) (f32 : ℝ → ℝ) (arr : NdArr ℝ) (axis : ℤ)
    (l : List ℤ) (len m n : ℕ) (hshape : arr.shape = at3 (clampAxis axis) len m n) (hl : IndicesMean l []) :
    hdfSlice h5List f32 arr (.list l) axis = .error .valueError := by
  have hs := hh len [] (by simp) (by simp)
  unfold hdfSlice
  simp only [clampAxis_eq]
  rcases clampAxis_cases axis with h | h | h <;> rw [h] at hshape ⊢ <;> simp only [at3] at hshape <;>
    simp only [hshape, List.length_cons, List.length_nil, npGet, List.getElem?_cons_zero, List.getElem?_cons_succ, ok_bind,
      hdfIndexList_means hl, hs] <;> simp [hdfFinish, takeList, hshape, npGet, ok_bind]

/-- **C60 (whole).** A 2D dataset is returned as it is for any index, a 3D dataset without an index completely. -/
theorem C60_whole (h5List : ℕ → List ℤ → Except PyErr (List ℕ)) (f32 : ℝ → ℝ) (arr : NdArr ℝ) (index : HdfIndex) (axis : ℤ) :
    (arr.shape.length = 2 → hdfSlice h5List f32 arr index axis = .ok arr) ∧
    (arr.shape.length = 3 → ∃ res, hdfSlice h5List f32 arr .none axis = .ok res ∧ res.shape = arr.shape ∧ ∀ idx, res.get idx = f32 (arr.get idx)) := by
  unfold hdfSlice
  refine ⟨fun h => ?_, fun h => ⟨⟨arr.shape, fun idx => f32 (arr.get idx)⟩, ?_, rfl, fun _ => rfl⟩⟩
  · rw [if_neg (by omega), if_pos h]
  · rw [if_neg (by omega), if_neg (by omega)]

/-- **C60 (exceptions).** `ValueError` for a dataset that is not 2D or 3D, for an empty key and for a key that leads nowhere; `KeyError`
for a key that leads to a dangling link; `AttributeError` for a key that leads to a group, and for an index of a 3D dataset that is not an
int, tuple or list; `IndexError` for an integer index outside the axis; `ValueError` for a range with step 0. -/
theorem C60_errors (h5List : ℕ → List ℤ → Except PyErr (List ℕ)) (f32 : ℝ → ℝ) (arr : NdArr ℝ) (index : HdfIndex) (axis : ℤ) :
    (arr.shape.length ≠ 2 ∧ arr.shape.length ≠ 3 → hdfSlice h5List f32 arr index axis = .error .valueError) ∧
    (arr.shape.length = 3 → hdfSlice h5List f32 arr .other axis = .error .attributeError) ∧
    (∀ len m n i, arr.shape = at3 (clampAxis axis) len m n → (¬ ∃ k, IndexMeans len i k) →
      hdfSlice h5List f32 arr (.int i) axis = .error .indexError) ∧
    (arr.shape.length = 3 → ∀ start stop, hdfSlice h5List f32 arr (.list [start, stop, 0]) axis = .error .valueError) ∧
    (∀ f : H5File, loadHdfFile h5List f32 f (some []) index axis = .error .valueError) ∧
    ∀ (f : H5File) (key : PyStr) (cs : List PyStr), WellFormedH5 (.group f) → (∀ c ∈ cs, GoodName c) → KeyTo key cs → key ≠ [] →
      ((¬ ∃ x, NodeAt (.group f) cs x) → loadHdfFile h5List f32 f (some key) index axis = .error .valueError) ∧
      (NodeAt (.group f) cs .dangling → loadHdfFile h5List f32 f (some key) index axis = .error .keyError) ∧
      (∀ ch, NodeAt (.group f) cs (.group ch) → loadHdfFile h5List f32 f (some key) index axis = .error .attributeError) ∧
      ∀ t, NodeAt (.group f) cs (.dataset arr t) →
        loadHdfFile h5List f32 f (some key) index axis = hdfSlice h5List f32 arr index axis := by
  refine ⟨fun h => ?_, fun h => ?_, fun len m n i hshape h => ?_, fun h start stop => ?_, fun f => ?_, fun f key cs hwf hg hk h0 => ?_⟩
  · unfold hdfSlice; rw [if_pos (by omega)]
  · unfold hdfSlice; rw [if_neg (by omega), if_neg (by omega)]
  · have hidx : h5IntIndex len i = .error .indexError := by
      unfold h5IntIndex
      rw [if_neg fun hc => h ⟨i.toNat, by omega, by left; omega⟩, if_neg fun hc => h ⟨(i + len).toNat, by omega, by right; omega⟩]
    unfold hdfSlice
    simp only [clampAxis_eq]
    rcases clampAxis_cases axis with h | h | h <;> rw [h] at hshape ⊢ <;> simp only [at3] at hshape <;>
      simp [hshape, npGet, ok_bind, hidx, error_bind]
  · unfold hdfSlice; rw [if_neg (by omega), if_neg (by omega)]; rfl
  · simp [loadHdfFile, h5Contains]
  · have hc := h5Contains_keyTo hwf hg hk h0
    have hget := h5Get_iff hwf hg hk
    refine ⟨fun h => ?_, fun h => ?_, fun ch h => ?_, fun t h => ?_⟩
    · have : h5Contains f key = false := by rw [← Bool.not_eq_true, hc]; exact h
      simp [loadHdfFile, this]
    · have h1 : h5Get f key = none := by
        cases hx : h5Get f key with
        | none => rfl
        | some x =>
          obtain ⟨h1, h2⟩ := (hget x).1 hx
          rw [nodeAt_unique hwf h1 h] at h2
          exact h2.elim
      simp [loadHdfFile, hc.2 ⟨_, h⟩, h1]
    · simp [loadHdfFile, hc.2 ⟨_, h⟩, (hget _).2 ⟨h, trivial⟩]
    · simp [loadHdfFile, hc.2 ⟨_, h⟩, (hget _).2 ⟨h, trivial⟩]

/-- A list of three numbers is a range, not three positions. -/
example : IndicesMean [1, 4, 7] [1] ∧ IndicesMean [0, 4, 2] [0, 2] ∧ IndicesMean [2, 5] [2, 3, 4] ∧ IndicesMean [0, 3, 4, 8] [0, 3, 4, 8] := by
  refine ⟨⟨by norm_num, by simp, fun x => ?_⟩, ⟨by norm_num, by simp, fun x => ?_⟩, ⟨by simp, fun x => ?_⟩, rfl⟩
  · simp; omega
  · simp; omega
  · simp; omega

/-- The hypotheses are met: h5py checks the order and the range of indices. -/
example : ∃ h5List, H5ListSpec h5List ∧ ∃ arr : NdArr ℝ, arr.shape = at3 (clampAxis (-1)) 4 5 6 ∧ IndexMeans 4 (-1) 3 ∧
    ∃ res, hdfSlice h5List id arr (.int (-1)) (-1) = .ok res ∧ res.shape = [5, 6] := by
  refine ⟨fun n l => if (l.Pairwise (· < ·)) ∧ ∀ k ∈ l, 0 ≤ k ∧ k < n then .ok (l.map Int.toNat) else .error .typeError, ?_,
    ⟨[4, 5, 6], fun _ => 0⟩, rfl, ⟨by norm_num, by right; norm_num⟩, ?_⟩
  · intro n l h1 h2
    beta_reduce
    rw [if_pos]
    · rw [List.map_map]
      congr 1
      exact List.map_id'' (fun _ => rfl) l
    · refine ⟨?_, ?_⟩
      · rw [List.pairwise_map]
        exact h1.imp fun h => by simpa using h
      · intro k hk
        obtain ⟨j, hj, rfl⟩ := List.mem_map.1 hk
        have := h2 j hj
        simp; omega
  · obtain ⟨res, h1, h2⟩ := C60_int (fun n l => if (l.Pairwise (· < ·)) ∧ ∀ k ∈ l, 0 ≤ k ∧ k < n then .ok (l.map Int.toNat) else .error .typeError)
      id ⟨[4, 5, 6], fun _ => 0⟩ (-1) (-1) 4 5 6 3 rfl ⟨by norm_num, by right; norm_num⟩ (by simp [clampAxis])
    exact ⟨res, h1, h2.2.1⟩

/-- h5py checks the order and the range of indices. -/
def orderedIndices (n : ℕ) (l : List ℤ) : Except PyErr (List ℕ) :=
  if (l.Pairwise (· < ·)) ∧ ∀ k ∈ l, 0 ≤ k ∧ k < n then .ok (l.map Int.toNat) else .error .typeError

theorem orderedIndices_spec : H5ListSpec orderedIndices := by
  intro n l h1 h2
  unfold orderedIndices
  rw [if_pos]
  · rw [List.map_map]
    congr 1
    exact List.map_id'' (fun _ => rfl) l
  · refine ⟨?_, ?_⟩
    · rw [List.pairwise_map]
      exact h1.imp fun h => by simpa using h
    · intro k hk
      obtain ⟨j, hj, rfl⟩ := List.mem_map.1 hk
      have := h2 j hj
      simp; omega

example := C60_thin orderedIndices id ⟨[4, 1, 6], fun l => l.sum⟩ 0 (-1) 4 1 6 3 rfl ⟨by norm_num, by right; norm_num⟩

example := C60_list orderedIndices_spec id ⟨[4, 5, 6], fun l => l.sum⟩ 0 [1, 3] [1, 2] 4 5 6 rfl ⟨by simp, fun x => by simp; omega⟩ (by simp) (by simp) (by simp)

example := C60_single orderedIndices_spec id ⟨[4, 5, 6], fun l => l.sum⟩ 0 [2] 2 4 5 6 rfl rfl (by norm_num)

example := C60_empty orderedIndices_spec id ⟨[4, 5, 6], fun l => l.sum⟩ 0 [2, 2] 4 5 6 rfl ⟨by simp, fun x => by simp; omega⟩
example := C60_whole orderedIndices id ⟨[4, 5, 6], fun l => l.sum⟩ .none 0
/-- Index 4 of 4 pictures, a step of 0, and an array with one dimension. -/
example : hdfSlice orderedIndices id ⟨[4, 5, 6], fun l => l.sum⟩ (.int 4) 0 = .error .indexError ∧
    hdfSlice orderedIndices id ⟨[4, 5, 6], fun l => l.sum⟩ (.list [0, 4, 0]) 0 = .error .valueError ∧
    hdfSlice orderedIndices id ⟨[4], fun l => l.sum⟩ .none 0 = .error .valueError := by
  obtain ⟨-, -, h1, h2, -⟩ := C60_errors orderedIndices id ⟨[4, 5, 6], fun l => l.sum⟩ .none 0
  refine ⟨h1 4 5 6 4 rfl ?_, h2 rfl 0 4, (C60_errors orderedIndices id ⟨[4], fun l => l.sum⟩ .none 0).1 ⟨by simp, by simp⟩⟩
  rintro ⟨k, h3, h4⟩
  omega

end Discorpy
