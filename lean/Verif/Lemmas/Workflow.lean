import Verif.Lemmas.DrawnGrid
import Verif.Model.Example
import Verif.Props.C04
import Verif.Props.C07
import Verif.Props.C12
import Verif.Props.C22
import Verif.Props.C25
import Verif.Props.C32

/-! # The calibration script on a regular grid of dots -/

namespace Discorpy

open Spec

variable {y0 x0 d : ℝ} {K L : ℕ}

theorem latticeRows_mem {l : List Pt} (h : l ∈ latticeRows y0 x0 d K L) :
    ∃ k < K, l = (List.range L).map fun l : ℕ => (⟨y0 + k * d, x0 + l * d⟩ : Pt) := by
  obtain ⟨k, hk, rfl⟩ := List.mem_map.1 h
  exact ⟨k, List.mem_range.1 hk, rfl⟩

theorem latticeCols_mem {l : List Pt} (h : l ∈ latticeCols y0 x0 d K L) :
    ∃ i < L, l = (List.range K).map fun k : ℕ => (⟨y0 + k * d, x0 + i * d⟩ : Pt) := by
  obtain ⟨k, hk, rfl⟩ := List.mem_map.1 h
  exact ⟨k, List.mem_range.1 hk, rfl⟩

theorem latticeRows_ne (hL : 1 ≤ L) {l : List Pt} (h : l ∈ latticeRows y0 x0 d K L) : l ≠ [] := by
  obtain ⟨k, _, rfl⟩ := latticeRows_mem h
  rw [← List.length_pos_iff]
  simp
  omega

theorem latticeCols_ne (hK : 1 ≤ K) {l : List Pt} (h : l ∈ latticeCols y0 x0 d K L) : l ≠ [] := by
  obtain ⟨k, _, rfl⟩ := latticeCols_mem h
  rw [← List.length_pos_iff]
  simp
  omega

/-- The coarse centre of an undistorted grid is halfway between the first two rows and the first two columns. -/
theorem cod_lattice {pf : PolyfitFn} (hpf : PolyfitSpec pf) (hd : 0 < d) (hK : 3 ≤ K) (hL : 3 ≤ L) :
    findCodCoarse pf (latticeRows y0 x0 d K L) (latticeCols y0 x0 d K L) = .ok ⟨y0 + d / 2, x0 + d / 2⟩ := by
  obtain ⟨ch, eh, fh⟩ := paraFitHor_ok hpf (lines := latticeRows y0 x0 d K L) (fun l hl => latticeRows_ne (by omega) hl) 0 0
  obtain ⟨cv, ev, fv⟩ := paraFitVer_ok hpf (lines := latticeCols y0 x0 d K L) (fun l hl => latticeCols_ne (by omega) hl) 0 0
  have lh : ch.length = K := by rw [← fh.length_eq]; simp [latticeRows]
  have lv : cv.length = L := by rw [← fv.length_eq]; simp [latticeCols]
  have three : ∀ (f : ℕ → ℝ) (n : ℕ), (∀ i, f i = f 0 + i * d) → f 0 ≠ f 1 ∧ f 0 ≠ f 2 ∧ f 1 ≠ f 2 := by
    intro f _ hf
    rw [hf 1, hf 2]
    refine ⟨fun h => ?_, fun h => ?_, fun h => ?_⟩ <;> push_cast at h <;> nlinarith
  have vh : ∀ k (hk : k < ch.length), ch[k].a = 0 ∧ ch[k].b = 0 ∧ ch[k].c = y0 + k * d := by
    intro k hk
    have hk' : k < (latticeRows y0 x0 d K L).length := by rw [fh.length_eq]; exact hk
    have hlsq := (List.forall₂_iff_get.1 fh).2 k hk' hk
    simp only [List.get_eq_getElem] at hlsq
    have e : (latticeRows y0 x0 d K L)[k] = (List.range L).map fun l : ℕ => (⟨y0 + k * d, x0 + l * d⟩ : Pt) := by simp [latticeRows]
    rw [e] at hlsq
    refine lsqPara_exact hlsq (fun p hp => ?_) ?_
    · obtain ⟨l, _, rfl⟩ := List.mem_map.1 hp
      simp
    · have := three (fun i => x0 + i * d) L (by intro i; simp)
      exact ⟨_, List.mem_map.2 ⟨0, List.mem_range.2 (by omega), rfl⟩, _, List.mem_map.2 ⟨1, List.mem_range.2 (by omega), rfl⟩,
        _, List.mem_map.2 ⟨2, List.mem_range.2 (by omega), rfl⟩, this⟩
  have vv : ∀ k (hk : k < cv.length), cv[k].a = 0 ∧ cv[k].b = 0 ∧ cv[k].c = x0 + k * d := by
    intro k hk
    have hk' : k < (latticeCols y0 x0 d K L).length := by rw [fv.length_eq]; exact hk
    have hlsq := (List.forall₂_iff_get.1 fv).2 k hk' hk
    simp only [List.get_eq_getElem] at hlsq
    have e : (latticeCols y0 x0 d K L)[k] = (List.range K).map fun l : ℕ => (⟨y0 + l * d, x0 + k * d⟩ : Pt) := by simp [latticeCols]
    rw [e] at hlsq
    refine lsqPara_exact hlsq (fun p hp => ?_) ?_
    · obtain ⟨l, _, rfl⟩ := List.mem_map.1 hp
      simp
    · have := three (fun i => y0 + i * d) L (by intro i; simp)
      exact ⟨_, List.mem_map.2 ⟨0, List.mem_range.2 (by omega), rfl⟩, _, List.mem_map.2 ⟨1, List.mem_range.2 (by omega), rfl⟩,
        _, List.mem_map.2 ⟨2, List.mem_range.2 (by omega), rfl⟩, this⟩
  have first : ∀ (c : List Para), 2 ≤ c.length → (∀ k (hk : k < c.length), c[k].a = 0) → signChange c = .ok (0 + 1) := by
    intro c hc h0
    obtain ⟨k, e, hk, q, q', hq, hq', _, hlt⟩ := signChange_ok hc
    obtain ⟨_, rfl⟩ := List.getElem?_eq_some_iff.1 hq
    obtain ⟨_, rfl⟩ := List.getElem?_eq_some_iff.1 hq'
    rcases Nat.eq_zero_or_pos k with rfl | hk0
    · exact e
    · have := hlt 0 _ _ hk0 (List.getElem?_eq_getElem (by omega)) (List.getElem?_eq_getElem (by omega))
      rw [h0, h0, h0, h0] at this
      exact absurd this (lt_irrefl _)
  have e := findCodCoarse_eq eh ev (first ch (by omega) fun k hk => (vh k hk).1) (first cv (by omega) fun k hk => (vv k hk).1)
    (List.getElem?_eq_getElem (by omega)) (List.getElem?_eq_getElem (by omega)) (List.getElem?_eq_getElem (by omega))
    (List.getElem?_eq_getElem (by omega))
  rw [e]
  obtain ⟨_, h1, h2⟩ := vh 0 (by omega)
  obtain ⟨_, h3, h4⟩ := vh (0 + 1) (by omega)
  obtain ⟨_, h5, h6⟩ := vv 0 (by omega)
  obtain ⟨_, h7, h8⟩ := vv (0 + 1) (by omega)
  rw [h1, h2, h3, h4, h5, h6, h7, h8, if_neg (by norm_num)]
  congr 2 <;> push_cast <;> ring

/-- Straight lines are not distorted. -/
theorem lattice_not_distorted (lib : Libs) (hpf : PolyfitSpec lib.polyfit) (has : ArgsortSpec lib.argsort) (hK : 1 ≤ K) (hL : 1 ≤ L) (xc yc : ℝ) :
    linesDistorted lib (latticeRows y0 x0 d K L) (latticeCols y0 x0 d K L) xc yc = .ok false := by
  have nh : latticeRows y0 x0 d K L ≠ [] := by rw [← List.length_pos_iff]; simp [latticeRows]; omega
  have nv : latticeCols y0 x0 d K L ≠ [] := by rw [← List.length_pos_iff]; simp [latticeCols]; omega
  obtain ⟨hd, eh, th, lh, _⟩ := C12_residual_hor lib.polyfit hpf lib.argsort has _ xc yc nh fun l hl => latticeRows_ne hL hl
  obtain ⟨vd, ev, tv, lv, _⟩ := C12_residual_ver lib.polyfit hpf lib.argsort has _ xc yc nv fun l hl => latticeCols_ne hK hl
  have zh := C12_straight_line_zero _ _ _ th (by
    intro l hl
    obtain ⟨k, _, rfl⟩ := latticeRows_mem hl
    refine ⟨0, y0 + k * d, fun p hp => ?_⟩
    obtain ⟨i, _, rfl⟩ := List.mem_map.1 hp
    simp [onHorLine])
  have zv := C12_straight_line_zero_ver _ _ _ tv (by
    intro l hl
    obtain ⟨k, _, rfl⟩ := latticeCols_mem hl
    refine ⟨0, x0 + k * d, fun p hp => ?_⟩
    obtain ⟨i, _, rfl⟩ := List.mem_map.1 hp
    simp [onVerLine])
  have hcheck : ∀ data : List (ℝ × ℝ), data ≠ [] → (∀ r ∈ data, r.2 = 0) → checkDistortion data = .ok false := by
    intro data hne h0
    obtain ⟨b, e, hb⟩ := C14_check_iff data hne
    have hf : (data.filter fun r => decide (1 < r.2)) = [] := by
      rw [List.filter_eq_nil_iff]
      intro r hr
      rw [h0 r hr]
      norm_num
    rw [hf] at hb
    rw [e]
    congr 1
    rw [Bool.eq_false_iff]
    intro h
    have := hb.1 h
    simp only [List.length_nil, Nat.cast_zero] at this
    have : (0 : ℝ) ≤ data.length := by positivity
    linarith
  have pos : ∀ (lines : List (List Pt)) (out : List (ℝ × ℝ)), lines ≠ [] → (∀ l ∈ lines, l ≠ []) → out.length = (lines.map List.length).sum →
      out ≠ [] := by
    intro lines out hne hl e h0
    subst h0
    rw [List.length_nil] at e
    obtain ⟨l, hm⟩ := List.exists_mem_of_ne_nil _ hne
    have := List.single_le_sum (l := lines.map List.length) (by simp) _ (List.mem_map.2 ⟨l, hm, rfl⟩)
    have := List.length_pos_iff.2 (hl l hm)
    omega
  unfold linesDistorted
  rw [eh, ok_bind, ev, ok_bind, hcheck _ (pos _ _ nh (fun l hl => latticeRows_ne hL hl) lh) zh, ok_bind,
    hcheck _ (pos _ _ nv (fun l hl => latticeCols_ne hK hl) lv) zv, ok_bind]
  rfl

/-- The identity model moves no dot. -/
theorem unwarpLineBackward_one {minimize : (ℝ → ℝ) → ℝ → ℝ} (hm : ExactMin minimize) (lines : List (List Pt)) (c : Pt) (n : ℕ) :
    unwarpLineBackward minimize id lines c.x c.y (1 :: List.replicate n 0) = lines := by
  rw [unwarpLineBackward_eq]
  conv_rhs => rw [← List.map_id lines]
  refine List.map_congr_left fun l _ => ?_
  conv_rhs => rw [id, ← List.map_id l]
  refine List.map_congr_left fun p _ => ?_
  have hone : ∀ r : ℝ, radial (1 :: List.replicate n 0) r = 1 := by
    intro r
    rw [← polySum_eq_radial, polySum_one]
  have hmf : ∀ t r, misfit (1 :: List.replicate n 0) t r = (t - r) ^ 2 := by
    intro t r
    unfold misfit
    rw [hone, mul_one]
  have hmin : minimize (misfit (1 :: List.replicate n 0) (ptDist p c)) (ptDist p c) = ptDist p c := by
    have := hm (misfit (1 :: List.replicate n 0) (ptDist p c)) (ptDist p c) ⟨ptDist p c, fun x => by
      rw [hmf, hmf, sub_self]; nlinarith [sq_nonneg (ptDist p c - x)]⟩ (ptDist p c)
    rw [hmf, hmf, sub_self] at this
    nlinarith
  simp only [id]
  by_cases h0 : ptDist p c = 0
  · rw [if_neg (by simpa using h0)]
    have h1 : p = c := by
      unfold ptDist at h0
      rw [Real.sqrt_eq_zero (by positivity)] at h0
      ext <;> nlinarith [sq_nonneg (p.x - c.x), sq_nonneg (p.y - c.y)]
    subst h1
    ext <;> simp
  · rw [if_pos h0, hmin, div_self h0]
    ext <;> simp

/-- No dot of a regular grid is removed. -/
theorem residual_lattice {pf : PolyfitFn} (hpf : PolyfitSpec pf) (hK : 1 ≤ K) (hL : 1 ≤ L) (slope : ℝ) {residual : ℝ} (hres : 0 < residual) :
    removeResidualHor pf (latticeRows y0 x0 d K L) slope residual = .ok (latticeRows y0 x0 d K L) ∧
      removeResidualVer pf (latticeCols y0 x0 d K L) slope residual = .ok (latticeCols y0 x0 d K L) := by
  have key : ∀ {y0 x0 : ℝ} {K L : ℕ}, 1 ≤ K → 1 ≤ L → removeResidualHor pf (latticeRows y0 x0 d K L) slope residual = .ok (latticeRows y0 x0 d K L) := by
    intro y0 x0 K L hK hL
    refine C32_exact pf hpf _ ?_ (fun l hl => latticeRows_ne hL hl) slope residual hres ?_
    · rw [← List.length_pos_iff]; simp [latticeRows]; omega
    · intro l hl
      obtain ⟨k, _, rfl⟩ := latticeRows_mem hl
      refine ⟨0, 0, y0 + k * d, fun p hp => ?_⟩
      obtain ⟨l, _, rfl⟩ := List.mem_map.1 hp
      simp
  refine ⟨key hK hL, ?_⟩
  rw [C32_vertical]
  have hsw : swapLines (latticeCols y0 x0 d K L) = latticeRows x0 y0 d L K := by
    simp [swapLines, latticeRows, latticeCols, swapPt, Function.comp_def]
  have hsw' : swapLines (latticeRows x0 y0 d L K) = latticeCols y0 x0 d K L := by
    simp [swapLines, latticeRows, latticeCols, swapPt, Function.comp_def]
  rw [hsw, key hL hK]
  simp only [Except.map, hsw']

/-- The models found for a regular grid and the centre between its first lines are the identity. -/
theorem models_lattice {pf : PolyfitFn} {lstsq : LstsqFn} {minimize : (ℝ → ℝ) → ℝ → ℝ} {n : ℕ} (hd : 0 < d) (hK : 4 ≤ K) (hL : 4 ≤ L)
    (hpf : PolyfitSpec pf) (hls : LstsqSpec lstsq) (hn1 : 1 ≤ n) (hn : 2 * n ≤ L + 1) (hn' : n ≤ 32767) :
    calcCoefBackward pf lstsq minimize (latticeRows y0 x0 d K L) (latticeCols y0 x0 d K L) (x0 + d / 2) (y0 + d / 2) n false 0.3 =
        .ok (1 :: List.replicate (n - 1) 0, false) ∧
      calcCoefForward pf lstsq minimize (latticeRows y0 x0 d K L) (latticeCols y0 x0 d K L) (x0 + d / 2) (y0 + d / 2) n false 0.3 =
        .ok (1 :: List.replicate (n - 1) 0, false) ∧
      ∃ f, calcCoefBackwardFromForward pf lstsq minimize (latticeRows y0 x0 d K L) (latticeCols y0 x0 d K L) (x0 + d / 2) (y0 + d / 2) n false 0.3 =
        .ok (f, 1 :: List.replicate (n - 1) 0, false) := by
  set xc := x0 + d / 2 with hxc
  set yc := y0 + d / 2 with hyc
  have f1 := lattice_straight_hor (y0 := y0) (x0 := x0) (yc := yc) (xc := xc) (K := K) (L := L) hd (by omega)
  have f2 := lattice_straight_ver (y0 := y0) (x0 := x0) (yc := yc) (xc := xc) (K := K) (L := L) hd (by omega)
  have len1 : (latticeRows y0 x0 d K L).length = K := by simp [latticeRows]
  have len2 : (latticeCols y0 x0 d K L).length = L := by simp [latticeCols]
  have hlong : ∀ v : List ℝ, (v.length : ℤ) = max (n : ℤ) 1 → v.length = n := by
    intro v hl
    omega
  have off : ∀ z i, i = (⌊i⌋ : ℝ) → z - (z + d / 2) + i * d ≠ 0 := by
    intro z i hi h
    have h1 : i = 1 / 2 := by
      have : (i - 1 / 2) * d = 0 := by linarith
      rcases mul_eq_zero.1 this with h | h
      · linarith
      · exact absurd h hd.ne'
    rw [h1] at hi
    norm_num at hi
  have c1 : ∀ i : ℕ, i < (latticeRows y0 x0 d K L).length → y0 - yc + i * d ≠ 0 := fun i _ => off y0 i (by simp)
  have c2 : ∀ i : ℕ, i < (latticeCols y0 x0 d K L).length → x0 - xc + i * d ≠ 0 := fun i _ => off x0 i (by simp)
  obtain ⟨rs, r1, r2, r3⟩ := lattice_radii (y0 := y0) (x0 := x0) (yc := yc) (xc := xc) (K := K) (L := L) (n := n) hd (by omega) hn
  refine ⟨?_, ?_, ?_⟩
  · obtain ⟨v, ev, hl, _, h1⟩ := C23_backward pf hpf lstsq hls minimize _ _ xc yc (y0 - yc) d (x0 - xc) d f1 f2 hd.ne' hd.ne'
      (by rw [len1]; exact hK) (by rw [len2]; exact hL) c1 c2 n (by exact_mod_cast hn') false (by simp) 0.3 (by norm_num)
    have hl' := hlong v hl
    rw [ev, h1 ⟨rs, r1, by rw [hl', r2], fun r hr => Or.inl (r3 r hr)⟩, hl']
  · obtain ⟨v, ev, hl, _, h1⟩ := C23_forward pf hpf lstsq hls minimize _ _ xc yc (y0 - yc) d (x0 - xc) d f1 f2 hd.ne' hd.ne'
      (by rw [len1]; exact hK) (by rw [len2]; exact hL) n (by exact_mod_cast hn') false (by simp) 0.3 (by norm_num)
    have hl' := hlong v hl
    rw [ev, h1 ⟨rs, r1, by rw [hl', r2], fun r hr => Or.inl (r3 r hr)⟩, hl']
  · obtain ⟨f, v, ev, hf, hl, _, h1⟩ := C23_backward_from_forward pf hpf lstsq hls minimize _ _ xc yc (y0 - yc) d (x0 - xc) d f1 f2 hd.ne' hd.ne'
      (by rw [len1]; exact hK) (by rw [len2]; exact hL) c1 c2 n (by exact_mod_cast hn') false (by simp) 0.3 (by norm_num)
    have hf' := hlong f hf
    have hl' := hlong v hl
    have hpt : ∀ r ∈ rs, ∃ p ∈ (latticeRows y0 x0 d K L).flatten, r = ptDist p ⟨yc, xc⟩ := by
      intro r hr
      obtain ⟨i, l, p, hi, _, hp, e⟩ := r3 r hr
      exact ⟨p, List.mem_flatten.2 ⟨l, List.mem_of_getElem? hi, hp⟩, e⟩
    haveI : Nonempty Pt := ⟨⟨0, 0⟩⟩
    choose! φ hφ1 hφ2 using hpt
    refine ⟨f, ?_⟩
    rw [ev, (h1 ⟨rs.map φ, ?_, by rw [List.length_map, r2, hf'], ?_⟩).2, hl']
    · rw [List.map_map]
      have : (rs.map ((fun p => ptDist p ⟨yc, xc⟩) ∘ φ)) = rs := by
        conv_rhs => rw [← List.map_id rs]
        exact List.map_congr_left fun r hr => (hφ2 r hr).symm
      rw [this]
      exact r1
    · intro p hp
      obtain ⟨r, hr, rfl⟩ := List.mem_map.1 hp
      exact List.mem_append_left _ (hφ1 r hr)

end Discorpy
