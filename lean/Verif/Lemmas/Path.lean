import Verif.Spec.Path
import Verif.Lemmas.Loop

/-! # Helper lemmas: file names -/

namespace Discorpy

open Spec

theorem lastDot_append {a b : PyStr} (h : '.' ∉ b) : lastDot (a ++ '.' :: b) = some a.length := by
  unfold lastDot
  rw [if_pos (by simp)]
  have : (a ++ '.' :: b).reverse = b.reverse ++ '.' :: a.reverse := by simp
  rw [this, List.idxOf_append_of_notMem (by simpa using h), List.idxOf_cons_self]
  simp

theorem exists_lastDot {s : PyStr} (h : '.' ∈ s) : ∃ a b, s = a ++ '.' :: b ∧ '.' ∉ b := by
  induction s with
  | nil => cases h
  | cons c s ih =>
    by_cases hs : '.' ∈ s
    · obtain ⟨a, b, rfl, hb⟩ := ih hs
      exact ⟨c :: a, b, rfl, hb⟩
    · have : c = '.' := by
        rcases List.mem_cons.1 h with h | h
        · exact h.symm
        · exact absurd h hs
      exact ⟨[], s, by simp [this], hs⟩

theorem suffixOf_split {name stem suf : PyStr} (h : SplitAs name stem suf) : suffixOf name = suf ∧ stemOf name = stem := by
  obtain ⟨rfl, hs, ext, rfl, he, hd⟩ := h
  have h1 : 0 < stem.length := List.length_pos_iff.2 hs
  have h2 : 0 < ext.length := List.length_pos_iff.2 he
  unfold suffixOf stemOf
  rw [lastDot_append hd]
  have h3 : 0 < stem.length ∧ stem.length < (stem ++ '.' :: ext).length - 1 := ⟨h1, by simp; omega⟩
  simp only [if_pos h3]
  simp

theorem suffixOf_none {name : PyStr} (h : Suffixless name) : suffixOf name = [] ∧ stemOf name = name := by
  by_cases hd : '.' ∈ name
  · obtain ⟨a, b, rfl, hb⟩ := exists_lastDot hd
    unfold suffixOf stemOf
    rw [lastDot_append hb]
    have : ¬ (0 < a.length ∧ a.length < (a ++ '.' :: b).length - 1) := by
      rintro ⟨h1, h2⟩
      refine h a ('.' :: b) ⟨rfl, List.length_pos_iff.1 h1, b, rfl, ?_, hb⟩
      simp at h2
      exact List.length_pos_iff.1 (by omega)
    simp only [if_neg this]
    simp
  · unfold suffixOf stemOf lastDot
    simp [hd]

theorem split_cases (name : PyStr) : SplitAs name (stemOf name) (suffixOf name) ∨ Suffixless name := by
  by_cases h : Suffixless name
  · exact .inr h
  · unfold Suffixless at h
    push Not at h
    obtain ⟨st, sf, h⟩ := h
    obtain ⟨h1, h2⟩ := suffixOf_split h
    rw [h1, h2]
    exact .inl h

theorem stem_append_suffix (name : PyStr) : stemOf name ++ suffixOf name = name := by
  rcases split_cases name with h | h
  · exact h.1.symm
  · obtain ⟨h1, h2⟩ := suffixOf_none h
    rw [h1, h2, List.append_nil]

theorem suffixOf_eq_nil {name : PyStr} : suffixOf name = [] ↔ Suffixless name := by
  constructor
  · intro h
    rcases split_cases name with h' | h'
    · obtain ⟨_, _, ext, he, _⟩ := h'
      rw [he] at h; cases h
    · exact h'
  · exact fun h => (suffixOf_none h).1

theorem stemOf_ne_nil {name : PyStr} (h : name ≠ []) : stemOf name ≠ [] := by
  rcases split_cases name with h' | h'
  · exact h'.2.1
  · rw [(suffixOf_none h').2]; exact h

theorem suffixOf_withSuffix {p q : FilePath} {suf : PyStr} (h : withSuffix p suf = .ok q)
    (hs : ∃ ext : PyStr, suf = '.' :: ext ∧ ext ≠ [] ∧ '.' ∉ ext) :
    p.name ≠ [] ∧ q.dir = p.dir ∧ q.name = stemOf p.name ++ suf ∧ SplitAs q.name (stemOf p.name) suf := by
  unfold withSuffix at h
  by_cases hn : p.name = []
  · rw [if_pos hn] at h; cases h
  · rw [if_neg hn] at h
    have hq : q.name = stemOf p.name ++ suf ∧ q.dir = p.dir := by
      cases h
      refine ⟨?_, rfl⟩
      simp only
      rcases split_cases p.name with hsp | hsp
      · have h1 : suffixOf p.name ≠ [] := fun h => absurd hsp (suffixOf_eq_nil.1 h _ _)
        rw [if_neg h1]
        have e := stem_append_suffix p.name
        generalize stemOf p.name = st at e ⊢
        generalize suffixOf p.name = sf at e ⊢
        rw [← e]
        simp
      · rw [if_pos (suffixOf_none hsp).1, (suffixOf_none hsp).2]
    exact ⟨hn, hq.2, hq.1, hq.1, stemOf_ne_nil hn, hs⟩

theorem normalise_cases {lower : PyStr → PyStr} {k : SaveKind} (hk : Normalises k) (p : FilePath) :
    (AcceptedSuffix k (lower (suffixOf p.name)) ∧ normalise lower k p = .ok p) ∨
    (¬ AcceptedSuffix k (lower (suffixOf p.name)) ∧ normalise lower k p = withSuffix p (defaultSuffix k)) := by
  rcases hk with rfl | rfl | rfl | rfl | rfl <;> simp only [normalise, SaveKind.suffixes, AcceptedSuffix, defaultSuffix, List.mem_cons,
    List.not_mem_nil, or_false] <;> split <;> simp_all

theorem defaultSuffix_form (k : SaveKind) : ∃ ext : PyStr, defaultSuffix k = '.' :: ext ∧ ext ≠ [] ∧ '.' ∉ ext := by
  cases k <;> exact ⟨_, rfl, by decide, by decide⟩

theorem defaultSuffix_lower {lower : PyStr → PyStr} (hl : LowerFixes lower) (k : SaveKind) : lower (defaultSuffix k) = defaultSuffix k := by
  cases k <;> exact hl _ (by simp)

theorem defaultSuffix_accepted {k : SaveKind} (hk : Normalises k) : AcceptedSuffix k (defaultSuffix k) := by
  rcases hk with rfl | rfl | rfl | rfl | rfl <;> simp [AcceptedSuffix, defaultSuffix]

/-! Numbers. -/

theorem foldl_decimal (s : PyStr) (v : ℕ) :
    s.foldl (fun v c => 10 * v + (c.toNat - '0'.toNat)) v = 10 ^ s.length * v + decimalValue s := by
  unfold decimalValue
  induction s generalizing v with
  | nil => simp
  | cons c s ih =>
    rw [List.foldl_cons, ih, List.foldl_cons, ih (10 * 0 + _), List.length_cons]
    ring

theorem decimalValue_append (s t : PyStr) : decimalValue (s ++ t) = 10 ^ t.length * decimalValue s + decimalValue t := by
  conv_lhs => unfold decimalValue
  rw [List.foldl_append, foldl_decimal]; rfl

theorem decimalValue_toDigits (n : ℕ) : decimalValue (Nat.toDigits 10 n) = n := by
  induction n using Nat.strong_induction_on with
  | _ n ih =>
    rw [Nat.toDigits_eq_if (by norm_num)]
    split
    · rename_i h
      have := Nat.toNat_digitChar_sub_48_of_lt_ten h
      simpa [decimalValue] using this
    · rename_i h
      rw [decimalValue_append, ih (n / 10) (by omega)]
      have h1 : n % 10 < 10 := Nat.mod_lt _ (by norm_num)
      have := Nat.toNat_digitChar_sub_48_of_lt_ten h1
      have h2 : decimalValue [(n % 10).digitChar] = n % 10 := by simpa [decimalValue] using this
      rw [h2]
      simp
      omega

theorem decimalValue_replicate (k : ℕ) : decimalValue (List.replicate k '0') = 0 := by
  induction k with
  | zero => rfl
  | succ k ih => rw [List.replicate_succ', decimalValue_append, ih]; rfl

theorem decimalValue_fmt04 (n : ℕ) : decimalValue (fmt04 n) = n := by
  unfold fmt04
  rw [List.leftpad, decimalValue_append, decimalValue_replicate, decimalValue_toDigits]; simp

theorem fmt04_injective : Function.Injective fmt04 := fun a b h => by
  rw [← decimalValue_fmt04 a, h, decimalValue_fmt04]

theorem toDigits_injective : Function.Injective (Nat.toDigits 10) := fun a b h => by
  rw [← decimalValue_toDigits a, h, decimalValue_toDigits]

theorem head_toDigits {n : ℕ} (h : n ≠ 0) : (Nat.toDigits 10 n).head? ≠ some '0' := by
  induction n using Nat.strong_induction_on with
  | _ n ih =>
    rw [Nat.toDigits_eq_if (by norm_num)]
    split
    · simp [h]
    · have h1 := ih (n / 10) (by omega) (by omega)
      rw [List.head?_append]
      cases hh : (Nat.toDigits 10 (n / 10)).head? with
      | none => simp at hh
      | some c => rw [hh] at h1; simpa using h1

theorem fmt04_padded (n : ℕ) : Padded n (fmt04 n) := by
  refine ⟨?_, decimalValue_fmt04 n, ?_, ?_⟩
  · intro c hc
    unfold fmt04 at hc
    rw [List.leftpad, List.mem_append] at hc
    rcases hc with hc | hc
    · rw [(List.mem_replicate.1 hc).2]; rfl
    · exact Nat.isDigit_of_mem_toDigits (by norm_num) (by norm_num) hc
  · unfold fmt04; simp [List.leftpad]; omega
  · intro h
    unfold fmt04 at h ⊢
    have h0 : (List.leftpad 4 '0' (Nat.toDigits 10 n)).length = 4 - (Nat.toDigits 10 n).length + (Nat.toDigits 10 n).length := by
      simp [List.leftpad]
    rw [h0] at h
    have h1 : 4 - (Nat.toDigits 10 n).length = 0 := by omega
    rw [List.leftpad, h1, List.replicate_zero, List.nil_append]
    apply head_toDigits
    rintro rfl
    simp at h

theorem isDigit_toNat {c : Char} (h : c.isDigit) : 48 ≤ c.toNat ∧ c.toNat ≤ 57 := by
  simp [Char.isDigit, UInt32.le_iff_toNat_le] at h
  exact h

theorem decimalValue_cons (c : Char) (s : PyStr) : decimalValue (c :: s) = 10 ^ s.length * (c.toNat - 48) + decimalValue s := by
  have := decimalValue_append [c] s
  rw [List.singleton_append] at this
  rw [this]
  simp [decimalValue]

theorem decimalValue_lt {s : PyStr} (h : ∀ c ∈ s, c.isDigit) : decimalValue s < 10 ^ s.length := by
  induction s with
  | nil => simp [decimalValue]
  | cons c s ih =>
    have h1 := ih fun x hx => h x (by simp [hx])
    have h2 := isDigit_toNat (h c (by simp))
    rw [decimalValue_cons, List.length_cons, pow_succ]
    have : 10 ^ s.length * (c.toNat - 48) ≤ 10 ^ s.length * 9 := Nat.mul_le_mul_left _ (by omega)
    omega

theorem decimalValue_inj {s t : PyStr} (hs : ∀ c ∈ s, c.isDigit) (ht : ∀ c ∈ t, c.isDigit) (hl : s.length = t.length)
    (h : decimalValue s = decimalValue t) : s = t := by
  induction s generalizing t with
  | nil => exact (List.length_eq_zero_iff.1 hl.symm).symm
  | cons c s ih =>
    cases t with
    | nil => cases hl
    | cons d t =>
      have hl' : s.length = t.length := by simpa using hl
      rw [decimalValue_cons, decimalValue_cons, ← hl'] at h
      have h1 := decimalValue_lt fun x hx => hs x (List.mem_cons_of_mem _ hx)
      have h2 := decimalValue_lt fun x hx => ht x (List.mem_cons_of_mem _ hx)
      rw [← hl'] at h2
      have h3 := isDigit_toNat (hs c (by simp))
      have h4 := isDigit_toNat (ht d (by simp))
      have e1 : c.toNat - 48 = d.toNat - 48 := by
        rcases Nat.lt_trichotomy (c.toNat - 48) (d.toNat - 48) with hlt | heq | hlt
        · have := Nat.mul_le_mul_left (10 ^ s.length) (Nat.succ_le_of_lt hlt)
          rw [Nat.mul_succ] at this; omega
        · exact heq
        · have := Nat.mul_le_mul_left (10 ^ s.length) (Nat.succ_le_of_lt hlt)
          rw [Nat.mul_succ] at this; omega
      rw [e1] at h
      have e2 : c = d := Char.toNat_inj.1 (by omega)
      rw [e2, ih (fun x hx => hs x (by simp [hx])) (fun x hx => ht x (by simp [hx])) hl' (by omega)]

theorem padded_le {n : ℕ} {s t : PyStr} (hs : Padded n s) (ht : Padded n t) : t.length ≤ s.length := by
  by_contra hlt
  push Not at hlt
  obtain ⟨h1, h2, h3, -⟩ := hs
  obtain ⟨h4, h5, -, h6⟩ := ht
  have h7 := h6 (by omega)
  cases t with
  | nil => simp at hlt
  | cons d t =>
    have h8 := isDigit_toNat (h4 d (by simp))
    have h9 : d.toNat ≠ 48 := by
      intro h
      apply h7
      have : d = '0' := Char.toNat_inj.1 h
      simp [this]
    rw [decimalValue_cons] at h5
    have h10 := decimalValue_lt h1
    have h11 : 10 ^ s.length ≤ 10 ^ t.length := Nat.pow_le_pow_right (by norm_num) (by simp at hlt; omega)
    have : 10 ^ t.length * 1 ≤ 10 ^ t.length * (d.toNat - 48) := Nat.mul_le_mul_left _ (by omega)
    omega

theorem padded_unique {n : ℕ} {s t : PyStr} (hs : Padded n s) (ht : Padded n t) : s = t :=
  decimalValue_inj hs.1 ht.1 (le_antisymm (padded_le ht hs) (padded_le hs ht)) (by rw [hs.2.1, ht.2.1])

theorem numbered_injective (p : FilePath) : Function.Injective (numbered p) := by
  intro a b h
  unfold numbered at h
  simp at h
  exact fmt04_injective h

/-! The search. -/

theorem whileLoop_search {β : Type} (bad : ℕ → Bool) (f : ℕ → β) {k : ℕ} (hk : bad k = false) (hlt : ∀ m < k, bad m = true) :
    whileLoop (fun n : ℕ => if bad n then (.ok (.inl (n + 1)) : Except PyErr (ℕ ⊕ β)) else .ok (.inr (f n))) 0 = .ok (f k) := by
  have key : ∀ d m, m + d = k →
      whileLoop (fun n : ℕ => if bad n then (.ok (.inl (n + 1)) : Except PyErr (ℕ ⊕ β)) else .ok (.inr (f n))) m = .ok (f k) := by
    intro d
    induction d with
    | zero =>
      intro m hm
      have : m = k := by omega
      subst this
      rw [whileLoop_unfold]; simp [hk]
    | succ d ih =>
      intro m hm
      rw [whileLoop_unfold]
      simp only [hlt m (by omega), if_true]
      exact ih (m + 1) (by omega)
  exact key k 0 (by omega)

theorem createFileName_free {ex : FilePath → Bool} {p : FilePath} (h : ex p = false) : createFileName ex p = .ok p := by
  unfold createFileName; simp [h]

theorem createFileName_taken {ex : FilePath → Bool} {p : FilePath} (h : ex p = true) (hf : {q | ex q = true}.Finite) :
    ∃ n, createFileName ex p = .ok (numbered p n) ∧ ex (numbered p n) = false ∧ ∀ m < n, ex (numbered p m) = true := by
  have hex : ∃ n, ex (numbered p n) = false := by
    by_contra hcon
    push Not at hcon
    have hsub : Set.range (numbered p) ⊆ {q | ex q = true} := by
      rintro q ⟨n, rfl⟩
      simpa using hcon n
    exact Set.infinite_range_of_injective (numbered_injective p) (hf.subset hsub)
  refine ⟨Nat.find hex, ?_, Nat.find_spec hex, fun m hm => by simpa using Nat.find_min hex hm⟩
  unfold createFileName
  rw [if_pos h]
  exact whileLoop_search (fun n => ex (numbered p n)) (numbered p) (Nat.find_spec hex) fun m hm => by simpa using Nat.find_min hex hm

theorem createFileName_ok {ex : FilePath → Bool} (p : FilePath) (hf : {q | ex q = true}.Finite) :
    ∃ q, createFileName ex p = .ok q ∧ ex q = false ∧ q.dir = p.dir := by
  cases h : ex p with
  | false => exact ⟨p, createFileName_free h, h, rfl⟩
  | true =>
    obtain ⟨n, h1, h2, _⟩ := createFileName_taken h hf
    exact ⟨_, h1, h2, rfl⟩

end Discorpy
