import Verif.Model.Hdf

/-! # Specification: HDF files -/

namespace Discorpy.Spec

/-- The object found below another one by following the names of members. -/
inductive NodeAt : H5 → List PyStr → H5 → Prop
  | here (t : H5) : NodeAt t [] t
  | child {ch : List (PyStr × H5)} {n : PyStr} {c t : H5} {r : List PyStr} : (n, c) ∈ ch → NodeAt c r t → NodeAt (.group ch) (n :: r) t

/-- Names of members: not empty, not `.`, without a slash. -/
def GoodName (n : PyStr) : Prop := n ≠ [] ∧ n ≠ ['.'] ∧ '/' ∉ n

/-- In every group the names are good and differ from each other. -/
def WellFormedH5 (t : H5) : Prop := ∀ cs ch, NodeAt t cs (.group ch) → (ch.map Prod.fst).Nodup ∧ ∀ p ∈ ch, GoodName p.1

/-- In every group the members are in increasing order of their names. -/
def SortedH5 (t : H5) : Prop := ∀ cs ch, NodeAt t cs (.group ch) → (ch.map Prod.fst).Pairwise (· < ·)

/-- An object other than a dangling link. -/
def H5Object : H5 → Prop
  | .dangling => False
  | _ => True

/-- The shape of an object, if it is a dataset. -/
def shapeOf : H5 → Option (List ℕ)
  | .dataset a _ => some a.shape
  | _ => none

/-- The type of an object, if it is a dataset. -/
def typeOf : H5 → Option PyStr
  | .dataset _ t => some t
  | _ => none

/-- A key path to the components: with or without a slash in front. -/
def KeyTo (key : PyStr) (cs : List PyStr) : Prop := key = joinKey cs ∨ key = '/' :: joinKey cs

/-- The axis nearest to the given number. -/
def clampAxis (axis : ℤ) : ℕ := if axis ≤ 0 then 0 else if axis = 1 then 1 else 2

/-- The position with coordinate `i` along the axis and `p`, `q` along the others. -/
def at3 : ℕ → ℕ → ℕ → ℕ → List ℕ
  | 0, i, p, q => [i, p, q]
  | 1, i, p, q => [p, i, q]
  | _, i, p, q => [p, q, i]

/-- An index along an axis of length `n`: negative ones count from the end. -/
def IndexMeans (n : ℕ) (i : ℤ) (k : ℕ) : Prop := k < n ∧ (i = k ∨ i = (k : ℤ) - n)

/-- The slice of a 3D array (of extent `m` and `n` along the other axes) at `k`. -/
def IsSlice (f32 : ℝ → ℝ) (arr : NdArr ℝ) (ax m n k : ℕ) (res : NdArr ℝ) : Prop :=
  arr.shape.length = 3 ∧ res.shape = [m, n] ∧ ∀ p < m, ∀ q < n, res.get [p, q] = f32 (arr.get (at3 ax k p q))

/-- The slices at the positions of a list, stacked along the axis. -/
def IsStack (f32 : ℝ → ℝ) (arr : NdArr ℝ) (ax m n : ℕ) (l : List ℕ) (res : NdArr ℝ) : Prop :=
  res.shape = at3 ax l.length m n ∧
    ∀ (j : ℕ) (hj : j < l.length), ∀ p < m, ∀ q < n, res.get (at3 ax j p q) = f32 (arr.get (at3 ax l[j] p q))

/-- h5py takes lists of strictly increasing indices inside the axis as they are. -/
def H5ListSpec (h5List : ℕ → List ℤ → Except PyErr (List ℕ)) : Prop :=
  ∀ (n : ℕ) (l : List ℕ), l.Pairwise (· < ·) → (∀ k ∈ l, k < n) → h5List n (l.map Int.ofNat) = .ok l

/-- The positions meant by a tuple or list: two or three numbers are the start, the end (excluded) and the step (positive here) of a range,
in increasing order; other lists are the positions themselves. -/
def IndicesMean (l : List ℤ) (ks : List ℕ) : Prop :=
  match l with
  | [start, stop] => ks.Pairwise (· < ·) ∧ ∀ x : ℤ, x ∈ ks.map Int.ofNat ↔ start ≤ x ∧ x < stop
  | [start, stop, step] => 0 < step ∧ ks.Pairwise (· < ·) ∧ ∀ x : ℤ, x ∈ ks.map Int.ofNat ↔ start ≤ x ∧ x < stop ∧ step ∣ x - start
  | l => l = ks.map Int.ofNat

/-- A dataset. -/
def IsDataset : H5 → Prop
  | .dataset _ _ => True
  | _ => False

/-- Paths none of which leads through another one. -/
def Compatible (paths : List (List PyStr)) : Prop := paths.Pairwise fun p q => ¬ p <+: q ∧ ¬ q <+: p

/-- A file with exactly the given datasets, and no groups but those on the way to them. -/
def HasExactly (f : H5File) (items : List (List PyStr × H5)) : Prop :=
  WellFormedH5 (.group f) ∧ (∀ q ∈ items, NodeAt (.group f) q.1 q.2) ∧
    ∀ p x, p ≠ [] → NodeAt (.group f) p x → (p, x) ∈ items ∨ ((∃ ch, x = .group ch) ∧ ∃ q ∈ items, p <+: q.1 ∧ p ≠ q.1)

end Discorpy.Spec
