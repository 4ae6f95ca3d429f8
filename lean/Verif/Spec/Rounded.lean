import Verif.Model.Rounded
import Verif.Spec.RadialModel
import Mathlib.Data.Int.Log

/-! # Specification of floating-point arithmetic -/

namespace Discorpy.Spec

open Discorpy

/-- The usual model of floating-point arithmetic (no overflow, no underflow): every operation has a relative error of at most `u`, and a sum
of `n` numbers the error of at most `n` additions one after the other. For double precision `u` is `2⁻⁵³`. -/
structure IsFloat (u : ℝ) (F : Floats) : Prop where
  nonneg : 0 ≤ u
  lt_one : u < 1
  fl : ∀ x, |F.fl x - x| ≤ u * |x|
  pw : ∀ r i, 0 ≤ r → |F.pw r i - r ^ i| ≤ u * r ^ i
  sm : ∀ l : List ℝ, |F.sm l - l.sum| ≤ ((1 + u) ^ l.length - 1) * (l.map fun x => |x|).sum

/-- The sum of the absolute values of the terms of the model. -/
noncomputable def absModel (f : List ℝ) (r : ℝ) : ℝ := radial (f.map fun a => |a|) r

/-- The error of `k` roundings one after the other, relative to the size of the terms. -/
noncomputable def roundings (u : ℝ) (k : ℕ) : ℝ := (1 + u) ^ k - 1

/-- The sum of the absolute values of the terms of a linear form. -/
def formSize (a b c : ℝ) (p : Pt) : ℝ := |a * p.x| + |b * p.y| + |c|

/-- Error of a quotient `q` of two linear forms: `e` is the relative error of the forms, `n` and `d` the sizes of their terms, `w` the value of
the denominator. -/
noncomputable def quotientError (e n d w q : ℝ) : ℝ := e * (n + |q| * d) / (|w| - e * d)

/-- Rounding to the nearest number with `bits` significant bits, halves to even: the rounding of IEEE 754 (24 bits in single and 53 bits in double
precision) except that exponents have no limits. -/
noncomputable def roundBits (bits : ℕ) (x : ℝ) : ℝ :=
  if x = 0 then 0 else (roundHalfEven (x / 2 ^ (Int.log 2 |x| + 1 - bits)) : ℤ) * (2 : ℝ) ^ (Int.log 2 |x| + 1 - bits)

/-- An order in which numbers are added. -/
inductive SumTree
  | leaf (x : ℝ)
  | node (a b : SumTree)

/-- The numbers that are added. -/
def SumTree.leaves : SumTree → List ℝ
  | leaf x => [x]
  | node a b => a.leaves ++ b.leaves

/-- The sum with rounding after each addition. -/
noncomputable def SumTree.eval (fl : ℝ → ℝ) : SumTree → ℝ
  | leaf x => x
  | node a b => fl (a.eval fl + b.eval fl)

/-- Adding one number after the other. -/
def SumTree.inOrder : SumTree → List ℝ → SumTree
  | t, [] => t
  | t, x :: l => SumTree.inOrder (node t (leaf x)) l

/-- Arithmetic with `bits` significant bits that adds the numbers of a list from left to right. -/
noncomputable def bitsArith (bits : ℕ) : Floats where
  fl := roundBits bits
  pw r i := roundBits bits (r ^ i)
  sm
    | [] => 0
    | x :: l => (SumTree.inOrder (.leaf x) l).eval (roundBits bits)

end Discorpy.Spec
