import Verif.Model.LinePattern

/-!
# Specification of the acceptance of a peak
-/

namespace Discorpy.Spec

open Discorpy

/-- `v` is the `q`-th percentile of `l` with linear interpolation: the data in increasing order are placed at the percentages
`0, 100/(n-1), …, 100`, and `v` is the value at `q` of the polygon through them. -/
def IsPercentile (l : List ℝ) (q v : ℝ) : Prop :=
  ∃ s : List ℝ, s.Perm l ∧ s.Pairwise (· ≤ ·) ∧ ∃ (k : ℕ) (t a : ℝ), 0 ≤ t ∧ t < 1 ∧ k + t = q / 100 * ((l.length : ℝ) - 1) ∧
    s[k]? = some a ∧ (t = 0 ∧ v = a ∨ ∃ b, s[k + 1]? = some b ∧ v = (1 - t) * a + t * b)

/-- Acceptance of the candidate `p`: the window of the samples at most `radius` away has more than three samples and is not
constant; after scaling it to minimum 0 and standard deviation 1 the fit is reported as successful, its peak is less than
`radius // 2` from the middle and 80 % of the residuals are below `tol`, as is the offset if it counts. -/
def PeakAccepted (gaussFit : List ℝ → GaussFit) (l : List ℝ) (tol : ℝ) (radius : ℤ) (useOffset : Bool) (p : ℤ) : Prop :=
  ∃ (start stop : ℕ) (w : List ℝ) (m σ num : ℝ), (start : ℤ) = max 0 (p - radius) ∧ (stop : ℤ) = min (l.length : ℤ) (p + radius + 1) ∧
    start + 3 < stop ∧ w = (List.range (stop - start)).map (fun k => l.getD (start + k) 0) ∧ m ∈ w ∧ (∀ x ∈ w, m ≤ x) ∧
    0 < σ ∧ σ ^ 2 * w.length = (w.map fun x => (x - w.sum / w.length) ^ 2).sum ∧
    let z := w.map fun x => (x - m) / σ
    (gaussFit z).check = true ∧ |(gaussFit z).pos| < (radius / 2 : ℤ) ∧
    IsPercentile (List.zipWith (fun a b => |a - b|) (gaussFit z).fit z) 80 num ∧ num < tol ∧
    (useOffset = true → |(gaussFit z).offset| < tol)

end Discorpy.Spec
