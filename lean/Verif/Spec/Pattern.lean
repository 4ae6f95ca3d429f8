import Verif.Py.Num

/-!
# Specification of calibration patterns
-/

namespace Discorpy.Spec

/-- Cell number `k` of a row of adjacent or spaced cells contains the coordinate `y`: the cells start at `start`, `start + step`,
… (as long as this is less than `stop`), and each is `size` wide. -/
structure InCell (start stop step size : ℤ) (k : ℕ) (y : ℤ) : Prop where
  lt_stop : start + k * step < stop
  le : start + k * step ≤ y
  lt : y < start + k * step + size

/-- The coordinate lies between the start of the first and the end of the last cell. -/
structure InGridFrame (start stop step size : ℤ) (y : ℤ) : Prop where
  le : start ≤ y
  lt : ∃ k : ℕ, start + k * step < stop ∧ y < start + k * step + size

/-- `p` is centre number `k` of a row of dots with distance `d`. -/
structure DotCentre (start stop d : ℤ) (k : ℕ) (p : ℤ) : Prop where
  eq : p = start + k * d
  lt_stop : p < stop

/-- The pixel at offset `(dy, dx)` from the centre belongs to a dot of size `s`: it is in the `s × s` square around the centre
(for even `s` this square has one pixel more before than after the centre) and not farther away than `s // 2`. -/
structure InDot (s dy dx : ℤ) : Prop where
  top : -(s / 2) ≤ dy
  bottom : dy < s - s / 2
  left : -(s / 2) ≤ dx
  right : dx < s - s / 2
  round : dx ^ 2 + dy ^ 2 ≤ (s / 2) ^ 2

end Discorpy.Spec
