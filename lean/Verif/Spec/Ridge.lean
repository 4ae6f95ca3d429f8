import Verif.Py.Num
import Verif.Spec.Interp

/-!
# Specification of a profile across the lines of a pattern
-/

namespace Discorpy.Spec

/-- A brightness along a line that crosses bright lines at the places `cs` on a dark ground: around `c` it depends on the distance
only, falls strictly with it and is positive up to the distance `w`; elsewhere it is zero. -/
structure Ridges (cs : List ℝ) (φ : ℝ → ℝ → ℝ) (w : ℝ) (h : ℝ → ℝ) : Prop where
  on : ∀ c ∈ cs, ∀ t, |t - c| < w → h t = φ c |t - c|
  off : ∀ t, (∀ c ∈ cs, w ≤ |t - c|) → h t = 0
  falls : ∀ c ∈ cs, ∀ a b, 0 ≤ a → a < b → b < w → φ c b < φ c a
  pos : ∀ c ∈ cs, ∀ a, 0 ≤ a → a < w → 0 < φ c a

/-- Every two of the places are at least `d` apart, and they are listed in increasing order. -/
def PlacesApart (cs : List ℝ) (d : ℝ) : Prop := cs.Pairwise fun c c' => c + d ≤ c'

/-- The ridges are wide and distinct enough for a search with the radius `r`, in samples: each is wider than a sample, is at most
half of the search window wide, is alone in the window, and stands out by more than the fraction `s` of the brightest value. -/
structure Searchable (cs : List ℝ) (φ : ℝ → ℝ → ℝ) (w s top : ℝ) (r : ℕ) : Prop where
  wide : 1 / 2 < w
  narrow : 2 * w ≤ r + 1
  apart : PlacesApart cs (w + r + 1 / 2)
  clear : ∀ c ∈ cs, s * top < φ c (1 / 2)

/-- The same if the samples are `q` pixels apart and all lengths are in pixels. -/
structure SearchableBy (q : ℝ) (cs : List ℝ) (φ : ℝ → ℝ → ℝ) (w s top : ℝ) (r : ℕ) : Prop where
  wide : q / 2 < w
  narrow : 2 * w ≤ q * (r + 1)
  apart : PlacesApart cs (w + q * (r + 1 / 2))
  clear : ∀ c ∈ cs, s * top < φ c (q / 2)

/-- The position found next to the sample `i` of a profile: the sample itself or, with refinement, the vertex of the parabola through the
sample and its two neighbours. -/
noncomputable def foundAt (sub : Bool) (h : ℝ → ℝ) (i : ℕ) : ℝ :=
  if sub then (i : ℝ) + (h ((i + 1 : ℕ) : ℝ) - h ((i - 1 : ℕ) : ℝ)) / (2 * (2 * h i - h ((i - 1 : ℕ) : ℝ) - h ((i + 1 : ℕ) : ℝ))) else i

/-- Interpolating a strip of whole columns cut out of the image shows the brightness `b y x`. -/
def ShowsCols (S : Sampler) (img : Mat ℝ) (b : ℝ → ℝ → ℝ) : Prop :=
  ∀ lo hi : ℕ, lo < hi → hi ≤ img.width → ∀ y x, InFrame (img.cols lo hi) y (x - lo) → S (img.cols lo hi) y (x - lo) = b y x

/-- Interpolating a strip of whole rows cut out of the image shows the brightness `b y x`. -/
def ShowsRows (S : Sampler) (img : Mat ℝ) (b : ℝ → ℝ → ℝ) : Prop :=
  ∀ lo hi : ℕ, lo < hi → hi ≤ img.height → ∀ y x, InFrame (img.rows lo hi) (y - lo) x → S (img.rows lo hi) (y - lo) x = b y x

end Discorpy.Spec
