import Verif.Model.DotScript
import Verif.Spec.Exposure

/-! # Specification: two runs of a script that find the same model -/

namespace Discorpy.Spec

open Discorpy

/-- The same lines and model; the corrected photographs are in relation `rel`, their differences to the photographs in relation `relD`. -/
structure SameLineRun (rel relD : Mat ℝ → Mat ℝ → Prop) (r r' : LineRun) : Prop where
  found : r'.found = r.found
  grid : r'.grid = r.grid
  before : r'.before = r.before
  model : r'.model = r.model
  unwarped : r'.unwarped = r.unwarped
  after : r'.after = r.after
  corrected : rel r.corrected r'.corrected
  difference : relD r.difference r'.difference

/-- The same results but for the images, which have `c` times the grey values. -/
structure SameExample03 (c : ℝ) (r r' : Example03Run) : Prop where
  significant : r'.significant = r.significant
  used : r'.used = r.used
  centre : r'.centre = r.centre
  forward : r'.forward = r.forward
  backward : r'.backward = r.backward
  warned : r'.warned = r.warned
  image : IsExposed c 0 r.image r'.image
  difference : IsExposed c 0 r.difference r'.difference
  unwarped : r'.unwarped = r.unwarped
  bad : r'.bad = r.bad

/-- Grey values multiplied by `c` wherever the denominator of the perspective map is not zero. -/
def ScaledWhereFinite (c : ℝ) (coefs : List ℝ) (m m' : Mat ℝ) : Prop :=
  m'.height = m.height ∧ m'.width = m.width ∧ ∀ k : Fin 8 → ℝ, coefs = List.ofFn k → ∀ i < m.height, ∀ j < m.width,
    k 6 * j + k 7 * i + 1 ≠ 0 → m'.get i j = c * m.get i j

/-- The same results of demo_05.py but for the images, which have `c` times the grey values. -/
structure SamePerspRun (c : ℝ) (r r' : PerspRun) : Prop where
  run : SameLineRun (IsExposed c 0) (IsExposed c 0) r.run r'.run
  lines : r'.lines = r.lines
  source : r'.source = r.source
  target : r'.target = r.target
  coefs : r'.coefs = r.coefs
  image : ScaledWhereFinite c r.coefs r.image r'.image
  difference : ScaledWhereFinite c r.coefs r.difference r'.difference

end Discorpy.Spec
