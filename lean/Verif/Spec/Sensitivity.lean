import Verif.Spec.BentGrid
import Verif.Spec.Interp

/-! # Specification: models that differ a little -/

namespace Discorpy.Spec

open Discorpy

/-- `|f₀ - f'₀|·R + |f₁ - f'₁|·R² + …` for two models with the same number of coefficients. -/
noncomputable def coefError (f f' : List ℝ) (R : ℝ) : ℝ := R * radial (List.zipWith (fun a b => |a - b|) f f') R

/-- How far a point within `R` of both centres can be moved by using the centre `c'` and the coefficients `f'` instead of `c` and `f`. -/
noncomputable def modelError (c c' : Pt) (f f' : List ℝ) (R : ℝ) : ℝ := bendBound f R * ptDist c c' + coefError f f' R

end Discorpy.Spec
