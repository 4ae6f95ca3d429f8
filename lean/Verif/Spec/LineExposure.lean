import Verif.Py.Num
import Verif.Spec.Exposure
import Verif.Model.Util

/-! # Specification: filters and interpolation that keep the contrast -/

namespace Discorpy.Spec

open Discorpy

/-- An image filter for which `c` times the grey values give `c` times the result (`gaussian_filter`, `normalization_fft`). -/
def KeepsContrast (F : Mat ℝ → Mat ℝ) : Prop := ∀ c > 0, ∀ m, F (exposed c 0 m) = exposed c 0 (F m)

/-- The same for a filter of profiles (`gaussian_filter1d`). -/
def KeepsProfile (F : List ℝ → ℝ → List ℝ) : Prop := ∀ c > 0, ∀ l s, F (l.map fun x => c * x) s = (F l s).map fun x => c * x

/-- The same for interpolation (`map_coordinates`). -/
def SamplesContrast (S : Sampler) : Prop := ∀ c > 0, ∀ m y x, S (exposed c 0 m) y x = c * S m y x

/-- An image filter that keeps contrast and brightness (`gaussian_filter`). -/
def KeepsExposure (F : Mat ℝ → Mat ℝ) : Prop := ∀ c > 0, ∀ d m, F (exposed c d m) = exposed c d (F m)

/-- A Radon transform for which `c` times the grey values give `c` times the result. -/
def RadonContrast (R : Mat ℝ → List ℝ → Mat ℝ) : Prop := ∀ c > 0, ∀ m angles, R (exposed c 0 m) angles = exposed c 0 (R m angles)

/-- A grey or colour image with `c` times the values. -/
noncomputable def contrastImg (c : ℝ) : Img → Img
  | .gray m => .gray (exposed c 0 m)
  | .color h w n get => .color h w n fun i j k => c * get i j k

end Discorpy.Spec
