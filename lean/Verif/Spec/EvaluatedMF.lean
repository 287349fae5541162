import Verif.Model.GP

/-!
# Weighted distance of two points of a design space (specification for C189)
-/

open scoped BigOperators

namespace Mfpml.Spec

open Mfpml.EA (Box)

/-- The squared distance of two points after scaling every variable of the box to `[0, 1]`, the variables weighted by `θ`. -/
noncomputable def weightedDist {d : ℕ} (θ : Fin d → ℝ) (b : Box ℝ d) (x x' : Fin d → ℝ) : ℝ :=
  ∑ k, θ k * ((x k - b.low k) / (b.high k - b.low k) - (x' k - b.low k) / (b.high k - b.low k)) ^ 2

/-- How far the predicted means of a process fitted to `n` responses can differ at weighted squared distance `D`: `variance` is the fitted process variance relative to the squared spread `s` of the responses. -/
noncomputable def meanStep (n : ℕ) (variance s D : ℝ) : ℝ := (Real.sqrt (2 * n * variance * D) + 2e-5 * Real.sqrt (n * variance)) * s

end Mfpml.Spec
