import Mathlib.Analysis.SpecialFunctions.Log.Basic
import Mathlib.Analysis.SpecialFunctions.Trigonometric.Basic
import Verif.Spec.Surrogate

/-!
# Specification vocabulary for the likelihood of a Gaussian process
-/

open scoped BigOperators Matrix

namespace Mfpml.Spec

/-- Minus the logarithm of the density of the centred `n`-dimensional normal distribution with covariance `C` at `r`. -/
noncomputable def gaussNLL {n : ℕ} (C : Matrix (Fin n) (Fin n) ℝ) (r : Fin n → ℝ) : ℝ :=
  n / 2 * Real.log (2 * Real.pi) + 1 / 2 * Real.log C.det + 1 / 2 * wnorm C r

/-- The correlation matrix of a sample array under the Gaussian correlation with parameters `θ`, with `v` (plus the fixed nugget `1e-10`) added on the diagonal. -/
noncomputable def trainCov {n d : ℕ} (θ : Fin d → ℝ) (X : Fin n → Fin d → ℝ) (v : ℝ) : Matrix (Fin n) (Fin n) ℝ :=
  Matrix.of fun i j => gaussCorr θ (X i) (X j) + if i = j then 1e-10 + v else 0

end Mfpml.Spec
