import Mathlib.Analysis.SpecialFunctions.Exp
import Verif.Spec.RoundedKernel
import Verif.Model.RoundedPredict

/-!
# Specification vocabulary for predictions in floating-point arithmetic
-/

open scoped BigOperators

namespace Mfpml.Spec

open Mfpml.Rounded

/-- The basis functions take values between -1 and 1 on the unit cube. -/
def UnitBasis {d q : ℕ} (b : GP.Basis d q) : Prop := ∀ x : Fin d → ℝ, (∀ k, 0 ≤ x k ∧ x k ≤ 1) → ∀ c, |b x c| ≤ 1

/-- The textbook formula for the mean at the scaled point `z`: trend plus weighted correlations with the scaled samples `X`, scaled back to the responses. -/
noncomputable def textbookMean {n d q : ℕ} (b : GP.Basis d q) (theta : Fin d → ℝ) (X : Fin n → Fin d → ℝ) (beta : Fin q → ℝ) (gamma : Fin n → ℝ) (m s : ℝ) (z : Fin d → ℝ) : ℝ :=
  s * (∑ c, b z c * beta c + ∑ i, Real.exp (-∑ k, theta k * (X i k - z k) ^ 2) * gamma i) + m

/-- What errors are measured against: the sum of the absolute values of all coefficients (and a tiny number for underflow). -/
noncomputable def coefficientSize {p : ℕ} {emin : ℤ} {R : Rounding p emin} {n q : ℕ} (beta : Fin q → Fl R) (gamma : Fin n → Fl R) : ℝ :=
  ∑ c, |(beta c).val| + ∑ i, |(gamma i).val| + (n + q + 1) * 2 ^ (emin + p - 1)

/-- The accuracy of a predicted mean relative to the size of the coefficients: that of the correlations, the nugget `1e-10` of the kernel and roundings. -/
noncomputable def meanAccuracy {p : ℕ} {emin : ℤ} {R : Rounding p emin} {d : ℕ} (n q : ℕ) (param : Fin d → Fl R) (δ : ℝ) : ℝ :=
  kernelAccuracy param δ + 1e-10 + 2 * (n + q + 4) * 2 ^ (-(p : ℤ))

/-- How far the trained coefficients are from solving the equations they were computed from (the solver's residual): at every sample, trend plus covariances (as computed) times weights against the normalised response. -/
def ResidualAtMost {p : ℕ} {emin : ℤ} {R : Rounding p emin} {n d q : ℕ} (b : GP.Basis d q) (Xs : Fin n → Fin d → Fl R) (C : Fin n → Fin n → Fl R) (beta : Fin q → Fl R) (gamma z : Fin n → Fl R) (ρ : ℝ) : Prop :=
  ∀ i, |∑ c, (basisFl b (Xs i) c).val * (beta c).val + ∑ k, (C i k).val * (gamma k).val - (z i).val| ≤ ρ

end Mfpml.Spec
