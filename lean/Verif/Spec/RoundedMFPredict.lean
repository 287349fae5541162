import Verif.Spec.RoundedPredict

/-!
# Specification vocabulary for predictions of hierarchical Kriging in floating-point arithmetic
-/

open scoped BigOperators

namespace Mfpml.Spec

open Mfpml.Rounded

/-- The textbook formula for the mean of hierarchical Kriging at the scaled point `z`, where the low-fidelity mean is `lf`: the scaled low-fidelity mean plus weighted correlations with the scaled samples `X`, on the scale of the
responses. -/
noncomputable def hierarchicalMean {n d : ℕ} (theta : Fin d → ℝ) (X : Fin n → Fin d → ℝ) (beta : ℝ) (gamma : Fin n → ℝ) (m s lf : ℝ) (z : Fin d → ℝ) : ℝ :=
  beta * (lf - m) + s * ∑ i, Real.exp (-∑ k, theta k * (X i k - z k) ^ 2) * gamma i + m

/-- What errors are measured against: the sizes of the two parts (and a tiny number for underflow). -/
noncomputable def hierarchicalSize {p : ℕ} {emin : ℤ} {R : Rounding p emin} {n : ℕ} (beta : Fl R) (gamma : Fin n → Fl R) (m s lf : Fl R) : ℝ :=
  |beta.val| * (|lf.val - m.val| + (|s.val| + 1) * 2 ^ (emin + p - 1)) + |s.val| * (∑ i, |(gamma i).val| + (n + 2) * 2 ^ (emin + p - 1))

end Mfpml.Spec
