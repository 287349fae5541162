import Verif.Spec.RoundedPredict

/-!
# Specification vocabulary for the predicted mean of co-Kriging in floating-point arithmetic
-/

open scoped BigOperators

namespace Mfpml.Spec

open Mfpml.Rounded

/-- The textbook formula for the mean of co-Kriging at the scaled point `z`: the trained mean plus weighted covariances of the high-fidelity response at `z` with the low-fidelity responses at `Xl` and the high-fidelity responses at `Xh`,
on the scale of the responses. -/
noncomputable def coKrigingMean {nl nh d : ℕ} (thetaL theta : Fin d → ℝ) (Xl : Fin nl → Fin d → ℝ) (Xh : Fin nh → Fin d → ℝ) (rho s2L s2 mu : ℝ) (wl : Fin nl → ℝ) (wh : Fin nh → ℝ) (m s : ℝ) (z : Fin d → ℝ) : ℝ :=
  s * (mu + (∑ i, rho * s2L * Real.exp (-∑ k, thetaL k * (Xl i k - z k) ^ 2) * wl i +
    ∑ i, (rho ^ 2 * s2L * Real.exp (-∑ k, thetaL k * (Xh i k - z k) ^ 2) + s2 * Real.exp (-∑ k, theta k * (Xh i k - z k) ^ 2)) * wh i)) + m

/-- The size of the covariances (plus one). -/
noncomputable def crossSize {p : ℕ} {emin : ℤ} {R : Rounding p emin} (rho s2L s2 : Fl R) : ℝ := 1 + s2L.val * (1 + rho.val ^ 2) + s2.val

/-- What errors are measured against: the trained mean and the size of the covariances times the weights (and a tiny number for underflow). -/
noncomputable def coKrigingSize {p : ℕ} {emin : ℤ} {R : Rounding p emin} {n : ℕ} (rho s2L s2 mu : Fl R) (w : Fin n → Fl R) : ℝ :=
  |mu.val| + crossSize rho s2L s2 * ∑ a, |(w a).val| + (n + 1) * 2 ^ (emin + p - 1)

/-- The accuracy of the predicted mean relative to this size: that of the correlations, the nugget `1e-10` of the kernel and roundings. -/
noncomputable def coKrigingAccuracy {p : ℕ} {emin : ℤ} {R : Rounding p emin} {d : ℕ} (n : ℕ) (paramL param : Fin d → Fl R) (δ : ℝ) : ℝ :=
  kernelAccuracy paramL δ + kernelAccuracy param δ + 1e-10 + 2 * (n + 7) * 2 ^ (-(p : ℤ))

end Mfpml.Spec
