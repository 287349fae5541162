import Verif.Spec.Likelihood

/-!
# Predictions far from the data
-/

open scoped BigOperators Matrix

namespace Mfpml.Spec

/-- A prediction routine for batches of points, returning means and standard deviations: in the rows of a batch whose row number satisfies `rows`, the mean tends to `level` and the standard deviation to `spread` as the point of
that row moves away in any direction (as one of its coordinates grows beyond all bounds), whatever the other points of the batch. -/
def FarAway {d : ℕ} (predict : (m : ℕ) → (Fin m → Fin d → ℝ) → Option ((Fin m → ℝ) × (Fin m → ℝ))) (rows : ℕ → Prop) (level spread : ℝ) : Prop :=
  ∀ ε > 0, ∃ R : ℝ, ∀ (m : ℕ) (X : Fin m → Fin d → ℝ) (j : Fin m), rows j → (∃ k, R < |X j k|) →
    ∃ μ σ, predict m X = some (μ, σ) ∧ |μ j - level| < ε ∧ |σ j - spread| < ε

/-- The weighted mean of `y` for the covariance matrix `R`: the best linear unbiased estimate of a constant. -/
noncomputable def weightedMean {n : ℕ} (R : Matrix (Fin n) (Fin n) ℝ) (y : Fin n → ℝ) : ℝ := (1 ⬝ᵥ (R⁻¹ *ᵥ y)) / (1 ⬝ᵥ (R⁻¹ *ᵥ 1))

/-- The variance of the weighted mean. -/
noncomputable def weightedMeanVar {n : ℕ} (R : Matrix (Fin n) (Fin n) ℝ) : ℝ := 1 / (1 ⬝ᵥ (R⁻¹ *ᵥ 1))

/-- The estimate of the process variance for a constant trend and the correlation matrix `R`. -/
noncomputable def weightedVar {n : ℕ} (R : Matrix (Fin n) (Fin n) ℝ) (y : Fin n → ℝ) : ℝ :=
  ((fun i => y i - weightedMean R y) ⬝ᵥ (R⁻¹ *ᵥ fun i => y i - weightedMean R y)) / n

end Mfpml.Spec
