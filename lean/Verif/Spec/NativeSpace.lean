import Verif.Spec.Surrogate

/-!
# Response functions for which Kriging gives error bounds (C165)

Finite sums of Gaussian bumps, with the widths of the kernel, at any centres, and their size (the square of the norm in the native space of the kernel).
-/

open scoped BigOperators

namespace Mfpml.Spec

/-- A point in coordinates that run from 0 to 1 in the design space with bounds `low` and `high`. -/
noncomputable abbrev toUnit {d : ℕ} (low high x : Fin d → ℝ) : Fin d → ℝ := fun k => (x k - low k) / (high k - low k)

/-- `∑ a_k exp(-∑ θ (z_k - x)²)`: bumps at the centres `z k` with heights `a k`. -/
noncomputable def bumps {d p : ℕ} (θ : Fin d → ℝ) (z : Fin p → Fin d → ℝ) (a : Fin p → ℝ) (x : Fin d → ℝ) : ℝ := ∑ k, a k * gaussCorr θ (z k) x

/-- The squared size of such a sum, `∑ a_k a_l exp(-∑ θ (z_k - z_l)²)`. -/
noncomputable def bumpSize {d p : ℕ} (θ : Fin d → ℝ) (z : Fin p → Fin d → ℝ) (a : Fin p → ℝ) : ℝ := ∑ k, ∑ l, a k * a l * gaussCorr θ (z k) (z l)

/-- One bump of height `a` has size `a²`. -/
example {d : ℕ} (θ z : Fin d → ℝ) (a : ℝ) : bumpSize θ ![z] ![a] = a ^ 2 := by simp [bumpSize, gaussCorr]; ring

end Mfpml.Spec
