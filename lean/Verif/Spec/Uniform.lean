import Mathlib.MeasureTheory.Measure.Lebesgue.Basic
import Mathlib.Probability.HasLaw

/-!
# Uniform distributions

Nothing here refers to the model.
-/

open MeasureTheory ProbabilityTheory

namespace Mfpml.Spec

/-- The uniform distribution on the interval `[a, b]`. -/
noncomputable def uniformIcc (a b : ℝ) : Measure ℝ := (volume (Set.Icc a b))⁻¹ • volume.restrict (Set.Icc a b)

/-- The uniform distribution on the box `[low, high]`: independent coordinates, each uniform on its interval. -/
noncomputable def uniformBox {d : ℕ} (low high : Fin d → ℝ) : Measure (Fin d → ℝ) := Measure.pi fun j => uniformIcc (low j) (high j)

/-- `n` independent points, each uniform on the box. -/
noncomputable def independentUniform (n : ℕ) {d : ℕ} (low high : Fin d → ℝ) : Measure (Fin n → Fin d → ℝ) := Measure.pi fun _ => uniformBox low high

theorem uniformIcc_prob {a b : ℝ} (h : a < b) : IsProbabilityMeasure (uniformIcc a b) := by
  constructor
  have h1 : volume (Set.Icc a b) ≠ 0 := by simp [h]
  have h2 : volume (Set.Icc a b) ≠ ⊤ := by simp
  rw [uniformIcc, Measure.smul_apply, Measure.restrict_apply_univ, smul_eq_mul, ENNReal.inv_mul_cancel h1 h2]

theorem uniformBox_prob {d : ℕ} {low high : Fin d → ℝ} (h : ∀ j, low j < high j) : IsProbabilityMeasure (uniformBox low high) := by
  have := fun j => uniformIcc_prob (h j)
  unfold uniformBox
  infer_instance

end Mfpml.Spec
