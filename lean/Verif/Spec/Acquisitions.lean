import Verif.Model.Acquisitions
import Verif.Model.Evolutionary

/-!
# Specification vocabulary for acquisition functions
-/

open MeasureTheory ProbabilityTheory Set

namespace Mfpml.Spec

open Mfpml.EA (Box)

/-- The normal distribution with mean `μ` and standard deviation `|σ|`. -/
noncomputable def normalLaw (μ σ : ℝ) : Measure ℝ := gaussianReal μ (NNReal.mk (σ ^ 2) (sq_nonneg σ))

/-- The expected improvement over `best` when the outcome is normal: the mean of `max (best - Y) 0`. -/
noncomputable def expectedImprovement (best μ σ : ℝ) : ℝ := ∫ y, max (best - y) 0 ∂(normalLaw μ σ)

/-- The probability of an outcome of at most `a`. -/
noncomputable def probAtMost (a μ σ : ℝ) : ℝ := (normalLaw μ σ).real (Iic a)

/-- `x` lies in the box. -/
def InBounds {d : ℕ} (b : Box ℝ d) (x : Fin d → ℝ) : Prop := ∀ j, b.low j ≤ x j ∧ x j ≤ b.high j

/-- A search procedure that reports a point of the box and the objective's value there. -/
def GoodSearch {W : Type} {d : ℕ} (de : Acq.DiffEvo W d) : Prop :=
  ∀ f b w x v w', de f b w = .ok ((x, v), w') → InBounds b x ∧ f x = .ok v

/-- A search procedure that moreover finds a value within `ε` of every value over the box (`ε = 0`: a global minimum). -/
def ApproxSearch {W : Type} {d : ℕ} (ε : ℝ) (de : Acq.DiffEvo W d) : Prop :=
  GoodSearch de ∧ ∀ f b w x v w', de f b w = .ok ((x, v), w') → ∀ x' v', InBounds b x' → f x' = .ok v' → v ≤ v' + ε

/-- An optimiser that evaluates its objective at least once and lets exceptions through: if every evaluation raises `e`, the run raises `e`. -/
def PropagatesErrors {W : Type} {d : ℕ} (run : Acq.PopOpt W d) : Prop :=
  ∀ f b w e, (∀ m X, f m X = .error e) → run f b w = .error e

/-- A surrogate whose standard deviations are never negative. -/
def SFNonneg {d : ℕ} (s : Acq.SFSurr d) : Prop := ∀ m X mean std, s.predict m X = .ok (mean, std) → ∀ j, 0 ≤ std j

/-- A multi-fidelity surrogate whose standard deviations, of either fidelity, are never negative. -/
def MFNonneg {d : ℕ} (s : Acq.MFSurr d) : Prop :=
  (∀ m X mean std, s.predictStd m X = .ok (mean, std) → ∀ j, 0 ≤ std j) ∧ ∀ m X mean std, s.predictLfStd m X = .ok (mean, std) → ∀ j, 0 ≤ std j

end Mfpml.Spec
