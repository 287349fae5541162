import Verif.Model.Constructors
import Verif.Spec.Surrogate

/-!
# Specification: hyper-parameters within bounds
-/

namespace Mfpml.Spec

open Mfpml.GP

/-- The hyper-parameters of a kernel, as it reports them, lie between `10 ** low` and `10 ** high`. -/
def ParamsWithin {d : ℕ} (bound : ℝ × ℝ) (k : RBF d) : Prop := ∀ p ∈ k.hyperparameters, (10 : ℝ) ^ bound.1 ≤ p ∧ p ≤ (10 : ℝ) ^ bound.2

/-- A search that never returns a point outside its bounds, whatever the objective does. -/
def StaysInside (mini : Minimizer) : Prop :=
  ∀ (p : ℕ) (obj : (Fin p → ℝ) → Py ℝ) (x0 lo hi x : Fin p → ℝ) (f : ℝ), (∀ j, lo j ≤ hi j) → mini p obj x0 lo hi = .ok (x, f) → Between lo hi x

/-- The same for an optimiser object. -/
def PopStaysInside (run : PopOptimizer) : Prop := ∀ (p : ℕ) (obj : (Fin p → ℝ) → Py ℝ) (lo hi x : Fin p → ℝ), (∀ j, lo j ≤ hi j) → run p obj lo hi = .ok x → Between lo hi x

end Mfpml.Spec
