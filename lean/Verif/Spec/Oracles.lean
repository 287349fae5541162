import Verif.Model.GP
import Verif.Spec.Surrogate

/-!
# Assumptions about the hyper-parameter optimisers

scipy's L-BFGS-B and the population optimisers are not modelled; these are the only facts about them that the theorems use.
-/

namespace Mfpml.Spec

open Mfpml.GP

/-- A local optimiser that, for an objective without errors on a non-empty box, returns a point of the box together with the objective value there. -/
def GoodMinimizer (mini : Minimizer) : Prop :=
  ∀ (p : ℕ) (obj : (Fin p → ℝ) → Py ℝ) (x0 lo hi : Fin p → ℝ), (∀ j, lo j ≤ hi j) → (∀ x, Between lo hi x → ∃ v, obj x = .ok v) →
    ∃ x f, mini p obj x0 lo hi = .ok (x, f) ∧ Between lo hi x ∧ obj x = .ok f

/-- A population optimiser that, for an objective without errors on a non-empty box of at least one dimension, returns a point of the box. (The library's PSO and DE do: C84.) -/
def GoodPopOptimizer (run : PopOptimizer) : Prop :=
  ∀ (p : ℕ) (_ : 0 < p) (obj : (Fin p → ℝ) → Py ℝ) (lo hi : Fin p → ℝ), (∀ j, lo j ≤ hi j) → (∀ x, Between lo hi x → ∃ v, obj x = .ok v) →
    ∃ x, run p obj lo hi = .ok x ∧ Between lo hi x

/-- The optimiser that stays at the lower corner (any objective decrease could be added; it shows the assumption can be met). -/
def cornerMinimizer : Minimizer := fun _ obj _ lo _ => do
  let f ← obj lo
  .ok (lo, f)

theorem cornerMinimizer_good : GoodMinimizer cornerMinimizer := by
  intro p obj x0 lo hi hb hobj
  obtain ⟨v, hv⟩ := hobj lo (fun j => ⟨le_refl _, hb j⟩)
  refine ⟨lo, v, ?_, fun j => ⟨le_refl _, hb j⟩, hv⟩
  unfold cornerMinimizer
  rw [hv]
  rfl

end Mfpml.Spec
