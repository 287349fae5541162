import Mathlib.Algebra.BigOperators.Fin
import Mathlib.Data.Real.Basic

/-!
# Functions a polynomial trend can represent (specification for C133)
-/

open scoped BigOperators

namespace Mfpml.Spec

/-- `g` is a polynomial of degree at most 1 in the raw inputs. -/
def AffineFun {d : ℕ} (g : (Fin d → ℝ) → ℝ) : Prop := ∃ (c : ℝ) (l : Fin d → ℝ), ∀ x, g x = c + ∑ k, l k * x k

/-- `g` is a polynomial of degree at most 2 in the raw inputs. -/
def QuadraticFun {d : ℕ} (g : (Fin d → ℝ) → ℝ) : Prop :=
  ∃ (c : ℝ) (l : Fin d → ℝ) (A : Fin d → Fin d → ℝ), ∀ x, g x = c + ∑ k, l k * x k + ∑ i, ∑ j, A i j * (x i * x j)

end Mfpml.Spec
