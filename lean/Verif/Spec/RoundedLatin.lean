import Mathlib.Data.Real.Basic
import Mathlib.Logic.Equiv.Defs

/-!
# Specification vocabulary for Latin hypercubes in floating-point arithmetic
-/

namespace Mfpml.Spec

/-- The list of points `l` is a Latin hypercube on `[low, high]` up to the tolerance `tol`: along every axis the points can be sorted so that the `k`-th of them lies in the `k`-th of the `n = l.length` equal cells
`[low + k h, low + (k+1) h]`, `h = (high - low) / n`, or at most `tol` outside. -/
def IsLatinUpTo {d : ℕ} (tol low high : Fin d → ℝ) (l : List (Fin d → ℝ)) : Prop :=
  ∀ j : Fin d, ∃ σ : Fin l.length ≃ Fin l.length,
    (∀ k : Fin l.length, low j + (k : ℝ) * ((high j - low j) / l.length) - tol j ≤ l[σ k] j ∧ l[σ k] j ≤ low j + ((k : ℝ) + 1) * ((high j - low j) / l.length) + tol j) ∧
    ∀ k k' : Fin l.length, k ≤ k' → l[σ k] j ≤ l[σ k'] j

end Mfpml.Spec
