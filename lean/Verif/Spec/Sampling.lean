import Mathlib.Algebra.Order.Field.Basic

/-!
# Specification vocabulary for samplers
-/

namespace Mfpml.Spec

variable {K : Type} [Field K] [LinearOrder K]

/-- The list of points `l` is a Latin hypercube on `[low, high]`: cutting every axis into `n = l.length` equal cells
`(low + k h, low + (k+1) h]`, `h = (high - low) / n`, each cell contains exactly one of the points (points are told apart by their
position `i` in the list).  scipy's cells are closed on the right: it computes `(permutation - uniform[0,1)) / n`. -/
def IsLatin {d : ℕ} (low high : Fin d → K) (l : List (Fin d → K)) : Prop :=
  ∀ (j : Fin d) (k : ℕ), k < l.length → ∃! i : ℕ, ∃ x, l[i]? = some x ∧
    low j + (k : K) * ((high j - low j) / (l.length : K)) < x j ∧ x j ≤ low j + ((k : K) + 1) * ((high j - low j) / (l.length : K))

end Mfpml.Spec
