import Verif.Spec.Problems

/-! # Test problems have a minimum -/

namespace Mfpml.Problems

variable {d : ℕ}

/-- Some point of the input domain has the smallest value of all points of the input domain. -/
def AttainsMinimum (a : Attrs) (f : Batch d → Py Out) : Prop :=
  ∃ x y, InDomain a.domain x ∧ TakesValue f x y ∧ ∀ x' y', InDomain a.domain x' → TakesValue f x' y' → y ≤ y'

/-- Some point of the input domain that satisfies the constraint has the smallest value of all these points. -/
def AttainsFeasibleMinimum (a : Attrs) (f cons : Batch d → Py Out) : Prop :=
  ∃ x y c, InDomain a.domain x ∧ TakesValue f x y ∧ TakesValue cons x c ∧ c ≤ 0 ∧
    ∀ x' y' c', InDomain a.domain x' → TakesValue f x' y' → TakesValue cons x' c' → c' ≤ 0 → y ≤ y'

end Mfpml.Problems
