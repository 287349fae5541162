import Verif.Spec.Acquisitions
import Verif.Model.Acquisitions

/-!
# Vocabulary of C157: the improvement a constrained optimiser looks for
-/

namespace Mfpml.Spec

open Mfpml Mfpml.Acq

/-- `u` is the expected improvement over `best` at `x`, weighted with the probability that every constraint value is at most 0.  The objective is normal with the mean and standard deviation that the surrogate
`obj` predicts, the constraints are independent and normal with the means that `cons` predict and their standard deviations plus `1e-9`. -/
def WeightedImprovement {d : ℕ} (obj : SFSurr d) (cons : List (SFSurr d)) (best : ℝ) (x : Fin d → ℝ) (u : ℝ) : Prop :=
  ∃ mean std ps, obj.predict 1 (onePoint x) = .ok (mean, std) ∧ List.Forall₂ (fun s p => s.predict 1 (onePoint x) = .ok p) cons ps ∧
    u = expectedImprovement best (mean 0) (std 0) * (ps.map fun p => probAtMost 0 (p.1 0) (p.2 0 + 1e-9)).prod

end Mfpml.Spec
