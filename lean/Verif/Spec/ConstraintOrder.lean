import Verif.Spec.BOInputUnits

/-!
# Specification: the constraints of a problem in another order
-/

namespace Mfpml.Spec

open Mfpml.Acq Mfpml.BO

variable {d c : ℕ}

/-- The row of constraint values with the constraints in another order: constraint `i` of the new problem is constraint `σ i` of the old one. -/
def reorder (σ : Equiv.Perm (Fin c)) (row : Fin c → ℝ) : Fin c → ℝ := fun i => row (σ i)

/-- `g'` computes the constraints of `g` in another order (and fails where `g` fails). -/
def SameConstraints (σ : Equiv.Perm (Fin c)) (g g' : List (Fin d → ℝ) → Py (List (Fin c → ℝ))) : Prop :=
  ∀ xs, g' xs = (g xs).map fun rows => rows.map (reorder σ)

/-- What a training produces does not depend on the random state it starts from: the restarts of the search for the kernel parameters lead to the same parameters wherever they begin. -/
def StartFree (o : Outside d) : Prop :=
  ∀ (k : Kriging d) (xs : List (Fin d → ℝ)) (ys : List ℝ) (w w' : o.env.S), (k.train o xs ys w).map Prod.fst = (k.train o xs ys w').map Prod.fst

/-- Two runs of constrained Bayesian optimisation that differ in the order of the constraints only: the same samples, objective values, best values and points, the same use of the random generator, the constraint values
and the constraint surrogates in the other order. -/
structure SameRunReordered {W : Type} (σ : Equiv.Perm (Fin c)) (s s' : ConsState ℝ (Fin d → ℝ) (Kriging d × List (Kriging d)) W c) : Prop where
  sample : s'.sample = s.sample
  objResponse : s'.objResponse = s.objResponse
  consResponse : s'.consResponse = s.consResponse.map (reorder σ)
  objSurrogate : s'.surrogate.1 = s.surrogate.1
  number : s.surrogate.2.length = c ∧ s'.surrogate.2.length = c
  consSurrogate : ∀ i : Fin c, s'.surrogate.2[i.val]? = s.surrogate.2[(σ i).val]?
  best : s'.best = s.best
  bestX : s'.bestX = s.bestX
  historyBest : s'.historyBest = s.historyBest
  historyBestX : s'.historyBestX = s.historyBestX
  calls : s'.calls = s.calls
  rng : s'.rng = s.rng

end Mfpml.Spec
