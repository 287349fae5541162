import Mathlib.Order.Bounds.Basic
import Verif.Model.BayesOpt

/-!
# Specification vocabulary for the Bayesian optimisation loops
-/

namespace Mfpml.Spec

open Mfpml.BO

/-- "The error to the known optimum": relative, absolute for optimum 0, and 1 when the optimum is unknown. -/
def optimumError {K : Type} [Field K] [LinearOrder K] (best : K) : Option K → K
  | none => 1
  | some o => if o = 0 then |best| else |best - o| / |o|

variable {K : Type} [Zero K] [One K] [Neg K] [Sub K] [Div K] [LinearOrder K] {X S W : Type}

/-- The error to the known optimum as computed, with every operation rounded as the arithmetic of `K` does: the distance relative to the optimum, the distance for optimum 0, and 1 when the optimum is unknown.  In exact arithmetic
this is `optimumError` (C57). -/
def computedError (best : K) : Option K → K
  | none => 1
  | some o => if o = 0 then max (best - o) (-(best - o)) else max ((best - o) / o) (-((best - o) / o))

/-- A batch function returns one response per sample (shown for the library's problems under C68). -/
def OneRowEach {α β : Type} (f : List α → Py (List β)) : Prop := ∀ xs ys, f xs = .ok ys → ys.length = xs.length

/-- States of a single-fidelity optimiser a user can meet: constructed, then any number of completed `run_optimizer` calls. -/
inductive SFReachable (p : SFProblem K X S W) : SFState K X S W → Prop
  | new (rng : W) {s} : p.new rng = .ok s → SFReachable p s
  | run {s} (maxIter : ℕ) (stop : K) {s' b x} : SFReachable p s → p.run maxIter stop s = .ok (s', b, x) → SFReachable p s'

/-- The same for the multi-fidelity optimiser. -/
inductive MFReachable (p : MFProblem K X S W) : MFState K X S W → Prop
  | new (rng : W) {s} : p.new rng = .ok s → MFReachable p s
  | run {s} (maxIter : ℕ) (costRatio stop : K) {s'} : MFReachable p s → p.run maxIter costRatio stop s = .ok s' → MFReachable p s'

/-- The same for the constrained optimiser. -/
inductive ConsReachable {c : ℕ} (p : ConsProblem K X S W c) : ConsState K X S W c → Prop
  | new (rng : W) {s} : p.new rng = .ok s → ConsReachable p s
  | run {s} (maxIter : ℕ) (stop : K) {s' b x} : ConsReachable p s → p.run maxIter stop s = .ok (s', b, x) → ConsReachable p s'

/-- Observation number `i` of a constrained optimiser has objective value `y` and satisfies all constraints. -/
def FeasibleAt {c : ℕ} (obj : List K) (cons : List (Fin c → K)) (i : ℕ) (y : K) : Prop :=
  obj[i]? = some y ∧ ∃ g, cons[i]? = some g ∧ ∀ j, g j ≤ 0

end Mfpml.Spec
