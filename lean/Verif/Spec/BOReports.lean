import Verif.Model.BOReports

/-!
# Specification vocabulary: what the Bayesian optimisers print
-/

namespace Mfpml.Spec

open Mfpml.BO

/-- `n` iterations, none of which raised, lead from one state to another. -/
inductive Iterations {T : Type} (iterate : T → Py T) : ℕ → T → T → Prop
  | none {s} : Iterations iterate 0 s s
  | more {n s t u} : iterate s = .ok t → Iterations iterate n t u → Iterations iterate (n + 1) s u

variable {K X B G : Type}

/-- A report: iteration, best value, best point, fidelity and error as shown. -/
def reportOf : Line K X B G → Option (ℕ × Shown K × B × Option ℤ × Option (Shown K))
  | .report i b x f e => some (i, b, x, f, e)
  | _ => none

/-- The reports among the printed lines. -/
def reports (ls : List (Line K X B G)) : List (ℕ × Shown K × B × Option ℤ × Option (Shown K)) := ls.filterMap reportOf

/-- A printed evaluation of the multi-fidelity optimiser: point, responses, fidelity. -/
def evaluationOf : Line K X B G → Option (X × List K × ℤ)
  | .evaluated x y f => some (x, y, f)
  | _ => none

/-- The printed evaluations of the multi-fidelity optimiser. -/
def evaluations (ls : List (Line K X B G)) : List (X × List K × ℤ) := ls.filterMap evaluationOf

/-- A printed evaluation of the constrained optimiser: point, objective, constraints. -/
def evaluationConsOf : Line K X B G → Option (X × List K × G)
  | .evaluatedCons x y g => some (x, y, g)
  | _ => none

/-- The printed evaluations of the constrained optimiser. -/
def evaluationsCons (ls : List (Line K X B G)) : List (X × List K × G) := ls.filterMap evaluationConsOf

/-- The note that no sample is feasible. -/
def noteOf : Line K X B G → Option Unit
  | .noFeasible => some ()
  | _ => none

/-- The notes that no sample is feasible. -/
def infeasibleNotes (ls : List (Line K X B G)) : List Unit := ls.filterMap noteOf

/-- The shown number is within half a unit of its last decimal of `v`. -/
def ShowsWithin [Field K] [LinearOrder K] (v : K) : Shown K → Prop
  | .full w => w = v
  | .fixed d n => |v * 10 ^ d - n| ≤ 1 / 2
  | .inf => False

end Mfpml.Spec
