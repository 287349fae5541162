import Verif.Spec.BOUnits
import Verif.Spec.BOInputUnits

/-!
# Specification: other units of the objective and of the constraints

The objective is converted by `y ↦ a * y + b`, constraint `j` by the factor `k j` (a constraint is met where its value is at most 0, so there is no offset).
-/

namespace Mfpml.Spec

open Mfpml.GP Mfpml.Acq Mfpml.BO

/-- The constraints with their values given in other units. -/
def consInUnits {X : Type} {n : ℕ} (k : ℕ → ℝ) (g : List X → Py (List (Fin n → ℝ))) : List X → Py (List (Fin n → ℝ)) := fun xs => (g xs).map fun gs => gs.map fun v (j : Fin n) => k j * v j

/-- The probability of feasibility at one point with the guard `ts i` in place of `1e-9` for constraint number `i` (sf_cons_acqusitions.py:127-139). The first argument is the number of the first constraint of
the list. -/
noncomputable def pofGuard {d : ℕ} (ts : ℕ → ℝ) (x : Samples 1 d) : ℕ → List (SFSurr d) → Py ℝ
  | _, [] => .ok 1
  | i, s :: rest => do
    let (u, mse) ← s.predict 1 x
    let q ← pofGuard ts x (i + 1) rest
    .ok (normCdf (0 - u 0 / (mse 0 + ts i)) * q)

/-- `CEI.eval` at one point with the guard `t` in the expected improvement and the guards `ts` in the probability of feasibility (sf_cons_acqusitions.py:86-139). -/
noncomputable def ceiGuard {d : ℕ} (t : ℝ) (ts : ℕ → ℝ) (obj : SFSurr d) (cons : List (SFSurr d)) (x : Samples 1 d) : Py ℝ := do
  let fmin ← npMin obj.sampleY
  let (yhat, sigma) ← obj.predict 1 x
  let q ← pofGuard ts x 0 cons
  .ok (-((fmin - yhat 0) * normCdf ((fmin - yhat 0) / (sigma 0 + t)) + sigma 0 * normPdf ((fmin - yhat 0) / (sigma 0 + t))) * q)

/-- The constrained optimiser with these guards: `query` searches with `ceiGuard` (sf_cons_acqusitions.py:43-74); everything else is as in the library. -/
noncomputable def consBOGuard {d n : ℕ} (t : ℝ) (ts : ℕ → ℝ) (o : Outside d) (b : EA.Box ℝ d) (f : List (Fin d → ℝ) → Py (List ℝ)) (g : List (Fin d → ℝ) → Py (List (Fin n → ℝ))) (numCons : ℕ)
    (optimum : Option ℝ) (numInit seed : ℕ) : ConsProblem ℝ (Fin d → ℝ) (Kriging d × List (Kriging d)) o.env.S n :=
  { consBO o b f g numCons optimum none numInit seed with
    query := fun k w => do
      let s ← k.1.view
      let cs ← k.2.mapM Kriging.view
      let (res, w) ← o.de (fun x => ceiGuard t ts s cs (onePoint x)) s.bounds w
      .ok (res.1, w) }

/-- The same run told in two units: the same points in the same order and the same best points; objective values, best values and constraint values are converted. -/
structure SameConsRun {X S W : Type} {n : ℕ} (a b : ℝ) (k : ℕ → ℝ) (s s' : ConsState ℝ X S W n) : Prop where
  sample : s'.sample = s.sample
  objResponse : s'.objResponse = s.objResponse.map fun y => a * y + b
  consResponse : s'.consResponse = s.consResponse.map fun v (j : Fin n) => k j * v j
  best : s'.best = s.best.map fun y => a * y + b
  bestX : s'.bestX = s.bestX
  historyBest : s'.historyBest = s.historyBest.map fun h => h.map fun y => a * y + b
  historyBestX : s'.historyBestX = s.historyBestX
  calls : s'.calls = s.calls
  rng : s'.rng = s.rng

end Mfpml.Spec
