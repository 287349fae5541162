import Verif.Model.GP
import Verif.Model.EvolutionaryRaise

/-!
# The library's own optimisers in hyper-parameter searches

`self.optimizer.run_optimizer(self._logLikelihood, num_dim=num_hyper, design_space=hyper_bounds)` and `optimum_info["best_x"]`: gaussian_process.py:192-200, the same text in hierarchical_kriging.py:155-161 and
in co_kriging.py, for `optimizer` a `PSO` or a `DE` object.
-/

namespace Mfpml.GP

open Mfpml.EA

/-- The loop over the rows of `params` in `_logLikelihood`, gaussian_process.py:222-261 (hierarchical_kriging.py:181-222): one row after the other, the first exception ends it. -/
def evalRows {D : ℕ} (obj : (Fin D → ℝ) → Py ℝ) : (P : ℕ) → Pop ℝ P D → Py (Fin P → ℝ)
  | 0, _ => .ok Fin.elim0
  | P + 1, X => do
    let y ← obj (X 0)
    let ys ← evalRows obj P (fun i => X i.succ)
    .ok (Fin.cons y ys)

/-- A `PSO` object with `P` particles as hyper-parameter optimiser: no `stopping_error` is passed, and the dictionary entry `best_x` is used (gaussian_process.py:194-200).  `rnd` are numpy's draws, for every
length of the parameter vector. -/
noncomputable def psoSearch {P : ℕ} (cfg : PSOCfg ℝ) (rnd : (p : ℕ) → PSORand ℝ P p) : PopOptimizer := fun p obj lo hi => do
  let r ← psoRunM cfg { low := lo, high := hi } (evalRows obj P) none (rnd p)
  .ok r.bestX

/-- A `DE` object with population size `P` as hyper-parameter optimiser (gaussian_process.py:194-200). -/
noncomputable def deSearch {P : ℕ} (cfg : DECfg ℝ) (rnd : (p : ℕ) → DERand ℝ P p) : PopOptimizer := fun p obj lo hi => do
  let r ← deRunM cfg { low := lo, high := hi } (evalRows obj P) none (rnd p)
  .ok r.bestX

end Mfpml.GP
