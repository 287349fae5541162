import Verif.Model.Evolutionary

/-!
# `PSO.run_optimizer` and `DE.run_optimizer` with an objective that may raise

The same functions as in `Verif/Model/Evolutionary.lean`, for objectives `Pop K P D → Py (Fin P → K)`: an exception raised by the objective (evolutionary_algorithms.py:283, 314, 427, 496 call it through
`FunctionWrapper`, which catches nothing) ends the run.  Everything but the evaluation is the code of `Verif/Model/Evolutionary.lean`.
-/

namespace Mfpml.EA

variable {K : Type} [Add K] [Sub K] [Mul K] [Div K] [Neg K] [Zero K] [LinearOrder K]

/-- Body of the main loop of `PSO.run_optimizer`, evolutionary_algorithms.py:221-228. -/
def psoStepM {p D : ℕ} (cfg : PSOCfg K) (b : Box K D) (func : Pop K (p + 1) D → Py (Fin (p + 1) → K)) (rnd : PSORand K (p + 1) D) (iter : ℕ) (s : PSOState K (p + 1) D) :
    Py (PSOState K (p + 1) D) := do
  let s1 := psoUpdatePop cfg b rnd iter s
  let obj ← func s1.x
  .ok (psoUpdateGenOptimum iter (psoUpdatePopOptimum (psoUpdateObj (fun _ => obj) iter s1)))

/-- The main loop of `PSO.run_optimizer`, evolutionary_algorithms.py:217-234 (see `psoLoop`). -/
def psoLoopM {p D : ℕ} (cfg : PSOCfg K) (b : Box K D) (func : Pop K (p + 1) D → Py (Fin (p + 1) → K)) (rnd : PSORand K (p + 1) D) (stop : Option K) :
    (more : ℕ) → (iter : ℕ) → PSOState K (p + 1) D → Py (PSOState K (p + 1) D × ℕ)
  | 0, iter, s => do
    let s' ← psoStepM cfg b func rnd iter s
    .ok (s', iter)
  | more + 1, iter, s => do
    let s' ← psoStepM cfg b func rnd iter s
    if stopNow stop (s'.genBest (iter + 1)) then .ok (s', iter)
    else psoLoopM cfg b func rnd stop more (iter + 1) s'

/-- `PSO.run_optimizer`, evolutionary_algorithms.py:170-253; the initial evaluation (line 283) precedes all the other error exits of `psoRun`. -/
def psoRunM {D : ℕ} : {P : ℕ} → (cfg : PSOCfg K) → (b : Box K D) → (func : Pop K P D → Py (Fin P → K)) → (stop : Option K) → (rnd : PSORand K P D) → Py (PSOResult K P D)
  | 0, _, b, func, _, rnd => do
    let _ ← func (locInit b rnd.pos)
    .error .valueError
  | _ + 1, cfg, b, func, stop, rnd => do
    let obj ← func (locInit b rnd.pos)
    if D = 0 then .error .valueError
    else if ∀ j, 0 ≤ vMax cfg b j then
      match cfg.numGen with
      | 0 => .error .unboundLocal
      | g + 1 => do
        let (s, iter) ← psoLoopM cfg b func rnd stop g 0 (psoInit cfg b (fun _ => obj) rnd)
        .ok { bestX := s.genBestXs cfg.numGen
              bestY := s.genBest cfg.numGen
              bestXHist := s.genBestXs
              bestYHist := s.genBest
              allSamples := s.samples
              allResponses := s.responses
              retY := s.genBest (iter + 1)
              retX := s.genBestXs (iter + 1)
              calls := s.calls
              popBest := s.popBest
              popBestX := s.popBestX }
    else .error .outOfModel

/-- Body of the main loop of `DE.run_optimizer`, evolutionary_algorithms.py:392-397. -/
def deStepM {p D : ℕ} (cfg : DECfg K) (b : Box K D) (func : Pop K (p + 1) D → Py (Fin (p + 1) → K)) (rnd : DERand K (p + 1) D) (iter : ℕ) (s : DEState K (p + 1) D) :
    Py (DEState K (p + 1) D) := do
  deCheck cfg (p + 1)
  let u := deTrial cfg b rnd iter s
  let obj ← func u
  .ok (deUpdateGenOptimum iter (deUpdateObj (fun _ => obj) iter u s))

/-- The main loop of `DE.run_optimizer`, evolutionary_algorithms.py:388-402 (see `deLoop`). -/
def deLoopM {p D : ℕ} (cfg : DECfg K) (b : Box K D) (func : Pop K (p + 1) D → Py (Fin (p + 1) → K)) (rnd : DERand K (p + 1) D) (stop : Option K) :
    (more : ℕ) → (iter : ℕ) → DEState K (p + 1) D → Py (DEState K (p + 1) D × ℕ)
  | 0, iter, s => do
    let s' ← deStepM cfg b func rnd iter s
    .ok (s', iter)
  | more + 1, iter, s => do
    let s' ← deStepM cfg b func rnd iter s
    if stopNow stop (s'.genBest (iter + 1)) then .ok (s', iter)
    else deLoopM cfg b func rnd stop more (iter + 1) s'

/-- `DE.run_optimizer`, evolutionary_algorithms.py:360-419. -/
def deRunM {D : ℕ} : {P : ℕ} → (cfg : DECfg K) → (b : Box K D) → (func : Pop K P D → Py (Fin P → K)) → (stop : Option K) → (rnd : DERand K P D) → Py (Result K P D)
  | 0, _, b, func, _, rnd => do
    let _ ← func (locInit b rnd.pos)
    .error .valueError
  | _ + 1, cfg, b, func, stop, rnd => do
    let obj ← func (locInit b rnd.pos)
    if D = 0 then .error .valueError else
    match cfg.numGen with
    | 0 => .error .unboundLocal
    | g + 1 => do
      let (s, iter) ← deLoopM cfg b func rnd stop g 0 (deInit b (fun _ => obj) rnd)
      .ok { bestX := s.genBestXs cfg.numGen
            bestY := s.genBest cfg.numGen
            bestXHist := s.genBestXs
            bestYHist := s.genBest
            allSamples := s.samples
            allResponses := s.responses
            retY := s.genBest (iter + 1)
            retX := s.genBestXs (iter + 1)
            calls := s.calls }

end Mfpml.EA
