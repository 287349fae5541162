import Mathlib.Algebra.Order.Field.Basic
import Mathlib.Data.List.FinRange
import Mathlib.Logic.Function.Basic
import Verif.Model.Prelude

/-!
# Model of `src/mfpml/optimization/evolutionary_algorithms.py`

Numbers: any type `K` with the operations `+ - * / 0` and a linear order, nothing else is assumed here.  A linearly ordered field is exact arithmetic; a type whose operations round (or saturate) is an arithmetic
like that of floats without `nan`.  Theorems say which laws they need.
A population array of shape `(num_pop, num_dim)` is `Fin P → Fin D → K`, a column `(num_pop, 1)` is `Fin P → K`.
History arrays have `num_gen + 1` pre-zeroed rows in the code; here they are functions `ℕ → _` that start as
zero, of which rows `0 … num_gen` are the rows of the array (no other row is ever read or written).
Random draws are arguments.  The objective is an arbitrary function of the whole population.
-/

namespace Mfpml.EA

variable {K : Type} [Add K] [Sub K] [Mul K] [Div K] [Neg K] [Zero K] [LinearOrder K]

/-- A design space (`design_space[:, 0]`, `design_space[:, 1]`; evolutionary_algorithms.py:201-203, 374-376). -/
structure Box (K : Type) (D : ℕ) where
  low : Fin D → K
  high : Fin D → K

/-- A population: `num_pop` rows with `num_dim` coordinates (evolutionary_algorithms.py:55-63). -/
abbrev Pop (K : Type) (P D : ℕ) := Fin P → Fin D → K

/-- `EABase._location_initialzer`, evolutionary_algorithms.py:55-63; `u` is the array drawn by `np.random.random`. -/
def locInit {P D : ℕ} (b : Box K D) (u : Pop K P D) : Pop K P D :=
  fun i j => u i j * (b.high j - b.low j) + b.low j

/-- `np.argmin` of a non-empty column: index of the first smallest entry (used at evolutionary_algorithms.py:81). -/
def argmin {p : ℕ} (v : Fin (p + 1) → K) : Fin (p + 1) :=
  (List.finRange p).foldl (fun best i => if v i.succ < v best then i.succ else best) 0

/-- `obj.min()` of a non-empty column (evolutionary_algorithms.py:96). -/
def colMin {p : ℕ} (v : Fin (p + 1) → K) : K :=
  (List.finRange p).foldl (fun m i => min m (v i.succ)) (v 0)

/-- `EABase._gen_best_x`, evolutionary_algorithms.py:65-81. -/
def genBestX {p D : ℕ} (pop : Pop K (p + 1) D) (obj : Fin (p + 1) → K) : Fin D → K :=
  pop (argmin obj)

/-- `EABase._gen_best_obj`, evolutionary_algorithms.py:83-96. -/
def genBestObj {p : ℕ} (obj : Fin (p + 1) → K) : K := colMin obj

/-- `EABase._loc_cons`, evolutionary_algorithms.py:98-111.  The loop over dimensions `ii` draws a whole new population `u ii`
and uses its column `ii` for the out-of-range entries of column `ii`; column `ii` is touched only in round `ii`, so the loop is
written column by column. -/
def locCons {P D : ℕ} (b : Box K D) (u : Fin D → Pop K P D) (x : Pop K P D) : Pop K P D :=
  fun i ii => if x i ii < b.low ii ∨ x i ii > b.high ii then locInit b (u ii) i ii else x i ii

/-- `__update_gen_optimum`, identical in both classes: evolutionary_algorithms.py:324-333 (PSO) and 508-517 (DE).
Returns the two history arrays with row `iter + 1` written. -/
def updateGenOptimum {p D : ℕ} (iter : ℕ) (genBest : ℕ → K) (genBestXs : ℕ → Fin D → K)
    (x : Pop K (p + 1) D) (obj : Fin (p + 1) → K) : (ℕ → K) × (ℕ → Fin D → K) :=
  if genBest iter ≥ genBestObj obj then
    (Function.update genBest (iter + 1) (genBestObj obj),
     Function.update genBestXs (iter + 1) (genBestX x obj))
  else
    (Function.update genBest (iter + 1) (genBest iter),
     Function.update genBestXs (iter + 1) (genBestXs iter))

/-- What `run_optimizer` returns: the `results` dictionary (evolutionary_algorithms.py:237-247, 404-414), the second and third
return values (249-253, 415-419), and — ghost, not in the code — the arrays the objective was called with, in order. -/
structure Result (K : Type) (P D : ℕ) where
  bestX : Fin D → K
  bestY : K
  bestXHist : ℕ → Fin D → K
  bestYHist : ℕ → K
  allSamples : ℕ → Pop K P D
  allResponses : ℕ → Fin P → K
  retY : K
  retX : Fin D → K
  calls : List (Pop K P D)

/-- For `PSO` also the object's attributes `pop_best` and `pop_best_x` as the run leaves them (317-322) (evolutionary_algorithms.py:317-322). -/
structure PSOResult (K : Type) (P D : ℕ) extends Result K P D where
  popBest : Fin P → K
  popBestX : Pop K P D

/-! ## PSO -/

/-- Constructor arguments of `PSO`, evolutionary_algorithms.py:136-168 (`num_pop` is the type index `P`). -/
structure PSOCfg (K : Type) where
  numGen : ℕ
  cognition : K
  social : K
  weight : K
  maxVRate : K

/-- Attributes of a running `PSO` object (evolutionary_algorithms.py:197-212), plus the ghost call log. -/
structure PSOState (K : Type) (P D : ℕ) where
  x : Pop K P D
  v : Pop K P D
  obj : Fin P → K
  popBest : Fin P → K
  popBestX : Pop K P D
  genBest : ℕ → K
  genBestXs : ℕ → Fin D → K
  samples : ℕ → Pop K P D
  responses : ℕ → Fin P → K
  calls : List (Pop K P D)

/-- All random draws of a `PSO` run: initial positions and velocities, and the replacement populations of `_loc_cons`
for every iteration and dimension (evolutionary_algorithms.py:55-63, 98-111, 275-310). -/
structure PSORand (K : Type) (P D : ℕ) where
  pos : Pop K P D
  vel : Pop K P D
  repl : ℕ → Fin D → Pop K P D

/-- `self.v_max`, evolutionary_algorithms.py:263. -/
def vMax {D : ℕ} (cfg : PSOCfg K) (b : Box K D) : Fin D → K :=
  fun j => (b.high j - b.low j) * cfg.maxVRate

/-- `PSO._pso_initializer`, evolutionary_algorithms.py:275-291, with `__velocity_initialzer` (255-268, `trick="random"`) and
the zeroed histories (205-212).  `pop_best`/`pop_best_x` alias `obj`/`x` in the code; this has no effect
unless the objective returns its first array again, see `Model/EvolutionaryHeap.lean` and C98, and is not modelled here. -/
def psoInit {p D : ℕ} (cfg : PSOCfg K) (b : Box K D) (func : Pop K (p + 1) D → Fin (p + 1) → K)
    (rnd : PSORand K (p + 1) D) : PSOState K (p + 1) D :=
  let x := locInit b rnd.pos
  let v : Pop K (p + 1) D := fun i j => rnd.vel i j * vMax cfg b j
  let obj := func x
  { x := x
    v := v
    obj := obj
    popBest := obj
    popBestX := x
    genBest := Function.update (fun _ => 0) 0 (genBestObj obj)
    genBestXs := Function.update (fun _ _ => 0) 0 (genBestX x obj)
    samples := Function.update (fun _ _ _ => 0) 0 x
    responses := Function.update (fun _ _ => 0) 0 obj
    calls := [x] }

/-- `np.abs` (evolutionary_algorithms.py:339-341). -/
def npAbs (a : K) : K := max a (-a)

/-- `PSO.__velocity_cons`, evolutionary_algorithms.py:335-342. -/
def velocityCons {P D : ℕ} (vmax : Fin D → K) (v : Pop K P D) : Pop K P D :=
  fun i j => if npAbs (v i j) > vmax j then v i j * vmax j / npAbs (v i j) else v i j

/-- `PSO.__update_pop`, evolutionary_algorithms.py:293-310. -/
def psoUpdatePop {P D : ℕ} (cfg : PSOCfg K) (b : Box K D) (rnd : PSORand K P D) (iter : ℕ)
    (s : PSOState K P D) : PSOState K P D :=
  let v' : Pop K P D := fun i j =>
    cfg.weight * s.v i j + cfg.cognition * (s.popBestX i j - s.x i j)
      + cfg.social * (s.genBestXs iter j - s.x i j)
  let v := velocityCons (vMax cfg b) v'
  let x := locCons b (rnd.repl iter) (fun i j => s.x i j + v i j)
  { s with v := v, x := x, samples := Function.update s.samples (iter + 1) x }

/-- `PSO.__update_obj`, evolutionary_algorithms.py:312-315. -/
def psoUpdateObj {P D : ℕ} (func : Pop K P D → Fin P → K) (iter : ℕ) (s : PSOState K P D) :
    PSOState K P D :=
  let obj := func s.x
  { s with obj := obj, responses := Function.update s.responses (iter + 1) obj,
           calls := s.calls ++ [s.x] }

/-- `PSO.__update_pop_optimum`, evolutionary_algorithms.py:317-322. -/
def psoUpdatePopOptimum {P D : ℕ} (s : PSOState K P D) : PSOState K P D :=
  { s with
    popBest := fun i => if s.obj i ≤ s.popBest i then s.obj i else s.popBest i
    popBestX := fun i => if s.obj i ≤ s.popBest i then s.x i else s.popBestX i }

/-- `PSO.__update_gen_optimum`, evolutionary_algorithms.py:324-333. -/
def psoUpdateGenOptimum {p D : ℕ} (iter : ℕ) (s : PSOState K (p + 1) D) : PSOState K (p + 1) D :=
  let r := updateGenOptimum iter s.genBest s.genBestXs s.x s.obj
  { s with genBest := r.1, genBestXs := r.2 }

/-- Body of the main loop of `PSO.run_optimizer`, evolutionary_algorithms.py:221-228 (printing and pickling: `Model/StepResults.lean`). -/
def psoStep {p D : ℕ} (cfg : PSOCfg K) (b : Box K D) (func : Pop K (p + 1) D → Fin (p + 1) → K)
    (rnd : PSORand K (p + 1) D) (iter : ℕ) (s : PSOState K (p + 1) D) : PSOState K (p + 1) D :=
  psoUpdateGenOptimum iter (psoUpdatePopOptimum (psoUpdateObj func iter (psoUpdatePop cfg b rnd iter s)))

/-- `self.stopping_error is not None and self.gen_best[iter + 1, 0] < self.stopping_error`,
evolutionary_algorithms.py:232-234 and 400-402. -/
def stopNow (stop : Option K) (best : K) : Bool :=
  match stop with
  | none => false
  | some e => decide (best < e)

/-- The `for iter in range(num_gen)` loop of `PSO.run_optimizer`, evolutionary_algorithms.py:217-234, entered at `iter` with
`more` further iterations allowed after this one.  Returns the final state and the final value of `iter`. -/
def psoLoop {p D : ℕ} (cfg : PSOCfg K) (b : Box K D) (func : Pop K (p + 1) D → Fin (p + 1) → K)
    (rnd : PSORand K (p + 1) D) (stop : Option K) :
    (more : ℕ) → (iter : ℕ) → PSOState K (p + 1) D → PSOState K (p + 1) D × ℕ
  | 0, iter, s => (psoStep cfg b func rnd iter s, iter)
  | more + 1, iter, s =>
    let s' := psoStep cfg b func rnd iter s
    if stopNow stop (s'.genBest (iter + 1)) then (s', iter)
    else psoLoop cfg b func rnd stop more (iter + 1) s'

/-- `PSO.run_optimizer`, evolutionary_algorithms.py:170-253.  `num_pop = 0`: `obj.min()` of an empty array raises `ValueError`.
`num_dim = 0`: `reshape(-1, 0)` at line 81 raises `ValueError`.
`num_gen = 0`: the loop variable `iter` of line 251 is never bound (`UnboundLocalError`).
A negative velocity bound makes line 339-341 divide by zero at `v = 0`; the model covers `v_max ≥ 0` only. -/
def psoRun {D : ℕ} : {P : ℕ} → (cfg : PSOCfg K) → (b : Box K D) → (func : Pop K P D → Fin P → K) →
    (stop : Option K) → (rnd : PSORand K P D) → Py (PSOResult K P D)
  | 0, _, _, _, _, _ => .error .valueError
  | _ + 1, cfg, b, func, stop, rnd =>
    if D = 0 then .error .valueError
    else if ∀ j, 0 ≤ vMax cfg b j then
      match cfg.numGen with
      | 0 => .error .unboundLocal
      | g + 1 =>
        let (s, iter) := psoLoop cfg b func rnd stop g 0 (psoInit cfg b func rnd)
        .ok { bestX := s.genBestXs cfg.numGen
              bestY := s.genBest cfg.numGen
              bestXHist := s.genBestXs
              bestYHist := s.genBest
              allSamples := s.samples
              allResponses := s.responses
              retY := s.genBest (iter + 1)
              retX := s.genBestXs (iter + 1)
              calls := s.calls
              popBest := s.popBest
              popBestX := s.popBestX }
    else .error .outOfModel

/-! ## DE -/

/-- Constructor arguments of `DE`, evolutionary_algorithms.py:345-358. -/
structure DECfg (K : Type) where
  numGen : ℕ
  stepSize : K
  crossoverRate : K
  strategy : String

/-- Attributes of a running `DE` object, evolutionary_algorithms.py:370-383, 421-433, plus the ghost call log. -/
structure DEState (K : Type) (P D : ℕ) where
  x : Pop K P D
  obj : Fin P → K
  genBest : ℕ → K
  genBestXs : ℕ → Fin D → K
  samples : ℕ → Pop K P D
  responses : ℕ → Fin P → K
  calls : List (Pop K P D)

/-- Random draws of a `DE` run: initial positions; per iteration and individual the indices drawn by `np.random.choice`
(three for DE/rand, two for DE/best), the forced crossover coordinate `c`, the crossover numbers `cr`, and the replacement
populations of `_loc_cons` (evolutionary_algorithms.py:55-63, 98-111, 435-490). -/
structure DERand (K : Type) (P D : ℕ) where
  pos : Pop K P D
  choice3 : ℕ → Fin P → Fin 3 → Fin P
  choice2 : ℕ → Fin P → Fin 2 → Fin P
  c : ℕ → Fin P → ℕ
  cr : ℕ → Pop K P D
  repl : ℕ → Fin D → Pop K P D

/-- `r[r == ii] = ii + 1` / `= 0`, evolutionary_algorithms.py:442-447 and 469-474 (for one entry of `r`; the third branch,
`ii ≥ num_pop`, is unreachable because `ii` ranges over `range(num_pop)`). -/
def fixPartner {p : ℕ} (ii r : Fin (p + 1)) : Fin (p + 1) :=
  if r = ii then (if h : ii.val < p then ⟨ii.val + 1, by omega⟩ else 0) else r

/-- Donor vector of individual `ii`, strategy DE/rand/1/bin, evolutionary_algorithms.py:438-451. -/
def donorRand {p D : ℕ} (F : K) (x : Pop K (p + 1) D) (ii : Fin (p + 1))
    (r : Fin 3 → Fin (p + 1)) : Fin D → K :=
  fun j => x (fixPartner ii (r 0)) j + F * (x (fixPartner ii (r 1)) j - x (fixPartner ii (r 2)) j)

/-- Donor vector of individual `ii`, strategy DE/best/1/bin, evolutionary_algorithms.py:465-480. -/
def donorBest {p D : ℕ} (F : K) (x : Pop K (p + 1) D) (xBest : Fin D → K) (ii : Fin (p + 1))
    (r : Fin 2 → Fin (p + 1)) : Fin D → K :=
  fun j => xBest j + F * (x (fixPartner ii (r 0)) j - x (fixPartner ii (r 1)) j)

/-- Binomial crossover of one individual, evolutionary_algorithms.py:452-459 and 481-488. -/
def crossover {D : ℕ} (rate : K) (c : ℕ) (cr : Fin D → K) (donor parent : Fin D → K) : Fin D → K :=
  fun j => if cr j < rate ∨ c = j.val then donor j else parent j

/-- The exceptions of `DE.__update_pop`, evolutionary_algorithms.py:435-492: `np.random.choice(num_pop, 3 | 2, replace=False)` raises
`ValueError` when the population is too small, and an unknown strategy raises `ValueError` (`np.random.choice(num_dim, 1)` would raise for
`num_dim = 0`, but that case never gets past the initialiser, see `deRun`). -/
def deCheck (cfg : DECfg K) (P : ℕ) : Py Unit :=
  if cfg.strategy = "DE/rand/1/bin" then
    if P < 3 then .error .valueError else .ok ()
  else if cfg.strategy = "DE/best/1/bin" then
    if P < 2 then .error .valueError else .ok ()
  else .error .valueError

/-- Trial population of `DE.__update_pop` when no exception is raised, evolutionary_algorithms.py:435-490. The loop over
individuals only reads `x` and `gen_best_x`, so it is written individual by individual. -/
def deTrial {p D : ℕ} (cfg : DECfg K) (b : Box K D) (rnd : DERand K (p + 1) D) (iter : ℕ)
    (s : DEState K (p + 1) D) : Pop K (p + 1) D :=
  let donor : Pop K (p + 1) D := fun ii =>
    if cfg.strategy = "DE/rand/1/bin" then donorRand cfg.stepSize s.x ii (rnd.choice3 iter ii)
    else donorBest cfg.stepSize s.x (s.genBestXs iter) ii (rnd.choice2 iter ii)
  locCons b (rnd.repl iter)
    (fun ii => crossover cfg.crossoverRate (rnd.c iter ii) (rnd.cr iter ii) (donor ii) (s.x ii))

/-- `DE._de_initializer`, evolutionary_algorithms.py:421-433, with the zeroed histories (379-383). -/
def deInit {p D : ℕ} (b : Box K D) (func : Pop K (p + 1) D → Fin (p + 1) → K)
    (rnd : DERand K (p + 1) D) : DEState K (p + 1) D :=
  let x := locInit b rnd.pos
  let obj := func x
  { x := x
    obj := obj
    genBest := Function.update (fun _ => 0) 0 (genBestObj obj)
    genBestXs := Function.update (fun _ _ => 0) 0 (genBestX x obj)
    samples := Function.update (fun _ _ _ => 0) 0 x
    responses := Function.update (fun _ _ => 0) 0 obj
    calls := [x] }

/-- `DE.__update_obj`, evolutionary_algorithms.py:494-506, for the trial population `u`. -/
def deUpdateObj {P D : ℕ} (func : Pop K P D → Fin P → K) (iter : ℕ) (u : Pop K P D)
    (s : DEState K P D) : DEState K P D :=
  let objU := func u
  let x : Pop K P D := fun ii => if objU ii < s.obj ii then u ii else s.x ii
  let obj : Fin P → K := fun ii => if objU ii < s.obj ii then objU ii else s.obj ii
  { s with x := x, obj := obj
           samples := Function.update s.samples (iter + 1) x
           responses := Function.update s.responses (iter + 1) obj
           calls := s.calls ++ [u] }

/-- `DE.__update_gen_optimum`, evolutionary_algorithms.py:508-517. -/
def deUpdateGenOptimum {p D : ℕ} (iter : ℕ) (s : DEState K (p + 1) D) : DEState K (p + 1) D :=
  let r := updateGenOptimum iter s.genBest s.genBestXs s.x s.obj
  { s with genBest := r.1, genBestXs := r.2 }

/-- Body of the main loop of `DE.run_optimizer`, evolutionary_algorithms.py:392-397, when no exception is raised. -/
def deStep {p D : ℕ} (cfg : DECfg K) (b : Box K D) (func : Pop K (p + 1) D → Fin (p + 1) → K)
    (rnd : DERand K (p + 1) D) (iter : ℕ) (s : DEState K (p + 1) D) : DEState K (p + 1) D :=
  deUpdateGenOptimum iter (deUpdateObj func iter (deTrial cfg b rnd iter s) s)

/-- The main loop of `DE.run_optimizer`, evolutionary_algorithms.py:388-402 (see `psoLoop`); each iteration can raise in
`__update_pop`. -/
def deLoop {p D : ℕ} (cfg : DECfg K) (b : Box K D) (func : Pop K (p + 1) D → Fin (p + 1) → K)
    (rnd : DERand K (p + 1) D) (stop : Option K) :
    (more : ℕ) → (iter : ℕ) → DEState K (p + 1) D → Py (DEState K (p + 1) D × ℕ)
  | 0, iter, s => do
    deCheck cfg (p + 1)
    .ok (deStep cfg b func rnd iter s, iter)
  | more + 1, iter, s => do
    deCheck cfg (p + 1)
    let s' := deStep cfg b func rnd iter s
    if stopNow stop (s'.genBest (iter + 1)) then .ok (s', iter)
    else deLoop cfg b func rnd stop more (iter + 1) s'

/-- `DE.run_optimizer`, evolutionary_algorithms.py:360-419; error exits as in `psoRun`. -/
def deRun {D : ℕ} : {P : ℕ} → (cfg : DECfg K) → (b : Box K D) → (func : Pop K P D → Fin P → K) →
    (stop : Option K) → (rnd : DERand K P D) → Py (Result K P D)
  | 0, _, _, _, _, _ => .error .valueError
  | _ + 1, cfg, b, func, stop, rnd =>
    if D = 0 then .error .valueError else
    match cfg.numGen with
    | 0 => .error .unboundLocal
    | g + 1 => do
      let (s, iter) ← deLoop cfg b func rnd stop g 0 (deInit b func rnd)
      .ok { bestX := s.genBestXs cfg.numGen
            bestY := s.genBest cfg.numGen
            bestXHist := s.genBestXs
            bestYHist := s.genBest
            allSamples := s.samples
            allResponses := s.responses
            retY := s.genBest (iter + 1)
            retX := s.genBestXs (iter + 1)
            calls := s.calls }

end Mfpml.EA
