import Verif.Model.Evolutionary

/-!
# PSO and DE with objectives that return `nan` (evolutionary_algorithms.py)

Positions have any arithmetic `K` as in `Model/Evolutionary.lean`.  Objective values are the numbers of any linear order `V` (which may have an infinity) or `nan`; comparisons with `nan` are false, and `min` and `argmin` let `nan` win,
as numpy does.
-/

namespace Mfpml.EANaN

open Mfpml.EA (Box Pop PSOCfg DECfg PSORand DERand locInit locCons velocityCons vMax donorRand donorBest crossover deCheck)

/-- A float that may be `nan` (entries of `self.obj`, evolutionary_algorithms.py:279-280). -/
inductive Val (V : Type) where
  | nan
  | num (v : V)
  deriving DecidableEq

variable {K : Type} [Add K] [Sub K] [Mul K] [Div K] [Neg K] [Zero K] [LinearOrder K]
variable {V : Type} [Zero V] [LinearOrder V]

/-- `a < b` on floats: false if one of them is `nan` (evolutionary_algorithms.py:233, 401, 499). -/
def Val.lt : Val V → Val V → Bool
  | .num a, .num b => decide (a < b)
  | _, _ => false

/-- `a <= b` on floats: false if one of them is `nan` (evolutionary_algorithms.py:319; `b >= a` at 326 and 510). -/
def Val.le : Val V → Val V → Bool
  | .num a, .num b => decide (a ≤ b)
  | _, _ => false

/-- One comparison of `obj.min()`: `nan` is contagious (evolutionary_algorithms.py:96). -/
def Val.min2 : Val V → Val V → Val V
  | .num a, .num b => .num (min a b)
  | _, _ => .nan

/-- `obj.min()` of a non-empty column (evolutionary_algorithms.py:96). -/
def colMin {p : ℕ} (v : Fin (p + 1) → Val V) : Val V := (List.finRange p).foldl (fun m i => m.min2 (v i.succ)) (v 0)

/-- One comparison of `np.argmin`: the first `nan` wins, otherwise the first smallest entry (evolutionary_algorithms.py:81). -/
def better {p : ℕ} (v : Fin (p + 1) → Val V) (best i : Fin (p + 1)) : Fin (p + 1) :=
  match v best, v i with
  | .nan, _ => best
  | .num _, .nan => i
  | .num a, .num b => if b < a then i else best

/-- `np.argmin` of a non-empty column (evolutionary_algorithms.py:81). -/
def argmin {p : ℕ} (v : Fin (p + 1) → Val V) : Fin (p + 1) := (List.finRange p).foldl (fun best i => better v best i.succ) 0

/-- `__update_gen_optimum`, evolutionary_algorithms.py:324-333 (PSO) and 508-517 (DE). -/
def updateGenOptimum {p D : ℕ} (iter : ℕ) (genBest : ℕ → Val V) (genBestXs : ℕ → Fin D → K) (x : Pop K (p + 1) D) (obj : Fin (p + 1) → Val V) : (ℕ → Val V) × (ℕ → Fin D → K) :=
  if (colMin obj).le (genBest iter) then
    (Function.update genBest (iter + 1) (colMin obj), Function.update genBestXs (iter + 1) (x (argmin obj)))
  else
    (Function.update genBest (iter + 1) (genBest iter), Function.update genBestXs (iter + 1) (genBestXs iter))

/-- What `run_optimizer` returns (evolutionary_algorithms.py:237-253, 404-419), and the arrays the objective was called with. -/
structure Result (K V : Type) (P D : ℕ) where
  bestXHist : ℕ → Fin D → K
  bestYHist : ℕ → Val V
  allSamples : ℕ → Pop K P D
  allResponses : ℕ → Fin P → Val V
  retY : Val V
  retX : Fin D → K
  calls : List (Pop K P D)

/-! ## PSO -/

/-- Attributes of a running `PSO` object (evolutionary_algorithms.py:197-212) and the calls of the objective. -/
structure PSOState (K V : Type) (P D : ℕ) where
  x : Pop K P D
  v : Pop K P D
  obj : Fin P → Val V
  popBest : Fin P → Val V
  popBestX : Pop K P D
  genBest : ℕ → Val V
  genBestXs : ℕ → Fin D → K
  samples : ℕ → Pop K P D
  responses : ℕ → Fin P → Val V
  calls : List (Pop K P D)

/-- `PSO._pso_initializer`, evolutionary_algorithms.py:275-291. -/
def psoInit {p D : ℕ} (cfg : PSOCfg K) (b : Box K D) (func : Pop K (p + 1) D → Fin (p + 1) → Val V) (rnd : PSORand K (p + 1) D) : PSOState K V (p + 1) D :=
  let x := locInit b rnd.pos
  let obj := func x
  { x := x
    v := fun i j => rnd.vel i j * vMax cfg b j
    obj := obj
    popBest := obj
    popBestX := x
    genBest := Function.update (fun _ => .num 0) 0 (colMin obj)
    genBestXs := Function.update (fun _ _ => 0) 0 (x (argmin obj))
    samples := Function.update (fun _ _ _ => 0) 0 x
    responses := Function.update (fun _ _ => .num 0) 0 obj
    calls := [x] }

/-- Body of the main loop of `PSO.run_optimizer`, evolutionary_algorithms.py:221-228: `__update_pop` (293-310), `__update_obj` (312-315), `__update_pop_optimum` (317-322), `__update_gen_optimum` (324-333). -/
def psoStep {p D : ℕ} (cfg : PSOCfg K) (b : Box K D) (func : Pop K (p + 1) D → Fin (p + 1) → Val V) (rnd : PSORand K (p + 1) D) (iter : ℕ) (s : PSOState K V (p + 1) D) : PSOState K V (p + 1) D :=
  let v' : Pop K (p + 1) D := fun i j => cfg.weight * s.v i j + cfg.cognition * (s.popBestX i j - s.x i j) + cfg.social * (s.genBestXs iter j - s.x i j)
  let v := velocityCons (vMax cfg b) v'
  let x := locCons b (rnd.repl iter) (fun i j => s.x i j + v i j)
  let obj := func x
  let r := updateGenOptimum iter s.genBest s.genBestXs x obj
  { x := x
    v := v
    obj := obj
    popBest := fun i => if (obj i).le (s.popBest i) then obj i else s.popBest i
    popBestX := fun i => if (obj i).le (s.popBest i) then x i else s.popBestX i
    genBest := r.1
    genBestXs := r.2
    samples := Function.update s.samples (iter + 1) x
    responses := Function.update s.responses (iter + 1) obj
    calls := s.calls ++ [x] }

/-- `self.stopping_error is not None and self.gen_best[iter + 1, 0] < self.stopping_error`, evolutionary_algorithms.py:232-234 and 400-402. -/
def stopNow (stop : Option V) (best : Val V) : Bool :=
  match stop with
  | none => false
  | some e => best.lt (.num e)

/-- The main loop of `PSO.run_optimizer`, evolutionary_algorithms.py:217-234. -/
def psoLoop {p D : ℕ} (cfg : PSOCfg K) (b : Box K D) (func : Pop K (p + 1) D → Fin (p + 1) → Val V) (rnd : PSORand K (p + 1) D) (stop : Option V) :
    (more : ℕ) → (iter : ℕ) → PSOState K V (p + 1) D → PSOState K V (p + 1) D × ℕ
  | 0, iter, s => (psoStep cfg b func rnd iter s, iter)
  | more + 1, iter, s =>
    let s' := psoStep cfg b func rnd iter s
    if stopNow stop (s'.genBest (iter + 1)) then (s', iter)
    else psoLoop cfg b func rnd stop more (iter + 1) s'

/-- `PSO.run_optimizer`, evolutionary_algorithms.py:170-253, with the attribute `pop_best` (317-322); error exits as in `Mfpml.EA.psoRun`. -/
def psoRun {D : ℕ} : {P : ℕ} → (cfg : PSOCfg K) → (b : Box K D) → (func : Pop K P D → Fin P → Val V) → (stop : Option V) → (rnd : PSORand K P D) → Py (Result K V P D × (Fin P → Val V))
  | 0, _, _, _, _, _ => .error .valueError
  | _ + 1, cfg, b, func, stop, rnd =>
    if D = 0 then .error .valueError
    else if ∀ j, 0 ≤ vMax cfg b j then
      match cfg.numGen with
      | 0 => .error .unboundLocal
      | g + 1 =>
        let (s, iter) := psoLoop cfg b func rnd stop g 0 (psoInit cfg b func rnd)
        .ok ({ bestXHist := s.genBestXs
               bestYHist := s.genBest
               allSamples := s.samples
               allResponses := s.responses
               retY := s.genBest (iter + 1)
               retX := s.genBestXs (iter + 1)
               calls := s.calls }, s.popBest)
    else .error .outOfModel

/-! ## DE -/

/-- Attributes of a running `DE` object, evolutionary_algorithms.py:370-383, 421-433, and the calls of the objective. -/
structure DEState (K V : Type) (P D : ℕ) where
  x : Pop K P D
  obj : Fin P → Val V
  genBest : ℕ → Val V
  genBestXs : ℕ → Fin D → K
  samples : ℕ → Pop K P D
  responses : ℕ → Fin P → Val V
  calls : List (Pop K P D)

/-- Trial population of `DE.__update_pop`, evolutionary_algorithms.py:435-490. -/
def deTrial {p D : ℕ} (cfg : DECfg K) (b : Box K D) (rnd : DERand K (p + 1) D) (iter : ℕ) (s : DEState K V (p + 1) D) : Pop K (p + 1) D :=
  let donor : Pop K (p + 1) D := fun ii =>
    if cfg.strategy = "DE/rand/1/bin" then donorRand cfg.stepSize s.x ii (rnd.choice3 iter ii)
    else donorBest cfg.stepSize s.x (s.genBestXs iter) ii (rnd.choice2 iter ii)
  locCons b (rnd.repl iter) (fun ii => crossover cfg.crossoverRate (rnd.c iter ii) (rnd.cr iter ii) (donor ii) (s.x ii))

/-- `DE._de_initializer`, evolutionary_algorithms.py:421-433. -/
def deInit {p D : ℕ} (b : Box K D) (func : Pop K (p + 1) D → Fin (p + 1) → Val V) (rnd : DERand K (p + 1) D) : DEState K V (p + 1) D :=
  let x := locInit b rnd.pos
  let obj := func x
  { x := x
    obj := obj
    genBest := Function.update (fun _ => .num 0) 0 (colMin obj)
    genBestXs := Function.update (fun _ _ => 0) 0 (x (argmin obj))
    samples := Function.update (fun _ _ _ => 0) 0 x
    responses := Function.update (fun _ _ => .num 0) 0 obj
    calls := [x] }

/-- Body of the main loop of `DE.run_optimizer`, evolutionary_algorithms.py:392-397: `__update_pop` (435-492), `__update_obj` (494-506), `__update_gen_optimum` (508-517). -/
def deStep {p D : ℕ} (cfg : DECfg K) (b : Box K D) (func : Pop K (p + 1) D → Fin (p + 1) → Val V) (rnd : DERand K (p + 1) D) (iter : ℕ) (s : DEState K V (p + 1) D) : DEState K V (p + 1) D :=
  let u := deTrial cfg b rnd iter s
  let objU := func u
  let x : Pop K (p + 1) D := fun ii => if (objU ii).lt (s.obj ii) then u ii else s.x ii
  let obj : Fin (p + 1) → Val V := fun ii => if (objU ii).lt (s.obj ii) then objU ii else s.obj ii
  let r := updateGenOptimum iter s.genBest s.genBestXs x obj
  { x := x
    obj := obj
    genBest := r.1
    genBestXs := r.2
    samples := Function.update s.samples (iter + 1) x
    responses := Function.update s.responses (iter + 1) obj
    calls := s.calls ++ [u] }

/-- The main loop of `DE.run_optimizer`, evolutionary_algorithms.py:388-402. -/
def deLoop {p D : ℕ} (cfg : DECfg K) (b : Box K D) (func : Pop K (p + 1) D → Fin (p + 1) → Val V) (rnd : DERand K (p + 1) D) (stop : Option V) :
    (more : ℕ) → (iter : ℕ) → DEState K V (p + 1) D → Py (DEState K V (p + 1) D × ℕ)
  | 0, iter, s => do
    deCheck cfg (p + 1)
    .ok (deStep cfg b func rnd iter s, iter)
  | more + 1, iter, s => do
    deCheck cfg (p + 1)
    let s' := deStep cfg b func rnd iter s
    if stopNow stop (s'.genBest (iter + 1)) then .ok (s', iter)
    else deLoop cfg b func rnd stop more (iter + 1) s'

/-- `DE.run_optimizer`, evolutionary_algorithms.py:360-419; error exits as in `Mfpml.EA.deRun`. -/
def deRun {D : ℕ} : {P : ℕ} → (cfg : DECfg K) → (b : Box K D) → (func : Pop K P D → Fin P → Val V) → (stop : Option V) → (rnd : DERand K P D) → Py (Result K V P D)
  | 0, _, _, _, _, _ => .error .valueError
  | _ + 1, cfg, b, func, stop, rnd =>
    if D = 0 then .error .valueError else
    match cfg.numGen with
    | 0 => .error .unboundLocal
    | g + 1 => do
      let (s, iter) ← deLoop cfg b func rnd stop g 0 (deInit b func rnd)
      .ok { bestXHist := s.genBestXs
            bestYHist := s.genBest
            allSamples := s.samples
            allResponses := s.responses
            retY := s.genBest (iter + 1)
            retX := s.genBestXs (iter + 1)
            calls := s.calls }

end Mfpml.EANaN
