import Verif.Model.Rounded
import Verif.Model.Evolutionary

/-!
# Model of the evolutionary optimisers with floats that overflow
`src/mfpml/optimization/evolutionary_algorithms.py`

`Model/Rounded.lean` has no largest number.  Here the floats are those of IEEE 754: results of size `2 ^ emax` or more (after rounding to `p` bits) are infinite, and `nan` appears where numpy produces it
(`float64`: `p = 53`, `emin = -1074`, `emax = 1024`).  Coordinates, velocities and settings are such floats.  Simplified: zero has no sign (`x / 0` is `+inf` or `-inf` by the sign of `x`), and objective values are
finite numbers.  Functions of `Model/Evolutionary.lean` that compare no coordinates are used as they are; the others are repeated here with the comparisons of floats.
-/

namespace Mfpml.Overflow

open Mfpml.Rounded Mfpml.EA

variable {p : ℕ} {emin : ℤ}

/-- A float: `nan`, an infinity (`inf true` is `-inf`) or a finite number (the entries of the arrays of evolutionary_algorithms.py:55-63). -/
inductive XFl (R : Rounding p emin) (emax : ℤ) where
  | nan
  | inf (neg : Bool)
  | num (a : Fl R)

namespace XFl

variable {R : Rounding p emin} {emax : ℤ}

open Classical in
/-- A result rounded to `p` bits becomes infinite if it is too large (every numpy operation, e.g. of evolutionary_algorithms.py:55-63). -/
noncomputable def ofFl (a : Fl R) : XFl R emax := if |a.val| < 2 ^ emax then .num a else .inf (decide (a.val < 0))

/-- `-a` (evolutionary_algorithms.py:60). -/
def neg : XFl R emax → XFl R emax
  | .nan => .nan
  | .inf s => .inf (!s)
  | .num a => .num (-a)

/-- `a + b`: infinities of opposite signs give `nan` (e.g. evolutionary_algorithms.py:62, 301-305). -/
noncomputable def add : XFl R emax → XFl R emax → XFl R emax
  | .num a, .num b => ofFl (a + b)
  | .nan, _ => .nan
  | _, .nan => .nan
  | .inf s, .inf t => if s = t then .inf s else .nan
  | .inf s, .num _ => .inf s
  | .num _, .inf t => .inf t

/-- `a - b` (e.g. evolutionary_algorithms.py:60, 302-304). -/
noncomputable def sub : XFl R emax → XFl R emax → XFl R emax
  | .num a, .num b => ofFl (a - b)
  | a, b => add a (neg b)

open Classical in
/-- `a * b`: zero times an infinity is `nan` (e.g. evolutionary_algorithms.py:60, 301-304, 340). -/
noncomputable def mul : XFl R emax → XFl R emax → XFl R emax
  | .num a, .num b => ofFl (a * b)
  | .nan, _ => .nan
  | _, .nan => .nan
  | .inf s, .inf t => .inf (s != t)
  | .inf s, .num b => if b.val = 0 then .nan else .inf (s != decide (b.val < 0))
  | .num a, .inf t => if a.val = 0 then .nan else .inf (decide (a.val < 0) != t)

open Classical in
/-- `a / b` (evolutionary_algorithms.py:339-341). -/
noncomputable def div : XFl R emax → XFl R emax → XFl R emax
  | .num a, .num b => if b.val = 0 then (if a.val = 0 then .nan else .inf (decide (a.val < 0))) else ofFl (a / b)
  | .nan, _ => .nan
  | _, .nan => .nan
  | .inf _, .inf _ => .nan
  | .inf s, .num b => .inf (s != decide (b.val < 0))
  | .num _, .inf _ => .num 0

/-- `np.abs` (evolutionary_algorithms.py:338-341). -/
noncomputable def abs : XFl R emax → XFl R emax
  | .nan => .nan
  | .inf _ => .inf false
  | .num a => .num (npAbs a)

/-- `a < b`: false if one of them is `nan` (e.g. evolutionary_algorithms.py:106-109, 338). -/
def lt : XFl R emax → XFl R emax → Prop
  | .num a, .num b => a < b
  | .inf true, .num _ => True
  | .inf true, .inf false => True
  | .num _, .inf false => True
  | _, _ => False

/-- `a + b` (evolutionary_algorithms.py:62). -/
noncomputable instance : Add (XFl R emax) := ⟨add⟩
/-- `a - b` (evolutionary_algorithms.py:60). -/
noncomputable instance : Sub (XFl R emax) := ⟨sub⟩
/-- `a * b` (evolutionary_algorithms.py:60). -/
noncomputable instance : Mul (XFl R emax) := ⟨mul⟩
/-- `a / b` (evolutionary_algorithms.py:340). -/
noncomputable instance : Div (XFl R emax) := ⟨div⟩
/-- `0.0`, e.g. the `np.zeros` of evolutionary_algorithms.py:205-212. -/
instance : Zero (XFl R emax) := ⟨.num 0⟩

end XFl

variable {R : Rounding p emin} {emax : ℤ}

open Classical in
/-- `EABase._loc_cons`, evolutionary_algorithms.py:98-111 (see `EA.locCons`): only coordinates that compare as out of range are replaced. -/
noncomputable def locConsX {P D : ℕ} (b : Box (XFl R emax) D) (u : Fin D → Pop (XFl R emax) P D) (x : Pop (XFl R emax) P D) : Pop (XFl R emax) P D :=
  fun i ii => if (x i ii).lt (b.low ii) ∨ (b.high ii).lt (x i ii) then locInit b (u ii) i ii else x i ii

/-- Attributes of a running `PSO` object, evolutionary_algorithms.py:197-212 (see `EA.PSOState`); coordinates are floats `N`, objective values finite numbers `K`. -/
structure PSOStateX (N K : Type) (P D : ℕ) where
  x : Pop N P D
  v : Pop N P D
  obj : Fin P → K
  popBest : Fin P → K
  popBestX : Pop N P D
  genBest : ℕ → K
  genBestXs : ℕ → Fin D → N
  samples : ℕ → Pop N P D
  responses : ℕ → Fin P → K
  calls : List (Pop N P D)

/-- What `run_optimizer` returns, evolutionary_algorithms.py:237-253, 404-419 (see `EA.Result`). -/
structure ResultX (N K : Type) (P D : ℕ) where
  bestX : Fin D → N
  bestY : K
  bestXHist : ℕ → Fin D → N
  bestYHist : ℕ → K
  allSamples : ℕ → Pop N P D
  allResponses : ℕ → Fin P → K
  retY : K
  retX : Fin D → N
  calls : List (Pop N P D)

/-- `__update_gen_optimum`, evolutionary_algorithms.py:324-333 (PSO) and 508-517 (DE) (see `EA.updateGenOptimum`). -/
noncomputable def updateGenOptimumX {p' D : ℕ} (iter : ℕ) (genBest : ℕ → Fl R) (genBestXs : ℕ → Fin D → XFl R emax) (x : Pop (XFl R emax) (p' + 1) D) (obj : Fin (p' + 1) → Fl R) :
    (ℕ → Fl R) × (ℕ → Fin D → XFl R emax) :=
  if genBest iter ≥ genBestObj obj then (Function.update genBest (iter + 1) (genBestObj obj), Function.update genBestXs (iter + 1) (x (argmin obj)))
  else (Function.update genBest (iter + 1) (genBest iter), Function.update genBestXs (iter + 1) (genBestXs iter))

/-- `PSO._pso_initializer`, evolutionary_algorithms.py:275-291 (see `EA.psoInit`). -/
noncomputable def psoInitX {p' D : ℕ} (cfg : PSOCfg (XFl R emax)) (b : Box (XFl R emax) D) (func : Pop (XFl R emax) (p' + 1) D → Fin (p' + 1) → Fl R)
    (rnd : PSORand (XFl R emax) (p' + 1) D) : PSOStateX (XFl R emax) (Fl R) (p' + 1) D :=
  let x := locInit b rnd.pos
  let obj := func x
  { x := x
    v := fun i j => rnd.vel i j * vMax cfg b j
    obj := obj
    popBest := obj
    popBestX := x
    genBest := Function.update (fun _ => 0) 0 (genBestObj obj)
    genBestXs := Function.update (fun _ _ => 0) 0 (x (argmin obj))
    samples := Function.update (fun _ _ _ => 0) 0 x
    responses := Function.update (fun _ _ => 0) 0 obj
    calls := [x] }

open Classical in
/-- `PSO.__velocity_cons`, evolutionary_algorithms.py:335-342. -/
noncomputable def velocityConsX {P D : ℕ} (vmax : Fin D → XFl R emax) (v : Pop (XFl R emax) P D) : Pop (XFl R emax) P D :=
  fun i j => if (vmax j).lt (v i j).abs then v i j * vmax j / (v i j).abs else v i j

/-- `PSO.__update_pop`, evolutionary_algorithms.py:293-310. -/
noncomputable def psoUpdatePopX {P D : ℕ} (cfg : PSOCfg (XFl R emax)) (b : Box (XFl R emax) D) (rnd : PSORand (XFl R emax) P D) (iter : ℕ) (s : PSOStateX (XFl R emax) (Fl R) P D) :
    PSOStateX (XFl R emax) (Fl R) P D :=
  let v' : Pop (XFl R emax) P D := fun i j =>
    cfg.weight * s.v i j + cfg.cognition * (s.popBestX i j - s.x i j) + cfg.social * (s.genBestXs iter j - s.x i j)
  let v := velocityConsX (vMax cfg b) v'
  let x := locConsX b (rnd.repl iter) (fun i j => s.x i j + v i j)
  { s with v := v, x := x, samples := Function.update s.samples (iter + 1) x }

/-- `PSO.__update_obj`, `__update_pop_optimum` and `__update_gen_optimum`, evolutionary_algorithms.py:312-333. -/
noncomputable def psoUpdateObjX {p' D : ℕ} (func : Pop (XFl R emax) (p' + 1) D → Fin (p' + 1) → Fl R) (iter : ℕ) (s : PSOStateX (XFl R emax) (Fl R) (p' + 1) D) :
    PSOStateX (XFl R emax) (Fl R) (p' + 1) D :=
  let obj := func s.x
  let r := updateGenOptimumX iter s.genBest s.genBestXs s.x obj
  { s with
    obj := obj
    responses := Function.update s.responses (iter + 1) obj
    calls := s.calls ++ [s.x]
    popBest := fun i => if obj i ≤ s.popBest i then obj i else s.popBest i
    popBestX := fun i => if obj i ≤ s.popBest i then s.x i else s.popBestX i
    genBest := r.1
    genBestXs := r.2 }

/-- Body of the main loop of `PSO.run_optimizer`, evolutionary_algorithms.py:221-228. -/
noncomputable def psoStepX {p' D : ℕ} (cfg : PSOCfg (XFl R emax)) (b : Box (XFl R emax) D) (func : Pop (XFl R emax) (p' + 1) D → Fin (p' + 1) → Fl R)
    (rnd : PSORand (XFl R emax) (p' + 1) D) (iter : ℕ) (s : PSOStateX (XFl R emax) (Fl R) (p' + 1) D) : PSOStateX (XFl R emax) (Fl R) (p' + 1) D :=
  psoUpdateObjX func iter (psoUpdatePopX cfg b rnd iter s)

/-- The main loop of `PSO.run_optimizer`, evolutionary_algorithms.py:217-234 (see `EA.psoLoop`). -/
noncomputable def psoLoopX {p' D : ℕ} (cfg : PSOCfg (XFl R emax)) (b : Box (XFl R emax) D) (func : Pop (XFl R emax) (p' + 1) D → Fin (p' + 1) → Fl R)
    (rnd : PSORand (XFl R emax) (p' + 1) D) (stop : Option (Fl R)) :
    (more : ℕ) → (iter : ℕ) → PSOStateX (XFl R emax) (Fl R) (p' + 1) D → PSOStateX (XFl R emax) (Fl R) (p' + 1) D × ℕ
  | 0, iter, s => (psoStepX cfg b func rnd iter s, iter)
  | more + 1, iter, s =>
    let s' := psoStepX cfg b func rnd iter s
    if stopNow stop (s'.genBest (iter + 1)) then (s', iter) else psoLoopX cfg b func rnd stop more (iter + 1) s'

/-- `PSO.run_optimizer`, evolutionary_algorithms.py:170-253 (see `EA.psoRun`). -/
noncomputable def psoRunX {D : ℕ} : {P : ℕ} → (cfg : PSOCfg (XFl R emax)) → (b : Box (XFl R emax) D) → (func : Pop (XFl R emax) P D → Fin P → Fl R) → (stop : Option (Fl R)) →
    (rnd : PSORand (XFl R emax) P D) → Py (ResultX (XFl R emax) (Fl R) P D)
  | 0, _, _, _, _, _ => .error .valueError
  | _ + 1, cfg, b, func, stop, rnd =>
    if D = 0 then .error .valueError
    else
      match cfg.numGen with
      | 0 => .error .unboundLocal
      | g + 1 =>
        let (s, iter) := psoLoopX cfg b func rnd stop g 0 (psoInitX cfg b func rnd)
        .ok { bestX := s.genBestXs cfg.numGen
              bestY := s.genBest cfg.numGen
              bestXHist := s.genBestXs
              bestYHist := s.genBest
              allSamples := s.samples
              allResponses := s.responses
              retY := s.genBest (iter + 1)
              retX := s.genBestXs (iter + 1)
              calls := s.calls }

/-- Attributes of a running `DE` object, evolutionary_algorithms.py:370-383, 421-433 (see `EA.DEState`). -/
structure DEStateX (N K : Type) (P D : ℕ) where
  x : Pop N P D
  obj : Fin P → K
  genBest : ℕ → K
  genBestXs : ℕ → Fin D → N
  samples : ℕ → Pop N P D
  responses : ℕ → Fin P → K
  calls : List (Pop N P D)

open Classical in
/-- Binomial crossover of one individual, evolutionary_algorithms.py:452-459 and 481-488. -/
noncomputable def crossoverX {D : ℕ} (rate : XFl R emax) (c : ℕ) (cr donor parent : Fin D → XFl R emax) : Fin D → XFl R emax :=
  fun j => if (cr j).lt rate ∨ c = j.val then donor j else parent j

/-- Trial population of `DE.__update_pop`, evolutionary_algorithms.py:435-490. -/
noncomputable def deTrialX {p' D : ℕ} (cfg : DECfg (XFl R emax)) (b : Box (XFl R emax) D) (rnd : DERand (XFl R emax) (p' + 1) D) (iter : ℕ)
    (s : DEStateX (XFl R emax) (Fl R) (p' + 1) D) : Pop (XFl R emax) (p' + 1) D :=
  let donor : Pop (XFl R emax) (p' + 1) D := fun ii =>
    if cfg.strategy = "DE/rand/1/bin" then donorRand cfg.stepSize s.x ii (rnd.choice3 iter ii)
    else donorBest cfg.stepSize s.x (s.genBestXs iter) ii (rnd.choice2 iter ii)
  locConsX b (rnd.repl iter) (fun ii => crossoverX cfg.crossoverRate (rnd.c iter ii) (rnd.cr iter ii) (donor ii) (s.x ii))

/-- `DE._de_initializer`, evolutionary_algorithms.py:421-433. -/
noncomputable def deInitX {p' D : ℕ} (b : Box (XFl R emax) D) (func : Pop (XFl R emax) (p' + 1) D → Fin (p' + 1) → Fl R) (rnd : DERand (XFl R emax) (p' + 1) D) :
    DEStateX (XFl R emax) (Fl R) (p' + 1) D :=
  let x := locInit b rnd.pos
  let obj := func x
  { x := x
    obj := obj
    genBest := Function.update (fun _ => 0) 0 (genBestObj obj)
    genBestXs := Function.update (fun _ _ => 0) 0 (x (argmin obj))
    samples := Function.update (fun _ _ _ => 0) 0 x
    responses := Function.update (fun _ _ => 0) 0 obj
    calls := [x] }

/-- `DE.__update_obj` and `__update_gen_optimum` for the trial population `u`, evolutionary_algorithms.py:494-517. -/
noncomputable def deUpdateObjX {p' D : ℕ} (func : Pop (XFl R emax) (p' + 1) D → Fin (p' + 1) → Fl R) (iter : ℕ) (u : Pop (XFl R emax) (p' + 1) D)
    (s : DEStateX (XFl R emax) (Fl R) (p' + 1) D) : DEStateX (XFl R emax) (Fl R) (p' + 1) D :=
  let objU := func u
  let x : Pop (XFl R emax) (p' + 1) D := fun ii => if objU ii < s.obj ii then u ii else s.x ii
  let obj : Fin (p' + 1) → Fl R := fun ii => if objU ii < s.obj ii then objU ii else s.obj ii
  let r := updateGenOptimumX iter s.genBest s.genBestXs x obj
  { x := x
    obj := obj
    genBest := r.1
    genBestXs := r.2
    samples := Function.update s.samples (iter + 1) x
    responses := Function.update s.responses (iter + 1) obj
    calls := s.calls ++ [u] }

/-- Body of the main loop of `DE.run_optimizer`, evolutionary_algorithms.py:392-397. -/
noncomputable def deStepX {p' D : ℕ} (cfg : DECfg (XFl R emax)) (b : Box (XFl R emax) D) (func : Pop (XFl R emax) (p' + 1) D → Fin (p' + 1) → Fl R)
    (rnd : DERand (XFl R emax) (p' + 1) D) (iter : ℕ) (s : DEStateX (XFl R emax) (Fl R) (p' + 1) D) : DEStateX (XFl R emax) (Fl R) (p' + 1) D :=
  deUpdateObjX func iter (deTrialX cfg b rnd iter s) s

/-- The main loop of `DE.run_optimizer`, evolutionary_algorithms.py:388-402 (see `EA.deLoop`). -/
noncomputable def deLoopX {p' D : ℕ} (cfg : DECfg (XFl R emax)) (b : Box (XFl R emax) D) (func : Pop (XFl R emax) (p' + 1) D → Fin (p' + 1) → Fl R)
    (rnd : DERand (XFl R emax) (p' + 1) D) (stop : Option (Fl R)) :
    (more : ℕ) → (iter : ℕ) → DEStateX (XFl R emax) (Fl R) (p' + 1) D → Py (DEStateX (XFl R emax) (Fl R) (p' + 1) D × ℕ)
  | 0, iter, s => do
    deCheck cfg (p' + 1)
    .ok (deStepX cfg b func rnd iter s, iter)
  | more + 1, iter, s => do
    deCheck cfg (p' + 1)
    let s' := deStepX cfg b func rnd iter s
    if stopNow stop (s'.genBest (iter + 1)) then .ok (s', iter) else deLoopX cfg b func rnd stop more (iter + 1) s'

/-- `DE.run_optimizer`, evolutionary_algorithms.py:360-419 (see `EA.deRun`). -/
noncomputable def deRunX {D : ℕ} : {P : ℕ} → (cfg : DECfg (XFl R emax)) → (b : Box (XFl R emax) D) → (func : Pop (XFl R emax) P D → Fin P → Fl R) → (stop : Option (Fl R)) →
    (rnd : DERand (XFl R emax) P D) → Py (ResultX (XFl R emax) (Fl R) P D)
  | 0, _, _, _, _, _ => .error .valueError
  | _ + 1, cfg, b, func, stop, rnd =>
    if D = 0 then .error .valueError else
    match cfg.numGen with
    | 0 => .error .unboundLocal
    | g + 1 => do
      let (s, iter) ← deLoopX cfg b func rnd stop g 0 (deInitX b func rnd)
      .ok { bestX := s.genBestXs cfg.numGen
            bestY := s.genBest cfg.numGen
            bestXHist := s.genBestXs
            bestYHist := s.genBest
            allSamples := s.samples
            allResponses := s.responses
            retY := s.genBest (iter + 1)
            retX := s.genBestXs (iter + 1)
            calls := s.calls }

end Mfpml.Overflow
