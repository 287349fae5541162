import Verif.Model.EvolutionaryRaise

/-!
# `print_info` and `save_step_results` of `PSO.run_optimizer` and `DE.run_optimizer`

The runs of `Verif/Model/EvolutionaryRaise.lean` together with what they do outside the process, in order.  A process that is killed has done some initial part of this.
-/

namespace Mfpml.EA

variable {K : Type} [Add K] [Sub K] [Mul K] [Div K] [Neg K] [Zero K] [LinearOrder K]

/-- The dictionary that `_save_results` pickles, evolutionary_algorithms.py:114-124; the histories are the whole arrays, with the rows not reached so far still zero. -/
structure StepRecord (K : Type) (P D : ℕ) where
  bestX : ℕ → Fin D → K
  bestY : ℕ → K
  bestXHist : ℕ → Fin D → K
  bestYHist : ℕ → K
  allSamples : ℕ → Pop K P D
  allResponses : ℕ → Fin P → K
  designSpace : Box K D
  pop : ℕ
  gen : ℕ

/-- What a run does one after the other: a line is printed (`print_info`, evolutionary_algorithms.py:129-133), an iteration has been computed (221-228, 392-397), `open("step_results.pickle", "wb")` has created or emptied the file
(line 126), `pickle.dump` is through and the file closed (126-127).  What the file holds between the last two is some proper initial part of a pickle. -/
inductive StepEvent (K : Type) (P D : ℕ) where
  | printed (iter : ℕ) (best : K) (bestX : Fin D → K)
  | iterated
  | opened
  | dumped (r : StepRecord K P D)

/-- The arguments `print_info` and `save_step_results` (evolutionary_algorithms.py:175-176, 365-366). -/
structure StepOpts where
  print : Bool
  save : Bool

/-- The attributes that `print_info` and `_save_results` read (evolutionary_algorithms.py:113-133). -/
structure StepView (K : Type) (P D : ℕ) where
  genBest : ℕ → K
  genBestXs : ℕ → Fin D → K
  samples : ℕ → Pop K P D
  responses : ℕ → Fin P → K

/-- `_save_results`, evolutionary_algorithms.py:113-127. -/
def saveResults {P D : ℕ} (b : Box K D) (numGen : ℕ) (v : StepView K P D) : List (StepEvent K P D) :=
  [.opened, .dumped { bestX := v.genBestXs, bestY := v.genBest, bestXHist := v.genBestXs, bestYHist := v.genBest, allSamples := v.samples, allResponses := v.responses,
                      designSpace := b, pop := P, gen := numGen }]

/-- `print_info`, evolutionary_algorithms.py:129-133, at the head of iteration `iter`. -/
def printInfo {P D : ℕ} (iter : ℕ) (v : StepView K P D) : List (StepEvent K P D) := [.printed iter (v.genBest iter) (v.genBestXs iter)]

/-- The main loop with printing and saving; the text is the same in `PSO.run_optimizer` (evolutionary_algorithms.py:217-234) and `DE.run_optimizer` (388-402) but for the body, which is the argument `step`. -/
def loopS {S : Type} {P D : ℕ} (opts : StepOpts) (b : Box K D) (numGen : ℕ) (stop : Option K) (view : S → StepView K P D) (step : ℕ → S → Py S) :
    (more : ℕ) → (iter : ℕ) → S → List (StepEvent K P D) × Py (S × ℕ)
  | 0, iter, s =>
    let pr := if opts.print then printInfo iter (view s) else []
    match step iter s with
    | .error e => (pr, .error e)
    | .ok s' => (pr ++ .iterated :: if opts.save then saveResults b numGen (view s') else [], .ok (s', iter))
  | more + 1, iter, s =>
    let pr := if opts.print then printInfo iter (view s) else []
    match step iter s with
    | .error e => (pr, .error e)
    | .ok s' =>
      let now := pr ++ .iterated :: if opts.save then saveResults b numGen (view s') else []
      if stopNow stop ((view s').genBest (iter + 1)) then (now, .ok (s', iter))
      else
        let r := loopS opts b numGen stop view step more (iter + 1) s'
        (now ++ r.1, r.2)

/-- The arrays of a `PSO` object (evolutionary_algorithms.py:205-212). -/
def PSOState.view {P D : ℕ} (s : PSOState K P D) : StepView K P D := ⟨s.genBest, s.genBestXs, s.samples, s.responses⟩

/-- The arrays of a `DE` object (evolutionary_algorithms.py:379-384). -/
def DEState.view {P D : ℕ} (s : DEState K P D) : StepView K P D := ⟨s.genBest, s.genBestXs, s.samples, s.responses⟩

/-- `PSO.run_optimizer`, evolutionary_algorithms.py:170-253: what it does outside the process, and its result. -/
def psoRunS {D : ℕ} : {P : ℕ} → (opts : StepOpts) → (cfg : PSOCfg K) → (b : Box K D) → (func : Pop K P D → Py (Fin P → K)) → (stop : Option K) → (rnd : PSORand K P D) →
    List (StepEvent K P D) × Py (PSOResult K P D)
  | 0, _, _, b, func, _, rnd =>
    match func (locInit b rnd.pos) with
    | .error e => ([], .error e)
    | .ok _ => ([], .error .valueError)
  | _ + 1, opts, cfg, b, func, stop, rnd =>
    match func (locInit b rnd.pos) with
    | .error e => ([], .error e)
    | .ok obj =>
      if D = 0 then ([], .error .valueError)
      else if ∀ j, 0 ≤ vMax cfg b j then
        match cfg.numGen with
        | 0 => ([], .error .unboundLocal)
        | g + 1 =>
          let r := loopS opts b cfg.numGen stop PSOState.view (psoStepM cfg b func rnd) g 0 (psoInit cfg b (fun _ => obj) rnd)
          match r.2 with
          | .error e => (r.1, .error e)
          | .ok (s, iter) =>
            (r.1, .ok { bestX := s.genBestXs cfg.numGen
                        bestY := s.genBest cfg.numGen
                        bestXHist := s.genBestXs
                        bestYHist := s.genBest
                        allSamples := s.samples
                        allResponses := s.responses
                        retY := s.genBest (iter + 1)
                        retX := s.genBestXs (iter + 1)
                        calls := s.calls
                        popBest := s.popBest
                        popBestX := s.popBestX })
      else ([], .error .outOfModel)

/-- `DE.run_optimizer`, evolutionary_algorithms.py:360-419: what it does outside the process, and its result. -/
def deRunS {D : ℕ} : {P : ℕ} → (opts : StepOpts) → (cfg : DECfg K) → (b : Box K D) → (func : Pop K P D → Py (Fin P → K)) → (stop : Option K) → (rnd : DERand K P D) →
    List (StepEvent K P D) × Py (Result K P D)
  | 0, _, _, b, func, _, rnd =>
    match func (locInit b rnd.pos) with
    | .error e => ([], .error e)
    | .ok _ => ([], .error .valueError)
  | _ + 1, opts, cfg, b, func, stop, rnd =>
    match func (locInit b rnd.pos) with
    | .error e => ([], .error e)
    | .ok obj =>
      if D = 0 then ([], .error .valueError) else
      match cfg.numGen with
      | 0 => ([], .error .unboundLocal)
      | g + 1 =>
        let r := loopS opts b cfg.numGen stop DEState.view (deStepM cfg b func rnd) g 0 (deInit b (fun _ => obj) rnd)
        match r.2 with
        | .error e => (r.1, .error e)
        | .ok (s, iter) =>
          (r.1, .ok { bestX := s.genBestXs cfg.numGen
                      bestY := s.genBest cfg.numGen
                      bestXHist := s.genBestXs
                      bestYHist := s.genBest
                      allSamples := s.samples
                      allResponses := s.responses
                      retY := s.genBest (iter + 1)
                      retX := s.genBestXs (iter + 1)
                      calls := s.calls })

end Mfpml.EA
