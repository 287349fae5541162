import Mathlib.Algebra.Order.Floor.Ring
import Verif.Model.BayesOpt

/-!
# What the Bayesian optimisers print
`src/mfpml/optimization/sf_uncons_bo.py`, `mf_uncons_bo.py`, `sf_cons_bo.py`

The loops of `Model/BayesOpt.lean` together with the lines they print, in order.  Lines that belong together (a report of `__print_info`) are one entry; the fixed texts are left out.  A number is printed in full (`{x}`) or with a
fixed number of decimals (`{x:4f}` has six, `{x:.4f}` four); the latter is the integer number of units of the last decimal.
-/

namespace Mfpml.BO

variable {K : Type} [Field K] [LinearOrder K] [FloorRing K] {X S W : Type}

/-- Rounding to an integer, ties to even, as `format` does (sf_uncons_bo.py:152). -/
def roundEven (q : K) : ℤ :=
  if q - ⌊q⌋ < 1 / 2 then ⌊q⌋ else if 1 / 2 < q - ⌊q⌋ then ⌊q⌋ + 1 else if Even ⌊q⌋ then ⌊q⌋ else ⌊q⌋ + 1

/-- A number as printed: in full, with a fixed number of decimals, or as `inf` (sf_uncons_bo.py:59, 152; mf_uncons_bo.py:205; sf_cons_bo.py:201). -/
inductive Shown (K : Type) where
  | full (v : K)
  | fixed (digits : ℕ) (n : ℤ)
  | inf

/-- `f"{v:.<d>f}"` (sf_uncons_bo.py:152, 159; mf_uncons_bo.py:205, 217). -/
def fixed (d : ℕ) (v : K) : Shown K := .fixed d (roundEven (v * 10 ^ d))

/-- The same for a number that may be infinite (sf_cons_bo.py:201, 209). -/
def fixedTop (d : ℕ) : WithTop K → Shown K
  | ⊤ => .inf
  | (v : K) => fixed d v

/-- One printed entry: the error at the start of `run_optimizer` (sf_uncons_bo.py:59; mf_uncons_bo.py:81; sf_cons_bo.py:60), an evaluation (mf_uncons_bo.py:100-102; sf_cons_bo.py:81-83), the rows of the best value
(sf_cons_bo.py:158), the note that there is no feasible sample (139, 166), or a report of `__print_info` with the fidelity (mf_uncons_bo.py:215) and the error (sf_uncons_bo.py:158-159) if printed.  `B` is the type of `best_x`,
`G` that of constraint arrays. -/
inductive Line (K X B G : Type) where
  | error (v : WithTop K)
  | evaluated (x : X) (y : List K) (fidelity : ℤ)
  | evaluatedCons (x : X) (y : List K) (g : G)
  | minIndex (rows : List ℕ)
  | noFeasible
  | report (iteration : ℕ) (best : Shown K) (bestX : B) (fidelity : Option ℤ) (error : Option (Shown K))

/-- The `while` loop with what it prints: the text is the same in the three optimisers but for the condition, the body and the report (sf_uncons_bo.py:60-76, mf_uncons_bo.py:82-111, sf_cons_bo.py:61-89).  `i` is `iteration`. -/
def loopC {T L : Type} (verbose : Bool) (cont : T → Bool) (body : T → List L × Py T) (report : ℕ → T → List L) : (more : ℕ) → (i : ℕ) → T → List L × Py T
  | 0, _, s => ([], .ok s)
  | k + 1, i, s => if cont s then
      match (body s).2 with
      | .error e => ((body s).1, .error e)
      | .ok s' => ((body s).1 ++ (if verbose then report (i + 1) s' else []) ++ (loopC verbose cont body report k (i + 1) s').1, (loopC verbose cont body report k (i + 1) s').2)
    else ([], .ok s)

/-! ## Single fidelity -/

/-- `__print_info`, sf_uncons_bo.py:140-160; `stop` is `stopping_error`, `known` is `known_optimum`. -/
def sfReport (known : Option K) (stop : K) (i : ℕ) (s : SFState K X S W) : List (Line K X X Unit) :=
  if i = 0 then [.report 0 (fixed 6 s.best) s.bestX none none]
  else [.report i (fixed 6 s.best) s.bestX none (if stop < 1 then some (fixed 6 (updateError s.best known)) else none)]

/-- `__init__` with what it prints, sf_uncons_bo.py:17-40 and 80-109; `stopping_error` is 1.0 then (34). -/
def SFProblem.newC (p : SFProblem K X S W) (verbose : Bool) (rng : W) : List (Line K X X Unit) × Py (SFState K X S W) :=
  match p.new rng with
  | .error e => ([], .error e)
  | .ok s => (if verbose then sfReport none 1 0 s else [], .ok s)

/-- `run_optimizer` with what it prints, sf_uncons_bo.py:42-78. -/
def SFProblem.runC (p : SFProblem K X S W) (verbose : Bool) (maxIter : ℕ) (stop : K) (s : SFState K X S W) : List (Line K X X Unit) × Py (SFState K X S W) :=
  let r := loopC verbose (fun s => decide (updateError s.best p.optimum ≥ stop)) (fun s => ([], p.iterate s)) (sfReport p.optimum stop) maxIter 0 s
  (.error (updateError s.best p.optimum : K) :: r.1, r.2)

/-! ## Multi-fidelity -/

/-- `_print_info`, mf_uncons_bo.py:196-218.  `fidelity_query_order[-1]` is the last entry. -/
def mfReport (known : Option K) (stop : K) (i : ℕ) (s : MFState K X S W) : List (Line K X X Unit) :=
  if i = 0 then [.report 0 (fixed 4 s.best) s.bestX none none]
  else [.report i (.full s.best) s.bestX s.fidelityOrder.getLast? (if stop < 1 then some (fixed 6 (updateError s.best known)) else none)]

/-- `__init__` with what it prints, mf_uncons_bo.py:21-53 and 154-194. -/
def MFProblem.newC (p : MFProblem K X S W) (verbose : Bool) (rng : W) : List (Line K X X Unit) × Py (MFState K X S W) :=
  match p.new rng with
  | .error e => ([], .error e)
  | .ok s => (if verbose then mfReport none 1 0 s else [], .ok s)

/-- The first part of the loop body, up to the training: mf_uncons_bo.py:83-99. -/
def MFProblem.acquire (p : MFProblem K X S W) (costRatio : K) (s : MFState K X S W) : Py (MFState K X S W × X × List K × ℤ) := do
  let ((x, fidelity), rng) ← p.query s.surrogate costRatio s.best s.rng
  let (s, y) ← (if fidelity = 0 then do
      let y ← p.hf [x]
      .ok ({ s with sampleH := s.sampleH ++ [x], responseH := s.responseH ++ y, calls := s.calls ++ [(true, [x])] }, y)
    else do
      let y ← p.lf [x]
      .ok ({ s with sampleL := s.sampleL ++ [x], responseL := s.responseL ++ y, calls := s.calls ++ [(false, [x])] }, y) : Py (MFState K X S W × List K))
  let (surrogate, rng) ← p.train s.surrogate (s.sampleH, s.sampleL) (s.responseH, s.responseL) rng
  .ok ({ s with surrogate := surrogate, rng := rng }, x, y, fidelity)

/-- The loop body with what it prints: the evaluation is printed after the training and before `_update_para`, mf_uncons_bo.py:83-105. -/
def MFProblem.bodyC (p : MFProblem K X S W) (costRatio : K) (s : MFState K X S W) : List (Line K X X Unit) × Py (MFState K X S W) :=
  match p.acquire costRatio s with
  | .error e => ([], .error e)
  | .ok (s', x, y, fidelity) => ([.evaluated x y fidelity], mfUpdatePara s' x y fidelity)

/-- `run_optimizer` with what it prints, mf_uncons_bo.py:55-111. -/
def MFProblem.runC (p : MFProblem K X S W) (verbose : Bool) (maxIter : ℕ) (costRatio stop : K) (s : MFState K X S W) : List (Line K X X Unit) × Py (MFState K X S W) :=
  let r := loopC verbose (fun s => decide (updateError s.best p.optimum > stop)) (p.bodyC costRatio) (mfReport p.optimum stop) maxIter 0 s
  (.error (updateError s.best p.optimum : K) :: r.1, r.2)

/-! ## Constrained -/

/-- `__print_info`, sf_cons_bo.py:191-211. -/
def consReport {c : ℕ} (known : Option K) (stop : K) (i : ℕ) (s : ConsState K X S W c) : List (Line K X (Option (List X)) (List (Fin c → K))) :=
  if i = 0 then [.report 0 (fixedTop 6 s.best) s.bestX none none]
  else [.report i (fixedTop 6 s.best) s.bestX none (if stop < 1 then some (fixedTop 6 (consError s.best known)) else none)]

/-- What `_initialization` prints about the feasible samples, sf_cons_bo.py:125-144. -/
def initLines {c : ℕ} (numCons : ℕ) (s : ConsState K X S W c) : List (Line K X (Option (List X)) (List (Fin c → K))) :=
  match consBest numCons s.sample s.objResponse s.consResponse with
  | .ok _ => []
  | .error _ => [.noFeasible]

/-- `__init__` with what it prints, sf_cons_bo.py:17-40 and 93-147. -/
def ConsProblem.newC {c : ℕ} (p : ConsProblem K X S W c) (verbose : Bool) (rng : W) : List (Line K X (Option (List X)) (List (Fin c → K))) × Py (ConsState K X S W c) :=
  match p.new rng with
  | .error e => ([], .error e)
  | .ok s => (initLines p.numCons s ++ if verbose then consReport none 1 0 s else [], .ok s)

/-- What `_update_para` prints: the rows of the best value once the smallest feasible response is found (also if the indexing afterwards raises), or the note, sf_cons_bo.py:149-171. -/
def paraLines {c : ℕ} (numCons : ℕ) (sample : List X) (obj : List K) (cons : List (Fin c → K)) : List (Line K X (Option (List X)) (List (Fin c → K))) :=
  match (feasibleIndex numCons cons).mapM (npRow obj) >>= npMin with
  | .error _ => [.noFeasible]
  | .ok minY => .minIndex (positionsOf minY obj) :: match (positionsOf minY obj).mapM (npRow sample) with
    | .ok _ => []
    | .error _ => [.noFeasible]

/-- The first part of the loop body, up to the trainings: sf_cons_bo.py:62-79. -/
def ConsProblem.acquire {c : ℕ} (p : ConsProblem K X S W c) (s : ConsState K X S W c) : Py (ConsState K X S W c × X × List K × List (Fin c → K)) := do
  let (x, rng) ← p.query s.surrogate s.rng
  let y ← p.f [x]
  let g ← p.fCons [x]
  let (surrogate, rng) ← p.train s.surrogate (s.sample ++ [x]) (s.objResponse ++ y) (s.consResponse ++ g) rng
  .ok ({ s with sample := s.sample ++ [x], objResponse := s.objResponse ++ y, consResponse := s.consResponse ++ g, surrogate := surrogate, rng := rng, calls := s.calls ++ [[x]] }, x, y, g)

/-- `_update_para`, sf_cons_bo.py:149-171. -/
def consUpdatePara {c : ℕ} (numCons : ℕ) (s : ConsState K X S W c) : ConsState K X S W c :=
  let r := consPara numCons s.sample s.objResponse s.consResponse
  { s with best := r.1, bestX := r.2, historyBest := s.historyBest ++ [r.1], historyBestX := s.historyBestX ++ [r.2] }

/-- The loop body with what it prints, sf_cons_bo.py:62-86. -/
def ConsProblem.bodyC {c : ℕ} (p : ConsProblem K X S W c) (s : ConsState K X S W c) : List (Line K X (Option (List X)) (List (Fin c → K))) × Py (ConsState K X S W c) :=
  match p.acquire s with
  | .error e => ([], .error e)
  | .ok (s', x, y, g) => (.evaluatedCons x y g :: paraLines p.numCons s'.sample s'.objResponse s'.consResponse, .ok (consUpdatePara p.numCons s'))

/-- `run_optimizer` with what it prints, sf_cons_bo.py:42-91. -/
def ConsProblem.runC {c : ℕ} (p : ConsProblem K X S W c) (verbose : Bool) (maxIter : ℕ) (stop : K) (s : ConsState K X S W c) : List (Line K X (Option (List X)) (List (Fin c → K))) × Py (ConsState K X S W c) :=
  let r := loopC verbose (fun s => decide (consError s.best p.optimum ≥ (stop : WithTop K))) p.bodyC (consReport p.optimum stop) maxIter 0 s
  (.error (consError s.best p.optimum) :: r.1, r.2)

end Mfpml.BO
