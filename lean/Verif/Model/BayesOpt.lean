import Mathlib.Algebra.Order.Field.Basic
import Mathlib.Algebra.Order.AbsoluteValue.Basic
import Mathlib.Order.WithBot
import Mathlib.Data.Fintype.Card
import Mathlib.Data.Finset.Filter
import Verif.Model.Prelude

/-!
# Model of the Bayesian optimisation loops
`src/mfpml/optimization/sf_uncons_bo.py`, `mf_uncons_bo.py`, `sf_cons_bo.py`

Numbers: an arbitrary type with the operations and the order that the code uses (floating-point numbers are such a type).  A sample array is the list of its rows (type `X`), a response array the list of its entries.
The problem's functions take a whole array and return a whole array, as in the code.  The surrogate is an object of an arbitrary type `S` with a `train` method, the acquisition a
`query` method; both may use numpy's global random state (type `W`) and may raise.  The surrogate classes and the acquisitions have their own models; the loops are modelled for
*every* surrogate and acquisition.  Printing is left out here (see `BOReports`).
-/

namespace Mfpml.BO

variable {K : Type} [Zero K] [One K] [Neg K] [Sub K] [Div K] [LinearOrder K] {X S W : Type}

/-- `np.min` of an array: raises `ValueError` for an empty one (sf_uncons_bo.py:101, 113). -/
def npMin : List K → Py K
  | [] => .error .valueError
  | a :: l => .ok (l.foldl min a)

/-- Scan for the first smallest entry: `m` smallest so far, at position `b`; `i` is the position of the head of the list (sf_uncons_bo.py:102, 114). -/
def argminScan (m : K) (b : ℕ) : ℕ → List K → ℕ
  | _, [] => b
  | i, a :: l => if a < m then argminScan a i (i + 1) l else argminScan m b (i + 1) l

/-- `np.argmin`: position of the first smallest entry; raises `ValueError` for an empty array (sf_uncons_bo.py:102, 114). -/
def npArgmin : List K → Py ℕ
  | [] => .error .valueError
  | a :: l => .ok (argminScan a 0 1 l)

/-- Indexing an array by row (sf_uncons_bo.py:102, 117). -/
def npRow {α : Type} (l : List α) (i : ℕ) : Py α :=
  match l[i]? with
  | some x => .ok x
  | none => .error .indexError

/-- `np.abs` of a number (sf_uncons_bo.py:131-134, mf_uncons_bo.py:122-125). -/
def npAbs (a : K) : K := max a (-a)

/-- `__update_error`, the same text in sf_uncons_bo.py:122-138 and mf_uncons_bo.py:113-129. -/
def updateError (best : K) (known : Option K) : K :=
  match known with
  | some o => if o ≠ 0 then npAbs ((best - o) / o) else npAbs (best - o)
  | none => 1

/-! ## Single fidelity, unconstrained: sf_uncons_bo.py -/

/-- What a `BayesUnConsOpt` is given: the problem's `f` (a batch function) and `optimum`, the initial design drawn by the LHS sampler, the surrogate's training and the acquisition's
`query`.  `fresh` is the surrogate object just constructed (sf_uncons_bo.py:90-92). -/
structure SFProblem (K X S W : Type) where
  f : List X → Py (List K)
  optimum : Option K
  init : W → Py (List X × W)
  fresh : S
  train : S → List X → List K → W → Py (S × W)
  query : S → W → Py (X × W)

/-- Attributes of a `BayesUnConsOpt`.  `calls` is a ghost: the arrays the objective has been called with, oldest first (sf_uncons_bo.py:23-40, 85-106). -/
structure SFState (K X S W : Type) where
  initSample : List X
  initResponse : List K
  sample : List X
  response : List K
  surrogate : S
  best : K
  bestX : X
  historyBest : List K
  historyBestX : List X
  rng : W
  calls : List (List X)

/-- `__init__` with `_initialization`, sf_uncons_bo.py:17-40 and 80-109. -/
def SFProblem.new (p : SFProblem K X S W) (rng : W) : Py (SFState K X S W) := do
  let (sample, rng) ← p.init rng
  let response ← p.f sample
  let (surrogate, rng) ← p.train p.fresh sample response rng
  let best ← npMin response
  let i ← npArgmin response
  let bestX ← npRow sample i
  .ok { initSample := sample, initResponse := response, sample := sample, response := response, surrogate := surrogate, best := best, bestX := bestX,
        historyBest := [best], historyBestX := [bestX], rng := rng, calls := [sample] }

/-- The loop body of `run_optimizer` with `_update_para`, sf_uncons_bo.py:62-76 and 111-120. -/
def SFProblem.iterate (p : SFProblem K X S W) (s : SFState K X S W) : Py (SFState K X S W) := do
  let (x, rng) ← p.query s.surrogate s.rng
  let y ← p.f [x]
  let sample := s.sample ++ [x]
  let response := s.response ++ y
  let (surrogate, rng) ← p.train s.surrogate sample response rng
  let minY ← npMin response
  let minIndex ← npArgmin response
  let bestX ← npRow sample minIndex
  .ok { s with sample := sample, response := response, surrogate := surrogate, best := minY, bestX := bestX,
               historyBest := s.historyBest ++ [minY], historyBestX := s.historyBestX ++ [bestX], rng := rng, calls := s.calls ++ [[x]] }

/-- The `while` loop of sf_uncons_bo.py:61-76; the first argument is `max_iter - iteration`. -/
def SFProblem.loop (p : SFProblem K X S W) (stop : K) : ℕ → SFState K X S W → Py (SFState K X S W)
  | 0, s => .ok s
  | k + 1, s => if updateError s.best p.optimum ≥ stop then do
      let s' ← p.iterate s
      p.loop stop k s'
    else .ok s

/-- `run_optimizer(max_iter, stopping_error)`, sf_uncons_bo.py:42-78; the returned pair is `(best, best_x)` of the final state.  A negative `max_iter` behaves like 0. -/
def SFProblem.run (p : SFProblem K X S W) (maxIter : ℕ) (stop : K) (s : SFState K X S W) : Py (SFState K X S W × K × X) := do
  let s' ← p.loop stop maxIter s
  .ok (s', s'.best, s'.bestX)

/-- What an iteration that raises leaves behind (sf_uncons_bo.py:62-71): `p.Crash s s'` says that the loop body, started on `s`, may be left by an exception with the object in state `s'`.  Nothing is
assumed about the random state and about a surrogate whose training failed. -/
inductive SFProblem.Crash (p : SFProblem K X S W) (s : SFState K X S W) : SFState K X S W → Prop
  | query {e w} : p.query s.surrogate s.rng = .error e → p.Crash s { s with rng := w }
  | objective {x r e w} : p.query s.surrogate s.rng = .ok (x, r) → p.f [x] = .error e → p.Crash s { s with rng := w, calls := s.calls ++ [[x]] }
  | training {x r y e su w} : p.query s.surrogate s.rng = .ok (x, r) → p.f [x] = .ok y → p.train s.surrogate (s.sample ++ [x]) (s.response ++ y) r = .error e →
      p.Crash s { s with sample := s.sample ++ [x], response := s.response ++ y, surrogate := su, rng := w, calls := s.calls ++ [[x]] }

/-! ## Multi-fidelity: mf_uncons_bo.py -/

/-- What an `mfUnConsBayesOpt` is given.  `query` gets the surrogate, the cost ratio and the incumbent and returns a point and a fidelity; `call` is the problem applied to the pair of
initial sample arrays (mf_uncons_bo.py:19-53, 83-98, 154-179). -/
structure MFProblem (K X S W : Type) where
  hf : List X → Py (List K)
  lf : List X → Py (List K)
  call : List X × List X → Py (List K × List K)
  optimum : Option K
  init : W → Py ((List X × List X) × W)
  fresh : Py S
  train : S → List X × List X → List K × List K → W → Py (S × W)
  query : S → K → K → W → Py ((X × ℤ) × W)

/-- Attributes of an `mfUnConsBayesOpt`; `calls` is a ghost: the arrays the two objectives have been called with after the initial design (`true` = high fidelity) (mf_uncons_bo.py:33-53, 182-191). -/
structure MFState (K X S W : Type) where
  initSample : List X × List X
  initResponse : List K × List K
  sampleH : List X
  sampleL : List X
  responseH : List K
  responseL : List K
  surrogate : S
  best : K
  bestX : X
  historyBest : List K
  historyBestX : List X
  fidelityOrder : List ℤ
  rng : W
  calls : List (Bool × List X)

/-- `__init__` with `_initialization`, mf_uncons_bo.py:21-53 and 154-194; an unknown surrogate name is `fresh = error`. -/
def MFProblem.new (p : MFProblem K X S W) (rng : W) : Py (MFState K X S W) := do
  let (sample, rng) ← p.init rng
  let response ← p.call sample
  let surrogate ← p.fresh
  let (surrogate, rng) ← p.train surrogate sample response rng
  let best ← npMin response.1
  let i ← npArgmin response.1
  let bestX ← npRow sample.1 i
  .ok { initSample := sample, initResponse := response, sampleH := sample.1, sampleL := sample.2, responseH := response.1, responseL := response.2, surrogate := surrogate,
        best := best, bestX := bestX, historyBest := [best], historyBestX := [bestX], fidelityOrder := [], rng := rng, calls := [] }

/-- `_update_para`, mf_uncons_bo.py:131-152: `update_y[0][0]` is the first entry. -/
def mfUpdatePara (s : MFState K X S W) (x : X) (y : List K) (fidelity : ℤ) : Py (MFState K X S W) := do
  let (best, bestX) ← (if fidelity = 0 then do
      let y0 ← npRow y 0
      if y0 < s.best then .ok (y0, x) else .ok (s.best, s.bestX)
    else .ok (s.best, s.bestX) : Py (K × X))
  .ok { s with best := best, bestX := bestX, historyBest := s.historyBest ++ [best], historyBestX := s.historyBestX ++ [bestX],
               fidelityOrder := s.fidelityOrder ++ [fidelity] }

/-- The loop body of `run_optimizer`, mf_uncons_bo.py:83-111. -/
def MFProblem.iterate (p : MFProblem K X S W) (costRatio : K) (s : MFState K X S W) : Py (MFState K X S W) := do
  let ((x, fidelity), rng) ← p.query s.surrogate costRatio s.best s.rng
  let (s, y) ← (if fidelity = 0 then do
      let y ← p.hf [x]
      .ok ({ s with sampleH := s.sampleH ++ [x], responseH := s.responseH ++ y, calls := s.calls ++ [(true, [x])] }, y)
    else do
      let y ← p.lf [x]
      .ok ({ s with sampleL := s.sampleL ++ [x], responseL := s.responseL ++ y, calls := s.calls ++ [(false, [x])] }, y) : Py (MFState K X S W × List K))
  let (surrogate, rng) ← p.train s.surrogate (s.sampleH, s.sampleL) (s.responseH, s.responseL) rng
  mfUpdatePara { s with surrogate := surrogate, rng := rng } x y fidelity

/-- The `while` loop of mf_uncons_bo.py:82-111 (strict comparison). -/
def MFProblem.loop (p : MFProblem K X S W) (costRatio stop : K) : ℕ → MFState K X S W → Py (MFState K X S W)
  | 0, s => .ok s
  | k + 1, s => if updateError s.best p.optimum > stop then do
      let s' ← p.iterate costRatio s
      p.loop costRatio stop k s'
    else .ok s

/-- `run_optimizer(max_iter, cost_ratio, stopping_error)`, mf_uncons_bo.py:55-111. -/
def MFProblem.run (p : MFProblem K X S W) (maxIter : ℕ) (costRatio stop : K) (s : MFState K X S W) : Py (MFState K X S W) :=
  p.loop costRatio stop maxIter s

/-- What an iteration that raises leaves behind (mf_uncons_bo.py:84-99): the query, the evaluation or the training raised. -/
inductive MFProblem.Crash (p : MFProblem K X S W) (costRatio : K) (s : MFState K X S W) : MFState K X S W → Prop
  | query {e w} : p.query s.surrogate costRatio s.best s.rng = .error e → p.Crash costRatio s { s with rng := w }
  | evaluationH {x r e w} : p.query s.surrogate costRatio s.best s.rng = .ok ((x, 0), r) → p.hf [x] = .error e →
      p.Crash costRatio s { s with rng := w, calls := s.calls ++ [(true, [x])] }
  | evaluationL {x fid r e w} : p.query s.surrogate costRatio s.best s.rng = .ok ((x, fid), r) → fid ≠ 0 → p.lf [x] = .error e →
      p.Crash costRatio s { s with rng := w, calls := s.calls ++ [(false, [x])] }
  | trainingH {x r y e su w} : p.query s.surrogate costRatio s.best s.rng = .ok ((x, 0), r) → p.hf [x] = .ok y →
      p.train s.surrogate (s.sampleH ++ [x], s.sampleL) (s.responseH ++ y, s.responseL) r = .error e →
      p.Crash costRatio s { s with sampleH := s.sampleH ++ [x], responseH := s.responseH ++ y, surrogate := su, rng := w, calls := s.calls ++ [(true, [x])] }
  | trainingL {x fid r y e su w} : p.query s.surrogate costRatio s.best s.rng = .ok ((x, fid), r) → fid ≠ 0 → p.lf [x] = .ok y →
      p.train s.surrogate (s.sampleH, s.sampleL ++ [x]) (s.responseH, s.responseL ++ y) r = .error e →
      p.Crash costRatio s { s with sampleL := s.sampleL ++ [x], responseL := s.responseL ++ y, surrogate := su, rng := w, calls := s.calls ++ [(false, [x])] }

/-! ## Single fidelity, constrained: sf_cons_bo.py -/

/-- What a `BayesConsOpt` is given.  The constraint array has `c` columns; `numCons` is the problem's `num_cons` attribute. `train` covers the objective surrogate and the
`num_cons` constraint surrogates (sf_cons_bo.py:16-40, 61-79, 93-123). -/
structure ConsProblem (K X S W : Type) (c : ℕ) where
  f : List X → Py (List K)
  fCons : List X → Py (List (Fin c → K))
  numCons : ℕ
  optimum : Option K
  init : W → Py (List X × W)
  fresh : S
  train : S → List X → List K → List (Fin c → K) → W → Py (S × W)
  query : S → W → Py (X × W)

/-- Attributes of a `BayesConsOpt`: `best` may be `np.inf` and `best_x` is `None` or an array of rows (sf_cons_bo.py:23-40, 111-144). -/
structure ConsState (K X S W : Type) (c : ℕ) where
  sample : List X
  objResponse : List K
  consResponse : List (Fin c → K)
  surrogate : S
  best : WithTop K
  bestX : Option (List X)
  historyBest : List (WithTop K)
  historyBestX : List (Option (List X))
  rng : W
  calls : List (List X)

/-- `np.where(np.sum(cons <= 0, axis=1) == num_cons)`: the positions of the rows with `num_cons` satisfied constraints (sf_cons_bo.py:127-129, 152-154). -/
def feasibleIndex {c : ℕ} (numCons : ℕ) (cons : List (Fin c → K)) : List ℕ :=
  (List.range cons.length).filter fun i => match cons[i]? with
    | some row => (Finset.univ.filter fun j => row j ≤ 0).card = numCons
    | none => false

/-- `np.where(obj == y)[0]`: the positions of all entries equal to `y` (sf_cons_bo.py:132, 157). -/
def positionsOf (y : K) (obj : List K) : List ℕ :=
  (List.range obj.length).filter fun i => obj[i]? = some y

/-- The `try` block of sf_cons_bo.py:126-138 and 151-164. -/
def consBest {c : ℕ} (numCons : ℕ) (sample : List X) (obj : List K) (cons : List (Fin c → K)) : Py (K × List X) := do
  let idx := feasibleIndex numCons cons
  let feas ← idx.mapM (npRow obj)
  let minY ← npMin feas
  let minIndex := positionsOf minY obj
  let xs ← minIndex.mapM (npRow sample)
  .ok (minY, xs)

/-- `_update_para` and the end of `_initialization`: any exception in the `try` block is caught and stands for "no feasible sample" (sf_cons_bo.py:139-145, 165-171). -/
def consPara {c : ℕ} (numCons : ℕ) (sample : List X) (obj : List K) (cons : List (Fin c → K)) : WithTop K × Option (List X) :=
  match consBest numCons sample obj cons with
  | .ok (y, xs) => ((y : WithTop K), some xs)
  | .error _ => (⊤, none)

/-- `__update_error` when `best` may be `np.inf`, sf_cons_bo.py:173-189. -/
def consError (best : WithTop K) (known : Option K) : WithTop K :=
  match known, best with
  | none, _ => ((1 : K) : WithTop K)
  | some _, ⊤ => ⊤
  | some o, (b : K) => (updateError b (some o) : K)

/-- `__init__` with `_initialization`, sf_cons_bo.py:17-40 and 93-147. -/
def ConsProblem.new {c : ℕ} (p : ConsProblem K X S W c) (rng : W) : Py (ConsState K X S W c) := do
  let (sample, rng) ← p.init rng
  let obj ← p.f sample
  let cons ← p.fCons sample
  let (surrogate, rng) ← p.train p.fresh sample obj cons rng
  let (best, bestX) := consPara p.numCons sample obj cons
  .ok { sample := sample, objResponse := obj, consResponse := cons, surrogate := surrogate, best := best, bestX := bestX,
        historyBest := [best], historyBestX := [bestX], rng := rng, calls := [sample] }

/-- The loop body, sf_cons_bo.py:62-89 and 149-171. -/
def ConsProblem.iterate {c : ℕ} (p : ConsProblem K X S W c) (s : ConsState K X S W c) : Py (ConsState K X S W c) := do
  let (x, rng) ← p.query s.surrogate s.rng
  let y ← p.f [x]
  let g ← p.fCons [x]
  let sample := s.sample ++ [x]
  let obj := s.objResponse ++ y
  let cons := s.consResponse ++ g
  let (surrogate, rng) ← p.train s.surrogate sample obj cons rng
  let (best, bestX) := consPara p.numCons sample obj cons
  .ok { sample := sample, objResponse := obj, consResponse := cons, surrogate := surrogate, best := best, bestX := bestX,
        historyBest := s.historyBest ++ [best], historyBestX := s.historyBestX ++ [bestX], rng := rng, calls := s.calls ++ [[x]] }

/-- The `while` loop of sf_cons_bo.py:61-89. -/
def ConsProblem.loop {c : ℕ} (p : ConsProblem K X S W c) (stop : K) : ℕ → ConsState K X S W c → Py (ConsState K X S W c)
  | 0, s => .ok s
  | k + 1, s => if consError s.best p.optimum ≥ (stop : WithTop K) then do
      let s' ← p.iterate s
      p.loop stop k s'
    else .ok s

/-- `run_optimizer(max_iter, stopping_error)`, sf_cons_bo.py:42-91. -/
def ConsProblem.run {c : ℕ} (p : ConsProblem K X S W c) (maxIter : ℕ) (stop : K) (s : ConsState K X S W c) :
    Py (ConsState K X S W c × WithTop K × Option (List X)) := do
  let s' ← p.loop stop maxIter s
  .ok (s', s'.best, s'.bestX)

/-- What an iteration that raises leaves behind (sf_cons_bo.py:62-79): the query, the objective, the constraints or a training raised.  The samples and responses are extended only after both functions
have returned (70-72); nothing is assumed about the random state and about the surrogates when a training failed. -/
inductive ConsProblem.Crash {c : ℕ} (p : ConsProblem K X S W c) (s : ConsState K X S W c) : ConsState K X S W c → Prop
  | query {e w} : p.query s.surrogate s.rng = .error e → p.Crash s { s with rng := w }
  | objective {x r e w} : p.query s.surrogate s.rng = .ok (x, r) → p.f [x] = .error e → p.Crash s { s with rng := w, calls := s.calls ++ [[x]] }
  | constraints {x r y e w} : p.query s.surrogate s.rng = .ok (x, r) → p.f [x] = .ok y → p.fCons [x] = .error e → p.Crash s { s with rng := w, calls := s.calls ++ [[x]] }
  | training {x r y g e su w} : p.query s.surrogate s.rng = .ok (x, r) → p.f [x] = .ok y → p.fCons [x] = .ok g →
      p.train s.surrogate (s.sample ++ [x]) (s.objResponse ++ y) (s.consResponse ++ g) r = .error e →
      p.Crash s { s with sample := s.sample ++ [x], objResponse := s.objResponse ++ y, consResponse := s.consResponse ++ g, surrogate := su, rng := w, calls := s.calls ++ [[x]] }

end Mfpml.BO
