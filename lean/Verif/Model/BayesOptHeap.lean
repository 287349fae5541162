import Verif.Model.BayesOpt

/-!
# The arrays of the Bayesian optimisers as objects in memory
`src/mfpml/optimization/sf_uncons_bo.py`, `mf_uncons_bo.py`, `sf_cons_bo.py`

`Verif.Model.BayesOpt` treats the samples and `best_x` as values.  Here they are numpy arrays: `a[i, :]` is a view of row `i` of `a`, `a[[i, j], :]` and `np.vstack` are new arrays, `.copy()` of an array is a new
array, `.copy()` of a list is a new list of the same arrays.  A program that holds an array may write into it.  Only the sample arrays are objects here: `best` and the entries of `history_best` are numpy scalars
(copies), and the responses are not handed out.  The surrogates keep the sample arrays they were trained on, but after training read scaled copies only (gaussian_process.py:83-86, hierarchical_kriging.py:50-53,
scale_kriging.py:100-104, co_kriging.py:370-377, mf_gaussian_process.py:90-91), so a surrogate is a value here as it is there.
-/

namespace Mfpml.BOHeap

open Mfpml.BO

variable {K : Type} [Field K] [LinearOrder K] {X S W : Type}

/-- A view of one row of an array: which array object (the arrays are numbered as they are created), which row (sf_uncons_bo.py:102, 117). -/
structure RowRef where
  block : ℕ
  row : ℕ

/-- The array objects created so far with their current contents (rows) (sf_uncons_bo.py:68, 95). -/
abbrev Blocks (X : Type) := List (List X)

/-- The rows of array `b` (sf_uncons_bo.py:68 reads the whole array). -/
def Blocks.rows (m : Blocks X) (b : ℕ) : List X := (m[b]?).getD []

/-- What a view shows (sf_uncons_bo.py:102, 117; reading `best_x`). -/
def Blocks.read (m : Blocks X) (r : RowRef) : Option X := (m.rows r.block)[r.row]?

/-- `best_x[:] = x`: writing into a view writes into the array it is a view of.  Writing a single entry is writing the row with this entry changed (sf_uncons_bo.py:102, 117). -/
def Blocks.write (m : Blocks X) (r : RowRef) (x : X) : Blocks X := m.modify r.block fun a => a.set r.row x

/-! ## Single fidelity -/

/-- Attributes of a `BayesUnConsOpt` with array objects: `initSample`, `sample` are array numbers, `bestX` and the history are views (sf_uncons_bo.py:23-40, 85-106). -/
structure SFObj (K X S W : Type) where
  blocks : Blocks X
  initSample : ℕ
  initResponse : List K
  sample : ℕ
  response : List K
  surrogate : S
  best : K
  bestX : RowRef
  historyBest : List K
  historyBestX : List RowRef
  rng : W
  calls : List (List X)

/-- `__init__` with `_initialization`, sf_uncons_bo.py:17-40 and 80-109: array 0 is `init_sample`, array 1 its copy `sample`; `best_x` is a view of `init_sample` (102). -/
def sfNew (p : SFProblem K X S W) (rng : W) : Py (SFObj K X S W) := do
  let (sample, rng) ← p.init rng
  let response ← p.f sample
  let (surrogate, rng) ← p.train p.fresh sample response rng
  let best ← npMin response
  let i ← npArgmin response
  let _ ← npRow sample i
  .ok { blocks := [sample, sample], initSample := 0, initResponse := response, sample := 1, response := response, surrogate := surrogate, best := best, bestX := ⟨0, i⟩,
        historyBest := [best], historyBestX := [⟨0, i⟩], rng := rng, calls := [sample] }

/-- The loop body of `run_optimizer`, sf_uncons_bo.py:62-76 and 111-120: `np.vstack` makes a new array (68), `best_x` is a view of it (117). -/
def sfIterate (p : SFProblem K X S W) (s : SFObj K X S W) : Py (SFObj K X S W) := do
  let (x, rng) ← p.query s.surrogate s.rng
  let y ← p.f [x]
  let sample := s.blocks.rows s.sample ++ [x]
  let response := s.response ++ y
  let (surrogate, rng) ← p.train s.surrogate sample response rng
  let minY ← npMin response
  let minIndex ← npArgmin response
  let _ ← npRow sample minIndex
  let view : RowRef := ⟨s.blocks.length, minIndex⟩
  .ok { s with blocks := s.blocks ++ [sample], sample := s.blocks.length, response := response, surrogate := surrogate, best := minY, bestX := view,
               historyBest := s.historyBest ++ [minY], historyBestX := s.historyBestX ++ [view], rng := rng, calls := s.calls ++ [[x]] }

/-- The `while` loop of sf_uncons_bo.py:61-76; the first argument is `max_iter - iteration`. -/
def sfLoop (p : SFProblem K X S W) (stop : K) : ℕ → SFObj K X S W → Py (SFObj K X S W)
  | 0, s => .ok s
  | k + 1, s => if updateError s.best p.optimum ≥ stop then do
      let s' ← sfIterate p s
      sfLoop p stop k s'
    else .ok s

/-- What a program does with a `BayesUnConsOpt`: `run_optimizer(max_iter, stopping_error)`, writing into entry `k` of `history_best_x`, writing into `best_x` (the array `run_optimizer` returns, sf_uncons_bo.py:78). -/
inductive SFOp (K X : Type)
  | run (maxIter : ℕ) (stop : K)
  | writeHistory (k : ℕ) (x : X)
  | writeBest (x : X)

/-- One operation (sf_uncons_bo.py:42-78).  Writing to a history entry that does not exist is an `IndexError` and changes nothing. -/
def sfStep (p : SFProblem K X S W) (s : SFObj K X S W) : SFOp K X → Py (SFObj K X S W)
  | .run maxIter stop => sfLoop p stop maxIter s
  | .writeHistory k x => match s.historyBestX[k]? with
    | some r => .ok { s with blocks := s.blocks.write r x }
    | none => .ok s
  | .writeBest x => .ok { s with blocks := s.blocks.write s.bestX x }

/-- A program; it ends at the first exception (sf_uncons_bo.py:42-78). -/
def sfExec (p : SFProblem K X S W) : List (SFOp K X) → SFObj K X S W → Py (SFObj K X S W)
  | [], s => .ok s
  | o :: l, s => do
    let s' ← sfStep p s o
    sfExec p l s'

/-! ## Multi-fidelity -/

/-- Attributes of an `mfUnConsBayesOpt` with array objects; a query point is an array of one row (mf_uncons_bo.py:33-53, 182-191). -/
structure MFObj (K X S W : Type) where
  blocks : Blocks X
  initSampleH : ℕ
  initSampleL : ℕ
  sampleH : ℕ
  sampleL : ℕ
  responseH : List K
  responseL : List K
  surrogate : S
  best : K
  bestX : RowRef
  historyBest : List K
  historyBestX : List RowRef
  fidelityOrder : List ℤ
  rng : W
  calls : List (Bool × List X)

/-- `__init__` with `_initialization`, mf_uncons_bo.py:21-53 and 154-194: `init_sample` is a list of two arrays, and `.copy()` of the list (182) holds the same two arrays; `best_x` is a view of the first (187). -/
def mfNew (p : MFProblem K X S W) (rng : W) : Py (MFObj K X S W) := do
  let (sample, rng) ← p.init rng
  let response ← p.call sample
  let surrogate ← p.fresh
  let (surrogate, rng) ← p.train surrogate sample response rng
  let best ← npMin response.1
  let i ← npArgmin response.1
  let _ ← npRow sample.1 i
  .ok { blocks := [sample.1, sample.2], initSampleH := 0, initSampleL := 1, sampleH := 0, sampleL := 1, responseH := response.1, responseL := response.2, surrogate := surrogate,
        best := best, bestX := ⟨0, i⟩, historyBest := [best], historyBestX := [⟨0, i⟩], fidelityOrder := [], rng := rng, calls := [] }

/-- The loop body of `run_optimizer` with `_update_para`, mf_uncons_bo.py:83-111 and 131-152: `update_x` is an array of its own (array number `blocks.length`), `np.vstack` makes a new array; a better
high-fidelity point makes `best_x` the array `update_x` (148). -/
def mfIterate (p : MFProblem K X S W) (costRatio : K) (s : MFObj K X S W) : Py (MFObj K X S W) := do
  let ((x, fidelity), rng) ← p.query s.surrogate costRatio s.best s.rng
  let own : RowRef := ⟨s.blocks.length, 0⟩
  let (s, y) ← (if fidelity = 0 then do
      let y ← p.hf [x]
      .ok ({ s with blocks := s.blocks ++ [[x], s.blocks.rows s.sampleH ++ [x]], sampleH := s.blocks.length + 1, responseH := s.responseH ++ y, calls := s.calls ++ [(true, [x])] }, y)
    else do
      let y ← p.lf [x]
      .ok ({ s with blocks := s.blocks ++ [[x], s.blocks.rows s.sampleL ++ [x]], sampleL := s.blocks.length + 1, responseL := s.responseL ++ y, calls := s.calls ++ [(false, [x])] }, y) :
        Py (MFObj K X S W × List K))
  let (surrogate, rng) ← p.train s.surrogate (s.blocks.rows s.sampleH, s.blocks.rows s.sampleL) (s.responseH, s.responseL) rng
  let (best, bestX) ← (if fidelity = 0 then do
      let y0 ← npRow y 0
      if y0 < s.best then .ok (y0, own) else .ok (s.best, s.bestX)
    else .ok (s.best, s.bestX) : Py (K × RowRef))
  .ok { s with surrogate := surrogate, rng := rng, best := best, bestX := bestX, historyBest := s.historyBest ++ [best], historyBestX := s.historyBestX ++ [bestX],
               fidelityOrder := s.fidelityOrder ++ [fidelity] }

/-- The `while` loop of mf_uncons_bo.py:82-111. -/
def mfLoop (p : MFProblem K X S W) (costRatio stop : K) : ℕ → MFObj K X S W → Py (MFObj K X S W)
  | 0, s => .ok s
  | k + 1, s => if updateError s.best p.optimum > stop then do
      let s' ← mfIterate p costRatio s
      mfLoop p costRatio stop k s'
    else .ok s

/-- What a program does with an `mfUnConsBayesOpt` (mf_uncons_bo.py:55-111; `best_x` and `history_best_x` are attributes). -/
inductive MFOp (K X : Type)
  | run (maxIter : ℕ) (costRatio stop : K)
  | writeHistory (k : ℕ) (x : X)
  | writeBest (x : X)

/-- One operation (mf_uncons_bo.py:55-111). -/
def mfStep (p : MFProblem K X S W) (s : MFObj K X S W) : MFOp K X → Py (MFObj K X S W)
  | .run maxIter costRatio stop => mfLoop p costRatio stop maxIter s
  | .writeHistory k x => match s.historyBestX[k]? with
    | some r => .ok { s with blocks := s.blocks.write r x }
    | none => .ok s
  | .writeBest x => .ok { s with blocks := s.blocks.write s.bestX x }

/-- A program; it ends at the first exception (mf_uncons_bo.py:55-111). -/
def mfExec (p : MFProblem K X S W) : List (MFOp K X) → MFObj K X S W → Py (MFObj K X S W)
  | [], s => .ok s
  | o :: l, s => do
    let s' ← mfStep p s o
    mfExec p l s'

/-! ## Constrained -/

/-- Attributes of a `BayesConsOpt` with array objects: `best_x` is `None` or an array (sf_cons_bo.py:23-40, 111-144). -/
structure ConsObj (K X S W : Type) (c : ℕ) where
  blocks : Blocks X
  initSample : ℕ
  sample : ℕ
  objResponse : List K
  consResponse : List (Fin c → K)
  surrogate : S
  best : WithTop K
  bestX : Option ℕ
  historyBest : List (WithTop K)
  historyBestX : List (Option ℕ)
  rng : W
  calls : List (List X)

/-- The new array `best_x = sample[min_index, :]`, if there is a feasible sample: indexing by an array of positions makes a new array (sf_cons_bo.py:134, 160). -/
def ownArray (m : Blocks X) : Option (List X) → Blocks X × Option ℕ
  | some xs => (m ++ [xs], some m.length)
  | none => (m, none)

/-- `__init__` with `_initialization`, sf_cons_bo.py:17-40 and 93-147. -/
def consNew {c : ℕ} (p : ConsProblem K X S W c) (rng : W) : Py (ConsObj K X S W c) := do
  let (sample, rng) ← p.init rng
  let obj ← p.f sample
  let cons ← p.fCons sample
  let (surrogate, rng) ← p.train p.fresh sample obj cons rng
  let (best, bestX) := consPara p.numCons sample obj cons
  let (blocks, ref) := ownArray [sample, sample] bestX
  .ok { blocks := blocks, initSample := 0, sample := 1, objResponse := obj, consResponse := cons, surrogate := surrogate, best := best, bestX := ref,
        historyBest := [best], historyBestX := [ref], rng := rng, calls := [sample] }

/-- The loop body, sf_cons_bo.py:62-89 and 149-171. -/
def consIterate {c : ℕ} (p : ConsProblem K X S W c) (s : ConsObj K X S W c) : Py (ConsObj K X S W c) := do
  let (x, rng) ← p.query s.surrogate s.rng
  let y ← p.f [x]
  let g ← p.fCons [x]
  let sample := s.blocks.rows s.sample ++ [x]
  let obj := s.objResponse ++ y
  let cons := s.consResponse ++ g
  let (surrogate, rng) ← p.train s.surrogate sample obj cons rng
  let (best, bestX) := consPara p.numCons sample obj cons
  let (blocks, ref) := ownArray (s.blocks ++ [sample]) bestX
  .ok { s with blocks := blocks, sample := s.blocks.length, objResponse := obj, consResponse := cons, surrogate := surrogate, best := best, bestX := ref,
               historyBest := s.historyBest ++ [best], historyBestX := s.historyBestX ++ [ref], rng := rng, calls := s.calls ++ [[x]] }

/-- The `while` loop of sf_cons_bo.py:61-89. -/
def consLoop {c : ℕ} (p : ConsProblem K X S W c) (stop : K) : ℕ → ConsObj K X S W c → Py (ConsObj K X S W c)
  | 0, s => .ok s
  | k + 1, s => if consError s.best p.optimum ≥ (stop : WithTop K) then do
      let s' ← consIterate p s
      consLoop p stop k s'
    else .ok s

/-- What a program does with a `BayesConsOpt` (sf_cons_bo.py:42-91): run it, write new contents into entry `k` of `history_best_x` or into `best_x`. -/
inductive ConsOp (K X : Type)
  | run (maxIter : ℕ) (stop : K)
  | writeHistory (k : ℕ) (xs : List X)
  | writeBest (xs : List X)

/-- Writing into an array that may be `None` (sf_cons_bo.py:134, 141; an exception for `None` changes nothing). -/
def writeOwn (m : Blocks X) (xs : List X) : Option ℕ → Blocks X
  | some b => m.set b xs
  | none => m

/-- One operation (sf_cons_bo.py:42-91). -/
def consStep {c : ℕ} (p : ConsProblem K X S W c) (s : ConsObj K X S W c) : ConsOp K X → Py (ConsObj K X S W c)
  | .run maxIter stop => consLoop p stop maxIter s
  | .writeHistory k xs => match s.historyBestX[k]? with
    | some r => .ok { s with blocks := writeOwn s.blocks xs r }
    | none => .ok s
  | .writeBest xs => .ok { s with blocks := writeOwn s.blocks xs s.bestX }

/-- A program; it ends at the first exception (sf_cons_bo.py:42-91). -/
def consExec {c : ℕ} (p : ConsProblem K X S W c) : List (ConsOp K X) → ConsObj K X S W c → Py (ConsObj K X S W c)
  | [], s => .ok s
  | o :: l, s => do
    let s' ← consStep p s o
    consExec p l s'

end Mfpml.BOHeap
