import Verif.Model.NonFinite

/-!
# The Bayesian optimisers with objectives that may return `nan` or infinities
`src/mfpml/optimization/sf_uncons_bo.py`, `mf_uncons_bo.py`, `sf_cons_bo.py`

The loops of `Model/BayesOpt.lean` with floats that may be `nan` or infinite: `np.min` and `np.argmin` let `nan` win, comparisons with `nan` are false.  Surrogate and acquisition are arbitrary.
-/

namespace Mfpml.NonFinite

open Mfpml.BO (SFProblem SFState MFProblem MFState npRow)

/-- `np.abs` (sf_uncons_bo.py:131). -/
noncomputable def XF.abs : XF → XF
  | .nan => .nan
  | .inf _ => .inf false
  | .num v => .num |v|

/-- `a >= b` on floats: false with `nan` (sf_uncons_bo.py:61). -/
noncomputable def XF.ge : XF → XF → Bool
  | .nan, _ => false
  | _, .nan => false
  | a, b => !(a.lt b)

/-- One comparison of `np.min`: `nan` is contagious (sf_uncons_bo.py:101, 113). -/
noncomputable def XF.min2 : XF → XF → XF
  | .nan, _ => .nan
  | _, .nan => .nan
  | a, b => if b.lt a then b else a

/-- `np.min`: raises `ValueError` for an empty array (sf_uncons_bo.py:101, 113). -/
noncomputable def npMinX : List XF → Py XF
  | [] => .error .valueError
  | a :: l => .ok (l.foldl XF.min2 a)

/-- Scan for `np.argmin`: the first `nan` wins, otherwise the first smallest entry (sf_uncons_bo.py:102, 114). -/
noncomputable def argminScanX (m : XF) (b : ℕ) : ℕ → List XF → ℕ
  | _, [] => b
  | i, a :: l => match m, a with
    | .nan, _ => b
    | _, .nan => i
    | _, _ => if a.lt m then argminScanX a i (i + 1) l else argminScanX m b (i + 1) l

/-- `np.argmin` (sf_uncons_bo.py:102, 114). -/
noncomputable def npArgminX : List XF → Py ℕ
  | [] => .error .valueError
  | a :: l => .ok (argminScanX a 0 1 l)

/-- `a == b` on floats: `nan` equals nothing (sf_uncons_bo.py:133; sf_cons_bo.py:132, 157). -/
noncomputable def XF.eqf : XF → XF → Bool
  | .num a, .num b => decide (a = b)
  | .inf s, .inf t => s == t
  | _, _ => false

/-- `__update_error`, sf_uncons_bo.py:122-138 and mf_uncons_bo.py:113-129; `known_optimum != 0` holds for `nan`. -/
noncomputable def updateErrorX (A : Arith) (best : XF) : Option XF → XF
  | none => .num 1
  | some o => if o.eqf (.num 0) then (A.sub best o).abs else (A.div (A.sub best o) o).abs

variable {X S W : Type}

/-- `__init__` with `_initialization`, sf_uncons_bo.py:17-40 and 80-109. -/
noncomputable def sfNew (p : SFProblem XF X S W) (rng : W) : Py (SFState XF X S W) := do
  let (sample, rng) ← p.init rng
  let response ← p.f sample
  let (surrogate, rng) ← p.train p.fresh sample response rng
  let best ← npMinX response
  let i ← npArgminX response
  let bestX ← npRow sample i
  .ok { initSample := sample, initResponse := response, sample := sample, response := response, surrogate := surrogate, best := best, bestX := bestX,
        historyBest := [best], historyBestX := [bestX], rng := rng, calls := [sample] }

/-- The loop body of `run_optimizer` with `_update_para`, sf_uncons_bo.py:62-76 and 111-120. -/
noncomputable def sfIterate (p : SFProblem XF X S W) (s : SFState XF X S W) : Py (SFState XF X S W) := do
  let (x, rng) ← p.query s.surrogate s.rng
  let y ← p.f [x]
  let sample := s.sample ++ [x]
  let response := s.response ++ y
  let (surrogate, rng) ← p.train s.surrogate sample response rng
  let minY ← npMinX response
  let minIndex ← npArgminX response
  let bestX ← npRow sample minIndex
  .ok { s with sample := sample, response := response, surrogate := surrogate, best := minY, bestX := bestX,
               historyBest := s.historyBest ++ [minY], historyBestX := s.historyBestX ++ [bestX], rng := rng, calls := s.calls ++ [[x]] }

/-- The `while` loop of sf_uncons_bo.py:61-76; the first argument is `max_iter - iteration`. -/
noncomputable def sfLoop (A : Arith) (p : SFProblem XF X S W) (stop : XF) : ℕ → SFState XF X S W → Py (SFState XF X S W)
  | 0, s => .ok s
  | k + 1, s => if (updateErrorX A s.best p.optimum).ge stop then do
      let s' ← sfIterate p s
      sfLoop A p stop k s'
    else .ok s

/-- What an iteration that raises leaves behind (sf_uncons_bo.py:62-71). -/
inductive SFCrash (p : SFProblem XF X S W) (s : SFState XF X S W) : SFState XF X S W → Prop
  | query {e w} : p.query s.surrogate s.rng = .error e → SFCrash p s { s with rng := w }
  | objective {x r e w} : p.query s.surrogate s.rng = .ok (x, r) → p.f [x] = .error e → SFCrash p s { s with rng := w, calls := s.calls ++ [[x]] }
  | training {x r y e su w} : p.query s.surrogate s.rng = .ok (x, r) → p.f [x] = .ok y → p.train s.surrogate (s.sample ++ [x]) (s.response ++ y) r = .error e →
      SFCrash p s { s with sample := s.sample ++ [x], response := s.response ++ y, surrogate := su, rng := w, calls := s.calls ++ [[x]] }

/-- `__init__` with `_initialization`, mf_uncons_bo.py:21-53 and 154-194. -/
noncomputable def mfNew (p : MFProblem XF X S W) (rng : W) : Py (MFState XF X S W) := do
  let (sample, rng) ← p.init rng
  let response ← p.call sample
  let surrogate ← p.fresh
  let (surrogate, rng) ← p.train surrogate sample response rng
  let best ← npMinX response.1
  let i ← npArgminX response.1
  let bestX ← npRow sample.1 i
  .ok { initSample := sample, initResponse := response, sampleH := sample.1, sampleL := sample.2, responseH := response.1, responseL := response.2, surrogate := surrogate,
        best := best, bestX := bestX, historyBest := [best], historyBestX := [bestX], fidelityOrder := [], rng := rng, calls := [] }

/-- The comparison of `_update_para`, mf_uncons_bo.py:144-147: `update_y[0][0] < self.best`. -/
noncomputable def mfBest (s : MFState XF X S W) (x : X) (y : List XF) (fidelity : ℤ) : Py (XF × X) :=
  if fidelity = 0 then do
    let y0 ← npRow y 0
    if y0.lt s.best then .ok (y0, x) else .ok (s.best, s.bestX)
  else .ok (s.best, s.bestX)

/-- The evaluation at the queried fidelity and the extension of the samples, mf_uncons_bo.py:87-96. -/
noncomputable def mfEvaluate (p : MFProblem XF X S W) (s : MFState XF X S W) (x : X) (fidelity : ℤ) : Py (MFState XF X S W × List XF) :=
  if fidelity = 0 then do
    let y ← p.hf [x]
    .ok ({ s with sampleH := s.sampleH ++ [x], responseH := s.responseH ++ y, calls := s.calls ++ [(true, [x])] }, y)
  else do
    let y ← p.lf [x]
    .ok ({ s with sampleL := s.sampleL ++ [x], responseL := s.responseL ++ y, calls := s.calls ++ [(false, [x])] }, y)

/-- The loop body of `run_optimizer`, mf_uncons_bo.py:83-111 with `_update_para` (131-152). -/
noncomputable def mfIterate (p : MFProblem XF X S W) (costRatio : XF) (s : MFState XF X S W) : Py (MFState XF X S W) := do
  let ((x, fidelity), rng) ← p.query s.surrogate costRatio s.best s.rng
  let (s, y) ← mfEvaluate p s x fidelity
  let (surrogate, rng) ← p.train s.surrogate (s.sampleH, s.sampleL) (s.responseH, s.responseL) rng
  let (best, bestX) ← mfBest s x y fidelity
  .ok { s with surrogate := surrogate, rng := rng, best := best, bestX := bestX, historyBest := s.historyBest ++ [best], historyBestX := s.historyBestX ++ [bestX],
               fidelityOrder := s.fidelityOrder ++ [fidelity] }

/-- The `while` loop of mf_uncons_bo.py:82-111 (`error > stopping_error`). -/
noncomputable def mfLoop (A : Arith) (p : MFProblem XF X S W) (costRatio stop : XF) : ℕ → MFState XF X S W → Py (MFState XF X S W)
  | 0, s => .ok s
  | k + 1, s => if stop.lt (updateErrorX A s.best p.optimum) then do
      let s' ← mfIterate p costRatio s
      mfLoop A p costRatio stop k s'
    else .ok s

/-- What an iteration that raises leaves behind (mf_uncons_bo.py:84-99). -/
inductive MFCrash (p : MFProblem XF X S W) (costRatio : XF) (s : MFState XF X S W) : MFState XF X S W → Prop
  | query {e w} : p.query s.surrogate costRatio s.best s.rng = .error e → MFCrash p costRatio s { s with rng := w }
  | evaluation {x fid r e w cs} : p.query s.surrogate costRatio s.best s.rng = .ok ((x, fid), r) → mfEvaluate p s x fid = .error e → MFCrash p costRatio s { s with rng := w, calls := cs }
  | training {x fid r t y e su w} : p.query s.surrogate costRatio s.best s.rng = .ok ((x, fid), r) → mfEvaluate p s x fid = .ok (t, y) →
      p.train t.surrogate (t.sampleH, t.sampleL) (t.responseH, t.responseL) r = .error e → MFCrash p costRatio s { t with surrogate := su, rng := w }

/-- What a `BayesConsOpt` is given, with floats for the responses (sf_cons_bo.py:16-40, 61-79, 93-123). -/
structure ConsProblemX (X S W : Type) (c : ℕ) where
  f : List X → Py (List XF)
  fCons : List X → Py (List (Fin c → XF))
  numCons : ℕ
  optimum : Option XF
  init : W → Py (List X × W)
  fresh : S
  train : S → List X → List XF → List (Fin c → XF) → W → Py (S × W)
  query : S → W → Py (X × W)

/-- Attributes of a `BayesConsOpt` (sf_cons_bo.py:23-40, 111-144). -/
structure ConsStateX (X S W : Type) (c : ℕ) where
  sample : List X
  objResponse : List XF
  consResponse : List (Fin c → XF)
  surrogate : S
  best : XF
  bestX : Option (List X)
  historyBest : List XF
  historyBestX : List (Option (List X))
  rng : W
  calls : List (List X)

/-- `cons <= 0` on floats: false for `nan` (sf_cons_bo.py:128, 153). -/
noncomputable def XF.le0 : XF → Bool
  | .nan => false
  | .inf s => s
  | .num v => decide (v ≤ 0)

/-- `np.where(np.sum(cons <= 0, axis=1) == num_cons)`, sf_cons_bo.py:127-129, 152-154. -/
noncomputable def feasibleX {c : ℕ} (numCons : ℕ) (cons : List (Fin c → XF)) : List ℕ :=
  (List.range cons.length).filter fun i => match cons[i]? with
    | some row => ((List.finRange c).countP fun j => (row j).le0) = numCons
    | none => false

/-- `np.where(obj == y)[0]`, sf_cons_bo.py:132, 157. -/
noncomputable def positionsX (y : XF) (obj : List XF) : List ℕ :=
  (List.range obj.length).filter fun i => match obj[i]? with
    | some z => z.eqf y
    | none => false

/-- The `try` block of sf_cons_bo.py:126-138 and 151-164. -/
noncomputable def consBestX {c : ℕ} (numCons : ℕ) (sample : List X) (obj : List XF) (cons : List (Fin c → XF)) : Py (XF × List X) := do
  let feas ← (feasibleX numCons cons).mapM (npRow obj)
  let minY ← npMinX feas
  let xs ← (positionsX minY obj).mapM (npRow sample)
  .ok (minY, xs)

/-- `_update_para` and the end of `_initialization`, sf_cons_bo.py:139-145, 165-171. -/
noncomputable def consParaX {c : ℕ} (numCons : ℕ) (sample : List X) (obj : List XF) (cons : List (Fin c → XF)) : XF × Option (List X) :=
  match consBestX numCons sample obj cons with
  | .ok (y, xs) => (y, some xs)
  | .error _ => (.inf false, none)

/-- `__init__` with `_initialization`, sf_cons_bo.py:17-40 and 93-147. -/
noncomputable def consNew {c : ℕ} (p : ConsProblemX X S W c) (rng : W) : Py (ConsStateX X S W c) := do
  let (sample, rng) ← p.init rng
  let obj ← p.f sample
  let cons ← p.fCons sample
  let (surrogate, rng) ← p.train p.fresh sample obj cons rng
  .ok { sample := sample, objResponse := obj, consResponse := cons, surrogate := surrogate, best := (consParaX p.numCons sample obj cons).1, bestX := (consParaX p.numCons sample obj cons).2,
        historyBest := [(consParaX p.numCons sample obj cons).1], historyBestX := [(consParaX p.numCons sample obj cons).2], rng := rng, calls := [sample] }

/-- The loop body, sf_cons_bo.py:62-89 and 149-171. -/
noncomputable def consIterate {c : ℕ} (p : ConsProblemX X S W c) (s : ConsStateX X S W c) : Py (ConsStateX X S W c) := do
  let (x, rng) ← p.query s.surrogate s.rng
  let y ← p.f [x]
  let g ← p.fCons [x]
  let sample := s.sample ++ [x]
  let obj := s.objResponse ++ y
  let cons := s.consResponse ++ g
  let (surrogate, rng) ← p.train s.surrogate sample obj cons rng
  .ok { sample := sample, objResponse := obj, consResponse := cons, surrogate := surrogate, best := (consParaX p.numCons sample obj cons).1, bestX := (consParaX p.numCons sample obj cons).2,
        historyBest := s.historyBest ++ [(consParaX p.numCons sample obj cons).1], historyBestX := s.historyBestX ++ [(consParaX p.numCons sample obj cons).2], rng := rng, calls := s.calls ++ [[x]] }

/-- The `while` loop of sf_cons_bo.py:61-89. -/
noncomputable def consLoop {c : ℕ} (A : Arith) (p : ConsProblemX X S W c) (stop : XF) : ℕ → ConsStateX X S W c → Py (ConsStateX X S W c)
  | 0, s => .ok s
  | k + 1, s => if (updateErrorX A s.best p.optimum).ge stop then do
      let s' ← consIterate p s
      consLoop A p stop k s'
    else .ok s

/-- What an iteration of the constrained optimiser that raises leaves behind (sf_cons_bo.py:62-79). -/
inductive ConsProblemX.Crash {c : ℕ} (p : ConsProblemX X S W c) (s : ConsStateX X S W c) : ConsStateX X S W c → Prop
  | query {e w} : p.query s.surrogate s.rng = .error e → p.Crash s { s with rng := w }
  | objective {x r e w} : p.query s.surrogate s.rng = .ok (x, r) → p.f [x] = .error e → p.Crash s { s with rng := w, calls := s.calls ++ [[x]] }
  | constraints {x r y e w} : p.query s.surrogate s.rng = .ok (x, r) → p.f [x] = .ok y → p.fCons [x] = .error e → p.Crash s { s with rng := w, calls := s.calls ++ [[x]] }
  | training {x r y g e su w} : p.query s.surrogate s.rng = .ok (x, r) → p.f [x] = .ok y → p.fCons [x] = .ok g →
      p.train s.surrogate (s.sample ++ [x]) (s.objResponse ++ y) (s.consResponse ++ g) r = .error e →
      p.Crash s { s with sample := s.sample ++ [x], objResponse := s.objResponse ++ y, consResponse := s.consResponse ++ g, surrogate := su, rng := w, calls := s.calls ++ [[x]] }

/-- The trainings of the constraint surrogates, one after the other, each on its column: sf_cons_bo.py:75-79, 113-123. -/
noncomputable def trainColumns {Θ : Type} {c : ℕ} (A : Arith) (L : Lib Θ W) (o : Fin c → KObj X Θ S) (xs : List X) (cons : List (Fin c → XF)) : List (Fin c) → W → Py (List S × W)
  | [], w => .ok ([], w)
  | j :: js, w => do
    let r ← (o j).train A L xs (cons.map fun row => row j) w
    let q ← trainColumns A L o xs cons js r.2
    .ok (r.1 :: q.1, q.2)

/-- The trainings of the objective surrogate and the `c` constraint surrogates, sf_cons_bo.py:73-79. -/
noncomputable def trainConsX {Θ : Type} {c : ℕ} (A : Arith) (L : Lib Θ W) (obj : KObj X Θ S) (o : Fin c → KObj X Θ S) (xs : List X) (ys : List XF) (cons : List (Fin c → XF)) (w : W) : Py ((S × List S) × W) := do
  let r ← obj.train A L xs ys w
  let q ← trainColumns A L o xs cons (List.finRange c) r.2
  .ok ((r.1, q.1), q.2)

end Mfpml.NonFinite
