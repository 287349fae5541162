import Verif.Model.BayesOptHeap

/-!
# What a program sees of a Bayesian optimiser whose arrays it may write to (specification for C138)
-/

namespace Mfpml.Spec

open Mfpml.BO Mfpml.BOHeap

variable {K : Type} [Field K] [LinearOrder K] {X S W : Type}

/-- "Both raise the same exception, or both return, and the results are related by `R`." -/
def Agree {α β : Type} (R : α → β → Prop) (a : Py α) (b : Py β) : Prop :=
  (∃ e, a = .error e ∧ b = .error e) ∨ ∃ x y, a = .ok x ∧ b = .ok y ∧ R x y

/-! ## Single fidelity -/

/-- What a single-fidelity optimiser has recorded and works with: the samples and their responses, the incumbent value and its history, the surrogate, the random state, the evaluations made. -/
structure SFRecord (K X S W : Type) where
  sample : List X
  response : List K
  best : K
  historyBest : List K
  surrogate : S
  rng : W
  calls : List (List X)

/-- The record of an object. -/
def sfRecord (s : SFObj K X S W) : SFRecord K X S W :=
  { sample := s.blocks.rows s.sample, response := s.response, best := s.best, historyBest := s.historyBest, surrogate := s.surrogate, rng := s.rng, calls := s.calls }

/-- The object shows the values of `v`: every attribute, read through the references, is the one of `v`. -/
structure SFShows (s : SFObj K X S W) (v : SFState K X S W) : Prop where
  initSample : s.blocks.rows s.initSample = v.initSample
  initResponse : s.initResponse = v.initResponse
  sample : s.blocks.rows s.sample = v.sample
  response : s.response = v.response
  surrogate : s.surrogate = v.surrogate
  best : s.best = v.best
  bestX : s.blocks.read s.bestX = some v.bestX
  historyBest : s.historyBest = v.historyBest
  historyBestX : s.historyBestX.map s.blocks.read = v.historyBestX.map some
  rng : s.rng = v.rng
  calls : s.calls = v.calls

/-- Is the operation a run (and not a write)? -/
def sfIsRun : SFOp K X → Bool
  | .run _ _ => true
  | _ => false

/-- Several `run_optimizer` calls in the model without memory. -/
def sfRuns (p : SFProblem K X S W) : List (ℕ × K) → SFState K X S W → Py (SFState K X S W)
  | [], s => .ok s
  | (k, stop) :: l, s => do
    let r ← p.run k stop s
    sfRuns p l r.1

/-- Programs that write only into entries of `history_best_x` other than the last, or into the entry of the initial design. -/
def SFSafe (p : SFProblem K X S W) : List (SFOp K X) → SFObj K X S W → Prop
  | [], _ => True
  | .run k stop :: l, s => ∀ s', sfStep p s (.run k stop) = .ok s' → SFSafe p l s'
  | .writeHistory k x :: l, s => (k = 0 ∨ k + 1 < s.historyBest.length) ∧ ∀ s', sfStep p s (.writeHistory k x) = .ok s' → SFSafe p l s'
  | .writeBest x :: l, s => s.historyBest.length = 1 ∧ ∀ s', sfStep p s (.writeBest x) = .ok s' → SFSafe p l s'

/-! ## Multi-fidelity -/

/-- What a multi-fidelity optimiser has recorded and works with. -/
structure MFRecord (K X S W : Type) where
  sampleH : List X
  sampleL : List X
  responseH : List K
  responseL : List K
  best : K
  historyBest : List K
  fidelityOrder : List ℤ
  surrogate : S
  rng : W
  calls : List (Bool × List X)

/-- The record of an object. -/
def mfRecord (s : MFObj K X S W) : MFRecord K X S W :=
  { sampleH := s.blocks.rows s.sampleH, sampleL := s.blocks.rows s.sampleL, responseH := s.responseH, responseL := s.responseL, best := s.best, historyBest := s.historyBest,
    fidelityOrder := s.fidelityOrder, surrogate := s.surrogate, rng := s.rng, calls := s.calls }

/-- The object shows the values of `v`. -/
structure MFShows (s : MFObj K X S W) (v : MFState K X S W) : Prop where
  initSample : (s.blocks.rows s.initSampleH, s.blocks.rows s.initSampleL) = v.initSample
  sampleH : s.blocks.rows s.sampleH = v.sampleH
  sampleL : s.blocks.rows s.sampleL = v.sampleL
  responseH : s.responseH = v.responseH
  responseL : s.responseL = v.responseL
  surrogate : s.surrogate = v.surrogate
  best : s.best = v.best
  bestX : s.blocks.read s.bestX = some v.bestX
  historyBest : s.historyBest = v.historyBest
  historyBestX : s.historyBestX.map s.blocks.read = v.historyBestX.map some
  fidelityOrder : s.fidelityOrder = v.fidelityOrder
  rng : s.rng = v.rng
  calls : s.calls = v.calls

/-- Is the operation a run? -/
def mfIsRun : MFOp K X → Bool
  | .run _ _ _ => true
  | _ => false

/-- Several `run_optimizer` calls in the model without memory. -/
def mfRuns (p : MFProblem K X S W) : List (ℕ × K × K) → MFState K X S W → Py (MFState K X S W)
  | [], s => .ok s
  | (k, cr, stop) :: l, s => do
    let s' ← p.run k cr stop s
    mfRuns p l s'

/-- Programs that write only when a high-fidelity evaluation has been made since construction (`0` is in `fidelity_query_order`). -/
def MFSafe (p : MFProblem K X S W) : List (MFOp K X) → MFObj K X S W → Prop
  | [], _ => True
  | o :: l, s => (mfIsRun o = true ∨ 0 ∈ s.fidelityOrder) ∧ ∀ s', mfStep p s o = .ok s' → MFSafe p l s'

/-! ## Constrained -/

/-- What a constrained optimiser has recorded and works with, the initial design included. -/
structure ConsRecord (K X S W : Type) (c : ℕ) where
  initSample : List X
  sample : List X
  objResponse : List K
  consResponse : List (Fin c → K)
  best : WithTop K
  historyBest : List (WithTop K)
  surrogate : S
  rng : W
  calls : List (List X)

/-- The record of an object. -/
def consRecord {c : ℕ} (s : ConsObj K X S W c) : ConsRecord K X S W c :=
  { initSample := s.blocks.rows s.initSample, sample := s.blocks.rows s.sample, objResponse := s.objResponse, consResponse := s.consResponse, best := s.best, historyBest := s.historyBest,
    surrogate := s.surrogate, rng := s.rng, calls := s.calls }

/-- The object shows the values of `v`. -/
structure ConsShows {c : ℕ} (s : ConsObj K X S W c) (v : ConsState K X S W c) : Prop where
  sample : s.blocks.rows s.sample = v.sample
  objResponse : s.objResponse = v.objResponse
  consResponse : s.consResponse = v.consResponse
  surrogate : s.surrogate = v.surrogate
  best : s.best = v.best
  bestX : s.bestX.map s.blocks.rows = v.bestX
  historyBest : s.historyBest = v.historyBest
  historyBestX : s.historyBestX.map (fun r => r.map s.blocks.rows) = v.historyBestX
  rng : s.rng = v.rng
  calls : s.calls = v.calls

/-- Is the operation a run? -/
def consIsRun : ConsOp K X → Bool
  | .run _ _ => true
  | _ => false

/-- Several `run_optimizer` calls in the model without memory. -/
def consRuns {c : ℕ} (p : ConsProblem K X S W c) : List (ℕ × K) → ConsState K X S W c → Py (ConsState K X S W c)
  | [], s => .ok s
  | (k, stop) :: l, s => do
    let r ← p.run k stop s
    consRuns p l r.1

end Mfpml.Spec
