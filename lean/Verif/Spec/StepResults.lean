import Verif.Model.StepResults

/-!
# Specification vocabulary for step results and crashes (C140)
-/

namespace Mfpml.Spec

open Mfpml.EA

variable {K : Type} {P D : ℕ}

/-- The state of the file `step_results.pickle`: as it was before the run (or missing), readable and holding a record of this run, or not readable. -/
inductive StepFile (K : Type) (P D : ℕ) where
  | asBefore
  | unreadable
  | holds (r : StepRecord K P D)

/-- What one event does to the file: opening it for writing empties it, the finished dump makes it readable. -/
def StepFile.after (f : StepFile K P D) : StepEvent K P D → StepFile K P D
  | .printed _ _ _ => f
  | .iterated => f
  | .opened => .unreadable
  | .dumped r => .holds r

/-- The file of a process that was killed after the events `es`. -/
def fileAfter (es : List (StepEvent K P D)) : StepFile K P D := es.foldl StepFile.after .asBefore

/-- The number of iterations computed in `es`. -/
def numIterated (es : List (StepEvent K P D)) : ℕ := es.countP fun e => match e with | .iterated => true | _ => false

/-- The number of times the file has been opened for writing. -/
def numOpened (es : List (StepEvent K P D)) : ℕ := es.countP fun e => match e with | .opened => true | _ => false

/-- The number of times the file has been written completely. -/
def numDumped (es : List (StepEvent K P D)) : ℕ := es.countP fun e => match e with | .dumped _ => true | _ => false

/-- The printed lines. -/
def printedLines (es : List (StepEvent K P D)) : List (ℕ × K × (Fin D → K)) := es.filterMap fun e => match e with | .printed i y x => some (i, y, x) | _ => none

/-- The record describes `k` iterations of a run with result `R`: its histories agree with those of `R` up to row `k` and are zero from there on; `best_x` and `best_y` are the histories once more. -/
structure Records [Zero K] (r : StepRecord K P D) (R : Result K P D) (k : ℕ) : Prop where
  bestY : ∀ i, r.bestYHist i = if i ≤ k then R.bestYHist i else 0
  bestX : ∀ i, r.bestXHist i = if i ≤ k then R.bestXHist i else fun _ => 0
  samples : ∀ i, r.allSamples i = if i ≤ k then R.allSamples i else fun _ _ => 0
  responses : ∀ i, r.allResponses i = if i ≤ k then R.allResponses i else fun _ => 0
  bestY' : r.bestY = r.bestYHist
  bestX' : r.bestX = r.bestXHist

end Mfpml.Spec
