import Verif.Model.BOAssembled
import Verif.Spec.BOUnits

/-!
# Specification: other units of the design variables

Every variable gets its own new unit: `x_j` becomes `scale_j * x_j + shift_j` with `scale_j > 0`.
-/

namespace Mfpml.Spec

open Mfpml.Acq Mfpml.BO
open Mfpml.EA (Box)

/-- A change of units of every variable: `x_j` becomes `scale_j * x_j + shift_j`. -/
structure UnitChange (K : Type) (d : ℕ) where
  scale : Fin d → K
  shift : Fin d → K

variable {K : Type} [CommRing K] {d : ℕ}

/-- A point in the new units. -/
def UnitChange.point (c : UnitChange K d) (x : Fin d → K) : Fin d → K := fun j => c.scale j * x j + c.shift j

/-- A design space in the new units. -/
def UnitChange.space (c : UnitChange K d) (b : Box K d) : Box K d := ⟨c.point b.low, c.point b.high⟩

/-- A multi-variable search does not depend on the units of the variables: for the same function of the same points, it finds the same point.  (`scipy.optimize.differential_evolution` draws and combines its
trial points in the unit cube, the local search it ends with works in the caller's variables.) -/
def UnitFreeInputs {W : Type} {d : ℕ} (de : DiffEvo W d) : Prop :=
  ∀ (c : UnitChange ℝ d) (f f' : (Fin d → ℝ) → Py ℝ), (∀ j, 0 < c.scale j) → (∀ x, f' (c.point x) = f x) → ∀ box w,
    de f' (c.space box) w = (de f box w).map fun r => ((c.point r.1.1, r.1.2), r.2)

/-- `f'` is the function `f` for points given in the new units. -/
def SameFunction {Y : Type} (c : UnitChange ℝ d) (f f' : List (Fin d → ℝ) → Py Y) : Prop := ∀ xs, f' (xs.map c.point) = f xs

/-- The same run told in two units of the variables: the same values, the same use of the random generator, every point converted. -/
structure SameRunIn {S S' W : Type} (c : UnitChange ℝ d) (s : SFState ℝ (Fin d → ℝ) S W) (s' : SFState ℝ (Fin d → ℝ) S' W) : Prop where
  sample : s'.sample = s.sample.map c.point
  response : s'.response = s.response
  initSample : s'.initSample = s.initSample.map c.point
  initResponse : s'.initResponse = s.initResponse
  best : s'.best = s.best
  bestX : s'.bestX = c.point s.bestX
  historyBest : s'.historyBest = s.historyBest
  historyBestX : s'.historyBestX = s.historyBestX.map c.point
  calls : s'.calls = s.calls.map fun l => l.map c.point
  rng : s'.rng = s.rng

/-! ## Constrained -/

/-- The history of a constrained optimiser: it is constructed, then `run_optimizer(max_iter, stopping_error)` is called any number of times. -/
noncomputable def consSession {X S W : Type} {n : ℕ} (p : ConsProblem ℝ X S W n) (w : W) (runs : List (ℕ × ℝ)) : Py (ConsState ℝ X S W n) := do
  let s ← p.new w
  runs.foldlM (fun s r => do let (s', _) ← p.run r.1 r.2 s; .ok s') s

/-- The same run of a constrained optimiser told in two units of the variables; the best points are the rows of an array, or there are none. -/
structure SameConsRunIn {S S' W : Type} {n : ℕ} (c : UnitChange ℝ d) (s : ConsState ℝ (Fin d → ℝ) S W n) (s' : ConsState ℝ (Fin d → ℝ) S' W n) : Prop where
  sample : s'.sample = s.sample.map c.point
  objResponse : s'.objResponse = s.objResponse
  consResponse : s'.consResponse = s.consResponse
  best : s'.best = s.best
  bestX : s'.bestX = s.bestX.map fun l => l.map c.point
  historyBest : s'.historyBest = s.historyBest
  historyBestX : s'.historyBestX = s.historyBestX.map fun o => o.map fun l => l.map c.point
  calls : s'.calls = s.calls.map fun l => l.map c.point
  rng : s'.rng = s.rng

/-! ## Multi-fidelity -/

/-- The same run of a multi-fidelity optimiser told in two units of the variables. -/
structure SameMFRunIn {S S' W : Type} (c : UnitChange ℝ d) (s : MFState ℝ (Fin d → ℝ) S W) (s' : MFState ℝ (Fin d → ℝ) S' W) : Prop where
  sampleH : s'.sampleH = s.sampleH.map c.point
  sampleL : s'.sampleL = s.sampleL.map c.point
  responseH : s'.responseH = s.responseH
  responseL : s'.responseL = s.responseL
  best : s'.best = s.best
  bestX : s'.bestX = c.point s.bestX
  historyBest : s'.historyBest = s.historyBest
  historyBestX : s'.historyBestX = s.historyBestX.map c.point
  fidelityOrder : s'.fidelityOrder = s.fidelityOrder
  calls : s'.calls = s.calls.map fun l => (l.1, l.2.map c.point)
  rng : s'.rng = s.rng

end Mfpml.Spec
