import Verif.Model.BOAssembled

/-!
# Specification: other units of the objective

Changing the units of a quantity replaces every value `y` of it by `a * y + b` with `a > 0` (kilometres for metres, degrees Fahrenheit for degrees Celsius).
-/

open scoped BigOperators

namespace Mfpml.Spec

open Mfpml.GP Mfpml.Acq Mfpml.BO

/-- The objective with its values given in other units. -/
def inUnits {X : Type} (a b : ℝ) (f : List X → Py (List ℝ)) : List X → Py (List ℝ) := fun xs => (f xs).map fun ys => ys.map fun y => a * y + b

/-- The search for the next point does not depend on the units of the function it minimises: it finds the same point.  (True of searches that only compare values, and of exact ones that return a point
determined by the set of minimisers; it says nothing about how good the point is.) -/
def UnitFreeSearch {W : Type} {d : ℕ} (de : DiffEvo W d) : Prop :=
  ∀ (f : (Fin d → ℝ) → Py ℝ) (a b : ℝ), 0 < a → ∀ box w,
    (de (fun x => (f x).map fun v => a * v + b) box w).map (fun r => (r.1.1, r.2)) = (de f box w).map (fun r => (r.1.1, r.2))

/-- The expected improvement with an arbitrary guard `t` in place of `1e-9` (sf_uncons_acqusitions.py:147-156). -/
noncomputable def eiGuard {d : ℕ} (t : ℝ) (m : ℕ) (s : SFSurr d) (x : Samples m d) : Py (Fin m → ℝ) := do
  let fmin ← npMin s.sampleY
  let (yhat, sigma) ← s.predict m x
  .ok (fun j => -((fmin - yhat j) * normCdf ((fmin - yhat j) / (sigma j + t)) + sigma j * normPdf ((fmin - yhat j) / (sigma j + t))))

/-- The probability of improvement with an arbitrary guard `t` in place of `1e-9` (sf_uncons_acqusitions.py:188-198). -/
noncomputable def piGuard {d : ℕ} (t : ℝ) (m : ℕ) (s : SFSurr d) (x : Samples m d) : Py (Fin m → ℝ) := do
  let fmin ← npMin s.sampleY
  let (yhat, sigma) ← s.predict m x
  .ok (fun j => -normCdf ((fmin - yhat j) / (sigma j + t)))

/-- The history of an optimiser: it is constructed, then `run_optimizer(max_iter, stopping_error)` is called any number of times. -/
noncomputable def session {X S W : Type} (p : SFProblem ℝ X S W) (w : W) (runs : List (ℕ × ℝ)) : Py (SFState ℝ X S W) := do
  let s ← p.new w
  runs.foldlM (fun s r => do let (s', _) ← p.run r.1 r.2 s; .ok s') s

/-- The same run told in two units: the same points in the same order, the same best points and the same use of the random generator; every response and every best value of the second is the one of the first,
converted. -/
structure SameRun {X S W : Type} (a b : ℝ) (s s' : SFState ℝ X S W) : Prop where
  sample : s'.sample = s.sample
  response : s'.response = s.response.map fun y => a * y + b
  initSample : s'.initSample = s.initSample
  initResponse : s'.initResponse = s.initResponse.map fun y => a * y + b
  best : s'.best = a * s.best + b
  bestX : s'.bestX = s.bestX
  historyBest : s'.historyBest = s.historyBest.map fun y => a * y + b
  historyBestX : s'.historyBestX = s.historyBestX
  calls : s'.calls = s.calls
  rng : s'.rng = s.rng

/-! ## Multi-fidelity -/

/-- The search does not depend on the units of the function it minimises: it finds the same point, and reports the converted value. -/
def UnitFreeValues {W : Type} {d : ℕ} (de : DiffEvo W d) : Prop :=
  ∀ (f : (Fin d → ℝ) → Py ℝ) (a b : ℝ), 0 < a → ∀ box w, de (fun x => (f x).map fun v => a * v + b) box w = (de f box w).map fun r => ((r.1.1, a * r.1.2 + b), r.2)

/-- `AugmentedEI.query` with an arbitrary threshold `e` in place of the machine precision (mf_acqusitions.py:85-177). -/
noncomputable def aeiQueryGuard {W : Type} {d : ℕ} (e : ℝ) (optimizer : Option (PopOpt W d)) (de : DiffEvo W d) (s : MFSurr d) (costRatio _fmin : ℝ) (w : W) : Py (((Fin d → ℝ) × ℤ) × W) :=
  mfChoose (fun fid => single (fun x => do
    let (pre, std) ← s.predictStd 1 x
    let xb ← effectiveBest s
    let fmin ← s.predict 1 (onePoint xb)
    let alpha1 ← fidelityCorr s x fid
    match alpha1 with
    | none => .error .typeError
    | some a1 =>
      let alpha3 : ℝ := if fid = 0 then 1 else costRatio
      .ok (fun j => -((if std j < e then 0 else (fmin 0 - pre j) * normCdf ((fmin 0 - pre j) / std j) + std j * normPdf ((fmin 0 - pre j) / std j)) * a1 j * alpha3)))) optimizer de s.bound w

/-- The value `VFEI` uses, with an arbitrary guard `t` in place of `1e-8` and an arbitrary threshold `e` in place of the machine precision (mf_acqusitions.py:286-290). -/
noncomputable def vfeiValue (t e fmin pre std s : ℝ) : ℝ :=
  if s < e then 0 else (fmin - pre) * normCdf ((fmin - pre) / (std + t)) + std * normPdf ((fmin - pre) / (std + t))

/-- `VFEI.query` with an arbitrary guard and threshold (mf_acqusitions.py:247-341). -/
noncomputable def vfeiQueryGuard {W : Type} {d : ℕ} (t e : ℝ) (optimizer : Option (PopOpt W d)) (de : DiffEvo W d) (s : MFSurr d) (_costRatio fmin : ℝ) (w : W) : Py (((Fin d → ℝ) × ℤ) × W) :=
  mfChoose (fun fid => single (fun x => if s.isHK = false then .error .valueError else do
    let (pre, std) ← s.predictStd 1 x
    if fid = 0 then .ok (fun j => -vfeiValue t e fmin (pre j) (std j) (std j))
    else if fid = 1 then do
      let (_, stdLf) ← s.predictLfStd 1 x
      let beta ← s.beta
      .ok (fun j => -vfeiValue t e fmin (pre j) (std j) (beta * stdLf j))
    else .error .unboundLocal)) optimizer de s.bound w

/-- `ExtendedPI.query` with an arbitrary threshold `e` in place of the machine precision (mf_acqusitions.py:485-583). -/
noncomputable def epiQueryGuard {W : Type} {d : ℕ} (e : ℝ) (optimizer : Option (PopOpt W d)) (de : DiffEvo W d) (s : MFSurr d) (costRatio _fmin : ℝ) (w : W) : Py (((Fin d → ℝ) × ℤ) × W) := do
  let b ← s.bound
  let (premin, w) ← de (single (s.predict 1)) b w
  mfChoose (fun fid => single (fun x => do
    let v ← (do
      let (pre, std) ← s.predictStd 1 x
      let corr ← fidelityCorr s x fid
      match corr with
      | none => .error .typeError
      | some c =>
        let p : Fin 1 → ℝ := fun i => if std i < e then 0 else normCdf ((premin.2 - pre i) / std i)
        if fid = 0 then do
          let r ← s.evalCorr 1 s.numH x s.sampleH 0
          match r with
          | none => .error .typeError
          | some R => .ok (fun i j => -p i * c i * 1 * ∏ k, R j k)
        else do
          let r ← s.evalCorr 1 s.numL x s.sampleL 1
          match r with
          | none => .error .typeError
          | some R => .ok (fun i j => -p i * c i * costRatio * ∏ k, R j k) : Py (Fin 1 → Fin 1 → ℝ))
    .ok (fun i => v i i))) optimizer de s.bound w

/-- The history of a multi-fidelity optimiser: it is constructed, then `run_optimizer(max_iter, cost_ratio, stopping_error)` is called any number of times. -/
noncomputable def mfSession {X S W : Type} (p : MFProblem ℝ X S W) (w : W) (runs : List (ℕ × ℝ × ℝ)) : Py (MFState ℝ X S W) := do
  let s ← p.new w
  runs.foldlM (fun s r => p.run r.1 r.2.1 r.2.2 s) s

/-- The same run told in two units. -/
structure SameMFRun {X S W : Type} (a b : ℝ) (s s' : MFState ℝ X S W) : Prop where
  sampleH : s'.sampleH = s.sampleH
  sampleL : s'.sampleL = s.sampleL
  responseH : s'.responseH = s.responseH.map fun y => a * y + b
  responseL : s'.responseL = s.responseL.map fun y => a * y + b
  best : s'.best = a * s.best + b
  bestX : s'.bestX = s.bestX
  historyBest : s'.historyBest = s.historyBest.map fun y => a * y + b
  historyBestX : s'.historyBestX = s.historyBestX
  fidelityOrder : s'.fidelityOrder = s.fidelityOrder
  calls : s'.calls = s.calls
  rng : s'.rng = s.rng

end Mfpml.Spec
