import Verif.Model.GPObjects
import Verif.Model.ScaledKriging

/-!
# `ScaledKriging` objects and the models they hold

`Verif.Model.ScaledKriging` treats the low-fidelity and the discrepancy model as two values.  Here they are references to `GaussianProcessRegression` objects: the user may pass their own (`lfGP`, `disc_model`), may
pass the same object twice, may use them elsewhere, and a `train` call that raises has already changed some of them.  Both models have the same number `q` of trend columns.
-/

open scoped BigOperators Matrix

namespace Mfpml.GPObjects

open Mfpml.EA (Box)
open Mfpml.GP

variable {d q : ℕ}

/-- The attributes of a `ScaledKriging` object that `train` and `predict` read, scale_kriging.py:60-88 (`sample_xh`, `sample_yh`, `noise` and the unused `kernel`, `mu` are left out). -/
structure SKModel where
  lf : Ref
  disc : Ref
  rho : ℝ
  rhoOptimize : Bool
  rhoMethod : RhoMethod
  rhoLow : ℝ
  rhoHigh : ℝ
  rhoOptimizer : Option PopOptimizer

/-- A new array object (the result of an arithmetic expression such as scale_kriging.py:142 and 222): `a` is the reference it gets. -/
def Heap.newArray (h : Heap d q) (a : Ref) {n : ℕ} (y : Fin n → ℝ) : Heap d q := { h with arrays := Function.update h.arrays a ⟨n, y⟩ }

/-- The evaluations made by an optimiser of the bumpiness objective, scale_kriging.py:204-227, on the objects: each one trains the discrepancy model on a new array of differences.  `fresh k` is the reference of the
`k`-th such array. -/
noncomputable def Heap.bumpRun {n : ℕ} (s : SKModel) (Xh : Samples n d) (yh : Fin n → ℝ) (fresh : ℕ → Ref) : List (ℝ × World d) → ℕ → Heap d q → Heap d q × Py Unit
  | [], _, h => (h, .ok ())
  | (r, w) :: rest, k, h =>
    match h.predictMean s.lf Xh with
    | .error e => (h, .error e)
    | .ok f =>
      match (h.newArray (fresh k) (getDisc r f yh)).train s.disc w ⟨n, Xh⟩ (fresh k) with
      | (h, .error e) => (h, .error e)
      | (h, .ok ()) => bumpRun s Xh yh fresh rest (k + 1) h

/-- `_rho_optimize`, scale_kriging.py:144-183, on the objects. -/
noncomputable def Heap.optimizeRho {n : ℕ} (h : Heap d q) (s : SKModel) (w : SKWorld d) (Xh : Samples n d) (yh : Fin n → ℝ) (fresh : ℕ → Ref) : Heap d q × Py ℝ :=
  match s.rhoMethod with
  | .error =>
    match h.predictMean s.lf Xh with
    | .error e => (h, .error e)
    | .ok f =>
      match s.rhoOptimizer with
      | none => (h, do
        let (x, _) ← w.mini 1 (fun r => .ok (evalError f yh r 0)) (fun _ => w.x0) (fun _ => s.rhoLow) (fun _ => s.rhoHigh)
        .ok (x 0))
      | some run => (h, do
        let x ← run 1 (fun r => .ok (evalError f yh r 0)) (fun _ => s.rhoLow) (fun _ => s.rhoHigh)
        .ok (x 0))
  | .bumpiness =>
    match Heap.bumpRun s Xh yh fresh w.bumpEvals 0 h with
    | (h, .error e) => (h, .error e)
    | (h, .ok ()) => (h, .ok w.bumpX)
  | .other => (h, .error .unboundLocal)

/-- `sk.train([Xh, Xl], [yh, yl])` with the response arrays `ah`, `al`: mf_gaussian_process.py:46-92 (the low-fidelity model is trained first) and scale_kriging.py:90-105.  The state after the call, the
`ScaledKriging` object as it is left, and the exception if there is one.  Numbers of high-fidelity samples and responses that differ raise `ValueError` (numpy would repeat a single response or sample). -/
noncomputable def Heap.skTrain (h : Heap d q) (s : SKModel) (w : SKWorld d) (Xh : Σ n, Samples n d) (ah : Ref) (Xl : Σ n, Samples n d) (al : Ref) (fresh : ℕ → Ref) : Heap d q × SKModel × Py Unit :=
  match h.train s.lf w.lf Xl al with
  | (h, .error e) => (h, s, .error e)
  | (h, .ok ()) =>
    if hn : (h.arrays ah).1 = Xh.1 then
      let yh : Fin Xh.1 → ℝ := fun i => (h.arrays ah).2 (Fin.cast hn.symm i)
      match (if s.rhoOptimize then h.optimizeRho s w Xh.2 yh fresh else (h, .ok s.rho) : Heap d q × Py ℝ) with
      | (h, .error e) => (h, s, .error e)
      | (h, .ok rho) =>
        let s : SKModel := { s with rho := rho }
        match h.predictMean s.lf Xh.2 with
        | .error e => (h, s, .error e)
        | .ok f =>
          let a := fresh w.bumpEvals.length
          let r := (h.newArray a (getDisc rho f yh)).train s.disc w.disc Xh a
          (r.1, s, r.2)
    else (h, s, .error .valueError)

/-- `sk.predict(X)`, scale_kriging.py:124-126. -/
noncomputable def Heap.skPredict {m : ℕ} (h : Heap d q) (s : SKModel) (Xnew : Samples m d) : Py (Fin m → ℝ) := do
  let disc ← h.predictMean s.disc Xnew
  let lf ← h.predictMean s.lf Xnew
  .ok (fun j => disc j * s.rho + lf j)

/-- `sk.predict(X, return_std=True)`, scale_kriging.py:127-131. -/
noncomputable def Heap.skPredictStd {m : ℕ} (h : Heap d q) (s : SKModel) (Xnew : Samples m d) : Py ((Fin m → ℝ) × (Fin m → ℝ)) := do
  let (preLf, stdLf) ← h.predictStd s.lf Xnew
  let (preDisc, stdDisc) ← h.predictStd s.disc Xnew
  .ok (fun j => s.rho * preLf j + preDisc j, fun j => Real.sqrt (s.rho ^ 2 * stdLf j ^ 2 + stdDisc j ^ 2))

/-- `sk.predict_lf(X)`, mf_gaussian_process.py:94-111. -/
noncomputable def Heap.skPredictLf {m : ℕ} (h : Heap d q) (s : SKModel) (Xnew : Samples m d) : Py (Fin m → ℝ) := h.predictMean s.lf Xnew

/-- The attributes of the `ScaledKriging` object with the current state of the models it holds (scale_kriging.py:60-88; `box` is not read by `train` and `predict`). -/
def Heap.skView (h : Heap d q) (s : SKModel) (box : Box ℝ d) : SKObj d q q :=
  { box := box, lf := h.view s.lf, disc := h.view s.disc, rho := s.rho, rhoOptimize := s.rhoOptimize, rhoMethod := s.rhoMethod, rhoLow := s.rhoLow, rhoHigh := s.rhoHigh, rhoOptimizer := s.rhoOptimizer }

end Mfpml.GPObjects
