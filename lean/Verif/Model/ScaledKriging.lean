import Verif.Model.HierarchicalKriging

/-!
# Model of `src/mfpml/models/scale_kriging.py`
-/

open scoped BigOperators Matrix

namespace Mfpml.GP

open Mfpml.EA (Box)

/-- The `rho_method` string (scale_kriging.py:22, 147-164). -/
inductive RhoMethod
  | error
  | bumpiness
  | other
  deriving DecidableEq

/-- Attributes of a `ScaledKriging` object, scale_kriging.py:13-88.  `ql`, `qd` are the numbers of trend columns of the two GPs. -/
structure SKObj (d ql qd : ℕ) where
  box : Box ℝ d
  lf : GPObj d ql
  disc : GPObj d qd
  rho : ℝ
  rhoOptimize : Bool
  rhoMethod : RhoMethod
  rhoLow : ℝ
  rhoHigh : ℝ
  rhoOptimizer : Option PopOptimizer

/-- Outside contributions to one `train` call.  `x0` is the random start of the rho search; `bumpEvals` are the candidates at which the optimiser evaluates the
bumpiness objective (each evaluation retrains the discrepancy model, with its own environment) and `bumpX` the rho it then reports (scale_kriging.py:148-154, 156-162, 217-227). -/
structure SKWorld (d : ℕ) where
  lf : World d
  disc : World d
  mini : Minimizer
  x0 : ℝ
  bumpEvals : List (ℝ × World d)
  bumpX : ℝ

/-- A trained `ScaledKriging` (scale_kriging.py:100-105). -/
structure SKFit (nh nl d ql qd : ℕ) where
  Xh : Samples nh d
  yh : Fin nh → ℝ
  lfFit : GPFit nl d ql
  discFit : GPFit nh d qd

/-- `ScaledKriging(design_space, lfGP, disc_model, ...)`, scale_kriging.py:60-88: a new object has `rho = 1.0`. -/
noncomputable def SKObj.new {d ql qd : ℕ} (box : Box ℝ d) (lf : GPObj d ql) (disc : GPObj d qd) (rhoOptimize : Bool) (rhoMethod : RhoMethod) (rhoLow rhoHigh : ℝ)
    (rhoOptimizer : Option PopOptimizer) : SKObj d ql qd :=
  { box := box, lf := lf, disc := disc, rho := 1, rhoOptimize := rhoOptimize, rhoMethod := rhoMethod, rhoLow := rhoLow, rhoHigh := rhoHigh, rhoOptimizer := rhoOptimizer }

/-- `_eval_error`, scale_kriging.py:185-202: the candidates are tiled along the samples, the low-fidelity prediction and the responses are broadcast over the rows, and the squares are
summed along axis 1. -/
noncomputable def evalError {nh p : ℕ} (lfAtXh yh : Fin nh → ℝ) (rho : Fin p → ℝ) : Fin p → ℝ :=
  let tiled : Matrix (Fin p) (Fin nh) ℝ := fun k _ => rho k
  let error : Matrix (Fin p) (Fin nh) ℝ := fun k i => tiled k i * lfAtXh i - yh i
  fun k => ∑ i, error k i ^ 2

/-- `_getDisc`, scale_kriging.py:133-142. -/
noncomputable def getDisc {nh : ℕ} (rho : ℝ) (lfAtXh yh : Fin nh → ℝ) : Fin nh → ℝ := fun i => yh i - rho * lfAtXh i

/-- One evaluation of `_eval_bumpiness` for a single candidate, scale_kriging.py:204-227: returns the retrained discrepancy model and the value. -/
noncomputable def evalBumpiness {nh d q : ℕ} (disc : GPObj d q) (w : World d) (Xh : Samples nh d) (yh lfAtXh : Fin nh → ℝ) (rho : ℝ) :
    Py (GPObj d q × ℝ) := do
  let e := evalError lfAtXh yh (fun _ : Fin 1 => rho) 0
  let (disc', _) ← disc.train w Xh (getDisc rho lfAtXh yh)
  .ok (disc', e * Real.sqrt (∑ j, disc'.kernel.param j ^ 2))

/-- The evaluations made by an optimiser of the bumpiness objective, one after the other (scale_kriging.py:155-180, 217-227). -/
noncomputable def bumpRun {nh d q : ℕ} (Xh : Samples nh d) (yh lfAtXh : Fin nh → ℝ) : List (ℝ × World d) → GPObj d q → Py (GPObj d q)
  | [], disc => .ok disc
  | (r, w) :: rest, disc => do
    let (disc', _) ← evalBumpiness disc w Xh yh lfAtXh r
    bumpRun Xh yh lfAtXh rest disc'

/-- `_rho_optimize`, scale_kriging.py:144-183 (the plot of the optimisation history is left out).  With an unknown method `optRes` is unbound. -/
noncomputable def SKObj.optimizeRho {nh d ql qd : ℕ} (sk : SKObj d ql qd) (w : SKWorld d) (Xh : Samples nh d) (yh lfAtXh : Fin nh → ℝ) :
    Py (ℝ × GPObj d qd) :=
  match sk.rhoMethod with
  | .error =>
    match sk.rhoOptimizer with
    | none => do
      let (x, _) ← w.mini 1 (fun r => .ok (evalError lfAtXh yh r 0)) (fun _ => w.x0) (fun _ => sk.rhoLow) (fun _ => sk.rhoHigh)
      .ok (x 0, sk.disc)
    | some run => do
      let x ← run 1 (fun r => .ok (evalError lfAtXh yh r 0)) (fun _ => sk.rhoLow) (fun _ => sk.rhoHigh)
      .ok (x 0, sk.disc)
  | .bumpiness => do
    let disc' ← bumpRun Xh yh lfAtXh w.bumpEvals sk.disc
    .ok (w.bumpX, disc')
  | .other => .error .unboundLocal

/-- `train([Xh, Xl], [yh, yl])`: mf_gaussian_process.py:46-92, then `_train_hf`, scale_kriging.py:90-105. -/
noncomputable def SKObj.train {nh nl d ql qd : ℕ} (sk : SKObj d ql qd) (w : SKWorld d) (Xh : Samples nh d) (yh : Fin nh → ℝ)
    (Xl : Samples nl d) (yl : Fin nl → ℝ) : Py (SKObj d ql qd × SKFit nh nl d ql qd) := do
  let (lf, lfFit) ← sk.lf.train w.lf Xl yl
  let lfAtXh ← predictMean lf lfFit Xh
  let (rho, disc) ← (if sk.rhoOptimize then sk.optimizeRho w Xh yh lfAtXh else .ok (sk.rho, sk.disc) : Py (ℝ × GPObj d qd))
  let (disc', discFit) ← disc.train w.disc Xh (getDisc rho lfAtXh yh)
  .ok ({ sk with lf := lf, disc := disc', rho := rho }, { Xh := Xh, yh := yh, lfFit := lfFit, discFit := discFit })

/-- `predict(X)`, scale_kriging.py:107-126: the scale factor multiplies the *discrepancy*. -/
noncomputable def SKObj.predict {nh nl d ql qd m : ℕ} (sk : SKObj d ql qd) (t : SKFit nh nl d ql qd) (Xnew : Samples m d) : Py (Fin m → ℝ) := do
  let disc ← predictMean sk.disc t.discFit Xnew
  let lf ← predictMean sk.lf t.lfFit Xnew
  .ok (fun j => disc j * sk.rho + lf j)

/-- `predict(X, return_std=True)`, scale_kriging.py:127-131: here it multiplies the low-fidelity prediction. -/
noncomputable def SKObj.predictStd {nh nl d ql qd m : ℕ} (sk : SKObj d ql qd) (t : SKFit nh nl d ql qd) (Xnew : Samples m d) :
    Py ((Fin m → ℝ) × (Fin m → ℝ)) := do
  let (preLf, stdLf) ← GP.predictStd sk.lf t.lfFit Xnew
  let (preDisc, stdDisc) ← GP.predictStd sk.disc t.discFit Xnew
  .ok (fun j => sk.rho * preLf j + preDisc j, fun j => Real.sqrt (sk.rho ^ 2 * stdLf j ^ 2 + stdDisc j ^ 2))

end Mfpml.GP
