import Verif.Model.SurrogatesNd

/-!
# `ScaledKriging` with the search for the scale factor, transcribed with array shapes

`NdSK` in `Model/SurrogatesNd.lean` has a fixed scale factor.  Here the scale factor is an array, as in the code: the number `1.0` after construction and an array of shape `(1,)` after
the search.
-/

open scoped BigOperators Matrix

namespace Mfpml.GP

/-- `x.ravel()`, row by row (scale_kriging.py:199-200). -/
def Nd.ravel : Nd → Nd
  | .scalar a => .vec fun _ : Fin 1 => a
  | .vec v => .vec v
  | .mat M => .vec fun k => M k.divNat k.modNat

/-- `np.tile(rho.reshape(-1, 1), (1, n))`, scale_kriging.py:198: every candidate is repeated `n` times along its row. -/
def Nd.tileCol (rho : Nd) (n : ℕ) : Nd := .mat <| Matrix.of fun (k : Fin rho.reshapeCol.rows) (_ : Fin n) => rho.reshapeCol.get k 0

/-- Attributes of a `ScaledKriging` object, scale_kriging.py:13-88. -/
structure NdSKR (d : ℕ) where
  lf : NdGP d
  disc : NdGP d
  rho : Nd
  rhoOptimize : Bool
  rhoMethod : RhoMethod
  rhoLow : ℝ
  rhoHigh : ℝ
  rhoOptimizer : Option PopOptimizer

/-- `_eval_error`, scale_kriging.py:185-202.  `p` is `self.predict_lf(self.sample_xh)` (the low-fidelity model does not change during the search) and `n` is `_num_xh`. -/
noncomputable def ndEvalError (n : ℕ) (p yh rho : Nd) : Py Nd := do
  let a ← (rho.tileCol n).mul p.ravel
  let error ← a.sub yh.ravel
  (error.map (· ^ 2)).sumAxis1

/-- `_getDisc`, scale_kriging.py:133-142, and the same difference at 223. -/
noncomputable def ndGetDisc (rho p yh : Nd) : Py Nd := do
  let a ← rho.mul p
  yh.sub a

/-- One candidate of `_eval_bumpiness`, scale_kriging.py:217-227: the retrained discrepancy model and the value written to `out[i]`, which must be a single number. -/
noncomputable def ndEvalBumpiness {d : ℕ} (disc : NdGP d) (w : World d) (n : ℕ) (Xh p yh : Nd) (rho : ℝ) : Py (NdGP d × ℝ) := do
  let e ← ndEvalError n p yh (.vec ![rho])
  let dsc ← ndGetDisc (.vec ![rho]) p yh
  let (disc', _) ← disc.train w Xh dsc
  let v ← (e.map (· * Real.sqrt (∑ j, disc'.kernel.param j ^ 2))).item
  .ok (disc', v)

/-- The evaluations made by an optimiser of the bumpiness objective, one after the other (scale_kriging.py:155-180, 217-227). -/
noncomputable def ndBumpRun {d : ℕ} (n : ℕ) (Xh p yh : Nd) : List (ℝ × World d) → NdGP d → Py (NdGP d)
  | [], disc => .ok disc
  | (r, w) :: rest, disc => do
    let (disc', _) ← ndEvalBumpiness disc w n Xh p yh r
    ndBumpRun n Xh p yh rest disc'

/-- `_rho_optimize`, scale_kriging.py:144-183: the new scale factor is the array `optRes.x` or `optRes["best_x"]` of shape `(1,)`.  The objective handed to the optimiser must return a
single number. -/
noncomputable def NdSKR.optimizeRho {d : ℕ} (sk : NdSKR d) (w : SKWorld d) (n : ℕ) (Xh p yh : Nd) : Py (Nd × NdGP d) :=
  match sk.rhoMethod with
  | .error =>
    match sk.rhoOptimizer with
    | none => do
      let (x, _) ← w.mini 1 (fun r => ndEvalError n p yh (.vec r) >>= Nd.item) (fun _ => w.x0) (fun _ => sk.rhoLow) (fun _ => sk.rhoHigh)
      .ok (.vec x, sk.disc)
    | some run => do
      let x ← run 1 (fun r => ndEvalError n p yh (.vec r) >>= Nd.item) (fun _ => sk.rhoLow) (fun _ => sk.rhoHigh)
      .ok (.vec x, sk.disc)
  | .bumpiness => do
    let disc' ← ndBumpRun n Xh p yh w.bumpEvals sk.disc
    .ok (.vec ![w.bumpX], disc')
  | .other => .error .unboundLocal

/-- The scale factor and the discrepancy model before its last training, scale_kriging.py:102-103. -/
noncomputable def NdSKR.chooseRho {d : ℕ} (sk : NdSKR d) (w : SKWorld d) (n : ℕ) (Xh p yh : Nd) : Py (Nd × NdGP d) :=
  if sk.rhoOptimize then sk.optimizeRho w n Xh p yh else .ok (sk.rho, sk.disc)

/-- `train([Xh, Xl], [Yh, Yl])`: mf_gaussian_process.py:46-92, then `_train_hf`, scale_kriging.py:90-105. -/
noncomputable def NdSKR.train {d : ℕ} (sk : NdSKR d) (w : SKWorld d) (Xh Yh Xl Yl : Nd) : Py (NdSKR d × NdSKFit) := do
  let (lf, lfFit) ← sk.lf.train w.lf Xl Yl
  let yh := Yh.reshapeCol
  let p ← lf.predict lfFit Xh
  let n ← Xh.shape0
  let (rho, disc) ← sk.chooseRho w n Xh p yh
  let dsc ← ndGetDisc rho p yh
  let (disc', discFit) ← disc.train w.disc Xh dsc
  .ok ({ sk with lf := lf, disc := disc', rho := rho }, { lfFit := lfFit, discFit := discFit })

/-- `predict(X)`, scale_kriging.py:124-126. -/
noncomputable def NdSKR.predict {d : ℕ} (sk : NdSKR d) (t : NdSKFit) (X : Nd) : Py Nd := do
  let disc ← sk.disc.predict t.discFit X
  let lf ← sk.lf.predict t.lfFit X
  let a ← disc.mul sk.rho
  a.add lf

/-- `predict(X, return_std=True)`, scale_kriging.py:127-131. -/
noncomputable def NdSKR.predictStd {d : ℕ} (sk : NdSKR d) (t : NdSKFit) (X : Nd) : Py (Nd × Nd) := do
  let (preLf, stdLf) ← sk.lf.predictStd t.lfFit X
  let (preDisc, stdDisc) ← sk.disc.predictStd t.discFit X
  let a ← (sk.rho.map (· ^ 2)).mul (stdLf.map (· ^ 2))
  let mse ← a.add (stdDisc.map (· ^ 2))
  let b ← sk.rho.mul preLf
  let mean ← b.add preDisc
  .ok (mean, mse.map Real.sqrt)

end Mfpml.GP
