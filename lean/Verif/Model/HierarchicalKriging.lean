import Verif.Model.GP

/-!
# Model of `src/mfpml/models/hierarchical_kriging.py` and `src/mfpml/models/mf_gaussian_process.py`
-/

open scoped BigOperators Matrix

namespace Mfpml.GP

open Mfpml.EA (Box)

/-- Attributes of a `HierarchicalKriging` object before training, hierarchical_kriging.py:15-37.  `q` is the number of trend columns of the low-fidelity
GP (1 in the code: `Ordinary()`). -/
structure HKObj (d q : ℕ) where
  box : Box ℝ d
  kernel : RBF d
  optimizer : Option PopOptimizer
  noise : Option ℝ
  lf : GPObj d q

/-- Outside contributions to the two hyper-parameter searches of one `train` call (mf_gaussian_process.py:66-69). -/
structure MFWorld (d : ℕ) where
  lf : World d
  hf : World d

/-- Attributes of a trained model, hierarchical_kriging.py:49-61 and 226-260 and mf_gaussian_process.py:87-92. -/
structure HKFit (nh nl d q : ℕ) where
  lfFit : GPFit nl d q
  Xh : Samples nh d
  Xhs : Samples nh d
  yh : Fin nh → ℝ
  yhs : Fin nh → ℝ
  yhMean : ℝ
  yhStd : ℝ
  F : Matrix (Fin nh) (Fin 1) ℝ
  K : Matrix (Fin nh) (Fin nh) ℝ
  gls : GLS nh 1
  noise : ℝ

/-- `(predict_lf(X) - yh_mean) / yh_std` as a one-column matrix: hierarchical_kriging.py:56-57 and 88-90. -/
noncomputable def scaleCol {m : ℕ} (f : Fin m → ℝ) (mean std : ℝ) : Matrix (Fin m) (Fin 1) ℝ := fun i _ => (f i - mean) / std

/-- `_logLikelihood`, hierarchical_kriging.py:164-224, one row, known noise. -/
noncomputable def hkLogLikKnown {n d : ℕ} (noise yStd : ℝ) (Xs : Samples n d) (F : Matrix (Fin n) (Fin 1) ℝ) (ys : Fin n → ℝ) (params : Fin d → ℝ) : Py ℝ :=
  negLogLik (covTrain (pow10 params) Xs (noise / yStd)) F ys (noise = 0)

/-- `_logLikelihood`, hierarchical_kriging.py:164-224, one row, `self.noise is None`. -/
noncomputable def hkLogLikFree {n d : ℕ} (Xs : Samples n d) (F : Matrix (Fin n) (Fin 1) ℝ) (ys : Fin n → ℝ) (params : Fin (d + 1) → ℝ) : Py ℝ :=
  negLogLik (covTrain (pow10 (fun j => params j.castSucc)) Xs (params (Fin.last d))) F ys False

/-- `_optHyp` (hierarchical_kriging.py:113-162) and the assignments at the start of `_update_parameters` (229-233). -/
noncomputable def HKObj.fitHyper {n d q : ℕ} (hk : HKObj d q) (w : World d) (yStd : ℝ) (Xs : Samples n d) (F : Matrix (Fin n) (Fin 1) ℝ) (ys : Fin n → ℝ) :
    Py ((Fin d → ℝ) × ℝ) :=
  match hk.noise with
  | some s => do
    let x ← searchHyper hk.optimizer w.mini (hkLogLikKnown s yStd Xs F ys) (fun _ => hk.kernel.boundLow) (fun _ => hk.kernel.boundHigh) w.starts
    .ok (x, s)
  | none => do
    let x ← searchHyper hk.optimizer w.mini (hkLogLikFree Xs F ys)
      (Fin.snoc (fun _ => hk.kernel.boundLow) noiseLow) (Fin.snoc (fun _ => hk.kernel.boundHigh) noiseHigh) w.startsNoise
    .ok (fun j => x j.castSucc, x (Fin.last d) * yStd)

/-- `train([Xh, Xl], [yh, yl])`: mf_gaussian_process.py:46-92 (low fidelity first), then `_train_hf`, hierarchical_kriging.py:39-61, and
`_update_parameters` 226-260 (training times and `logp` left out). -/
noncomputable def HKObj.train {nh nl d q : ℕ} (hk : HKObj d q) (w : MFWorld d) (Xh : Samples nh d) (yh : Fin nh → ℝ) (Xl : Samples nl d) (yl : Fin nl → ℝ) :
    Py (HKObj d q × HKFit nh nl d q) := do
  let (lf, lfFit) ← hk.lf.train w.lf Xl yl
  let Xhs ← normalizeInput hk.box Xh
  let yhs ← normalizeOutput yh
  let f ← predictMean lf lfFit Xh
  let F := scaleCol f (mean yh) (std yh)
  let (theta, noise) ← hk.fitHyper w.hf (std yh) Xhs F yhs
  let kernel := hk.kernel.setParams theta
  let K := rbfMatrix kernel.param Xhs Xhs + ((noise / std yh) ^ 2) • (1 : Matrix (Fin nh) (Fin nh) ℝ)
  let g ← glsFit K F yhs
  .ok ({ hk with kernel := kernel, noise := some noise, lf := lf },
       { lfFit := lfFit, Xh := Xh, Xhs := Xhs, yh := yh, yhs := yhs, yhMean := mean yh, yhStd := std yh, F := F, K := K, gls := g, noise := noise })

/-- `predict_lf(X)`, mf_gaussian_process.py:94-111 (`return_std=False`). -/
noncomputable def HKObj.predictLf {nh nl d q m : ℕ} (hk : HKObj d q) (t : HKFit nh nl d q) (Xnew : Samples m d) : Py (Fin m → ℝ) :=
  predictMean hk.lf t.lfFit Xnew

/-- `predict(X)`, hierarchical_kriging.py:63-96. -/
noncomputable def HKObj.predict {nh nl d q m : ℕ} (hk : HKObj d q) (t : HKFit nh nl d q) (Xnew : Samples m d) : Py (Fin m → ℝ) := do
  let xs ← normalizeInput hk.box Xnew
  let knew := hk.kernel.getKernelMatrix t.Xhs xs
  let fl ← hk.predictLf t Xnew
  let f := scaleCol fl t.yhMean t.yhStd
  let fmean := f *ᵥ t.gls.beta + knewᵀ *ᵥ t.gls.gamma
  .ok (fun j => fmean j * t.yhStd + t.yhMean)

/-- `predict(X, return_std=True)`, hierarchical_kriging.py:63-111. -/
noncomputable def HKObj.predictStd {nh nl d q m : ℕ} (hk : HKObj d q) (t : HKFit nh nl d q) (Xnew : Samples m d) : Py ((Fin m → ℝ) × (Fin m → ℝ)) := do
  let fmean ← hk.predict t Xnew
  let xs ← normalizeInput hk.box Xnew
  let knew := hk.kernel.getKernelMatrix t.Xhs xs
  let fl ← hk.predictLf t Xnew
  let f := scaleCol fl t.yhMean t.yhStd
  let mse ← mseOf t.gls t.F knew f
  let epistemic : Fin m → ℝ := fun j => Real.sqrt (max (mse j) 0) * t.yhStd
  .ok (fmean, fun j => Real.sqrt (epistemic j ^ 2 + t.noise ^ 2))

/-- `_eval_corr`, mf_gaussian_process.py:113-140: the `ValueError` of the last branch is built but not raised, so `None` is returned. -/
noncomputable def HKObj.evalCorr {n m d q : ℕ} (hk : HKObj d q) (X : Samples n d) (X' : Samples m d) (fidelity : ℤ) : Py (Option (Matrix (Fin n) (Fin m) ℝ)) := do
  let xs ← normalizeInput hk.box X
  let xs' ← normalizeInput hk.box X'
  if fidelity = 0 then .ok (some (hk.kernel.getKernelMatrix xs xs'))
  else if fidelity = 1 then .ok (some (hk.lf.kernel.getKernelMatrix xs xs'))
  else .ok none

end Mfpml.GP
