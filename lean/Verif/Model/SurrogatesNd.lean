import Verif.Model.NdArray
import Verif.Model.CoKriging
import Verif.Model.ScaledKriging

/-!
# The surrogate models, transcribed with array shapes

`Model/GP.lean`, `Model/HierarchicalKriging.lean`, `Model/CoKriging.lean` and `Model/ScaledKriging.lean` take sample arrays of shape `(n, d)` and responses of shape `(n, 1)`.  The
definitions here follow the same lines of the code with numpy arrays of any shape (`Nd`): every operation broadcasts or raises as numpy does.  The optimiser of the hyper-parameters, its
random starts and the kernel parameters (always a vector of `d` numbers) are as in those files; training times and the stored `logp` are left out, except for the `.item()` that can raise.
-/

open scoped BigOperators Matrix

namespace Mfpml.GP

open Mfpml.EA (Box)

/-! ## Kernel, basis functions, normalisation -/

/-- `RBF.get_kernel_matrix` (`param` given) and `RBF.__call__` (after `param = 10**param`), kernels.py:127-134 and 159-169. -/
noncomputable def ndRbf (param X Y : Nd) : Py Nd := do
  let X := X.atleast2d
  let Y := Y.atleast2d
  let xp ← (X.map (· ^ 2)).mul param
  let xsq ← xp.sumAxis1Keep
  let yp ← (Y.map (· ^ 2)).mul param
  let ysq ← yp.sumAxis1
  let xr ← (param.map Real.sqrt).mul X
  let yr ← (param.map Real.sqrt).mul Y
  let xy ← xr.dot yr.T
  let s ← xsq.add ysq
  let dist ← s.sub (xy.map (2 * ·))
  let r ← X.shape0
  let c ← Y.shape0
  (dist.map fun v => Real.exp (-v)).add ((Nd.eye r c).map (· * nugget))

/-- `Ordinary.__call__`, basis_functions.py:25-27. -/
noncomputable def ndOrdinary (X : Nd) : Py Nd := do
  let n ← X.shape0
  .ok (Nd.ones n 1)

/-- `Linear.__call__`, basis_functions.py:48-50: `np.hstack` of two arrays with two axes joins them along axis 1 and refuses arrays with different numbers of axes. -/
noncomputable def ndLinear (X : Nd) : Py Nd := do
  let n ← X.shape0
  (Nd.ones n 1).concat1 X

/-- `normalize_input`, gaussian_process.py:314-331 and mf_gaussian_process.py:142-156. -/
noncomputable def ndNormalizeInput {d : ℕ} (box : Box ℝ d) (X : Nd) : Py Nd := do
  let num ← X.sub (.vec box.low)
  let den ← (Nd.vec box.high).sub (.vec box.low)
  num.div den

/-- `normalize_output` / `normalize_hf_output`, gaussian_process.py:333-351 and mf_gaussian_process.py:158-176. -/
noncomputable def ndNormalizeOutput (Y : Nd) : Py Nd := do
  let num ← Y.sub (.scalar Y.meanAll)
  num.div (.scalar Y.stdAll)

/-! ## Least squares and likelihood -/

/-- What the lines of `ndGls` compute (gaussian_process.py:279-298). -/
structure NdGLS where
  L : Nd
  F : Nd
  ld : Nd
  alpha : Nd
  beta : Nd
  gamma : Nd
  sigma2 : Nd

/-- gaussian_process.py:235-252 and 279-298, hierarchical_kriging.py:198-212 and 239-256, co_kriging.py:124-146 and 177-195: `n` is `self.num_samples` (`self._num_xh`), `F` the call of
the basis function. -/
noncomputable def ndGls (n : ℕ) (K : Nd) (F : Py Nd) (y : Nd) : Py NdGLS := do
  let L ← K.chol
  let F ← F
  let alpha ← L.lsolve2 y
  let KF ← L.lsolve2 F
  let FKF ← F.T.dot KF
  let ld ← FKF.chol
  let Fa ← F.T.dot alpha
  let beta ← ld.lsolve2 Fa
  let Fb ← F.dot beta
  let res ← y.sub Fb
  let gamma ← L.lsolve2 res
  let q ← res.T.dot gamma
  let sigma2 ← q.div (.scalar n)
  .ok { L := L, F := F, ld := ld, alpha := alpha, beta := beta, gamma := gamma, sigma2 := sigma2 }

open Classical in
/-- One entry of the vector returned by `_logLikelihood`, from the Cholesky factor and `sigma2`: gaussian_process.py:255-261, hierarchical_kriging.py:214-222, co_kriging.py:149-157 and
590-597; the assignment to one entry of an array needs an array with one entry. -/
noncomputable def ndLogLik (n : ℕ) (L sigma2 : Nd) (noiseIsZero : Prop) : Py ℝ := do
  let dL ← L.diag
  let ll ← dL.log
  if noiseIsZero then
    let l ← sigma2.log
    (l.map fun s => -(-0.5 * n * s - ll.total)).item
  else (sigma2.map fun s => -(-0.5 * n * s - ll.total)).item

/-- `kernel(x, x) + eye(n) * sigma**2`, gaussian_process.py:232-234 and 275-278, hierarchical_kriging.py:195-197 and 235-237, co_kriging.py:121-123, 173-175, 575-577 and 603-605. -/
noncomputable def ndCov {d : ℕ} (n : ℕ) (param : Fin d → ℝ) (Xs : Nd) (sigma : ℝ) : Py Nd := do
  let K ← ndRbf (.vec param) Xs Xs
  K.add ((Nd.eye n n).map (· * sigma ^ 2))

/-- `_logLikelihood`, gaussian_process.py:205-263, hierarchical_kriging.py:164-224, co_kriging.py:104-163, one row. -/
noncomputable def ndNegLogLik {d : ℕ} (n : ℕ) (param : Fin d → ℝ) (Xs : Nd) (sigma : ℝ) (F : Py Nd) (ys : Nd) (noiseIsZero : Prop) : Py ℝ := do
  let K ← ndCov n param Xs sigma
  let g ← ndGls n K F ys
  ndLogLik n g.L g.sigma2 noiseIsZero

/-- Search for the kernel parameters and the noise (gaussian_process.py:144-203 and 269-273, hierarchical_kriging.py:113-162 and 229-233, co_kriging.py:45-103 and 167-171): `unit` is the
factor between the noise in the search and `self.noise` (`self.y_std`, or 1 in `_GP`). -/
noncomputable def ndFitHyper {d : ℕ} (optimizer : Option PopOptimizer) (kernel : RBF d) (noise : Option ℝ) (w : World d) (n : ℕ) (unit : ℝ) (Xs : Nd) (F : Py Nd) (ys : Nd) :
    Py ((Fin d → ℝ) × ℝ) :=
  match noise with
  | some s => do
    let x ← searchHyper optimizer w.mini (fun params => ndNegLogLik n (pow10 params) Xs (s / unit) F ys (s = 0)) (fun _ => kernel.boundLow) (fun _ => kernel.boundHigh) w.starts
    .ok (x, s)
  | none => do
    let x ← searchHyper optimizer w.mini (fun params => ndNegLogLik n (pow10 (fun j => params j.castSucc)) Xs (params (Fin.last d)) F ys False)
      (Fin.snoc (fun _ => kernel.boundLow) noiseLow) (Fin.snoc (fun _ => kernel.boundHigh) noiseHigh) w.startsNoise
    .ok (fun j => x j.castSucc, x (Fin.last d) * unit)

/-- `mse`, gaussian_process.py:128-134, hierarchical_kriging.py:98-104, co_kriging.py:231-237. -/
noncomputable def ndMse (g : NdGLS) (knew f : Nd) : Py Nd := do
  let delta ← g.L.lsolve2 knew
  let Fd ← g.F.T.dot delta
  let R ← f.T.sub Fd
  let S ← g.ld.lsolve2 R
  let kd ← knew.T.dot delta
  let a ← kd.diag
  let RS ← R.T.dot S
  let b ← RS.diag
  let t ← (Nd.scalar 1).sub a
  let t' ← t.add b
  g.sigma2.mul t'

/-! ## GaussianProcessRegression -/

/-- Attributes of a `GaussianProcessRegression` object before training, gaussian_process.py:17-64. -/
structure NdGP (d : ℕ) where
  box : Box ℝ d
  kernel : RBF d
  regr : Nd → Py Nd
  optimizer : Option PopOptimizer
  noise : Option ℝ

/-- Attributes of a trained model: gaussian_process.py:79-87 and 265-302. -/
structure NdFit where
  Xs : Nd
  ys : Nd
  yMean : ℝ
  yStd : ℝ
  gls : NdGLS
  noise : ℝ

/-- `train`, gaussian_process.py:66-95 with `_update_kernel_matrix` 265-302. -/
noncomputable def NdGP.train {d : ℕ} (gp : NdGP d) (w : World d) (X Y : Nd) : Py (NdGP d × NdFit) := do
  let n ← X.shape0
  let Xs ← ndNormalizeInput gp.box X
  let y := Y.reshapeCol
  let ys ← ndNormalizeOutput y
  let (theta, noise) ← ndFitHyper gp.optimizer gp.kernel gp.noise w n y.stdAll Xs (gp.regr Xs) ys
  let kernel := gp.kernel.setParams theta
  let K ← ndCov n kernel.param Xs (noise / y.stdAll)
  let g ← ndGls n K (gp.regr Xs) ys
  let _ ← g.sigma2.item
  .ok ({ gp with kernel := kernel, noise := some noise }, { Xs := Xs, ys := ys, yMean := y.meanAll, yStd := y.stdAll, gls := g, noise := noise })

/-- `predict(X)`, gaussian_process.py:116-126. -/
noncomputable def NdGP.predict {d : ℕ} (gp : NdGP d) (t : NdFit) (X : Nd) : Py Nd := do
  let xn ← ndNormalizeInput gp.box X
  let xs := xn.atleast2d
  let knew ← ndRbf (.vec gp.kernel.param) t.Xs xs
  let f ← gp.regr xs
  let a ← f.dot t.gls.beta
  let b ← knew.T.dot t.gls.gamma
  let fmean ← a.add b
  .ok (fmean.map fun v => v * t.yStd + t.yMean)

/-- `predict(X, return_std=True)`, gaussian_process.py:116-142. -/
noncomputable def NdGP.predictStd {d : ℕ} (gp : NdGP d) (t : NdFit) (X : Nd) : Py (Nd × Nd) := do
  let fmean ← gp.predict t X
  let xn ← ndNormalizeInput gp.box X
  let xs := xn.atleast2d
  let knew ← ndRbf (.vec gp.kernel.param) t.Xs xs
  let f ← gp.regr xs
  let mse ← ndMse t.gls knew f
  .ok (fmean, (mse.map fun v => Real.sqrt (max (v * t.yStd ^ 2 + t.noise ^ 2) 0)).reshapeCol)

/-! ## HierarchicalKriging -/

/-- Attributes of a `HierarchicalKriging` object before training, hierarchical_kriging.py:15-37. -/
structure NdHK (d : ℕ) where
  box : Box ℝ d
  kernel : RBF d
  optimizer : Option PopOptimizer
  noise : Option ℝ
  lf : NdGP d

/-- Attributes of a trained model, hierarchical_kriging.py:49-61 and 226-260. -/
structure NdHKFit where
  lfFit : NdFit
  Xhs : Nd
  yhs : Nd
  yhMean : ℝ
  yhStd : ℝ
  gls : NdGLS
  noise : ℝ

/-- `(predict_lf(X) - yh_mean) / yh_std`, hierarchical_kriging.py:56-57 and 88-90. -/
noncomputable def ndScale (f : Nd) (mean std : ℝ) : Py Nd := do
  let c ← f.sub (.scalar mean)
  c.div (.scalar std)

/-- `train([Xh, Xl], [Yh, Yl])`: mf_gaussian_process.py:46-92, then hierarchical_kriging.py:39-61 and 226-260.  The responses keep their shape.  `sample_xl_scaled` (never used) is left
out. -/
noncomputable def NdHK.train {d : ℕ} (hk : NdHK d) (w : MFWorld d) (Xh Yh Xl Yl : Nd) : Py (NdHK d × NdHKFit) := do
  let (lf, lfFit) ← hk.lf.train w.lf Xl Yl
  let Xhs ← ndNormalizeInput hk.box Xh
  let yhs ← ndNormalizeOutput Yh
  let f ← lf.predict lfFit Xh
  let F ← ndScale f Yh.meanAll Yh.stdAll
  let n ← Xh.shape0
  let (theta, noise) ← ndFitHyper hk.optimizer hk.kernel hk.noise w.hf n Yh.stdAll Xhs (.ok F) yhs
  let kernel := hk.kernel.setParams theta
  let K ← ndCov n kernel.param Xhs (noise / Yh.stdAll)
  let g ← ndGls n K (.ok F) yhs
  let _ ← g.sigma2.item
  .ok ({ hk with kernel := kernel, noise := some noise, lf := lf },
       { lfFit := lfFit, Xhs := Xhs, yhs := yhs, yhMean := Yh.meanAll, yhStd := Yh.stdAll, gls := g, noise := noise })

/-- `predict(X)`, hierarchical_kriging.py:63-96 (the second `reshape` of line 96 repeats the first). -/
noncomputable def NdHK.predict {d : ℕ} (hk : NdHK d) (t : NdHKFit) (X : Nd) : Py Nd := do
  let xn ← ndNormalizeInput hk.box X
  let xs := xn.atleast2d
  let knew ← ndRbf (.vec hk.kernel.param) t.Xhs xs
  let fl ← hk.lf.predict t.lfFit X
  let f ← ndScale fl t.yhMean t.yhStd
  let a ← f.dot t.gls.beta
  let b ← knew.T.dot t.gls.gamma
  let fmean ← a.add b
  .ok (fmean.map fun v => v * t.yhStd + t.yhMean).reshapeCol

/-- `predict(X, return_std=True)`, hierarchical_kriging.py:63-111. -/
noncomputable def NdHK.predictStd {d : ℕ} (hk : NdHK d) (t : NdHKFit) (X : Nd) : Py (Nd × Nd) := do
  let fmean ← hk.predict t X
  let xn ← ndNormalizeInput hk.box X
  let xs := xn.atleast2d
  let knew ← ndRbf (.vec hk.kernel.param) t.Xhs xs
  let fl ← hk.lf.predict t.lfFit X
  let f ← ndScale fl t.yhMean t.yhStd
  let mse ← ndMse t.gls knew f
  let std := (mse.map fun v => Real.sqrt (max v 0)).reshapeCol
  .ok (fmean, std.map fun v => Real.sqrt ((v * t.yhStd) ^ 2 + t.noise ^ 2))

/-! ## ScaledKriging -/

/-- Attributes of a `ScaledKriging` object with `rho_optimize=False`, scale_kriging.py:13-88 (the search for `rho` is left out here; it is in `Model/ScaledKriging.lean`). -/
structure NdSK (d : ℕ) where
  lf : NdGP d
  disc : NdGP d
  rho : ℝ

/-- A trained `ScaledKriging` (scale_kriging.py:100-105). -/
structure NdSKFit where
  lfFit : NdFit
  discFit : NdFit

/-- `train([Xh, Xl], [Yh, Yl])`: mf_gaussian_process.py:46-92, then `_train_hf`, scale_kriging.py:90-105, and `_getDisc` 133-142. -/
noncomputable def NdSK.train {d : ℕ} (sk : NdSK d) (w : MFWorld d) (Xh Yh Xl Yl : Nd) : Py (NdSK d × NdSKFit) := do
  let (lf, lfFit) ← sk.lf.train w.lf Xl Yl
  let yh := Yh.reshapeCol
  let p ← lf.predict lfFit Xh
  let dsc ← yh.sub (p.map (sk.rho * ·))
  let (disc, discFit) ← sk.disc.train w.hf Xh dsc
  .ok ({ sk with lf := lf, disc := disc }, { lfFit := lfFit, discFit := discFit })

/-- `predict(X)`, scale_kriging.py:107-126. -/
noncomputable def NdSK.predict {d : ℕ} (sk : NdSK d) (t : NdSKFit) (X : Nd) : Py Nd := do
  let disc ← sk.disc.predict t.discFit X
  let lf ← sk.lf.predict t.lfFit X
  (disc.map (· * sk.rho)).add lf

/-! ## CoKriging -/

/-- Attributes of a `_GP` object, co_kriging.py:18-43. -/
structure NdRaw (d : ℕ) where
  kernel : RBF d
  regr : Nd → Py Nd
  optimizer : Option PopOptimizer
  noise : Option ℝ

/-- Attributes of a trained `_GP`, co_kriging.py:165-200 and 255-268. -/
structure NdRawFit where
  X : Nd
  K : Nd
  gls : NdGLS
  noise : ℝ

/-- `_GP.train`, co_kriging.py:243-268 with `_update_kernel_matrix` 165-200. -/
noncomputable def NdRaw.train {d : ℕ} (gp : NdRaw d) (w : World d) (X Y : Nd) : Py (NdRaw d × NdRawFit) := do
  let n ← X.shape0
  let y := Y.reshapeCol
  let (theta, noise) ← ndFitHyper gp.optimizer gp.kernel gp.noise w n 1 X (gp.regr X) y
  let kernel := gp.kernel.setParams theta
  let K ← ndCov n kernel.param X noise
  let g ← ndGls n K (gp.regr X) y
  let _ ← g.sigma2.item
  .ok ({ gp with kernel := kernel, noise := some noise }, { X := X, K := K, gls := g, noise := noise })

/-- `_GP.predict(x)`, co_kriging.py:202-229. -/
noncomputable def NdRaw.predict {d : ℕ} (gp : NdRaw d) (t : NdRawFit) (X : Nd) : Py Nd := do
  let xs := X.atleast2d
  let knew ← ndRbf (.vec gp.kernel.param) t.X xs
  let f ← gp.regr xs
  let a ← f.dot t.gls.beta
  let b ← knew.T.dot t.gls.gamma
  a.add b

/-- Attributes of a `CoKriging` object before training, co_kriging.py:309-354. -/
structure NdCK (d : ℕ) where
  box : Box ℝ d
  kernel : RBF d
  optimizer : Option PopOptimizer
  rhoLow : ℝ
  rhoHigh : ℝ
  noise : Option ℝ
  lf : NdRaw d

/-- `if self.noise is not None: self.lfGP.noise = self.noise`, co_kriging.py:379-382. -/
def NdRaw.withNoise {d : ℕ} (gp : NdRaw d) : Option ℝ → NdRaw d
  | some s => { gp with noise := some s }
  | none => gp

/-- The quantities of co_kriging.py:578-589 and 608-619. -/
structure NdDiff where
  L : Nd
  mu : Nd
  gamma : Nd
  sigma2 : Nd

/-- co_kriging.py:574-589 and 603-617: `trend` is what is done to the array `(1ᵀ K⁻¹ y) / (1ᵀ K⁻¹ 1)`: `.squeeze()` in the likelihood, `.item()` in the update. -/
noncomputable def ndDiff (n : ℕ) (K yhs predYlh : Nd) (rho : ℝ) (trend : Nd → Py Nd) : Py NdDiff := do
  let L ← K.chol
  let diff ← yhs.sub (predYlh.map (rho * ·))
  let alpha ← L.lsolve2 diff
  let one := Nd.ones n 1
  let beta ← L.lsolve2 one
  let a ← one.T.dot alpha
  let b ← one.T.dot beta
  let q ← a.div b
  let mu ← trend q
  let res ← diff.sub mu
  let gamma ← L.lsolve2 res
  let s ← res.T.dot gamma
  let sigma2 ← s.div (.scalar n)
  .ok { L := L, mu := mu, gamma := gamma, sigma2 := sigma2 }

/-- One entry of `CoKriging._logLikelihood`, co_kriging.py:565-598. -/
noncomputable def ndCkLogLik {d : ℕ} (n : ℕ) (Xhs yhs predYlh : Nd) (rho : ℝ) (theta : Fin d → ℝ) (noiseSigma : ℝ) (noiseIsZero : Prop) : Py ℝ := do
  let K ← ndCov n (pow10 theta) Xhs noiseSigma
  let g ← ndDiff n K yhs predYlh rho (fun q => .ok q.squeeze)
  ndLogLik n g.L g.sigma2 noiseIsZero

/-- `_optHyp`, co_kriging.py:491-548, and the assignments 398-406. -/
noncomputable def NdCK.fitHyper {d : ℕ} (ck : NdCK d) (w : CKWorld d) (noise : Option ℝ) (n : ℕ) (yStd : ℝ) (Xhs yhs predYlh : Nd) : Py (ℝ × (Fin d → ℝ) × ℝ) :=
  match noise with
  | some s => do
    let x ← searchHyper ck.optimizer w.mini (fun p => ndCkLogLik n Xhs yhs predYlh (p 0) (fun j : Fin d => p j.succ) (s / yStd) (s = 0))
      (Fin.cons ck.rhoLow (fun _ => ck.kernel.boundLow)) (Fin.cons ck.rhoHigh (fun _ => ck.kernel.boundHigh)) w.starts
    .ok (x 0, fun j => x j.succ, s)
  | none => do
    let x ← searchHyper ck.optimizer w.mini (fun p => ndCkLogLik n Xhs yhs predYlh (p 0) (fun j : Fin d => p j.succ.succ) (p 1) False)
      (Fin.cons ck.rhoLow (Fin.cons noiseLow (fun _ => ck.kernel.boundLow))) (Fin.cons ck.rhoHigh (Fin.cons noiseHigh (fun _ => ck.kernel.boundHigh)))
      w.startsNoise
    .ok (x 0, fun j => x j.succ.succ, x 1)

/-- A trained `CoKriging`, co_kriging.py:369-408 and 600-659. -/
structure NdCKFit where
  Xhs : Nd
  Xls : Nd
  yhMean : ℝ
  yhStd : ℝ
  lfFit : NdRawFit
  rho : ℝ
  sigma2 : ℝ
  LC : Nd
  y : Nd
  mu : Nd

/-- `self.C`, co_kriging.py:622-650. -/
noncomputable def ndCkCov {d : ℕ} (paramL : Fin d → ℝ) (Kl sigma2L : Nd) (rho sigma2 : ℝ) (K Xls Xhs : Nd) : Py Nd := do
  let c11 ← sigma2L.mul Kl
  let klh ← ndRbf (.vec paramL) Xls Xhs
  let c12 ← (sigma2L.map (rho * ·)).mul klh
  let top ← c11.concat1 c12
  let khl ← ndRbf (.vec paramL) Xhs Xls
  let c21 ← (sigma2L.map (rho * ·)).mul khl
  let khh ← ndRbf (.vec paramL) Xhs Xhs
  let a ← (sigma2L.map (rho ^ 2 * ·)).mul khh
  let c22 ← a.add (K.map (sigma2 * ·))
  let bottom ← c21.concat1 c22
  top.concat0 bottom

/-- The rest of `_update_parameters`, co_kriging.py:651-659, from `self.C` on: `self.y`, `self.LC`, `self.mu`. -/
noncomputable def ndCkMu (C yls yhs : Nd) : Py (Nd × Nd × Nd) := do
  let y ← yls.concat0 yhs
  let Cj ← C.add ((Nd.eye C.cols C.cols).map (· * jitter))
  let LC ← Cj.chol
  let oneC := Nd.ones C.rows 1
  let a ← LC.lsolve2 y
  let s ← oneC.T.dot a
  let b ← LC.lsolve2 oneC
  let t ← oneC.T.dot b
  let t' ← t.item
  let mu ← s.div (.scalar t')
  .ok (LC, y, mu)

/-- `train([Xh, Xl], [Yh, Yl])`, co_kriging.py:356-410 with `_update_parameters` 600-659. -/
noncomputable def NdCK.train {d : ℕ} (ck : NdCK d) (w : CKWorld d) (Xh Yh Xl Yl : Nd) : Py (NdCK d × NdCKFit) := do
  let Xhs ← ndNormalizeInput ck.box Xh
  let Xls ← ndNormalizeInput ck.box Xl
  let yhs ← ndNormalizeOutput Yh
  let yls ← ndScale Yl Yh.meanAll Yh.stdAll
  let noise : Option ℝ := ck.noise.map (· / Yh.stdAll)
  let (lf, lfFit) ← (ck.lf.withNoise noise).train w.lf Xls yls
  let predYlh ← lf.predict lfFit Xhs
  let n ← Xh.shape0
  let (rho, theta, noise') ← ck.fitHyper w noise n Yh.stdAll Xhs yhs predYlh
  let kernel := ck.kernel.setParams theta
  let K ← ndCov n kernel.param Xhs noise'
  let g ← ndDiff n K yhs predYlh rho (fun q => do
    let v ← q.item
    .ok (.scalar v))
  let sigma2 ← g.sigma2.item
  let C ← ndCkCov lf.kernel.param lfFit.K lfFit.gls.sigma2 rho sigma2 K Xls Xhs
  let (LC, y, mu) ← ndCkMu C yls yhs
  .ok ({ ck with kernel := kernel, noise := some noise', lf := lf },
       { Xhs := Xhs, Xls := Xls, yhMean := Yh.meanAll, yhStd := Yh.stdAll, lfFit := lfFit, rho := rho, sigma2 := sigma2, LC := LC, y := y, mu := mu })

/-- `c`, co_kriging.py:432-444. -/
noncomputable def ndCross {d : ℕ} (ck : NdCK d) (t : NdCKFit) (xs : Nd) : Py Nd := do
  let kl ← ndRbf (.vec ck.lf.kernel.param) t.Xls xs
  let a ← (t.lfFit.gls.sigma2.map (t.rho * ·)).mul kl
  let klh ← ndRbf (.vec ck.lf.kernel.param) t.Xhs xs
  let b ← (t.lfFit.gls.sigma2.map (t.rho ^ 2 * ·)).mul klh
  let kh ← ndRbf (.vec ck.kernel.param) t.Xhs xs
  let b' ← b.add (kh.map (t.sigma2 * ·))
  a.concat0 b'

/-- `predict(X)`, co_kriging.py:412-452. -/
noncomputable def NdCK.predict {d : ℕ} (ck : NdCK d) (t : NdCKFit) (X : Nd) : Py Nd := do
  let xn ← ndNormalizeInput ck.box X
  let xs := xn.atleast2d
  let c ← ndCross ck t xs
  let r ← t.y.sub t.mu
  let z ← t.LC.lsolve2 r
  let p ← c.T.dot z
  let fmean ← t.mu.add p
  .ok (fmean.map fun v => v * t.yhStd + t.yhMean).reshapeCol

end Mfpml.GP
