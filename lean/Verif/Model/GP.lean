import Mathlib.Order.WithBot
import Verif.Model.Kernels
import Verif.Model.Basis
import Verif.Model.LinAlg
import Verif.Model.Normalize

/-!
# Model of `src/mfpml/models/gaussian_process.py`

A `(n, 1)` column is a vector.  `K`, `L`, `F`, … are real matrices.
-/

open scoped BigOperators Matrix

namespace Mfpml.GP

open Mfpml.EA (Box)

/-! ## The generalised least-squares core

The same lines occur in gaussian_process.py:235-252 and 279-298, hierarchical_kriging.py:198-212 and 239-256, and co_kriging.py (`_GP`):
Cholesky of the covariance, `alpha`, `KF`, Cholesky of `Fᵀ K⁻¹ F`, `beta`, `gamma`, `sigma2`. -/

/-- The quantities these lines compute (gaussian_process.py:279-298). -/
structure GLS (n q : ℕ) where
  L : Matrix (Fin n) (Fin n) ℝ
  ld : Matrix (Fin q) (Fin q) ℝ
  alpha : Fin n → ℝ
  beta : Fin q → ℝ
  gamma : Fin n → ℝ
  sigma2 : ℝ

/-- gaussian_process.py:279-298 (and the places listed above). -/
noncomputable def glsFit {n q : ℕ} (K : Matrix (Fin n) (Fin n) ℝ) (F : Matrix (Fin n) (Fin q) ℝ) (y : Fin n → ℝ) : Py (GLS n q) := do
  let L ← cholesky K
  let alpha ← cholSolveV L y
  let KF ← cholSolve L F
  let ld ← cholesky (Fᵀ * KF)
  let beta ← cholSolveV ld (Fᵀ *ᵥ alpha)
  let gamma ← cholSolveV L (y - F *ᵥ beta)
  let sigma2 ← npDiv ((y - F *ᵥ beta) ⬝ᵥ gamma) n
  .ok { L := L, ld := ld, alpha := alpha, beta := beta, gamma := gamma, sigma2 := sigma2 }

/-- `np.sum(np.log(np.diag(L)))`; the diagonal of a Cholesky factor is positive, so the logarithms are finite (gaussian_process.py:257, 260). -/
noncomputable def logDiag {n : ℕ} (L : Matrix (Fin n) (Fin n) ℝ) : ℝ := ∑ i, Real.log (L i i)

open Classical in
/-- One entry of the vector returned by `_logLikelihood`: gaussian_process.py:232-261, hierarchical_kriging.py:195-222; `noiseIsZero` is the outcome of
`self.noise == 0.0`. -/
noncomputable def negLogLik {n q : ℕ} (K : Matrix (Fin n) (Fin n) ℝ) (F : Matrix (Fin n) (Fin q) ℝ) (y : Fin n → ℝ) (noiseIsZero : Prop) : Py ℝ := do
  let g ← glsFit K F y
  if noiseIsZero then
    let l ← npLog g.sigma2
    .ok (-(-0.5 * n * l - logDiag g.L))
  else
    .ok (-(-0.5 * n * g.sigma2 - logDiag g.L))

/-! ## Hyper-parameter search

`scipy.optimize.minimize(..., method="L-BFGS-B", bounds=…)` and the repo's own optimisers are oracles. -/

/-- A local optimiser: objective, start point, lower and upper bounds to the reported `x` and `fun` (gaussian_process.py:182-187; scipy itself is not modelled). -/
abbrev Minimizer := (p : ℕ) → ((Fin p → ℝ) → Py ℝ) → (x0 lo hi : Fin p → ℝ) → Py ((Fin p → ℝ) × ℝ)

/-- A population optimiser's `run_optimizer`, of which only `results["best_x"]` is used (gaussian_process.py:192-200). -/
abbrev PopOptimizer := (p : ℕ) → ((Fin p → ℝ) → Py ℝ) → (lo hi : Fin p → ℝ) → Py (Fin p → ℝ)

/-- The loop over restarts: gaussian_process.py:171-191, hierarchical_kriging.py:137-154 and the same loop in co_kriging.py.  `best` is
(`optimum_value`, `opt_param`), initially (`inf`, unbound). -/
noncomputable def restartLoop {p : ℕ} (mini : Minimizer) (obj : (Fin p → ℝ) → Py ℝ) (lo hi : Fin p → ℝ) :
    (starts : List (Fin p → ℝ)) → (best : WithTop ℝ × Option (Fin p → ℝ)) → Py (WithTop ℝ × Option (Fin p → ℝ))
  | [], best => .ok best
  | x0 :: rest, best => do
    let (x, f) ← mini p obj x0 lo hi
    if (f : WithTop ℝ) < best.1 then restartLoop mini obj lo hi rest ((f : WithTop ℝ), some x)
    else restartLoop mini obj lo hi rest best

/-- Search for hyper-parameters, gaussian_process.py:170-203.  `starts` are the `optimizer_restart + 1` random start points. `opt_param` stays unbound when there is
no restart or no finite value. -/
noncomputable def searchHyper {p : ℕ} (opt : Option PopOptimizer) (mini : Minimizer) (obj : (Fin p → ℝ) → Py ℝ) (lo hi : Fin p → ℝ)
    (starts : List (Fin p → ℝ)) : Py (Fin p → ℝ) :=
  match opt with
  | none => do
    let r ← restartLoop mini obj lo hi starts (⊤, none)
    match r.2 with
    | some x => .ok x
    | none => .error .unboundLocal
  | some run => run p obj lo hi

/-! ## GaussianProcessRegression -/

/-- Attributes of a `GaussianProcessRegression` object that exist before training, gaussian_process.py:17-64. -/
structure GPObj (d q : ℕ) where
  box : Box ℝ d
  kernel : RBF d
  regr : Basis d q
  optimizer : Option PopOptimizer
  /-- `self.noise`; `None` until it has been estimated -/
  noise : Option ℝ

/-- What the outside world contributes to one `train` call: scipy's `minimize` and the random start points (`optimizer_restart + 1` of them), for either length of
the parameter vector (gaussian_process.py:172-187). -/
structure World (d : ℕ) where
  mini : Minimizer
  starts : List (Fin d → ℝ)
  startsNoise : List (Fin (d + 1) → ℝ)

/-- Attributes of a trained model: gaussian_process.py:80-87 and 265-302. -/
structure GPFit (n d q : ℕ) where
  X : Samples n d
  Xs : Samples n d
  y : Fin n → ℝ
  ys : Fin n → ℝ
  yMean : ℝ
  yStd : ℝ
  F : Matrix (Fin n) (Fin q) ℝ
  K : Matrix (Fin n) (Fin n) ℝ
  gls : GLS n q
  /-- the value of `self.noise` after training -/
  noise : ℝ

open Classical in
/-- `normalize_output`, gaussian_process.py:333-351.  Constant responses make numpy divide by zero. -/
noncomputable def normalizeOutput {n : ℕ} (y : Fin n → ℝ) : Py (Fin n → ℝ) :=
  if std y = 0 then .error .nonFinite else .ok (fun i => (y i - mean y) / std y)

/-- `self.regr(x)` on a sample array (gaussian_process.py:121, 238, 283). -/
def regrMatrix {n d q : ℕ} (f : Basis d q) (X : Samples n d) : Matrix (Fin n) (Fin q) ℝ := fun i => f (X i)

/-- Covariance of the training data: `kernel(...) + eye(n) * sigma ** 2` (gaussian_process.py:232-234, 275-278). -/
noncomputable def covTrain {n d : ℕ} (param : Fin d → ℝ) (Xs : Samples n d) (sigma : ℝ) : Matrix (Fin n) (Fin n) ℝ :=
  rbfMatrix param Xs Xs + (sigma ^ 2) • (1 : Matrix (Fin n) (Fin n) ℝ)

/-- `_logLikelihood`, gaussian_process.py:205-263, for one row of `params`, when the noise is known. -/
noncomputable def GPObj.logLikKnown {n d q : ℕ} (gp : GPObj d q) (noise yStd : ℝ) (Xs : Samples n d) (ys : Fin n → ℝ) (params : Fin d → ℝ) : Py ℝ :=
  negLogLik (covTrain (pow10 params) Xs (noise / yStd)) (regrMatrix gp.regr Xs) ys (noise = 0)

/-- `_logLikelihood`, gaussian_process.py:205-263, for one row of `params`, when `self.noise is None`: the last parameter is the noise
(`None == 0.0` is `False`). -/
noncomputable def GPObj.logLikFree {n d q : ℕ} (gp : GPObj d q) (Xs : Samples n d) (ys : Fin n → ℝ) (params : Fin (d + 1) → ℝ) : Py ℝ :=
  negLogLik (covTrain (pow10 (fun j => params j.castSucc)) Xs (params (Fin.last d))) (regrMatrix gp.regr Xs) ys False

/-- Bounds of the noise standard deviation in the search, gaussian_process.py:153-154. -/
noncomputable def noiseLow : ℝ := 1e-5
/-- See `noiseLow` (gaussian_process.py:154). -/
noncomputable def noiseHigh : ℝ := 10

/-- `_hyper_paras_optimization` (gaussian_process.py:144-203) followed by the assignment of kernel parameters and noise at the start of `_update_kernel_matrix`
(269-273).  Returns the log10 kernel parameters and the noise in response units. -/
noncomputable def GPObj.fitHyper {n d q : ℕ} (gp : GPObj d q) (w : World d) (yStd : ℝ) (Xs : Samples n d) (ys : Fin n → ℝ) :
    Py ((Fin d → ℝ) × ℝ) :=
  match gp.noise with
  | some s => do
    let x ← searchHyper gp.optimizer w.mini (gp.logLikKnown s yStd Xs ys) (fun _ => gp.kernel.boundLow) (fun _ => gp.kernel.boundHigh) w.starts
    .ok (x, s)
  | none => do
    let x ← searchHyper gp.optimizer w.mini (gp.logLikFree Xs ys)
      (Fin.snoc (fun _ => gp.kernel.boundLow) noiseLow) (Fin.snoc (fun _ => gp.kernel.boundHigh) noiseHigh) w.startsNoise
    .ok (fun j => x j.castSucc, x (Fin.last d) * yStd)

/-- `train`, gaussian_process.py:66-95 with `_update_kernel_matrix` 265-302 (training time and the stored `logp` left out).  Returns the
object as it is left (kernel parameters, noise) and the fitted quantities. -/
noncomputable def GPObj.train {n d q : ℕ} (gp : GPObj d q) (w : World d) (X : Samples n d) (y : Fin n → ℝ) : Py (GPObj d q × GPFit n d q) := do
  let Xs ← normalizeInput gp.box X
  let ys ← normalizeOutput y
  let (theta, noise) ← gp.fitHyper w (std y) Xs ys
  let kernel := gp.kernel.setParams theta
  let K := covTrain kernel.param Xs (noise / std y)
  let F := regrMatrix gp.regr Xs
  let g ← glsFit K F ys
  .ok ({ gp with kernel := kernel, noise := some noise },
       { X := X, Xs := Xs, y := y, ys := ys, yMean := mean y, yStd := std y, F := F, K := K, gls := g, noise := noise })

/-- `predict(X, return_std=False)`, gaussian_process.py:116-126. -/
noncomputable def predictMean {n d q m : ℕ} (gp : GPObj d q) (t : GPFit n d q) (Xnew : Samples m d) : Py (Fin m → ℝ) := do
  let xs ← normalizeInput gp.box Xnew
  let knew := gp.kernel.getKernelMatrix t.Xs xs
  let f := regrMatrix gp.regr xs
  let fmean := f *ᵥ t.gls.beta + knewᵀ *ᵥ t.gls.gamma
  .ok (fun j => fmean j * t.yStd + t.yMean)

/-- The mean squared error of gaussian_process.py:128-134 (also hierarchical_kriging.py:98-104) for the already computed cross-correlation `knew` and basis
values `f` of the new points. -/
noncomputable def mseOf {n q m : ℕ} (g : GLS n q) (F : Matrix (Fin n) (Fin q) ℝ) (knew : Matrix (Fin n) (Fin m) ℝ)
    (f : Matrix (Fin m) (Fin q) ℝ) : Py (Fin m → ℝ) := do
  let delta ← cholSolve g.L knew
  let R := fᵀ - Fᵀ * delta
  let S ← cholSolve g.ld R
  .ok (fun j => g.sigma2 * (1 - (knewᵀ * delta) j j + (Rᵀ * S) j j))

/-- `predict(X, return_std=True)`, gaussian_process.py:116-142. -/
noncomputable def predictStd {n d q m : ℕ} (gp : GPObj d q) (t : GPFit n d q) (Xnew : Samples m d) : Py ((Fin m → ℝ) × (Fin m → ℝ)) := do
  let fmean ← predictMean gp t Xnew
  let xs ← normalizeInput gp.box Xnew
  let knew := gp.kernel.getKernelMatrix t.Xs xs
  let f := regrMatrix gp.regr xs
  let mse ← mseOf t.gls t.F knew f
  .ok (fmean, fun j => Real.sqrt (max (mse j * t.yStd ^ 2 + t.noise ^ 2) 0))

end Mfpml.GP
