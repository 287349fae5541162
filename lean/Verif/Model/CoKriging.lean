import Mathlib.LinearAlgebra.Matrix.SchurComplement
import Verif.Model.GP

/-!
# Model of `src/mfpml/models/co_kriging.py`
-/

open scoped BigOperators Matrix

namespace Mfpml.GP

open Mfpml.EA (Box)

/-! ## The low-fidelity model `_GP` (no normalisation) -/

/-- Attributes of a `_GP` object, co_kriging.py:18-43. -/
structure RawGP (d q : ℕ) where
  kernel : RBF d
  regr : Basis d q
  optimizer : Option PopOptimizer
  noise : Option ℝ

/-- Attributes of a trained `_GP`, co_kriging.py:165-200 and 255-268. -/
structure RawFit (n d q : ℕ) where
  X : Samples n d
  y : Fin n → ℝ
  F : Matrix (Fin n) (Fin q) ℝ
  K : Matrix (Fin n) (Fin n) ℝ
  gls : GLS n q
  noise : ℝ

/-- `_GP._hyper_paras_optimization` with `_logLikelihood`, co_kriging.py:45-163, and the assignments 167-171. -/
noncomputable def RawGP.fitHyper {n d q : ℕ} (gp : RawGP d q) (w : World d) (X : Samples n d) (y : Fin n → ℝ) : Py ((Fin d → ℝ) × ℝ) :=
  match gp.noise with
  | some s => do
    let x ← searchHyper gp.optimizer w.mini (fun params => negLogLik (covTrain (pow10 params) X s) (regrMatrix gp.regr X) y (s = 0))
      (fun _ => gp.kernel.boundLow) (fun _ => gp.kernel.boundHigh) w.starts
    .ok (x, s)
  | none => do
    let x ← searchHyper gp.optimizer w.mini
      (fun params => negLogLik (covTrain (pow10 (fun j => params j.castSucc)) X (params (Fin.last d))) (regrMatrix gp.regr X) y False)
      (Fin.snoc (fun _ => gp.kernel.boundLow) noiseLow) (Fin.snoc (fun _ => gp.kernel.boundHigh) noiseHigh) w.startsNoise
    .ok (fun j => x j.castSucc, x (Fin.last d))

/-- `_GP.train`, co_kriging.py:243-268 with `_update_kernel_matrix` 165-200 (the stored `logp` left out). -/
noncomputable def RawGP.train {n d q : ℕ} (gp : RawGP d q) (w : World d) (X : Samples n d) (y : Fin n → ℝ) : Py (RawGP d q × RawFit n d q) := do
  let (theta, noise) ← gp.fitHyper w X y
  let kernel := gp.kernel.setParams theta
  let K := covTrain kernel.param X noise
  let F := regrMatrix gp.regr X
  let g ← glsFit K F y
  .ok ({ gp with kernel := kernel, noise := some noise }, { X := X, y := y, F := F, K := K, gls := g, noise := noise })

/-- `_GP.predict(x)`, co_kriging.py:202-229. -/
noncomputable def RawGP.predict {n d q m : ℕ} (gp : RawGP d q) (t : RawFit n d q) (Xnew : Samples m d) : Fin m → ℝ :=
  regrMatrix gp.regr Xnew *ᵥ t.gls.beta + (gp.kernel.getKernelMatrix t.X Xnew)ᵀ *ᵥ t.gls.gamma

/-- `_GP.predict(x, return_std=True)`, co_kriging.py:202-241. -/
noncomputable def RawGP.predictStd {n d q m : ℕ} (gp : RawGP d q) (t : RawFit n d q) (Xnew : Samples m d) : Py ((Fin m → ℝ) × (Fin m → ℝ)) := do
  let mse ← mseOf t.gls t.F (gp.kernel.getKernelMatrix t.X Xnew) (regrMatrix gp.regr Xnew)
  .ok (gp.predict t Xnew, fun j => Real.sqrt (max (mse j) 0 + t.noise ^ 2))

/-! ## CoKriging -/

/-- Attributes of a `CoKriging` object before training, co_kriging.py:309-354. -/
structure CKObj (d q : ℕ) where
  box : Box ℝ d
  kernel : RBF d
  optimizer : Option PopOptimizer
  rhoLow : ℝ
  rhoHigh : ℝ
  noise : Option ℝ
  lf : RawGP d q

/-- Outside contributions to one `train` call: the low-fidelity search, and scipy's `minimize` with its start points for `(rho, theta)` and
`(rho, sigma, theta)` (co_kriging.py:528-536). -/
structure CKWorld (d : ℕ) where
  lf : World d
  mini : Minimizer
  starts : List (Fin (d + 1) → ℝ)
  startsNoise : List (Fin (d + 2) → ℝ)

/-- The quantities of co_kriging.py:578-589 and 608-619 for the difference data: `L`, `mu`, `gamma`, `sigma2`. -/
structure DiffFit (n : ℕ) where
  L : Matrix (Fin n) (Fin n) ℝ
  mu : ℝ
  gamma : Fin n → ℝ
  sigma2 : ℝ

/-- co_kriging.py:578-589 (in `_logLikelihood`) and 608-619 (in `_update_parameters`): constant trend by a scalar division. -/
noncomputable def diffFit {n : ℕ} (K : Matrix (Fin n) (Fin n) ℝ) (diff : Fin n → ℝ) : Py (DiffFit n) := do
  let L ← cholesky K
  let alpha ← cholSolveV L diff
  let beta ← cholSolveV L (fun _ => 1)
  let mu ← npDiv ((fun _ => 1) ⬝ᵥ alpha) ((fun _ => 1) ⬝ᵥ beta)
  let gamma ← cholSolveV L (fun i => diff i - mu)
  let sigma2 ← npDiv ((fun i => diff i - mu) ⬝ᵥ gamma) n
  .ok { L := L, mu := mu, gamma := gamma, sigma2 := sigma2 }

open Classical in
/-- One entry of `CoKriging._logLikelihood`, co_kriging.py:565-598, for given `rho`, kernel parameters and noise. -/
noncomputable def ckNegLogLik {n d : ℕ} (Xhs : Samples n d) (yhs predYlh : Fin n → ℝ) (rho : ℝ) (theta : Fin d → ℝ) (noiseSigma : ℝ) (noiseIsZero : Prop) : Py ℝ := do
  let g ← diffFit (covTrain (pow10 theta) Xhs noiseSigma) (fun i => yhs i - rho * predYlh i)
  if noiseIsZero then
    let l ← npLog g.sigma2
    .ok (-(-0.5 * n * l - logDiag g.L))
  else
    .ok (-(-0.5 * n * g.sigma2 - logDiag g.L))

/-- `_optHyp`, co_kriging.py:491-548, and the assignments 398-406: returns `rho`, the kernel parameters and the (scaled) noise.  A known noise enters the
likelihood as `self.noise / self.yh_std` although it has been scaled already (co_kriging.py:571-573). -/
noncomputable def CKObj.fitHyper {n d q : ℕ} (ck : CKObj d q) (w : CKWorld d) (noise : Option ℝ) (yStd : ℝ) (Xhs : Samples n d) (yhs predYlh : Fin n → ℝ) :
    Py (ℝ × (Fin d → ℝ) × ℝ) :=
  match noise with
  | some s => do
    let x ← searchHyper ck.optimizer w.mini (fun p => ckNegLogLik Xhs yhs predYlh (p 0) (fun j => p j.succ) (s / yStd) (s = 0))
      (Fin.cons ck.rhoLow (fun _ => ck.kernel.boundLow)) (Fin.cons ck.rhoHigh (fun _ => ck.kernel.boundHigh)) w.starts
    .ok (x 0, fun j => x j.succ, s)
  | none => do
    let x ← searchHyper ck.optimizer w.mini (fun p => ckNegLogLik Xhs yhs predYlh (p 0) (fun j => p j.succ.succ) (p 1) False)
      (Fin.cons ck.rhoLow (Fin.cons noiseLow (fun _ => ck.kernel.boundLow))) (Fin.cons ck.rhoHigh (Fin.cons noiseHigh (fun _ => ck.kernel.boundHigh)))
      w.startsNoise
    .ok (x 0, fun j => x j.succ.succ, x 1)

/-- Jitter of co_kriging.py:655. -/
noncomputable def jitter : ℝ := (10 : ℝ) ^ (-10 : ℤ)

/-- `self.C` (without jitter), co_kriging.py:622-650, indexed by low-fidelity samples then high-fidelity samples. -/
noncomputable def ckCov {nl nh d : ℕ} (Kl : Matrix (Fin nl) (Fin nl) ℝ) (paramL : Fin d → ℝ) (sigma2L rho sigma2 : ℝ) (K : Matrix (Fin nh) (Fin nh) ℝ)
    (Xls : Samples nl d) (Xhs : Samples nh d) : Matrix (Fin nl ⊕ Fin nh) (Fin nl ⊕ Fin nh) ℝ :=
  Matrix.fromBlocks (sigma2L • Kl) ((rho * sigma2L) • rbfMatrix paramL Xls Xhs) ((rho * sigma2L) • rbfMatrix paramL Xhs Xls)
    ((rho ^ 2 * sigma2L) • rbfMatrix paramL Xhs Xhs + sigma2 • K)

/-- `np.concatenate` along axis 0 gives one index range: low-fidelity entries come first (co_kriging.py:623-653). -/
def flat {nl nh : ℕ} (A : Matrix (Fin nl ⊕ Fin nh) (Fin nl ⊕ Fin nh) ℝ) : Matrix (Fin (nl + nh)) (Fin (nl + nh)) ℝ :=
  A.submatrix finSumFinEquiv.symm finSumFinEquiv.symm

/-- A trained `CoKriging`, co_kriging.py:369-408 and 600-659. -/
structure CKFit (nh nl d q : ℕ) where
  Xhs : Samples nh d
  Xls : Samples nl d
  yh : Fin nh → ℝ
  yl : Fin nl → ℝ
  yhMean : ℝ
  yhStd : ℝ
  lfFit : RawFit nl d q
  rho : ℝ
  sigma2 : ℝ
  C : Matrix (Fin (nl + nh)) (Fin (nl + nh)) ℝ
  LC : Matrix (Fin (nl + nh)) (Fin (nl + nh)) ℝ
  y : Fin (nl + nh) → ℝ
  mu : ℝ

/-- `train([Xh, Xl], [yh, yl])`, co_kriging.py:356-410 with `_update_parameters` 600-659 (training times and `logp` left out).  The noise attribute is
divided by `yh_std` in every call. -/
noncomputable def CKObj.train {nh nl d q : ℕ} (ck : CKObj d q) (w : CKWorld d) (Xh : Samples nh d) (yh : Fin nh → ℝ) (Xl : Samples nl d) (yl : Fin nl → ℝ) :
    Py (CKObj d q × CKFit nh nl d q) := do
  let Xhs ← normalizeInput ck.box Xh
  let Xls ← normalizeInput ck.box Xl
  let yhs ← normalizeOutput yh
  let yls : Fin nl → ℝ := fun i => (yl i - mean yh) / std yh
  let noise : Option ℝ := ck.noise.map (· / std yh)
  let lf0 : RawGP d q := match noise with
    | some s => { ck.lf with noise := some s }
    | none => ck.lf
  let (lf, lfFit) ← lf0.train w.lf Xls yls
  let predYlh := lf.predict lfFit Xhs
  let (rho, theta, noise') ← ck.fitHyper w noise (std yh) Xhs yhs predYlh
  let kernel := ck.kernel.setParams theta
  let K := covTrain kernel.param Xhs noise'
  let g ← diffFit K (fun i => yhs i - rho * predYlh i)
  let C := flat (ckCov lfFit.K lf.kernel.param lfFit.gls.sigma2 rho g.sigma2 K Xls Xhs)
  let y : Fin (nl + nh) → ℝ := Fin.append yls yhs
  let LC ← cholesky (C + jitter • (1 : Matrix (Fin (nl + nh)) (Fin (nl + nh)) ℝ))
  let a ← cholSolveV LC y
  let b ← cholSolveV LC (fun _ => 1)
  let mu ← npDiv ((fun _ => 1) ⬝ᵥ a) ((fun _ => 1) ⬝ᵥ b)
  .ok ({ ck with kernel := kernel, noise := some noise', lf := lf },
       { Xhs := Xhs, Xls := Xls, yh := yh, yl := yl, yhMean := mean yh, yhStd := std yh, lfFit := lfFit, rho := rho, sigma2 := g.sigma2, C := C, LC := LC, y := y, mu := mu })

/-- The cross-covariance `c`, co_kriging.py:432-444. -/
noncomputable def crossCov {nh nl d q m : ℕ} (ck : CKObj d q) (t : CKFit nh nl d q) (xs : Samples m d) : Matrix (Fin (nl + nh)) (Fin m) ℝ :=
  fun a j => match finSumFinEquiv.symm a with
    | .inl i => t.rho * t.lfFit.gls.sigma2 * ck.lf.kernel.getKernelMatrix t.Xls xs i j
    | .inr i => t.rho ^ 2 * t.lfFit.gls.sigma2 * ck.lf.kernel.getKernelMatrix t.Xhs xs i j + t.sigma2 * ck.kernel.getKernelMatrix t.Xhs xs i j

/-- `predict(X)`, co_kriging.py:412-452. -/
noncomputable def CKObj.predict {nh nl d q m : ℕ} (ck : CKObj d q) (t : CKFit nh nl d q) (Xnew : Samples m d) : Py (Fin m → ℝ) := do
  let xs ← normalizeInput ck.box Xnew
  let z ← cholSolveV t.LC (fun i => t.y i - t.mu)
  .ok (fun j => (t.mu + ((crossCov ck t xs)ᵀ *ᵥ z) j) * t.yhStd + t.yhMean)

/-- `predict(X, return_std=True)`, co_kriging.py:412-462.  Returns the object as it is left: line 460 multiplies `self.noise` by `yh_std`. `None` cannot occur after
training. -/
noncomputable def CKObj.predictStd {nh nl d q m : ℕ} (ck : CKObj d q) (t : CKFit nh nl d q) (Xnew : Samples m d) :
    Py (CKObj d q × (Fin m → ℝ) × (Fin m → ℝ)) := do
  let fmean ← ck.predict t Xnew
  let xs ← normalizeInput ck.box Xnew
  let c := crossCov ck t xs
  let z ← cholSolve t.LC c
  let epis : Fin m → ℝ := fun j => Real.sqrt (max (t.rho ^ 2 * t.lfFit.gls.sigma2 + t.sigma2 - (cᵀ * z) j j) 0) * t.yhStd
  match ck.noise with
  | none => .error .typeError
  | some s =>
    let s' := s * t.yhStd
    .ok ({ ck with noise := some s' }, fmean, fun j => Real.sqrt (epis j ^ 2 + s' ^ 2))

/-- `predict_lf(X)`, co_kriging.py:464-486. -/
noncomputable def CKObj.predictLf {nh nl d q m : ℕ} (ck : CKObj d q) (t : CKFit nh nl d q) (Xnew : Samples m d) : Py (Fin m → ℝ) := do
  let xs ← normalizeInput ck.box Xnew
  .ok (fun j => ck.lf.predict t.lfFit xs j * t.yhStd + t.yhMean)

/-- `predict_lf(X, return_std=True)`, co_kriging.py:464-489. -/
noncomputable def CKObj.predictLfStd {nh nl d q m : ℕ} (ck : CKObj d q) (t : CKFit nh nl d q) (Xnew : Samples m d) : Py ((Fin m → ℝ) × (Fin m → ℝ)) := do
  let xs ← normalizeInput ck.box Xnew
  let (obj, sd) ← ck.lf.predictStd t.lfFit xs
  .ok (fun j => obj j * t.yhStd + t.yhMean, fun j => sd j * t.yhStd)

end Mfpml.GP
