import Verif.Model.GPObjects
import Verif.Model.CoKriging

/-!
# `CoKriging` objects

`Verif.Model.CoKriging` treats a training as one step.  Here the object is a collection of attributes that `train` assigns one after the other, so a call that raises leaves some of them new and some old.  The design space
is a value: programs that overwrite it are not modelled here.  `PyErr.nonFinite` stands for a call that raises or computes nan or infinite values.
-/

open scoped BigOperators Matrix

namespace Mfpml.CKObjects

open Mfpml.EA (Box)
open Mfpml.GP
open Mfpml.GPObjects (attr dotT)

variable {d q : ℕ}

/-- The content of a noise attribute (co_kriging.py:43, 354): `None`, a number, or nan or infinity. -/
inductive Noise where
  | unknown
  | known (s : ℝ)
  | nonFinite

/-- `self.noise is None` or the number (co_kriging.py:46, 387). -/
def Noise.toOption : Noise → Option ℝ
  | .known s => some s
  | _ => none

/-- `self.noise / self.yh_std`, co_kriging.py:387-388: nan or infinity for a spread of 0. -/
noncomputable def Noise.div : Noise → ℝ → Noise
  | .known s, sd => if sd = 0 then .nonFinite else .known (s / sd)
  | v, _ => v

/-- What `_update_kernel_matrix` of `_GP` stores besides the kernel parameters and the noise, co_kriging.py:173-200. -/
structure RawWeights (n q : ℕ) where
  F : Matrix (Fin n) (Fin q) ℝ
  K : Matrix (Fin n) (Fin n) ℝ
  gls : GLS n q

/-- The attributes of a `_GP` object that `train` and `predict` read, co_kriging.py:18-43, 165-200, 243-268. -/
structure RawModel (d q : ℕ) where
  kernel : RBF d
  regr : Basis d q
  optimizer : Option PopOptimizer
  noise : Noise
  X : Option (Σ n, Samples n d)
  weights : Option (Σ n, RawWeights n q)

/-- The attributes `_GP.train` reads. -/
def RawModel.view (s : RawModel d q) : RawGP d q := { kernel := s.kernel, regr := s.regr, optimizer := s.optimizer, noise := s.noise.toOption }

/-- `_hyper_paras_optimization` and `_update_kernel_matrix` of `_GP`, co_kriging.py:45-200: the attributes as they are left, and the weights it has stored or the exception.  The attributes of `_update_kernel_matrix` (173-200)
are assigned together. -/
noncomputable def RawModel.fit (s : RawModel d q) (w : World d) {n : ℕ} (X : Samples n d) (ys : Fin n → ℝ) : RawModel d q × Py (RawWeights n q) :=
  match s.view.fitHyper w X ys with
  | .error e => (s, .error e)
  | .ok (theta, noise) =>
    let s : RawModel d q := { s with kernel := s.kernel.setParams theta, noise := .known noise }
    match glsFit (covTrain s.kernel.param X noise) (regrMatrix s.regr X) ys with
    | .error e => (s, .error e)
    | .ok g =>
      let W : RawWeights n q := { F := regrMatrix s.regr X, K := covTrain s.kernel.param X noise, gls := g }
      ({ s with weights := some ⟨n, W⟩ }, .ok W)

/-- `_GP.train(X, y)`, co_kriging.py:243-268.  With a noise level that is nan or infinite the covariance matrix is not finite. -/
noncomputable def RawModel.train (s : RawModel d q) (w : World d) {n : ℕ} (X : Samples n d) (y : Σ n, Fin n → ℝ) : RawModel d q × Py (RawWeights n q) :=
  let s : RawModel d q := { s with X := some ⟨n, X⟩ }
  match s.noise with
  | .nonFinite => (s, .error .nonFinite)
  | _ => if hn : y.1 = n then s.fit w X (fun i => y.2 (Fin.cast hn.symm i)) else (s, .error .valueError)

/-- `_GP.predict(x)`, co_kriging.py:202-229. -/
noncomputable def RawModel.predict {m : ℕ} (s : RawModel d q) (xs : Samples m d) : Py (Fin m → ℝ) := do
  let X ← attr s.X
  let W ← attr s.weights
  let kg ← dotT (s.kernel.getKernelMatrix X.2 xs) ⟨W.1, W.2.gls.gamma⟩
  .ok (regrMatrix s.regr xs *ᵥ W.2.gls.beta + kg)

/-- `_GP.predict(x, return_std=True)`, co_kriging.py:202-241: `self.noise**2` raises `TypeError` for `None`. -/
noncomputable def RawModel.predictStd {m : ℕ} (s : RawModel d q) (xs : Samples m d) : Py ((Fin m → ℝ) × (Fin m → ℝ)) := do
  let X ← attr s.X
  let W ← attr s.weights
  let fmean ← s.predict xs
  if hn : W.1 = X.1 then do
    let mse ← mseOf W.2.gls W.2.F (fun i j => s.kernel.getKernelMatrix X.2 xs (Fin.cast hn i) j) (regrMatrix s.regr xs)
    match s.noise with
    | .unknown => .error .typeError
    | .nonFinite => .error .nonFinite
    | .known v => .ok (fmean, fun j => Real.sqrt (max (mse j) 0 + v ^ 2))
  else .error .valueError

/-- The attributes of a `CoKriging` object that `train` and `predict` read, co_kriging.py:335-354, 370-408, 600-659.  `none`: the attribute does not exist yet.  `sample_xh`, `sample_yh`, `sample_xl`, `sample_yl`, the scaled
responses, `pred_ylh`, `opt_param`, `K`, `diff_y`, `mu_d`, `logp`, `C` and `epis_std` are not read by `predict` and are rewritten by `train` before it reads them; they are left out. -/
structure CKModel (d q : ℕ) where
  box : Box ℝ d
  kernel : RBF d
  optimizer : Option PopOptimizer
  rhoLow : ℝ
  rhoHigh : ℝ
  noise : Noise
  lf : RawModel d q
  xhs : Option (Σ n, Samples n d)
  xls : Option (Σ n, Samples n d)
  yhMean : Option ℝ
  yhStd : Option ℝ
  rho : Option ℝ
  sigma2 : Option ℝ
  y : Option (Σ n, Fin n → ℝ)
  LC : Option (Σ n, Matrix (Fin n) (Fin n) ℝ)
  mu : Option ℝ

/-- `CoKriging(design_space, optimizer, kernel_bound, rho_bound, noise_prior)`, co_kriging.py:309-354; the default basis of the low-fidelity model is the parameter `regr`, its kernel has the default bounds. -/
noncomputable def newCK (box : Box ℝ d) (regr : Basis d q) (optimizer : Option PopOptimizer) (low high rhoLow rhoHigh : ℝ) (noise : Option ℝ) : CKModel d q :=
  let v : Noise := match noise with
    | none => .unknown
    | some s => .known s
  { box, kernel := RBF.mk' (fun _ => 0) low high, optimizer, rhoLow, rhoHigh, noise := v,
    lf := { kernel := RBF.mk' (fun _ => 0) (-2) 3, regr, optimizer, noise := v, X := none, weights := none },
    xhs := none, xls := none, yhMean := none, yhStd := none, rho := none, sigma2 := none, y := none, LC := none, mu := none }

/-- The attributes `train` reads. -/
def CKModel.view (s : CKModel d q) : CKObj d q :=
  { box := s.box, kernel := s.kernel, optimizer := s.optimizer, rhoLow := s.rhoLow, rhoHigh := s.rhoHigh, noise := s.noise.toOption, lf := s.lf.view }

/-- `_update_parameters`, co_kriging.py:600-659, for the given kernel matrix `K` of the difference. -/
noncomputable def CKModel.update {nh nl : ℕ} (s : CKModel d q) (W : RawWeights nl q) (rho : ℝ) (K : Matrix (Fin nh) (Fin nh) ℝ) (Xls : Samples nl d) (Xhs : Samples nh d) (yls : Fin nl → ℝ)
    (yhs predYlh : Fin nh → ℝ) : CKModel d q × Py Unit :=
  match diffFit K (fun i => yhs i - rho * predYlh i) with
  | .error e => (s, .error e)
  | .ok g =>
    let y : Fin (nl + nh) → ℝ := Fin.append yls yhs
    let s : CKModel d q := { s with sigma2 := some g.sigma2, y := some ⟨nl + nh, y⟩ }
    match cholesky (flat (ckCov W.K s.lf.kernel.param W.gls.sigma2 rho g.sigma2 K Xls Xhs) + jitter • (1 : Matrix (Fin (nl + nh)) (Fin (nl + nh)) ℝ)) with
    | .error e => (s, .error e)
    | .ok LC =>
      let s : CKModel d q := { s with LC := some ⟨nl + nh, LC⟩ }
      match (do
        let a ← cholSolveV LC y
        let b ← cholSolveV LC (fun _ => 1)
        npDiv ((fun _ => 1) ⬝ᵥ a) ((fun _ => 1) ⬝ᵥ b) : Py ℝ) with
      | .error e => (s, .error e)
      | .ok mu => ({ s with mu := some mu }, .ok ())

/-- The high-fidelity part of `train`, co_kriging.py:394-408: `lf` has just been trained and has stored `W`. -/
noncomputable def CKModel.trainHf {nh nl : ℕ} (s : CKModel d q) (w : CKWorld d) (W : RawWeights nl q) (yStd : ℝ) (Xls : Samples nl d) (Xhs : Samples nh d) (yls : Fin nl → ℝ) (yhs : Fin nh → ℝ) : CKModel d q × Py Unit :=
  let predYlh : Fin nh → ℝ := regrMatrix s.lf.regr Xhs *ᵥ W.gls.beta + (s.lf.kernel.getKernelMatrix Xls Xhs)ᵀ *ᵥ W.gls.gamma
  match s.view.fitHyper w s.noise.toOption yStd Xhs yhs predYlh with
  | .error e => (s, .error e)
  | .ok (rho, theta, v) =>
    let s : CKModel d q := { s with rho := some rho, noise := .known v, kernel := s.kernel.setParams theta }
    s.update W rho (covTrain s.kernel.param Xhs v) Xls Xhs yls yhs predYlh

/-- The first assignments of `train`, co_kriging.py:370-390: scaled samples, mean, spread, and the noise levels divided by the spread. -/
noncomputable def CKModel.load (s : CKModel d q) (Xhs Xls : Option (Σ n, Samples n d)) (yMean yStd : ℝ) : CKModel d q :=
  let noise := s.noise.div yStd
  let lf : RawModel d q := match noise with
    | .unknown => s.lf
    | v => { s.lf with noise := v }
  { s with xhs := Xhs, xls := Xls, yhMean := some yMean, yhStd := some yStd, noise := noise, lf := lf }

/-- `train([Xh, Xl], [yh, yl])`, co_kriging.py:356-410.  The noise is divided by the new spread before anything can raise (387-390).  A spread of 0 makes all scaled responses nan or infinite.  Numbers of samples and responses
that differ make the first evaluation of the respective likelihood raise `ValueError` (145, 580).  For a degenerate design space the scaled samples are nan; `predict` then does not get as far as reading them. -/
noncomputable def CKModel.train (s : CKModel d q) (w : CKWorld d) (Xh : Σ n, Samples n d) (yh : Σ n, Fin n → ℝ) (Xl : Σ n, Samples n d) (yl : Σ n, Fin n → ℝ) : CKModel d q × Py Unit :=
  let yMean := mean yh.2
  let yStd := std yh.2
  match (do
    let Xhs ← normalizeInput s.box Xh.2
    let Xls ← normalizeInput s.box Xl.2
    .ok (Xhs, Xls) : Py (Samples Xh.1 d × Samples Xl.1 d)) with
  | .error e => (s.load s.xhs s.xls yMean yStd, .error e)
  | .ok (Xhs, Xls) =>
    let s := s.load (some ⟨Xh.1, Xhs⟩) (some ⟨Xl.1, Xls⟩) yMean yStd
    if yStd = 0 then ({ s with lf := { s.lf with X := some ⟨Xl.1, Xls⟩ } }, .error .nonFinite)
    else
      match s.lf.train w.lf Xls ⟨yl.1, fun i => (yl.2 i - yMean) / yStd⟩ with
      | (lf, .error e) => ({ s with lf := lf }, .error e)
      | (lf, .ok W) =>
        let s : CKModel d q := { s with lf := lf }
        if hn : yh.1 = Xh.1 ∧ yl.1 = Xl.1 then
          s.trainHf w W yStd Xls Xhs (fun i => (yl.2 (Fin.cast hn.2.symm i) - yMean) / yStd) (fun i => (yh.2 (Fin.cast hn.1.symm i) - yMean) / yStd)
        else (s, .error .valueError)

/-- The cross-covariance `c`, co_kriging.py:432-444, from the attributes. -/
noncomputable def ckCross {nh nl m : ℕ} (rho s2l s2 : ℝ) (kl k : RBF d) (Xls : Samples nl d) (Xhs : Samples nh d) (xs : Samples m d) : Matrix (Fin (nl + nh)) (Fin m) ℝ :=
  fun a j => match finSumFinEquiv.symm a with
    | .inl i => rho * s2l * kl.getKernelMatrix Xls xs i j
    | .inr i => rho ^ 2 * s2l * kl.getKernelMatrix Xhs xs i j + s2 * k.getKernelMatrix Xhs xs i j

/-- The matrix `c` and the mean in original units, co_kriging.py:430-450: `solve` and `dot` raise `ValueError` when the numbers of rows differ. -/
noncomputable def CKModel.predictCore {m : ℕ} (s : CKModel d q) (Xnew : Samples m d) : Py ((Σ n, Matrix (Fin n) (Fin m) ℝ) × (Fin m → ℝ)) := do
  let xs ← normalizeInput s.box Xnew
  let rho ← attr s.rho
  let W ← attr s.lf.weights
  let Xls ← attr s.xls
  let Xhs ← attr s.xhs
  let s2 ← attr s.sigma2
  let c := ckCross rho W.2.gls.sigma2 s2 s.lf.kernel s.kernel Xls.2 Xhs.2 xs
  let mu ← attr s.mu
  let LC ← attr s.LC
  let y ← attr s.y
  if hy : y.1 = LC.1 then do
    let z ← cholSolveV LC.2 (fun i => y.2 (Fin.cast hy.symm i) - mu)
    let cz ← dotT c ⟨LC.1, z⟩
    let yStd ← attr s.yhStd
    let yMean ← attr s.yhMean
    .ok (⟨Xls.1 + Xhs.1, c⟩, fun j => (mu + cz j) * yStd + yMean)
  else .error .valueError

/-- `predict(X)`, co_kriging.py:412-452. -/
noncomputable def CKModel.predict {m : ℕ} (s : CKModel d q) (Xnew : Samples m d) : Py (Fin m → ℝ) := do
  let (_, fmean) ← s.predictCore Xnew
  .ok fmean

/-- `epis_std`, co_kriging.py:454-459, and the spread that the noise is multiplied with. -/
noncomputable def CKModel.episStd {m : ℕ} (s : CKModel d q) (c : Σ n, Matrix (Fin n) (Fin m) ℝ) : Py ((Fin m → ℝ) × ℝ) := do
  let rho ← attr s.rho
  let W ← attr s.lf.weights
  let s2 ← attr s.sigma2
  let LC ← attr s.LC
  let yStd ← attr s.yhStd
  if hc : c.1 = LC.1 then do
    let z ← cholSolve LC.2 (fun i j => c.2 (Fin.cast hc.symm i) j)
    .ok (fun j => Real.sqrt (max (rho ^ 2 * W.2.gls.sigma2 + s2 - ∑ i, c.2 (Fin.cast hc.symm i) j * z i j) 0) * yStd, yStd)
  else .error .valueError

/-- `predict(X, return_std=True)`, co_kriging.py:412-462: the attributes as they are left (460 multiplies the noise by the spread; `TypeError` for `None`), and the result. -/
noncomputable def CKModel.predictStd {m : ℕ} (s : CKModel d q) (Xnew : Samples m d) : CKModel d q × Py ((Fin m → ℝ) × (Fin m → ℝ)) :=
  match (do
    let (c, fmean) ← s.predictCore Xnew
    let (epis, yStd) ← s.episStd c
    .ok (fmean, epis, yStd) : Py ((Fin m → ℝ) × (Fin m → ℝ) × ℝ)) with
  | .error e => (s, .error e)
  | .ok (fmean, epis, yStd) =>
    match s.noise with
    | .unknown => (s, .error .typeError)
    | .nonFinite => (s, .error .nonFinite)
    | .known v => ({ s with noise := .known (v * yStd) }, .ok (fmean, fun j => Real.sqrt (epis j ^ 2 + (v * yStd) ^ 2)))

/-- `predict_lf(X)`, co_kriging.py:464-486. -/
noncomputable def CKModel.predictLf {m : ℕ} (s : CKModel d q) (Xnew : Samples m d) : Py (Fin m → ℝ) := do
  let xs ← normalizeInput s.box Xnew
  let obj ← s.lf.predict xs
  let yStd ← attr s.yhStd
  let yMean ← attr s.yhMean
  .ok fun j => obj j * yStd + yMean

/-- `predict_lf(X, return_std=True)`, co_kriging.py:464-489. -/
noncomputable def CKModel.predictLfStd {m : ℕ} (s : CKModel d q) (Xnew : Samples m d) : Py ((Fin m → ℝ) × (Fin m → ℝ)) := do
  let xs ← normalizeInput s.box Xnew
  let (obj, sd) ← s.lf.predictStd xs
  let yStd ← attr s.yhStd
  let yMean ← attr s.yhMean
  .ok (fun j => obj j * yStd + yMean, fun j => sd j * yStd)

end Mfpml.CKObjects
