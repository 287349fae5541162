import Verif.Model.GPObjects
import Verif.Model.HierarchicalKriging

/-!
# `HierarchicalKriging` objects

`Verif.Model.HierarchicalKriging` treats a training as one step.  Here the object is a collection of attributes that `train` assigns one after the other, so a call that raises leaves some of them new and some old.  The
low-fidelity model is a `GaussianProcessRegression` object of `Verif.Model.GPObjects`, which keeps a view of the caller's response array.
-/

open scoped BigOperators Matrix

namespace Mfpml.GPObjects

open Mfpml.EA (Box)
open Mfpml.GP

variable {d q : ℕ}

/-- The attributes of a `HierarchicalKriging` object that `train` and `predict` read.  The first five are set by the constructor (hierarchical_kriging.py:14-37; the kernel object belongs to this object alone), the others by
`_train_hf` (51-57) and `_update_parameters` (229-255).  `None`: the attribute does not exist yet (for `noise`: Python's `None`).  `sample_xh`, `sample_yh`, `sample_yh_scaled`, `sample_xl`, `sample_xl_scaled`, `opt_param`,
`K`, `alpha`, `KF`, `logp` are not read by `predict` and are rewritten by `train` before it reads them; they are left out. -/
structure HKModel (d : ℕ) where
  bound : Ref
  lf : Ref
  kernel : RBF d
  optimizer : Option PopOptimizer
  noise : Option ℝ
  xhs : Option (Σ n, Samples n d)
  yhMean : Option ℝ
  yhStd : Option ℝ
  trend : Option (Σ n, Matrix (Fin n) (Fin 1) ℝ)
  L : Option (Σ n, Matrix (Fin n) (Fin n) ℝ)
  ld : Option (Matrix (Fin 1) (Fin 1) ℝ)
  beta : Option (Fin 1 → ℝ)
  gamma : Option (Σ n, Fin n → ℝ)
  sigma2 : Option ℝ

/-- `HierarchicalKriging(design_space, optimizer, kernel_bound, noise_prior)`, hierarchical_kriging.py:14-37: `bound` is the caller's array, `lf` the low-fidelity model it creates. -/
noncomputable def newHK (bound lf : Ref) (low high : ℝ) (optimizer : Option PopOptimizer) (noise : Option ℝ) : HKModel d :=
  { bound, lf, kernel := RBF.mk' (fun _ => 0) low high, optimizer, noise, xhs := none, yhMean := none, yhStd := none, trend := none, L := none, ld := none, beta := none, gamma := none, sigma2 := none }

/-- The attributes before training with the current state of the low-fidelity model (hierarchical_kriging.py:113-162 reads them). -/
def Heap.hkView (h : Heap d q) (s : HKModel d) : HKObj d q :=
  { box := h.boxes s.bound, kernel := s.kernel, optimizer := s.optimizer, noise := s.noise, lf := h.view s.lf }

/-- `_update_parameters` after the kernel has been updated, hierarchical_kriging.py:234-255: the attributes as they are left, and the exception if there is one (the three solves after
`ld` cannot raise, so `beta`, `gamma`, `sigma2` are assigned together). -/
noncomputable def hkFitAttrs {n : ℕ} (s : HKModel d) (K : Matrix (Fin n) (Fin n) ℝ) (F : Matrix (Fin n) (Fin 1) ℝ) (ys : Fin n → ℝ) : HKModel d × Py Unit :=
  match cholesky K with
  | .error e => (s, .error e)
  | .ok L =>
    let s : HKModel d := { s with L := some ⟨n, L⟩ }
    match (do
      let alpha ← cholSolveV L ys
      let KF ← cholSolve L F
      let ld ← cholesky (Fᵀ * KF)
      .ok (alpha, ld) : Py ((Fin n → ℝ) × Matrix (Fin 1) (Fin 1) ℝ)) with
    | .error e => (s, .error e)
    | .ok (alpha, ld) =>
      let s : HKModel d := { s with ld := some ld }
      match (do
        let beta ← cholSolveV ld (Fᵀ *ᵥ alpha)
        let gamma ← cholSolveV L (ys - F *ᵥ beta)
        let sigma2 ← npDiv ((ys - F *ᵥ beta) ⬝ᵥ gamma) n
        .ok (beta, gamma, sigma2) : Py ((Fin 1 → ℝ) × (Fin n → ℝ) × ℝ)) with
      | .error e => (s, .error e)
      | .ok (beta, gamma, sigma2) => ({ s with beta := some beta, gamma := some ⟨n, gamma⟩, sigma2 := some sigma2 }, .ok ())

/-- `_train_hf(X, Y)`, hierarchical_kriging.py:39-61, with `Y` the array object `ah`; the low-fidelity model is already trained.  Responses that are not as many as the samples make the first evaluation of the likelihood
raise `ValueError` (198), after `F` has been assigned. -/
noncomputable def Heap.hkTrainHf (h : Heap d q) (s : HKModel d) (w : World d) (Xh : Σ n, Samples n d) (ah : Ref) : HKModel d × Py Unit :=
  match normalizeInput (h.boxes s.bound) Xh.2 with
  | .error e => (s, .error e)
  | .ok Xhs =>
    let yMean := mean (h.arrays ah).2
    let yStd := std (h.arrays ah).2
    let s : HKModel d := { s with xhs := some ⟨Xh.1, Xhs⟩, yhMean := some yMean, yhStd := some yStd }
    match (do
      let _ ← normalizeOutput (h.arrays ah).2
      h.predictMean s.lf Xh.2 : Py (Fin Xh.1 → ℝ)) with
    | .error e => (s, .error e)
    | .ok f =>
      let F := scaleCol f yMean yStd
      let s : HKModel d := { s with trend := some ⟨Xh.1, F⟩ }
      if hn : (h.arrays ah).1 = Xh.1 then
        let ys : Fin Xh.1 → ℝ := fun i => ((h.arrays ah).2 (Fin.cast hn.symm i) - yMean) / yStd
        match (h.hkView s).fitHyper w yStd Xhs F ys with
        | .error e => (s, .error e)
        | .ok (theta, noise) =>
          let s : HKModel d := { s with kernel := s.kernel.setParams theta, noise := some noise }
          hkFitAttrs s (rbfMatrix s.kernel.param Xhs Xhs + ((noise / yStd) ^ 2) • (1 : Matrix (Fin Xh.1) (Fin Xh.1) ℝ)) F ys
      else (s, .error .valueError)

/-- `hk.train([Xh, Xl], [yh, yl])` with the response arrays `ah`, `al`: mf_gaussian_process.py:46-92, the low-fidelity model is trained first. -/
noncomputable def Heap.hkTrain (h : Heap d q) (s : HKModel d) (w : MFWorld d) (Xh : Σ n, Samples n d) (ah : Ref) (Xl : Σ n, Samples n d) (al : Ref) : Heap d q × HKModel d × Py Unit :=
  match h.train s.lf w.lf Xl al with
  | (h, .error e) => (h, s, .error e)
  | (h, .ok ()) => (h, h.hkTrainHf s w.hf Xh ah)

/-- `hk.predict_lf(X)`, mf_gaussian_process.py:94-111. -/
noncomputable def Heap.hkPredictLf {m : ℕ} (h : Heap d q) (s : HKModel d) (Xnew : Samples m d) : Py (Fin m → ℝ) := h.predictMean s.lf Xnew

/-- `f = (f - self.yh_mean) / self.yh_std`, hierarchical_kriging.py:90: with a spread of 0 (left by a training on equal responses, which raised) the entries are nan or infinite. -/
noncomputable def scaleTrend {m : ℕ} (f : Fin m → ℝ) (mean std : ℝ) : Py (Matrix (Fin m) (Fin 1) ℝ) := if std = 0 then .error .nonFinite else .ok (scaleCol f mean std)

/-- `hk.predict(X)`, hierarchical_kriging.py:81-96. -/
noncomputable def Heap.hkPredict {m : ℕ} (h : Heap d q) (s : HKModel d) (Xnew : Samples m d) : Py (Fin m → ℝ) := do
  let xs ← normalizeInput (h.boxes s.bound) Xnew
  let Xhs ← attr s.xhs
  let knew := s.kernel.getKernelMatrix Xhs.2 xs
  let fl ← h.hkPredictLf s Xnew
  let yMean ← attr s.yhMean
  let yStd ← attr s.yhStd
  let f ← scaleTrend fl yMean yStd
  let beta ← attr s.beta
  let gamma ← attr s.gamma
  let kg ← dotT knew gamma
  .ok fun j => (f *ᵥ beta + kg) j * yStd + yMean

/-- `hk.predict(X, return_std=True)`, hierarchical_kriging.py:81-111.  `solve(L, knew)` and `dot(F.T, delta)` raise `ValueError` unless the numbers of rows agree, `self.noise**2` raises `TypeError` for `None`. -/
noncomputable def Heap.hkPredictStd {m : ℕ} (h : Heap d q) (s : HKModel d) (Xnew : Samples m d) : Py ((Fin m → ℝ) × (Fin m → ℝ)) := do
  let fmean ← h.hkPredict s Xnew
  let xs ← normalizeInput (h.boxes s.bound) Xnew
  let Xhs ← attr s.xhs
  let knew := s.kernel.getKernelMatrix Xhs.2 xs
  let fl ← h.hkPredictLf s Xnew
  let yMean ← attr s.yhMean
  let yStd ← attr s.yhStd
  let f ← scaleTrend fl yMean yStd
  let L ← attr s.L
  let F ← attr s.trend
  if hn : L.1 = Xhs.1 ∧ F.1 = L.1 then do
    let delta ← cholSolve L.2 (fun i j => knew (Fin.cast hn.1 i) j)
    let R := fᵀ - (fun i j => F.2 (Fin.cast hn.2.symm i) j : Matrix (Fin L.1) (Fin 1) ℝ)ᵀ * delta
    let sigma2 ← attr s.sigma2
    let ld ← attr s.ld
    let S ← cholSolve ld R
    match s.noise with
    | none => .error .typeError
    | some noise =>
      let epistemic : Fin m → ℝ := fun j => Real.sqrt (max (sigma2 * (1 - ∑ i, knew (Fin.cast hn.1 i) j * delta i j + (Rᵀ * S) j j)) 0) * yStd
      .ok (fmean, fun j => Real.sqrt (epistemic j ^ 2 + noise ^ 2))
  else .error .valueError

end Mfpml.GPObjects
