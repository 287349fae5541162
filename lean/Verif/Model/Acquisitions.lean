import Verif.Model.Normal
import Verif.Model.BayesOpt
import Verif.Model.ScaledKriging
import Verif.Model.CoKriging

/-!
# Model of the acquisition functions
`src/mfpml/optimization/sf_uncons_acqusitions.py`, `sf_cons_acqusitions.py`, `mf_acqusitions.py`

An acquisition sees a surrogate only through a few methods and attributes; those are the fields of `SFSurr` and `MFSurr`, and `SFSurr.ofGP`, `MFSurr.ofHK`, `MFSurr.ofSK`, `MFSurr.ofCK` build them from
the trained surrogates of the other model files.  A batch of `m` points is `Samples m d`; a call with a single 1-d point (as scipy makes) is `m = 1`.  A column `(m, 1)` is `Fin m → ℝ`.
Numbers are reals, `norm.cdf`/`norm.pdf` the exact functions; `nan`/`inf` are `nonFinite`.
`scipy.optimize.differential_evolution` and user-supplied optimisers are arguments.
-/

open scoped BigOperators

namespace Mfpml.Acq

open Mfpml.EA (Box)
open Mfpml.GP
open Mfpml.BO (npMin npArgmin npRow)

/-- `1e-9`, sf_uncons_acqusitions.py:153-154, 197; sf_cons_acqusitions.py:123-124, 138. -/
noncomputable def tiny9 : ℝ := 1e-9

/-- `1e-8`, mf_acqusitions.py:288. -/
noncomputable def tiny8 : ℝ := 1e-8

/-- `np.finfo(float).eps` (mf_acqusitions.py:126, 290, 517). -/
noncomputable def floatEps : ℝ := 2 ^ (-52 : ℤ)

/-! ## Optimisers -/

/-- `scipy.optimize.differential_evolution(func, bounds, ...)`: gets the objective of a single point and the bounds, returns `res.x` and `res.fun`, using numpy's random state (sf_uncons_acqusitions.py:56-62, mf_acqusitions.py:151-167; scipy itself is not modelled). -/
abbrev DiffEvo (W : Type) (d : ℕ) := ((Fin d → ℝ) → Py ℝ) → Box ℝ d → W → Py (((Fin d → ℝ) × ℝ) × W)

/-- An optimiser object with a `run_optimizer(func, num_dim, design_space)` method (`PSO`, `DE`); `func` takes a population.  Only the third returned value, the best point, is used (sf_uncons_acqusitions.py:65-69). -/
abbrev PopOpt (W : Type) (d : ℕ) := ((m : ℕ) → Samples m d → Py (Fin m → ℝ)) → Box ℝ d → W → Py ((Fin d → ℝ) × W)

/-- One-point array (`np.atleast_2d`/`reshape` of one point, sf_uncons_acqusitions.py:114, mf_acqusitions.py:222). -/
def onePoint {d : ℕ} (x : Fin d → ℝ) : Samples 1 d := fun _ => x

/-- scipy calls the acquisition with one point and squeezes the one-element result (sf_uncons_acqusitions.py:56-60). -/
def single {d : ℕ} (eval : Samples 1 d → Py (Fin 1 → ℝ)) : (Fin d → ℝ) → Py ℝ := fun x => do
  let v ← eval (onePoint x)
  .ok (v 0)

/-! ## Single fidelity -/

/-- What a single-fidelity acquisition uses of a `GaussianProcessRegression` (sf_uncons_acqusitions.py:112-118, 147-150). -/
structure SFSurr (d : ℕ) where
  bounds : Box ℝ d
  sampleY : List ℝ
  predict : (m : ℕ) → Samples m d → Py ((Fin m → ℝ) × (Fin m → ℝ))

/-- A trained `GaussianProcessRegression` as seen by the acquisitions (gaussian_process.py:48-50, 86, 97-142). -/
noncomputable def SFSurr.ofGP {n d q : ℕ} (gp : GPObj d q) (t : GPFit n d q) : SFSurr d :=
  { bounds := gp.box, sampleY := List.ofFn t.y, predict := fun _ X => GP.predictStd gp t X }

/-- `LCB.eval`, sf_uncons_acqusitions.py:93-119. -/
noncomputable def lcbEval {d m : ℕ} (kappa : ℝ × ℝ) (s : SFSurr d) (x : Samples m d) : Py (Fin m → ℝ) := do
  let (yhat, sigma) ← s.predict m x
  .ok (fun j => kappa.1 * yhat j - kappa.2 * sigma j)

/-- The expression of sf_uncons_acqusitions.py:152-154 and sf_cons_acqusitions.py:122-124 (`sigma + 1e-9` is positive, so no division by zero). -/
noncomputable def eiFormula (fmin yhat sigma : ℝ) : ℝ :=
  (fmin - yhat) * normCdf ((fmin - yhat) / (sigma + tiny9)) + sigma * normPdf ((fmin - yhat) / (sigma + tiny9))

/-- `EI.eval`, sf_uncons_acqusitions.py:131-156. -/
noncomputable def eiEval {d m : ℕ} (s : SFSurr d) (x : Samples m d) : Py (Fin m → ℝ) := do
  let fmin ← npMin s.sampleY
  let (yhat, sigma) ← s.predict m x
  .ok (fun j => -eiFormula fmin (yhat j) (sigma j))

/-- `PI.eval`, sf_uncons_acqusitions.py:174-198. -/
noncomputable def piEval {d m : ℕ} (s : SFSurr d) (x : Samples m d) : Py (Fin m → ℝ) := do
  let fmin ← npMin s.sampleY
  let (yhat, sigma) ← s.predict m x
  .ok (fun j => -normCdf ((fmin - yhat j) / (sigma j + tiny9)))

/-- `SFUnConsAcq.query`, sf_uncons_acqusitions.py:41-71, for any of the three `eval`s.  With an optimiser object, `self.eval` is handed over without its `surrogate` argument: each call of it raises
`TypeError`. -/
noncomputable def sfQuery {W : Type} {d : ℕ} (eval : (m : ℕ) → SFSurr d → Samples m d → Py (Fin m → ℝ)) (optimizer : Option (PopOpt W d)) (de : DiffEvo W d) (s : SFSurr d) (w : W) :
    Py ((Fin d → ℝ) × W) :=
  match optimizer with
  | none => do
    let (res, w) ← de (single (eval 1 s)) s.bounds w
    .ok (res.1, w)
  | some run => run (fun _ _ => .error .typeError) s.bounds w

/-! ## Single fidelity, constrained -/

/-- `CEI.ei`, sf_cons_acqusitions.py:115-125. -/
noncomputable def ceiEi {d m : ℕ} (s : SFSurr d) (x : Samples m d) : Py (Fin m → ℝ) := do
  let fmin ← npMin s.sampleY
  let (yhat, sigma) ← s.predict m x
  .ok (fun j => eiFormula fmin (yhat j) (sigma j))

/-- The loop of `CEI.pof`, sf_cons_acqusitions.py:132-135: the predictions of each constraint surrogate, columns of shape `(m, 1)`, are assigned to the 1-d slices `u_g[:, ii]`, `mse_g[:, ii]`; numpy accepts
that only for `m = 1`. -/
noncomputable def pofColumns {d m : ℕ} (x : Samples m d) : List (SFSurr d) → Py (List ((Fin m → ℝ) × (Fin m → ℝ)))
  | [] => .ok []
  | s :: rest => do
    let p ← s.predict m x
    if m = 1 then do
      let ps ← pofColumns x rest
      .ok (p :: ps)
    else .error .valueError

/-- `CEI.pof`, sf_cons_acqusitions.py:127-139; the result has shape `(m,)`. -/
noncomputable def ceiPof {d m : ℕ} (cons : List (SFSurr d)) (x : Samples m d) : Py (Fin m → ℝ) := do
  let ps ← pofColumns x cons
  .ok (fun j => (ps.map fun p => normCdf (0 - p.1 j / (p.2 j + tiny9))).prod)

/-- `CEI.eval`, sf_cons_acqusitions.py:86-113: `-ei_obj * pof` multiplies shapes `(m, 1)` and `(m,)`, which numpy broadcasts to `(m, m)`. -/
noncomputable def ceiEval {d m : ℕ} (obj : SFSurr d) (cons : List (SFSurr d)) (x : Samples m d) : Py (Fin m → Fin m → ℝ) := do
  let ei ← ceiEi obj x
  let pof ← ceiPof cons x
  .ok (fun i j => -ei i * pof j)

/-- `SFConsAcq.query`, sf_cons_acqusitions.py:43-74; as in `sfQuery` an optimiser object gets `self.eval` without its surrogates. -/
noncomputable def consQuery {W : Type} {d : ℕ} (optimizer : Option (PopOpt W d)) (de : DiffEvo W d) (obj : SFSurr d) (cons : List (SFSurr d)) (w : W) : Py ((Fin d → ℝ) × W) :=
  match optimizer with
  | none => do
    let (res, w) ← de (single (fun x => do let v ← ceiEval obj cons x; .ok (fun i => v i i))) obj.bounds w
    .ok (res.1, w)
  | some run => run (fun _ _ => .error .typeError) obj.bounds w

/-! ## Multi-fidelity -/

/-- What a multi-fidelity acquisition uses of a multi-fidelity surrogate: the attribute `bound`, `predict` (with and without `return_std`), `predict_lf(x, return_std=True)`, the stored samples, the attribute
`beta` and `_eval_corr` (against the stored samples of the given fidelity, `None` for an unknown fidelity) (mf_acqusitions.py:109-115, 152, 196-197, 273-284, 521-526). -/
structure MFSurr (d : ℕ) where
  isHK : Bool
  bound : Py (Box ℝ d)
  predict : (m : ℕ) → Samples m d → Py (Fin m → ℝ)
  predictStd : (m : ℕ) → Samples m d → Py ((Fin m → ℝ) × (Fin m → ℝ))
  predictLfStd : (m : ℕ) → Samples m d → Py ((Fin m → ℝ) × (Fin m → ℝ))
  numH : ℕ
  sampleH : Samples numH d
  numL : ℕ
  sampleL : Samples numL d
  beta : Py ℝ
  evalCorr : (m k : ℕ) → Samples m d → Samples k d → ℤ → Py (Option (Matrix (Fin m) (Fin k) ℝ))

/-- A trained `HierarchicalKriging`; `beta` is the one-element trend coefficient (hierarchical_kriging.py:63-111, 248; mf_gaussian_process.py:14, 94-140, 209-229). -/
noncomputable def MFSurr.ofHK {nh nl d q : ℕ} (hk : HKObj d q) (t : HKFit nh nl d q) : MFSurr d :=
  { isHK := true, bound := .ok hk.box, predict := fun _ X => hk.predict t X, predictStd := fun _ X => hk.predictStd t X,
    predictLfStd := fun _ X => GP.predictStd hk.lf t.lfFit X, numH := nh, sampleH := t.Xh, numL := nl, sampleL := t.lfFit.X, beta := .ok (t.gls.beta 0),
    evalCorr := fun _ _ X X' fid => hk.evalCorr X X' fid }

/-- A trained `ScaledKriging`: it has no `beta` attribute, and its own kernel, which `_eval_corr` uses for fidelity 0, is never trained (scale_kriging.py:70), so all its parameters are `10 ** 0 = 1`. -/
noncomputable def MFSurr.ofSK {nh nl d ql qd : ℕ} (sk : SKObj d ql qd) (t : SKFit nh nl d ql qd) : MFSurr d :=
  { isHK := false, bound := .ok sk.box, predict := fun _ X => sk.predict t X, predictStd := fun _ X => sk.predictStd t X,
    predictLfStd := fun _ X => GP.predictStd sk.lf t.lfFit X, numH := nh, sampleH := t.Xh, numL := nl, sampleL := t.lfFit.X, beta := .error .attributeError,
    evalCorr := fun _ _ X X' fid => do
      let xs ← normalizeInput sk.box X
      let xs' ← normalizeInput sk.box X'
      if fid = 0 then .ok (some (rbfMatrix (fun _ => 1) xs xs'))
      else if fid = 1 then .ok (some (sk.lf.kernel.getKernelMatrix xs xs'))
      else .ok none }

/-- A trained `CoKriging`: it keeps its design space in the attribute `bounds` (co_kriging.py:338), has no attribute `bound`, no `_eval_corr`, no `beta`.  `predict(return_std=True)` also rescales
`self.noise` (see `CKObj.predictStd`); that side effect is not visible here, where every call starts from the object as trained; `Xh`, `Xl` are the arrays `train` was given. -/
noncomputable def MFSurr.ofCK {nh nl d q : ℕ} (ck : CKObj d q) (t : CKFit nh nl d q) (Xh : Samples nh d) (Xl : Samples nl d) : MFSurr d :=
  { isHK := false, bound := .error .attributeError, predict := fun _ X => ck.predict t X,
    predictStd := fun _ X => do
      let r ← ck.predictStd t X
      .ok r.2
    predictLfStd := fun _ X => ck.predictLfStd t X, numH := nh, sampleH := Xh, numL := nl, sampleL := Xl, beta := .error .attributeError,
    evalCorr := fun _ _ _ _ _ => .error .attributeError }

/-- `corr`, the same text in mf_acqusitions.py:202-228 (`AugmentedEI`) and 585-611 (`ExtendedPI`): `None` for an unknown fidelity.  A zero denominator makes numpy produce `inf` or `nan`. -/
noncomputable def fidelityCorr {d m : ℕ} (s : MFSurr d) (x : Samples m d) (fidelity : ℤ) : Py (Option (Fin m → ℝ)) :=
  if fidelity = 0 then .ok (some fun _ => 1)
  else if fidelity = 1 then do
    let (pre, std) ← s.predictStd m x
    let (preLf, stdLf) ← s.predictLfStd m x
    if ∀ j, |pre j - preLf j| + std j ≠ 0 then .ok (some fun j => stdLf j / (|pre j - preLf j| + std j))
    else .error .nonFinite
  else .ok none

/-- `AugmentedEI._effective_best` with `c = 1`, mf_acqusitions.py:179-200. -/
noncomputable def effectiveBest {d : ℕ} (s : MFSurr d) : Py (Fin d → ℝ) := do
  let x : Samples (s.numH + s.numL) d := Fin.append s.sampleH s.sampleL
  let (pre, std) ← s.predictStd _ x
  let i ← npArgmin (List.ofFn fun j => pre j + 1 * std j)
  npRow (List.ofFn x) i

/-- `aei` of mf_acqusitions.py:124-126 for one point: computed with division by `std`, then overwritten by 0 where `std < eps`. -/
noncomputable def aeiFormula (fmin pre std : ℝ) : ℝ :=
  if std < floatEps then 0 else (fmin - pre) * normCdf ((fmin - pre) / std) + std * normPdf ((fmin - pre) / std)

/-- `AugmentedEI.eval`, mf_acqusitions.py:85-129.  For a fidelity other than 0 and 1, `corr` returns `None` and `aei * None` raises `TypeError` (the `ValueError` of line 122 is built, not raised). -/
noncomputable def aeiEval {d m : ℕ} (s : MFSurr d) (costRatio : ℝ) (fidelity : ℤ) (x : Samples m d) : Py (Fin m → ℝ) := do
  let (pre, std) ← s.predictStd m x
  let xb ← effectiveBest s
  let fmin ← s.predict 1 (onePoint xb)
  let alpha1 ← fidelityCorr s x fidelity
  match alpha1 with
  | none => .error .typeError
  | some a1 =>
    let alpha3 : ℝ := if fidelity = 0 then 1 else costRatio
    .ok (fun j => -(aeiFormula (fmin 0) (pre j) (std j) * a1 j * alpha3))

/-- `vfei` of mf_acqusitions.py:288-290 for one point: `std` is the high-fidelity standard deviation whatever the fidelity, `s` only decides where the value is set to 0. -/
noncomputable def vfeiFormula (fmin pre std s : ℝ) : ℝ :=
  if s < floatEps then 0 else (fmin - pre) * normCdf ((fmin - pre) / (std + tiny8)) + std * normPdf ((fmin - pre) / (std + tiny8))

/-- `VFEI.eval`, mf_acqusitions.py:247-291.  For an unknown fidelity the name `s` is never bound. -/
noncomputable def vfeiEval {d m : ℕ} (fmin : ℝ) (s : MFSurr d) (fidelity : ℤ) (x : Samples m d) : Py (Fin m → ℝ) :=
  if s.isHK = false then .error .valueError else do
    let (pre, std) ← s.predictStd m x
    if fidelity = 0 then .ok (fun j => -vfeiFormula fmin (pre j) (std j) (std j))
    else if fidelity = 1 then do
      let (_, stdLf) ← s.predictLfStd m x
      let beta ← s.beta
      .ok (fun j => -vfeiFormula fmin (pre j) (std j) (beta * stdLf j))
    else .error .unboundLocal

/-- `VFLCB.eval`, mf_acqusitions.py:368-405.  For an unknown fidelity the name `std` is never bound. -/
noncomputable def vflcbEval {d m : ℕ} (kappa : ℝ × ℝ) (s : MFSurr d) (costRatio : ℝ) (fidelity : ℤ) (x : Samples m d) : Py (Fin m → ℝ) := do
  let (mean, stdH) ← s.predictStd m x
  let (_, stdL) ← s.predictLfStd m x
  if fidelity = 0 then .ok (fun j => kappa.1 * mean j - kappa.2 * stdH j)
  else if fidelity = 1 then .ok (fun j => kappa.1 * mean j - kappa.2 * (stdL j * costRatio))
  else .error .unboundLocal

/-- `pi` of mf_acqusitions.py:514-517 for one point. -/
noncomputable def epiFormula (fmin pre std : ℝ) : ℝ := if std < floatEps then 0 else normCdf ((fmin - pre) / std)

/-- `ExtendedPI.eval`, mf_acqusitions.py:485-527.  `pi` and `corr` have shape `(m, 1)`, `eta` has shape `(m,)`: the result has shape `(m, m)`.  For an unknown fidelity `corr` is `None` and the product raises
`TypeError`. -/
noncomputable def epiEval {d m : ℕ} (s : MFSurr d) (fmin costRatio : ℝ) (fidelity : ℤ) (x : Samples m d) : Py (Fin m → Fin m → ℝ) := do
  let (pre, std) ← s.predictStd m x
  let corr ← fidelityCorr s x fidelity
  match corr with
  | none => .error .typeError
  | some c =>
    if fidelity = 0 then do
      let r ← s.evalCorr m s.numH x s.sampleH 0
      match r with
      | none => .error .typeError
      | some R => .ok (fun i j => -epiFormula fmin (pre i) (std i) * c i * 1 * ∏ k, R j k)
    else do
      let r ← s.evalCorr m s.numL x s.sampleL 1
      match r with
      | none => .error .typeError
      | some R => .ok (fun i j => -epiFormula fmin (pre i) (std i) * c i * costRatio * ∏ k, R j k)

/-- The common part of the four multi-fidelity `query` methods (mf_acqusitions.py:149-177, 313-341, 425-457, 551-583): `evalAt fid` is the acquisition at one point.  With an optimiser object nothing is
computed and the comparison of the unbound names raises `UnboundLocalError`. -/
noncomputable def mfChoose {W : Type} {d : ℕ} (evalAt : ℤ → (Fin d → ℝ) → Py ℝ) (optimizer : Option (PopOpt W d)) (de : DiffEvo W d) (bound : Py (Box ℝ d)) (w : W) :
    Py (((Fin d → ℝ) × ℤ) × W) :=
  match optimizer with
  | some _ => .error .unboundLocal
  | none => do
    let b ← bound
    let (hf, w) ← de (evalAt 0) b w
    let (lf, w) ← de (evalAt 1) b w
    if hf.2 ≤ lf.2 then .ok ((hf.1, 0), w) else .ok ((lf.1, 1), w)

/-- `AugmentedEI.query`, mf_acqusitions.py:131-177 (`fmin` is not used). -/
noncomputable def aeiQuery {W : Type} {d : ℕ} (optimizer : Option (PopOpt W d)) (de : DiffEvo W d) (s : MFSurr d) (costRatio _fmin : ℝ) (w : W) : Py (((Fin d → ℝ) × ℤ) × W) :=
  mfChoose (fun fid => single (aeiEval s costRatio fid)) optimizer de s.bound w

/-- `VFEI.query`, mf_acqusitions.py:293-341 (`cost_ratio` is not used). -/
noncomputable def vfeiQuery {W : Type} {d : ℕ} (optimizer : Option (PopOpt W d)) (de : DiffEvo W d) (s : MFSurr d) (_costRatio fmin : ℝ) (w : W) : Py (((Fin d → ℝ) × ℤ) × W) :=
  mfChoose (fun fid => single (vfeiEval fmin s fid)) optimizer de s.bound w

/-- `VFLCB.query`, mf_acqusitions.py:407-457 (`fmin` is not used). -/
noncomputable def vflcbQuery {W : Type} {d : ℕ} (kappa : ℝ × ℝ) (optimizer : Option (PopOpt W d)) (de : DiffEvo W d) (s : MFSurr d) (costRatio _fmin : ℝ) (w : W) :
    Py (((Fin d → ℝ) × ℤ) × W) :=
  mfChoose (fun fid => single (vflcbEval kappa s costRatio fid)) optimizer de s.bound w

/-- `ExtendedPI.query`, mf_acqusitions.py:529-583: first the minimum of the predicted mean is searched (also when an optimiser object is given); the argument `fmin` is not used. -/
noncomputable def epiQuery {W : Type} {d : ℕ} (optimizer : Option (PopOpt W d)) (de : DiffEvo W d) (s : MFSurr d) (costRatio _fmin : ℝ) (w : W) : Py (((Fin d → ℝ) × ℤ) × W) := do
  let b ← s.bound
  let (premin, w) ← de (single (s.predict 1)) b w
  mfChoose (fun fid => single (fun x => do let v ← epiEval s premin.2 costRatio fid x; .ok (fun i => v i i))) optimizer de s.bound w

end Mfpml.Acq
