import Verif.Model.NonFinite

/-!
# Training with any optimiser, and predicting, on responses that may be `nan` or infinite
`src/mfpml/models/gaussian_process.py`, `hierarchical_kriging.py`, `scale_kriging.py`, `co_kriging.py`

`Model/NonFinite.lean` follows `nan` and infinities through the search with `scipy.optimize.minimize`.  The optimisers of this repository do not refuse `nan` (C148), so that training can complete with them.  Here the search is an
arbitrary function of the likelihood, and the code after it, `_update_kernel_matrix` and `predict`, is followed as well.  Numbers, rounding and the library are as in `Model/NonFinite.lean`.  Numbers of samples and responses are equal
(otherwise numpy raises, C124).
-/

namespace Mfpml.NonFinite

/-- `np.maximum(a, 0)`: `nan` stays `nan` (gaussian_process.py:139, hierarchical_kriging.py:105, co_kriging.py:239, 459). -/
noncomputable def XF.max0 : XF → XF
  | .nan => .nan
  | .inf s => if s then .num 0 else .inf false
  | .num v => .num (max v 0)

/-- The hyper-parameter search: `minimize` with restarts or `run_optimizer` of an optimiser object, here any function of the likelihood (gaussian_process.py:144-203, hierarchical_kriging.py:113-162, co_kriging.py:45-102, 491-548). -/
abbrev Opt (Θ W : Type) := (Θ → Py XF) → W → Py (Θ × W)

/-- The parts of a Kriging model that do not see the responses: `noise`, the kernel between scaled samples for searched parameters, the basis, the noise among the searched parameters (gaussian_process.py:17-64, 222-228). -/
structure Krig (X Θ : Type) where
  noise : Option XF
  cols : ℕ
  kern : {n k : ℕ} → (Fin n → X) → (Fin k → X) → Θ → Mat n k
  basis : {n : ℕ} → (Fin n → X) → Mat n cols
  sigmaOf : Θ → XF

/-- Attributes set by training, gaussian_process.py:66-95, 265-302. -/
structure Fit (X Θ : Type) (n p : ℕ) where
  xs : Fin n → X
  param : Θ
  mean : XF
  std : XF
  noise : XF
  l : Mat n n
  ld : Mat p p
  f : Mat n p
  beta : Mat p 1
  gamma : Mat n 1
  sigma2 : XF

section

variable {X Θ W : Type} (A : Arith) (L : Lib Θ W)

/-- `_update_kernel_matrix` from line 272 on for the kernel matrix `kern`, the noise `noise` in units of the responses and its scaled value `s` (gaussian_process.py:274-298, hierarchical_kriging.py:234-256, co_kriging.py:173-197).
`logp` is not read by any prediction and is left out. -/
noncomputable def refit {n p : ℕ} (xs : Fin n → X) (t : Θ) (mean std noise s : XF) (kern : Mat n n) (f : Mat n p) (y : Mat n 1) : Py (Fit X Θ n p) := do
  let l ← L.cholesky fun i j => A.add (kern i j) (eyeTimes A n s i j)
  let alpha ← solve2 L l y
  let kf ← solve2 L l f
  let ld ← L.cholesky (dot A (tr f) kf)
  let beta ← solve2 L ld (dot A (tr f) alpha)
  let gamma ← solve2 L l (matSub A y (dot A f beta))
  .ok { xs := xs, param := t, mean := mean, std := std, noise := noise, l := l, ld := ld, f := f, beta := beta, gamma := gamma
        sigma2 := A.div (dot A (tr (matSub A y (dot A f beta))) gamma 0 0) (.num n) }

/-- `(y - y_mean) / y_std` as a column (gaussian_process.py:334-350, mf_gaussian_process.py:normalize_hf_output). -/
noncomputable def scaled {n : ℕ} (ys : Fin n → XF) (mean std : XF) : Mat n 1 := fun i _ => A.div (A.sub (ys i) mean) std

/-- Search and refit of Kriging (gaussian_process.py:66-95) and of `_train_hf` of hierarchical Kriging (hierarchical_kriging.py:39-61), for basis values `f`: noise that is searched is scaled by the standard deviation of the responses
(269-271). -/
noncomputable def trainOn {p n : ℕ} (g : Krig X Θ) (opt : Opt Θ W) (f : Mat n p) (xs : Fin n → X) (ys : Fin n → XF) (w : W) : Py (Fit X Θ n p × W) := do
  let mean := A.mean (List.ofFn ys)
  let std := A.std (List.ofFn ys)
  let y := scaled A ys mean std
  let r ← opt (fun t => nll A L g.noise (match g.noise with | none => g.sigmaOf t | some s => A.div s std) (g.kern xs xs t) f y) w
  let noise := match g.noise with | none => A.mul (g.sigmaOf r.1) std | some s => s
  let m ← refit A L xs r.1 mean std noise (A.div noise std) (g.kern xs xs r.1) f y
  .ok (m, r.2)

/-- `GaussianProcessRegression.train`, gaussian_process.py:66-95. -/
noncomputable def Krig.trainBy {n : ℕ} (g : Krig X Θ) (opt : Opt Θ W) (xs : Fin n → X) (ys : Fin n → XF) (w : W) : Py (Fit X Θ n g.cols × W) := trainOn A L g opt (g.basis xs) xs ys w

/-- The mean predicted for scaled basis values `f` and kernel values `knew`, gaussian_process.py:122-123, hierarchical_kriging.py:92-93. -/
noncomputable def Fit.meanAt {n p k : ℕ} (m : Fit X Θ n p) (knew : Mat n k) (f : Mat k p) (i : Fin k) : XF :=
  A.add (A.mul (A.add (dot A f m.beta i 0) (dot A (tr knew) m.gamma i 0)) m.std) m.mean

/-- The scaled squared error, gaussian_process.py:128-134, hierarchical_kriging.py:98-104. -/
noncomputable def Fit.mseAt {n p k : ℕ} (m : Fit X Θ n p) (knew : Mat n k) (f : Mat k p) : Py (Fin k → XF) := do
  let delta ← solve2 L m.l knew
  let R := matSub A (tr f) (dot A (tr m.f) delta)
  let q ← solve2 L m.ld R
  .ok fun i => A.mul m.sigma2 (A.add (A.sub (.num 1) (dot A (tr knew) delta i i)) (dot A (tr R) q i i))

/-- `predict(X)` of Kriging, gaussian_process.py:97-125. -/
noncomputable def Krig.mean {n k : ℕ} (g : Krig X Θ) (m : Fit X Θ n g.cols) (x : Fin k → X) : Fin k → XF := m.meanAt A (g.kern m.xs x m.param) (g.basis x)

/-- `predict(X, return_std=True)` of Kriging, second value, gaussian_process.py:127-142. -/
noncomputable def Krig.std {n k : ℕ} (g : Krig X Θ) (m : Fit X Θ n g.cols) (x : Fin k → X) : Py (Fin k → XF) := do
  let mse ← m.mseAt A L (g.kern m.xs x m.param) (g.basis x)
  .ok fun i => A.sqrt (A.add (A.mul (mse i) (A.mul m.std m.std)) (A.mul m.noise m.noise)).max0

/-! ### Hierarchical Kriging -/

/-- `HierarchicalKriging.train`, mf_gaussian_process.py:66-69 and hierarchical_kriging.py:39-61: the basis of the high-fidelity model is the scaled low-fidelity prediction. -/
noncomputable def trainHKBy {nl nh : ℕ} (lf hf : Krig X Θ) (optL optH : Opt Θ W) (xl : Fin nl → X) (yl : Fin nl → XF) (xh : Fin nh → X) (yh : Fin nh → XF) (w : W) : Py ((Fit X Θ nl lf.cols × Fit X Θ nh 1) × W) := do
  let a ← lf.trainBy A L optL xl yl w
  let b ← trainOn A L hf optH (scaled A (lf.mean A a.1 xh) (A.mean (List.ofFn yh)) (A.std (List.ofFn yh))) xh yh a.2
  .ok ((a.1, b.1), b.2)

/-- `HierarchicalKriging.predict(X)`, hierarchical_kriging.py:82-96. -/
noncomputable def hkMean {nl nh k : ℕ} (lf hf : Krig X Θ) (m : Fit X Θ nl lf.cols × Fit X Θ nh 1) (x : Fin k → X) : Fin k → XF :=
  m.2.meanAt A (hf.kern m.2.xs x m.2.param) (scaled A (lf.mean A m.1 x) m.2.mean m.2.std)

/-- `HierarchicalKriging.predict(X, return_std=True)`, second value, hierarchical_kriging.py:98-111. -/
noncomputable def hkStd {nl nh k : ℕ} (lf hf : Krig X Θ) (m : Fit X Θ nl lf.cols × Fit X Θ nh 1) (x : Fin k → X) : Py (Fin k → XF) := do
  let mse ← m.2.mseAt A L (hf.kern m.2.xs x m.2.param) (scaled A (lf.mean A m.1 x) m.2.mean m.2.std)
  .ok fun i => let e := A.mul (A.sqrt (mse i).max0) m.2.std
    A.sqrt (A.add (A.mul e e) (A.mul m.2.noise m.2.noise))

/-! ### Scaled Kriging -/

/-- `ScaledKriging.train` for the scale factor `rho` that is used, mf_gaussian_process.py:66-69 and scale_kriging.py:90-106, 133-142. -/
noncomputable def trainSKBy {nl nh : ℕ} (lf disc : Krig X Θ) (optL optD : Opt Θ W) (rho : XF) (xl : Fin nl → X) (yl : Fin nl → XF) (xh : Fin nh → X) (yh : Fin nh → XF) (w : W) :
    Py ((Fit X Θ nl lf.cols × Fit X Θ nh disc.cols) × W) := do
  let a ← lf.trainBy A L optL xl yl w
  let b ← disc.trainBy A L optD xh (fun i => A.sub (yh i) (A.mul rho (lf.mean A a.1 xh i))) a.2
  .ok ((a.1, b.1), b.2)

/-- `ScaledKriging.predict(X)`, scale_kriging.py:124-126. -/
noncomputable def skMean {nl nh k : ℕ} (lf disc : Krig X Θ) (rho : XF) (m : Fit X Θ nl lf.cols × Fit X Θ nh disc.cols) (x : Fin k → X) : Fin k → XF :=
  fun i => A.add (A.mul (disc.mean A m.2 x i) rho) (lf.mean A m.1 x i)

/-- `ScaledKriging.predict(X, return_std=True)`, scale_kriging.py:127-131. -/
noncomputable def skBoth {nl nh k : ℕ} (lf disc : Krig X Θ) (rho : XF) (m : Fit X Θ nl lf.cols × Fit X Θ nh disc.cols) (x : Fin k → X) : Py ((Fin k → XF) × (Fin k → XF)) := do
  let sl ← lf.std A L m.1 x
  let sd ← disc.std A L m.2 x
  .ok (fun i => A.add (A.mul rho (lf.mean A m.1 x i)) (disc.mean A m.2 x i), fun i => A.sqrt (A.add (A.mul (A.mul rho rho) (A.mul (sl i) (sl i))) (A.mul (sd i) (sd i))))

/-! ### Co-Kriging -/

/-- The low-fidelity model of co-Kriging: search and refit without scaling (co_kriging.py:243-268, 55-104, 121-199). -/
noncomputable def trainCKLow {n : ℕ} (g : Krig X Θ) (noise : Option XF) (opt : Opt Θ W) (xs : Fin n → X) (y : Mat n 1) (w : W) : Py (Fit X Θ n g.cols × W) := do
  let r ← opt (fun t => nll A L noise (noise.getD (g.sigmaOf t)) (g.kern xs xs t) (g.basis xs) y) w
  let s := noise.getD (g.sigmaOf r.1)
  let m ← refit A L xs r.1 (.num 0) (.num 1) s s (g.kern xs xs r.1) (g.basis xs) y
  .ok (m, r.2)

/-- What training of co-Kriging leaves for predictions, co_kriging.py:372-410, 600-659: the scaling, the low-fidelity model, the concatenated scaled responses, and `rho`, `theta`, `noise`, `sigma2`, `mu`, `LC`. -/
structure CKFit (X Θ : Type) (nl nh p : ℕ) where
  mean : XF
  std : XF
  low : Fit X Θ nl p
  xh : Fin nh → X
  y : Mat (nl + nh) 1
  rho : XF
  param : Θ
  noise : XF
  sigma2 : XF
  mu : XF
  lc : Mat (nl + nh) (nl + nh)

/-- The second half of `CoKriging.train`, co_kriging.py:388-409 with `_optHyp` and `_update_parameters`: it sets `rho`, `theta`, `noise`, `sigma2`, `mu`, `LC`, from the low-fidelity model, the scaled noise and the scaled responses.
Nothing more is said about it here. -/
abbrev CKRest (X Θ W : Type) (nl nh p : ℕ) := Fit X Θ nl p → Option XF → Mat nl 1 → Mat nh 1 → W → Py ((XF × Θ × XF × XF × XF × Mat (nl + nh) (nl + nh)) × W)

/-- `CoKriging.train`, co_kriging.py:356-410, for the noise `noise` of the model: scaling with mean and standard deviation of the high-fidelity responses, training of the low-fidelity model (which gets the scaled noise, if that is
known), and the rest. -/
noncomputable def trainCKBy {nl nh : ℕ} (lf : Krig X Θ) (noise : Option XF) (opt : Opt Θ W) (rest : CKRest X Θ W nl nh lf.cols) (xl : Fin nl → X) (yl : Fin nl → XF) (xh : Fin nh → X) (yh : Fin nh → XF) (w : W) :
    Py (CKFit X Θ nl nh lf.cols × W) := do
  let mean := A.mean (List.ofFn yh)
  let std := A.std (List.ofFn yh)
  let noise' := noise.map fun s => A.div s std
  let a ← trainCKLow A L lf (noise'.or lf.noise) opt xl (scaled A yl mean std) w
  let b ← rest a.1 noise' (scaled A yl mean std) (scaled A yh mean std) a.2
  .ok ({ mean := mean, std := std, low := a.1, xh := xh, y := Fin.append (scaled A yl mean std) (scaled A yh mean std), rho := b.1.1, param := b.1.2.1, noise := b.1.2.2.1, sigma2 := b.1.2.2.2.1, mu := b.1.2.2.2.2.1, lc := b.1.2.2.2.2.2 }, b.2)

/-- The covariances `c` with the new points, co_kriging.py:430-444, for the kernel `kh` of the difference model. -/
noncomputable def ckCov {nl nh k : ℕ} (lf : Krig X Θ) (kh : (n k : ℕ) → (Fin n → X) → (Fin k → X) → Θ → Mat n k) (m : CKFit X Θ nl nh lf.cols) (x : Fin k → X) : Mat (nl + nh) k :=
  fun j i => Fin.append (fun j => A.mul (A.mul m.rho m.low.sigma2) (lf.kern m.low.xs x m.low.param j i))
    (fun j => A.add (A.mul (A.mul (A.mul m.rho m.rho) m.low.sigma2) (lf.kern m.xh x m.low.param j i)) (A.mul m.sigma2 (kh nh k m.xh x m.param j i))) j

/-- `CoKriging.predict(X)`, co_kriging.py:428-452. -/
noncomputable def ckMean {nl nh k : ℕ} (lf : Krig X Θ) (kh : (n k : ℕ) → (Fin n → X) → (Fin k → X) → Θ → Mat n k) (m : CKFit X Θ nl nh lf.cols) (x : Fin k → X) : Py (Fin k → XF) := do
  let v ← solve2 L m.lc fun j (_ : Fin 1) => A.sub (m.y j 0) m.mu
  .ok fun i => A.add (A.mul (A.add m.mu (dot A (tr (ckCov A lf kh m x)) v i 0)) m.std) m.mean

/-- `CoKriging.predict(X, return_std=True)`, second value, co_kriging.py:454-462. -/
noncomputable def ckStd {nl nh k : ℕ} (lf : Krig X Θ) (kh : (n k : ℕ) → (Fin n → X) → (Fin k → X) → Θ → Mat n k) (m : CKFit X Θ nl nh lf.cols) (x : Fin k → X) : Py (Fin k → XF) := do
  let c := ckCov A lf kh m x
  let v ← solve2 L m.lc c
  .ok fun i => let s2 := A.sub (A.add (A.mul (A.mul m.rho m.rho) m.low.sigma2) m.sigma2) (dot A (tr c) v i i)
    let epis := A.mul (A.sqrt s2.max0) m.std
    let noise := A.mul m.noise m.std
    A.sqrt (A.add (A.mul epis epis) (A.mul noise noise))

end

end Mfpml.NonFinite
