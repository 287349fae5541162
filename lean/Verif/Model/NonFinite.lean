import Mathlib.Analysis.SpecialFunctions.Log.Basic
import Mathlib.Data.Real.Sqrt
import Mathlib.Data.List.OfFn
import Verif.Model.BayesOpt

/-!
# Training on responses that may be `nan` or infinite
`src/mfpml/models/gaussian_process.py`, `hierarchical_kriging.py`, `scale_kriging.py`, `co_kriging.py`

The other models end with `PyErr.nonFinite` where a `nan` or an infinity would appear.  Here these values are followed through the code: numbers are finite reals, two infinities and `nan`.  How results of operations on finite
numbers are rounded (and whether they overflow) is an arbitrary function `rnd`.  `cholesky`, `solve`, `minimize` are arbitrary functions that may raise.  Simplifications: zero has no sign (`1/0` is `+inf`), and sums are taken from left
to right.
-/

namespace Mfpml.NonFinite

/-- A float: `nan`, an infinity (`inf true` is `-inf`) or a finite number (gaussian_process.py:86). -/
inductive XF where
  | nan
  | inf (neg : Bool)
  | num (v : ℝ)

/-- The float operations, for a way `rnd` to round the exact results of finite operations (all numpy expressions of gaussian_process.py:66-262). -/
structure Arith where
  rnd : ℝ → XF

namespace Arith

variable (A : Arith)

/-- `-a` (gaussian_process.py:261). -/
def neg : XF → XF
  | .nan => .nan
  | .inf s => .inf (!s)
  | .num v => .num (-v)

/-- `a + b`: infinities of opposite signs give `nan` (gaussian_process.py:230-232). -/
def add : XF → XF → XF
  | .nan, _ => .nan
  | .inf _, .nan => .nan
  | .inf s, .inf t => if s = t then .inf s else .nan
  | .inf s, .num _ => .inf s
  | .num _, .nan => .nan
  | .num _, .inf t => .inf t
  | .num a, .num b => A.rnd (a + b)

/-- `a - b` (gaussian_process.py:249, 350). -/
def sub (a b : XF) : XF := A.add a (neg b)

/-- `a * b`: zero times an infinity is `nan` (gaussian_process.py:230-232, 250). -/
noncomputable def mul : XF → XF → XF
  | .nan, _ => .nan
  | .inf _, .nan => .nan
  | .inf s, .inf t => .inf (s != t)
  | .inf s, .num b => if b = 0 then .nan else .inf (s != decide (b < 0))
  | .num _, .nan => .nan
  | .num a, .inf t => if a = 0 then .nan else .inf (decide (a < 0) != t)
  | .num a, .num b => A.rnd (a * b)

/-- `a / b` (gaussian_process.py:227, 250, 350). -/
noncomputable def div : XF → XF → XF
  | .nan, _ => .nan
  | .inf _, .nan => .nan
  | .inf _, .inf _ => .nan
  | .inf s, .num b => .inf (s != decide (b < 0))
  | .num _, .nan => .nan
  | .num _, .inf _ => .num 0
  | .num a, .num b => if b = 0 then (if a = 0 then .nan else .inf (decide (a < 0))) else A.rnd (a / b)

/-- `np.sqrt` (inside `np.std`, gaussian_process.py:350, 385). -/
noncomputable def sqrt : XF → XF
  | .nan => .nan
  | .inf s => if s then .nan else .inf false
  | .num v => if v < 0 then .nan else A.rnd (Real.sqrt v)

/-- `np.log` (gaussian_process.py:255-259). -/
noncomputable def log : XF → XF
  | .nan => .nan
  | .inf s => if s then .nan else .inf false
  | .num v => if v < 0 then .nan else if v = 0 then .inf true else A.rnd (Real.log v)

/-- `np.sum` (gaussian_process.py:256). -/
def sum (l : List XF) : XF := l.foldl A.add (.num 0)

/-- `np.mean` (gaussian_process.py:350, 374). -/
noncomputable def mean (l : List XF) : XF := A.div (A.sum l) (.num l.length)

/-- `np.std`: root of the mean of the squared differences from the mean (gaussian_process.py:350, 385). -/
noncomputable def std (l : List XF) : XF :=
  let m := A.mean l
  A.sqrt (A.div (A.sum (l.map fun y => A.mul (A.sub y m) (A.sub y m))) (.num l.length))

end Arith

/-- A two-dimensional array (gaussian_process.py:230-251). -/
abbrev Mat (m n : ℕ) := Fin m → Fin n → XF

/-- `a < b` on floats (gaussian_process.py:189). -/
noncomputable def XF.lt : XF → XF → Bool
  | .num a, .num b => decide (a < b)
  | .num _, .inf t => !t
  | .inf s, .num _ => s
  | .inf s, .inf t => s && !t
  | _, _ => false

/-- What the code takes from numpy and scipy: `cholesky`, `solve` and `minimize`, which may return anything or raise (gaussian_process.py:5-6).  `minimize f x0 w` returns the found parameters and the reported value; it may use
the global random state. -/
structure Lib (Θ W : Type) where
  cholesky : {n : ℕ} → Mat n n → Py (Mat n n)
  solve : {n k : ℕ} → Mat n n → Mat n k → Py (Mat n k)
  minimize : (Θ → Py XF) → W → Py ((Θ × XF) × W)

section

variable {Θ W : Type} (A : Arith) (L : Lib Θ W)

/-- `np.dot(a, b)` (gaussian_process.py:236-250). -/
noncomputable def dot {m n k : ℕ} (a : Mat m n) (b : Mat n k) : Mat m k := fun i j => A.sum (List.ofFn fun l => A.mul (a i l) (b l j))

/-- `a.T` (gaussian_process.py:236). -/
def tr {m n : ℕ} (a : Mat m n) : Mat n m := fun i j => a j i

/-- `a - b` entry by entry (gaussian_process.py:249). -/
def matSub {m n : ℕ} (a b : Mat m n) : Mat m n := fun i j => A.sub (a i j) (b i j)

/-- `solve(L.T, solve(L, b))` (gaussian_process.py:238, 240, 244, 248). -/
def solve2 {n k : ℕ} (l : Mat n n) (b : Mat n k) : Py (Mat n k) := do
  let z ← L.solve l b
  L.solve (tr l) z

/-- `np.eye(n) * s**2` (gaussian_process.py:232). -/
noncomputable def eyeTimes (n : ℕ) (s : XF) : Mat n n := fun i j => A.mul (.num (if i = j then 1 else 0)) (A.mul s s)

/-- `self.noise == 0.0` (gaussian_process.py:254): false for `None`, `nan` and infinities. -/
noncomputable def isZero : Option XF → Bool
  | some (.num v) => decide (v = 0)
  | _ => false

/-- One row of `_logLikelihood` for scaled responses `y`, basis values `f`, noise `sigma` and the kernel matrix `kern`: gaussian_process.py:222-261, hierarchical_kriging.py:186-228 (there `f` is `self.F`) and co_kriging.py:121-168. -/
noncomputable def nll {n p : ℕ} (noise : Option XF) (sigma : XF) (kern : Mat n n) (f : Mat n p) (y : Mat n 1) : Py XF := do
  let K : Mat n n := fun i j => A.add (kern i j) (eyeTimes A n sigma i j)
  let l ← L.cholesky K
  let alpha ← solve2 L l y
  let kf ← solve2 L l f
  let ld ← L.cholesky (dot A (tr f) kf)
  let beta ← solve2 L ld (dot A (tr f) alpha)
  let gamma ← solve2 L l (matSub A y (dot A f beta))
  let sigma2 := A.div (dot A (tr (matSub A y (dot A f beta))) gamma 0 0) (.num n)
  let logs := A.sum (List.ofFn fun i => A.log (l i i))
  let half := A.mul (A.mul (.num (-(1 / 2))) (.num n)) (if isZero noise then A.log sigma2 else sigma2)
  .ok (Arith.neg (A.sub half logs))

/-- The restarts of `_hyper_paras_optimization`, gaussian_process.py:172-191: `opt_param` is bound by the first result that is smaller than `inf`; the drawing of the start point is part of `minimize`.  The same text is in
hierarchical_kriging.py:139-156 and co_kriging.py:72-92. -/
noncomputable def restarts (obj : Θ → Py XF) : ℕ → XF × Option Θ → W → Py (Option Θ × W)
  | 0, s, w => .ok (s.2, w)
  | k + 1, s, w => do
    let r ← L.minimize obj w
    restarts obj k (if r.1.2.lt s.1 then (r.1.2, some r.1.1) else s) r.2

/-- `self.opt_param = opt_param` after the loop: raises `UnboundLocalError` if no restart was accepted (gaussian_process.py:203). -/
noncomputable def search (obj : Θ → Py XF) (numRestarts : ℕ) (w : W) : Py (Θ × W) := do
  let r ← restarts L obj (numRestarts + 1) (.inf false, none) w
  match r.1 with
  | some p => .ok (p, r.2)
  | none => .error .unboundLocal

/-- `normalize_output` as a column, gaussian_process.py:334-350. -/
noncomputable def normalizeOutput (ys : List XF) : Mat ys.length 1 := fun i _ => A.div (A.sub ys[i] (A.mean ys)) (A.std ys)

/-- A Kriging object as far as training on non-finite responses is concerned: `noise`, `optimizer_restart` (the optimiser is `None`), the kernel matrix for samples and searched parameters, the basis, the noise among the searched
parameters (line 224), and what `train` does after the search (`_update_kernel_matrix`), which may be anything (gaussian_process.py:17-64, 222-232, 265-302). -/
structure KObj (X Θ S : Type) where
  noise : Option ℝ
  numRestarts : ℕ
  cols : ℕ
  kern : (xs : List X) → (n : ℕ) → Θ → Mat n n
  basis : (xs : List X) → (n : ℕ) → Mat n cols
  sigmaOf : Θ → XF
  finish : List X → List XF → Θ → Py S

/-- The noise `noise_sigma` for searched parameters `t`, with `scale` the standard deviation of the responses (gaussian_process.py:222-228, hierarchical_kriging.py:188-193). -/
noncomputable def KObj.sigma {X S : Type} (o : KObj X Θ S) (scale : XF) (t : Θ) : XF :=
  match o.noise with
  | none => o.sigmaOf t
  | some s => A.div (.num s) scale

/-- `GaussianProcessRegression.train` (Kriging), gaussian_process.py:66-95.  If there are not as many samples as responses, numpy raises `ValueError` (C124). -/
noncomputable def KObj.train {X S : Type} (o : KObj X Θ S) (xs : List X) (ys : List XF) (w : W) : Py (S × W) :=
  if xs.length = ys.length then do
    let r ← search L (fun t => nll A L (o.noise.map .num) (o.sigma A (A.std ys) t) (o.kern xs ys.length t) (o.basis xs ys.length) (normalizeOutput A ys)) o.numRestarts w
    let m ← o.finish xs ys r.1
    .ok (m, r.2)
  else .error .valueError

/-- `_train_hf` of hierarchical Kriging, hierarchical_kriging.py:39-61; `fs` are the low-fidelity predictions at the high-fidelity samples (56). -/
noncomputable def KObj.trainHf {X S : Type} (o : KObj X Θ S) (fs : List XF) (xs : List X) (ys : List XF) (w : W) : Py (S × W) :=
  if xs.length = ys.length then do
    let F : Mat ys.length 1 := fun i _ => A.div (A.sub (fs.getD i .nan) (A.mean ys)) (A.std ys)
    let r ← search L (fun t => nll A L (o.noise.map .num) (o.sigma A (A.std ys) t) (o.kern xs ys.length t) F (normalizeOutput A ys)) o.numRestarts w
    let m ← o.finish xs ys r.1
    .ok (m, r.2)
  else .error .valueError

/-- `HierarchicalKriging.train(samples, responses)`, mf_gaussian_process.py:66-69 with `_train_lf` (75-92) and `_train_hf`; pairs are (high fidelity, low fidelity), `predLf` is the `predict` of the low-fidelity model. -/
noncomputable def trainHK {X SL S : Type} (lf : KObj X Θ SL) (hf : KObj X Θ S) (predLf : SL → List X → Py (List XF)) (xs : List X × List X) (ys : List XF × List XF) (w : W) : Py ((SL × S) × W) := do
  let r ← lf.train A L xs.2 ys.2 w
  let fs ← predLf r.1 xs.1
  let q ← hf.trainHf A L fs xs.1 ys.1 r.2
  .ok ((r.1, q.1), q.2)

/-- `ScaledKriging.train(samples, responses)` with a fixed scale factor: mf_gaussian_process.py:66-69 and scale_kriging.py:90-106, 138-149: the discrepancies are `yh - rho * prediction`. -/
noncomputable def trainSK {X SL S : Type} (rho : ℝ) (lf : KObj X Θ SL) (disc : KObj X Θ S) (predLf : SL → List X → Py (List XF)) (xs : List X × List X) (ys : List XF × List XF) (w : W) : Py ((SL × S) × W) := do
  let r ← lf.train A L xs.2 ys.2 w
  let fs ← predLf r.1 xs.1
  let d := List.ofFn fun i : Fin ys.1.length => A.sub ys.1[i] (A.mul (.num rho) (fs.getD i .nan))
  let q ← disc.train A L xs.1 d r.2
  .ok ((r.1, q.1), q.2)

/-- `CoKriging.train(samples, responses)`, co_kriging.py:356-396 up to the training of the low-fidelity model (243-268), whose responses are scaled with mean and standard deviation of the high-fidelity ones and whose noise is the
rescaled one; `rest` stands for everything after it (392-430). -/
noncomputable def trainCK {X SL S : Type} (lf : KObj X Θ SL) (rest : SL → List X × List X → List XF × List XF → W → Py (S × W)) (xs : List X × List X) (ys : List XF × List XF) (w : W) : Py (S × W) :=
  if xs.2.length = ys.2.length then do
    let y : Mat ys.2.length 1 := fun i _ => A.div (A.sub ys.2[i] (A.mean ys.1)) (A.std ys.1)
    let noise : Option XF := lf.noise.map fun s => A.div (.num s) (A.std ys.1)
    let r ← search L (fun t => nll A L noise (noise.getD (lf.sigmaOf t)) (lf.kern xs.2 ys.2.length t) (lf.basis xs.2 ys.2.length) y) lf.numRestarts w
    let m ← lf.finish xs.2 (List.ofFn fun i => y i 0) r.1
    rest m xs ys r.2
  else .error .valueError

end

end Mfpml.NonFinite
