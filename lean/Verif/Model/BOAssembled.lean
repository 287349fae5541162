import Verif.Model.BayesOpt
import Verif.Model.Acquisitions
import Verif.Model.Samplers

/-!
# The Bayesian optimisers put together
`sf_uncons_bo.py`, `sf_cons_bo.py`, `mf_uncons_bo.py` with the sampler, the surrogates and the acquisitions they use

`Verif.Model.BayesOpt` models the loops for every sampler, surrogate and acquisition; here the parameters are filled with the models of the library's own: Latin hypercube sampling, Kriging with the settings
the optimisers use, `query`.  The problem's functions stay arbitrary (they do not use numpy's random state).
-/

namespace Mfpml.BO

open Mfpml.EA (Box)
open Mfpml.Sampling (Env lhsSamples mkShared getSamples)
open Mfpml.GP Mfpml.Acq

/-- The outside world: scipy's samplers and numpy's global generator, `scipy.optimize.minimize`, `np.random.uniform(low, high, size=p)` called `n` times, and `scipy.optimize.differential_evolution` (the external calls of sf_uncons_bo.py:29, 85-86, sf_uncons_acqusitions.py:56-60 and gaussian_process.py:176-187). -/
structure Outside (d : ℕ) where
  env : Env ℝ d
  mini : Minimizer
  uniform : (n p : ℕ) → (lo hi : Fin p → ℝ) → env.S → List (Fin p → ℝ) × env.S
  de : DiffEvo env.S d

/-! ## Kriging as the optimisers use it -/

/-- A `GaussianProcessRegression` object with what the last `train` stored (gaussian_process.py:47-95). -/
structure Kriging (d : ℕ) where
  obj : GPObj d 1
  fit : Option (Σ n, GPFit n d 1)

/-- `GaussianProcessRegression(design_space, optimizer=None, noise_prior=0.0)` with the default kernel and trend: sf_uncons_bo.py:90-92, sf_cons_bo.py:104-106 and 118-120, and the low-fidelity and discrepancy
models of hierarchical_kriging.py:33-37 and scale_kriging.py:69-86. -/
noncomputable def freshGP {d : ℕ} (b : Box ℝ d) : GPObj d 1 :=
  { box := b, kernel := RBF.mk' (fun _ => 0) (-2) 3, regr := ordinary d, optimizer := none, noise := some 0 }

/-- The new surrogate of sf_uncons_bo.py:90-92. -/
noncomputable def freshKriging {d : ℕ} (b : Box ℝ d) : Kriging d := { obj := freshGP b, fit := none }

/-- An array given as the list of its rows, as a function of the position (sf_uncons_bo.py:66, 97). -/
def rows {α : Type} (l : List α) : Fin l.length → α := fun i => l[i]

/-- The entries of a response column next to `n` sample rows (sf_uncons_bo.py:67, 98). -/
def column {n : ℕ} (ys : List ℝ) (h : ys.length = n) : Fin n → ℝ := fun i => ys[i]'(by omega)

/-- The outside contribution to one `train` of a Kriging model with `optimizer_restart=10` and known noise: eleven start points (gaussian_process.py:172-183; L-BFGS-B does not use the random state, so drawing them
one before each search or all at once is the same). -/
def Outside.world {d : ℕ} (o : Outside d) (k : RBF d) (w : o.env.S) : World d × o.env.S :=
  let r := o.uniform 11 d (fun _ => k.boundLow) (fun _ => k.boundHigh) w
  ({ mini := o.mini, starts := r.1, startsNoise := [] }, r.2)

/-- `surrogate.train(X, Y)`: gaussian_process.py:66-95.  If there are not as many responses as samples, numpy raises `ValueError` when the shapes meet. -/
noncomputable def Kriging.train {d : ℕ} (o : Outside d) (k : Kriging d) (xs : List (Fin d → ℝ)) (ys : List ℝ) (w : o.env.S) : Py (Kriging d × o.env.S) :=
  if h : ys.length = xs.length then do
    let wd := o.world k.obj.kernel w
    let (gp, fit) ← k.obj.train wd.1 (rows xs) (column ys h)
    .ok ({ obj := gp, fit := some ⟨_, fit⟩ }, wd.2)
  else .error .valueError

/-- What an acquisition sees; an untrained model has no `sample_y` (sf_uncons_acqusitions.py:147-150). -/
noncomputable def Kriging.view {d : ℕ} (k : Kriging d) : Py (SFSurr d) :=
  match k.fit with
  | some t => .ok (SFSurr.ofGP k.obj t.2)
  | none => .error .attributeError

/-! ## Single fidelity -/

/-- `BayesUnConsOpt(problem, acquisition, num_init, seed)`: sf_uncons_bo.py:17-40 and 80-109. -/
noncomputable def sfBO {d : ℕ} (o : Outside d) (b : Box ℝ d) (f : List (Fin d → ℝ) → Py (List ℝ)) (optimum : Option ℝ) (eval : (m : ℕ) → SFSurr d → Samples m d → Py (Fin m → ℝ))
    (optimizer : Option (PopOpt o.env.S d)) (numInit seed : ℕ) : SFProblem ℝ (Fin d → ℝ) (Kriging d) o.env.S :=
  { f := f
    optimum := optimum
    init := fun w => .ok (lhsSamples o.env b numInit (some seed) (o.env.seed seed w))
    fresh := freshKriging b
    train := fun k xs ys w => k.train o xs ys w
    query := fun k w => do
      let s ← k.view
      sfQuery eval optimizer o.de s w }

/-! ## Single fidelity, constrained -/

/-- `cons_response[:, ii]` (sf_cons_bo.py:79, 122). -/
def consColumn {c : ℕ} (ii : ℕ) (cons : List (Fin c → ℝ)) : Py (List ℝ) :=
  if h : ii < c then .ok (cons.map fun g => g ⟨ii, h⟩) else .error .indexError

/-- The loop over the constraint surrogates, sf_cons_bo.py:76-79 and 117-123; the first argument is the column of the first surrogate of the list. -/
noncomputable def trainCons {d c : ℕ} (o : Outside d) (xs : List (Fin d → ℝ)) (cons : List (Fin c → ℝ)) : ℕ → List (Kriging d) → o.env.S → Py (List (Kriging d) × o.env.S)
  | _, [], w => .ok ([], w)
  | ii, k :: ks, w => do
    let y ← consColumn ii cons
    let (k', w) ← k.train o xs y w
    let (ks', w) ← trainCons o xs cons (ii + 1) ks w
    .ok (k' :: ks', w)

/-- `BayesConsOpt(problem, acquisition, num_init, seed)`: sf_cons_bo.py:17-40 and 93-147.  The surrogate state is the objective surrogate with the list of constraint surrogates. -/
noncomputable def consBO {d c : ℕ} (o : Outside d) (b : Box ℝ d) (f : List (Fin d → ℝ) → Py (List ℝ)) (fCons : List (Fin d → ℝ) → Py (List (Fin c → ℝ))) (numCons : ℕ)
    (optimum : Option ℝ) (optimizer : Option (PopOpt o.env.S d)) (numInit seed : ℕ) : ConsProblem ℝ (Fin d → ℝ) (Kriging d × List (Kriging d)) o.env.S c :=
  { f := f
    fCons := fCons
    numCons := numCons
    optimum := optimum
    init := fun w => .ok (lhsSamples o.env b numInit (some seed) (o.env.seed seed w))
    fresh := (freshKriging b, List.replicate numCons (freshKriging b))
    train := fun k xs ys gs w => do
      let (obj, w) ← k.1.train o xs ys w
      let (cons, w) ← trainCons o xs gs 0 k.2 w
      .ok ((obj, cons), w)
    query := fun k w => do
      let s ← k.1.view
      let cs ← k.2.mapM Kriging.view
      consQuery optimizer o.de s cs w }

/-! ## Multi-fidelity -/

/-- The surrogate object of an `mfUnConsBayesOpt` with what the last `train` stored (for co-Kriging also the arrays it was given) (mf_uncons_bo.py:162-179). -/
inductive MFModel (d : ℕ)
  | hk (obj : HKObj d 1) (fit : Option (Σ nh nl, HKFit nh nl d 1))
  | sk (obj : SKObj d 1 1) (fit : Option (Σ nh nl, SKFit nh nl d 1 1))
  | ck (obj : CKObj d 1) (fit : Option (Σ nh nl, CKFit nh nl d 1 × Samples nh d × Samples nl d))

/-- The surrogates of mf_uncons_bo.py:162-176, with `noise_prior=0.0` and `optimizer_restart=10`; any other name raises `ValueError`.  The constructors: hierarchical_kriging.py:15-37, scale_kriging.py:13-86 (kernel
of the discrepancy model: the default one), co_kriging.py:310-354. -/
noncomputable def freshMF {d : ℕ} (b : Box ℝ d) (name : String) : Py (MFModel d) :=
  if name = "HierarchicalKriging" then
    .ok (.hk { box := b, kernel := RBF.mk' (fun _ => 0) (-2) 3, optimizer := none, noise := some 0, lf := freshGP b } none)
  else if name = "ScaledKriging" then
    .ok (.sk (SKObj.new b (freshGP b) (freshGP b) false .error 1e-2 1e1 none) none)
  else if name = "CoKriging" then
    .ok (.ck { box := b, kernel := RBF.mk' (fun _ => 0) (-2) 3, optimizer := none, rhoLow := 1e-2, rhoHigh := 1e2, noise := some 0,
               lf := { kernel := RBF.mk' (fun _ => 0) (-2) 3, regr := ordinary d, optimizer := none, noise := some 0 } } none)
  else .error .valueError

/-- `surrogate.train(samples, responses)`: the low-fidelity search draws first, then the high-fidelity one (mf_gaussian_process.py:46-93, co_kriging.py:356-410). -/
noncomputable def MFModel.train {d : ℕ} (o : Outside d) (m : MFModel d) (xs : List (Fin d → ℝ) × List (Fin d → ℝ)) (ys : List ℝ × List ℝ) (w : o.env.S) :
    Py (MFModel d × o.env.S) :=
  if h : ys.1.length = xs.1.length ∧ ys.2.length = xs.2.length then
    match m with
    | .hk g _ => do
      let wl := o.world g.lf.kernel w
      let wh := o.world g.kernel wl.2
      let (g', t) ← g.train { lf := wl.1, hf := wh.1 } (rows xs.1) (column ys.1 h.1) (rows xs.2) (column ys.2 h.2)
      .ok (.hk g' (some ⟨_, _, t⟩), wh.2)
    | .sk g _ => do
      let wl := o.world g.lf.kernel w
      let wd := o.world g.disc.kernel wl.2
      let (g', t) ← g.train { lf := wl.1, disc := wd.1, mini := o.mini, x0 := 0, bumpEvals := [], bumpX := 0 } (rows xs.1) (column ys.1 h.1) (rows xs.2) (column ys.2 h.2)
      .ok (.sk g' (some ⟨_, _, t⟩), wd.2)
    | .ck g _ => do
      let wl := o.world g.lf.kernel w
      let r := o.uniform 11 (d + 1) (Fin.cons g.rhoLow fun _ => g.kernel.boundLow) (Fin.cons g.rhoHigh fun _ => g.kernel.boundHigh) wl.2
      let (g', t) ← g.train { lf := wl.1, mini := o.mini, starts := r.1, startsNoise := [] } (rows xs.1) (column ys.1 h.1) (rows xs.2) (column ys.2 h.2)
      .ok (.ck g' (some ⟨_, _, t, rows xs.1, rows xs.2⟩), r.2)
  else .error .valueError

/-- What an acquisition sees of the surrogate (mf_uncons_bo.py:83-86). -/
noncomputable def MFModel.view {d : ℕ} : MFModel d → Py (MFSurr d)
  | .hk g (some t) => .ok (MFSurr.ofHK g t.2.2)
  | .sk g (some t) => .ok (MFSurr.ofSK g t.2.2)
  | .ck g (some t) => .ok (MFSurr.ofCK g t.2.2.1 t.2.2.2.1 t.2.2.2.2)
  | _ => .error .attributeError

/-- An acquisition's `query(mf_surrogate, cost_ratio, fmin)` (mf_uncons_bo.py:83-86). -/
abbrev MFQuery (W : Type) (d : ℕ) := MFSurr d → ℝ → ℝ → W → Py (((Fin d → ℝ) × ℤ) × W)

/-- The sampling of mf_uncons_bo.py:157-159 with the seeding of line 41.  `num_init` is the *caller's* list object, which `get_samples` empties; it is part of the state.  The problem is then called with the list
of arrays, and the surrogate needs two of them (a third fidelity already fails in the sampler: its domain list has two entries). -/
noncomputable def mfInit {d : ℕ} (o : Outside d) (b : Box ℝ d) (seed : ℕ) (w : o.env.S × List ℕ) : Py ((List (Fin d → ℝ) × List (Fin d → ℝ)) × (o.env.S × List ℕ)) := do
  let r ← getSamples o.env (mkShared false b 2 false none) w.2 (some seed) (o.env.seed seed w.1)
  match r.1 with
  | [a, b] => .ok ((a, b), (r.2.2, r.2.1))
  | _ => .error .indexError

/-- `mfUnConsBayesOpt(problem, acquisition, num_init, surrogate_name, seed)`: mf_uncons_bo.py:21-53 and 154-194. -/
noncomputable def mfBO {d : ℕ} (o : Outside d) (b : Box ℝ d) (hf lf : List (Fin d → ℝ) → Py (List ℝ)) (optimum : Option ℝ) (query : MFQuery o.env.S d) (name : String) (seed : ℕ) :
    MFProblem ℝ (Fin d → ℝ) (MFModel d) (o.env.S × List ℕ) :=
  { hf := hf
    lf := lf
    call := fun xs => do
      let h ← hf xs.1
      let l ← lf xs.2
      .ok (h, l)
    optimum := optimum
    init := mfInit o b seed
    fresh := freshMF b name
    train := fun m xs ys w => do
      let (m', w') ← m.train o xs ys w.1
      .ok (m', (w', w.2))
    query := fun m cr fmin w => do
      let s ← m.view
      let (r, w') ← query s cr fmin w.1
      .ok (r, (w', w.2)) }

end Mfpml.BO
