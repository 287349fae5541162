import Verif.Model.BOAssembled

/-!
# Construction of the surrogate models with all their options
`src/mfpml/models/kernels.py`, `gaussian_process.py`, `hierarchical_kriging.py`, `scale_kriging.py`, `co_kriging.py`

The number of restarts is left out: it is the number of start points in the `World` of a training.  `Ordinary()`, the default basis, has no state.
-/

namespace Mfpml.GP

open Mfpml.EA (Box)
open Mfpml.BO

/-! ## Kernels -/

/-- `KernelCore.hyperparameters` and `_get_param`, kernels.py:11-15, 73-81. -/
def RBF.hyperparameters {d : ℕ} (k : RBF d) : List ℝ := List.ofFn k.param

/-- `KernelCore._get_num_para`, kernels.py:18-26. -/
def RBF.numPara {d : ℕ} (_ : RBF d) : ℕ := d

/-- `KernelCore._get_bounds` and `_get_bounds_list`, kernels.py:29-48; the array is built in 105-108. -/
def RBF.bounds {d : ℕ} (k : RBF d) : List (ℝ × ℝ) := List.replicate d (k.boundLow, k.boundHigh)

/-- `KernelCore._get_low_bound`, kernels.py:51-59. -/
def RBF.lowBound {d : ℕ} (k : RBF d) : List ℝ := k.bounds.map Prod.fst

/-- `KernelCore._get_high_bound`, kernels.py:62-70. -/
def RBF.highBound {d : ℕ} (k : RBF d) : List ℝ := k.bounds.map Prod.snd

/-- `RBF(theta=np.zeros(num_dim), bounds=kernel_bound)`, kernels.py:85-108. -/
noncomputable def kernelOf {d : ℕ} (bound : ℝ × ℝ) : RBF d := RBF.mk' (fun _ => 0) bound.1 bound.2

/-- `RBF(theta=np.zeros(num_dim))`: the bounds are `[-2, 3]`, kernels.py:86-91. -/
noncomputable def defaultKernel {d : ℕ} : RBF d := kernelOf (-2, 3)

/-! ## Models -/

/-- `GaussianProcessRegression(design_space, kernel, regr, optimizer, noise_prior)`, gaussian_process.py:17-64. -/
noncomputable def GPObj.create {d : ℕ} (box : Box ℝ d) (kernel : Option (RBF d)) (optimizer : Option PopOptimizer) (noise : Option ℝ) : GPObj d 1 :=
  { box := box, kernel := kernel.getD defaultKernel, regr := ordinary d, optimizer := optimizer, noise := noise }

/-- `HierarchicalKriging(design_space, optimizer, optimizer_restart, kernel_bound, noise_prior)`, hierarchical_kriging.py:15-37: `kernel_bound` is not passed on to the low-fidelity model. -/
noncomputable def HKObj.create {d : ℕ} (box : Box ℝ d) (optimizer : Option PopOptimizer) (kernelBound : ℝ × ℝ) (noise : Option ℝ) : HKObj d 1 :=
  { box := box, kernel := kernelOf kernelBound, optimizer := optimizer, noise := noise, lf := GPObj.create box none optimizer noise }

/-- `CoKriging(design_space, optimizer, optimizer_restart, kernel_bound, rho_bound, noise_prior)`, co_kriging.py:309-354, with the constructor of the low-fidelity model, 18-43. -/
noncomputable def CKObj.create {d : ℕ} (box : Box ℝ d) (optimizer : Option PopOptimizer) (kernelBound rhoBound : ℝ × ℝ) (noise : Option ℝ) : CKObj d 1 :=
  { box := box, kernel := kernelOf kernelBound, optimizer := optimizer, rhoLow := rhoBound.1, rhoHigh := rhoBound.2, noise := noise,
    lf := { kernel := defaultKernel, regr := ordinary d, optimizer := optimizer, noise := noise } }

/-- A `ScaledKriging` object with its own kernel, scale_kriging.py:59-88. -/
structure SKModel (d : ℕ) where
  obj : SKObj d 1 1
  kernel : RBF d

/-- `ScaledKriging(design_space, lfGP, disc_model, optimizer, optimizer_restart, kernel_bound, rho_optimize, rho_method, rho_bound, rho_optimizer, noise_prior)`, scale_kriging.py:13-88: neither of the default models
gets the kernel made from `kernel_bound`. -/
noncomputable def SKModel.create {d : ℕ} (box : Box ℝ d) (lf disc : Option (GPObj d 1)) (optimizer : Option PopOptimizer) (kernelBound : ℝ × ℝ) (rhoOptimize : Bool) (rhoMethod : RhoMethod) (rhoBound : ℝ × ℝ)
    (rhoOptimizer : Option PopOptimizer) (noise : Option ℝ) : SKModel d :=
  { obj := SKObj.new box (lf.getD (GPObj.create box none optimizer noise)) (disc.getD (GPObj.create box none optimizer noise)) rhoOptimize rhoMethod rhoBound.1 rhoBound.2 rhoOptimizer
    kernel := kernelOf kernelBound }

/-- `train`, mf_gaussian_process.py:46-92 and scale_kriging.py:90-105: the kernel of the object itself is not mentioned. -/
noncomputable def SKModel.train {nh nl d : ℕ} (sk : SKModel d) (w : SKWorld d) (Xh : Samples nh d) (yh : Fin nh → ℝ) (Xl : Samples nl d) (yl : Fin nl → ℝ) : Py (SKModel d × SKFit nh nl d 1 1) := do
  let (obj, t) ← sk.obj.train w Xh yh Xl yl
  .ok ({ sk with obj := obj }, t)

/-- `_eval_corr`, mf_gaussian_process.py:113-140. -/
noncomputable def SKModel.evalCorr {n m d : ℕ} (sk : SKModel d) (X : Samples n d) (X' : Samples m d) (fidelity : ℤ) : Py (Option (Matrix (Fin n) (Fin m) ℝ)) := do
  let xs ← normalizeInput sk.obj.box X
  let xs' ← normalizeInput sk.obj.box X'
  if fidelity = 0 then .ok (some (sk.kernel.getKernelMatrix xs xs'))
  else if fidelity = 1 then .ok (some (sk.obj.lf.kernel.getKernelMatrix xs xs'))
  else .ok none

/-! ## Programs: trainings and changes of the optimiser, in any order -/

/-- The objects a program can make of a `GaussianProcessRegression` by successful `train` calls and `change_optimizer`, gaussian_process.py:66-95, 304-312.  The flag tells whether it has been trained.  `good` and
`goodPop` restrict the searches that are used. -/
inductive GPProgram (good : Minimizer → Prop) (goodPop : PopOptimizer → Prop) {d : ℕ} (gp : GPObj d 1) : GPObj d 1 → Bool → Prop
  | start : GPProgram good goodPop gp gp false
  | train {g b n w g' t} {X : Samples n d} {y : Fin n → ℝ} : GPProgram good goodPop gp g b → good w.mini → g.train w X y = .ok (g', t) → GPProgram good goodPop gp g' true
  | changeOptimizer {g b opt} : GPProgram good goodPop gp g b → (∀ run, opt = some run → goodPop run) → GPProgram good goodPop gp { g with optimizer := opt } b

/-- The same for `HierarchicalKriging`; the optimiser of the low-fidelity model can be changed (mf_gaussian_process.py:46-92; gaussian_process.py:304-312). -/
inductive HKProgram (good : Minimizer → Prop) (goodPop : PopOptimizer → Prop) {d : ℕ} (hk : HKObj d 1) : HKObj d 1 → Bool → Prop
  | start : HKProgram good goodPop hk hk false
  | train {g b nh nl w g' t} {Xh : Samples nh d} {yh : Fin nh → ℝ} {Xl : Samples nl d} {yl : Fin nl → ℝ} : HKProgram good goodPop hk g b → good w.lf.mini → good w.hf.mini →
      g.train w Xh yh Xl yl = .ok (g', t) → HKProgram good goodPop hk g' true
  | changeLf {g b opt} : HKProgram good goodPop hk g b → (∀ run, opt = some run → goodPop run) → HKProgram good goodPop hk { g with lf := { g.lf with optimizer := opt } } b

/-- The same for `CoKriging`, with `_update_optimizer_hf` and `_update_optimizer_lf` (co_kriging.py:270-278, 356-410, 661-680). -/
inductive CKProgram (good : Minimizer → Prop) (goodPop : PopOptimizer → Prop) {d : ℕ} (ck : CKObj d 1) : CKObj d 1 → Bool → Prop
  | start : CKProgram good goodPop ck ck false
  | train {g b nh nl w g' t} {Xh : Samples nh d} {yh : Fin nh → ℝ} {Xl : Samples nl d} {yl : Fin nl → ℝ} : CKProgram good goodPop ck g b → good w.lf.mini → good w.mini →
      g.train w Xh yh Xl yl = .ok (g', t) → CKProgram good goodPop ck g' true
  | changeHf {g b opt} : CKProgram good goodPop ck g b → (∀ run, opt = some run → goodPop run) → CKProgram good goodPop ck { g with optimizer := opt } b
  | changeLf {g b opt} : CKProgram good goodPop ck g b → (∀ run, opt = some run → goodPop run) → CKProgram good goodPop ck { g with lf := { g.lf with optimizer := opt } } b

/-- The same for `ScaledKriging` (mf_gaussian_process.py:46-92; gaussian_process.py:304-312). -/
inductive SKProgram (good : Minimizer → Prop) (goodPop : PopOptimizer → Prop) {d : ℕ} (sk : SKModel d) : SKModel d → Bool → Prop
  | start : SKProgram good goodPop sk sk false
  | train {g b nh nl w g' t} {Xh : Samples nh d} {yh : Fin nh → ℝ} {Xl : Samples nl d} {yl : Fin nl → ℝ} : SKProgram good goodPop sk g b → good w.lf.mini → good w.disc.mini →
      (∀ e ∈ w.bumpEvals, good e.2.mini) → g.train w Xh yh Xl yl = .ok (g', t) → SKProgram good goodPop sk g' true
  | changeLf {g b opt} : SKProgram good goodPop sk g b → (∀ run, opt = some run → goodPop run) → SKProgram good goodPop sk { g with obj := { g.obj with lf := { g.obj.lf with optimizer := opt } } } b
  | changeDisc {g b opt} : SKProgram good goodPop sk g b → (∀ run, opt = some run → goodPop run) → SKProgram good goodPop sk { g with obj := { g.obj with disc := { g.obj.disc with optimizer := opt } } } b

end Mfpml.GP
