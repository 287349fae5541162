import Mathlib.Logic.Equiv.Fin.Basic
import Verif.Model.RoundedCholesky

/-!
# Model of the joint covariance matrix of `CoKriging` in floating-point arithmetic

Every operation rounds its result; see `Verif.Model.RoundedKernel` for what is left open.  Overflow is not modelled.
-/

namespace Mfpml.Rounded

variable {p : ℕ} {emin : ℤ} {R : Rounding p emin} {nl nh d : ℕ}

/-- One entry of `self.C`, co_kriging.py:623-650: low-fidelity samples come first; `Kl` is `self.lfGP.K`, `Klh`, `Khl` and `Khh` the matrices of the low-fidelity kernel, `K` is `self.K`. -/
def jointEntry (rho s2L s2 : Fl R) (Kl : Fin nl → Fin nl → Fl R) (Klh : Fin nl → Fin nh → Fl R) (Khl : Fin nh → Fin nl → Fl R) (Khh K : Fin nh → Fin nh → Fl R) :
    Fin nl ⊕ Fin nh → Fin nl ⊕ Fin nh → Fl R
  | .inl i, .inl j => s2L * Kl i j
  | .inl i, .inr j => rho * s2L * Klh i j
  | .inr i, .inl j => rho * s2L * Khl i j
  | .inr i, .inr j => rho * rho * s2L * Khh i j + s2 * K i j

/-- The matrix that is factorised, `self.C + np.eye(self.C.shape[1]) * 10**-10` (co_kriging.py:622-655): `C` is a possible outcome.  `sigmaL` and `sigma` are the noise levels in the covariance
matrices of the low-fidelity model (co_kriging.py:174-176) and of the difference (co_kriging.py:603-605), `s2L` and `s2` the process variances. -/
def IsJointCov (ex : ExpFn R) (paramL param : Fin d → Fl R) (Xl : Fin nl → Fin d → Fl R) (Xh : Fin nh → Fin d → Fl R) (sigmaL sigma rho s2L s2 : Fl R) (C : Fin (nl + nh) → Fin (nl + nh) → Fl R) : Prop :=
  ∃ Kl Klh Khl Khh K, IsCovTrain ex paramL Xl sigmaL Kl ∧ IsKernelMatrix ex paramL Xl Xh Klh ∧ IsKernelMatrix ex paramL Xh Xl Khl ∧ IsKernelMatrix ex paramL Xh Xh Khh ∧ IsCovTrain ex param Xh sigma K ∧
    ∀ a b, C a b = jointEntry rho s2L s2 Kl Klh Khl Khh K (finSumFinEquiv.symm a) (finSumFinEquiv.symm b) + (if a = b then 1 else 0) * Fl.ofReal R (10 ^ (-10 : ℤ))

end Mfpml.Rounded
