import Mathlib.Logic.Equiv.Fin.Basic
import Verif.Model.RoundedPredict

/-!
# Model of the predicted mean of `CoKriging` in floating-point arithmetic

Every operation rounds its result; the order of the additions in `.dot` is left open (see `Verif.Model.RoundedKernel`).  Overflow is not modelled.
-/

namespace Mfpml.Rounded

variable {p : ℕ} {emin : ℤ} {R : Rounding p emin}

/-- One entry of the matrix `c` of covariances between the samples and the new points, co_kriging.py:431-443: low-fidelity samples come first; `Kl` and `Kh` are the matrices of the low-fidelity kernel, `K` that of the kernel of the difference. -/
def crossEntry {nl nh r : ℕ} (rho s2L s2 : Fl R) (Kl : Fin nl → Fin r → Fl R) (Kh K : Fin nh → Fin r → Fl R) (j : Fin r) : Fin nl ⊕ Fin nh → Fl R
  | .inl i => rho * s2L * Kl i j
  | .inr i => rho * rho * s2L * Kh i j + s2 * K i j

/-- The means returned by `CoKriging.predict` for the rows `Z`, co_kriging.py:428-451: `F` is a possible outcome.  `w` are the weights `solve(self.LC.T, solve(self.LC, (self.y - self.mu)))` (given; the solver is not modelled here), `mu` the
trained mean, `s2L` and `s2` the process variances, `m` and `s` mean and standard deviation of the high-fidelity responses. -/
def IsCKMeanPrediction {nl nh r d : ℕ} (ex : ExpFn R) (low high paramL param : Fin d → Fl R) (Xl : Fin nl → Fin d → Fl R) (Xh : Fin nh → Fin d → Fl R) (rho s2L s2 mu : Fl R) (w : Fin (nl + nh) → Fl R) (m s : Fl R)
    (Z : Fin r → Fin d → Fl R) (F : Fin r → Fl R) : Prop :=
  ∃ Kl Kh K, ∃ cw : Fin r → Fl R, IsKernelMatrix ex paramL (normalizeFl low high Xl) (normalizeFl low high Z) Kl ∧ IsKernelMatrix ex paramL (normalizeFl low high Xh) (normalizeFl low high Z) Kh ∧
    IsKernelMatrix ex param (normalizeFl low high Xh) (normalizeFl low high Z) K ∧
    (∀ j, DotOf R (List.ofFn fun a => (crossEntry rho s2L s2 Kl Kh K j (finSumFinEquiv.symm a), w a)) (cw j)) ∧
    ∀ j, F j = denormalizedOut m s (mu + cw j)

end Mfpml.Rounded
