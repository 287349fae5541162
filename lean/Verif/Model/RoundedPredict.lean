import Verif.Model.RoundedNormalize
import Verif.Model.Basis

/-!
# Model of the predicted means of `gaussian_process.py` in floating-point arithmetic

Every operation rounds its result; the order of the additions in `np.dot` is left open (see `Verif.Model.RoundedKernel`).  Overflow is not modelled.
-/

namespace Mfpml.Rounded

variable {p : ℕ} {emin : ℤ} {R : Rounding p emin}

/-- `regr(x)` for one row.  Every entry of the three bases is `1`, a coordinate or the product of two coordinates (see C28), so it is the exact value, rounded once
(basis_functions.py:10-27, 33-50, 57-88; gaussian_process.py:121). -/
noncomputable def basisFl {d q : ℕ} (b : GP.Basis d q) (x : Fin d → Fl R) : Fin q → Fl R := fun c => Fl.ofReal R (b (fun k => (x k).val) c)

/-- The means returned by `predict` for the rows `Z`, gaussian_process.py:115-123: `F` is a possible outcome.  `beta`, `gamma` are the trained coefficients and `X` the training samples, `m` and `s` the mean and standard
deviation of the responses. -/
def IsMeanPrediction {n r d q : ℕ} (ex : ExpFn R) (b : GP.Basis d q) (low high param : Fin d → Fl R) (X : Fin n → Fin d → Fl R) (beta : Fin q → Fl R) (gamma : Fin n → Fl R) (m s : Fl R) (Z : Fin r → Fin d → Fl R)
    (F : Fin r → Fl R) : Prop :=
  ∃ (K : Fin n → Fin r → Fl R) (fb kg : Fin r → Fl R), IsKernelMatrix ex param (normalizeFl low high X) (normalizeFl low high Z) K ∧
    (∀ j, DotOf R (List.ofFn fun c => (basisFl b (normalizeFl low high Z j) c, beta c)) (fb j)) ∧
    (∀ j, DotOf R (List.ofFn fun i => (K i j, gamma i)) (kg j)) ∧
    ∀ j, F j = denormalizedOut m s (fb j + kg j)

end Mfpml.Rounded
