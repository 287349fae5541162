import Verif.Model.RoundedPredict

/-!
# Model of the predicted means of hierarchical and scaled Kriging in floating-point arithmetic

Every operation rounds its result; the order of the additions in `np.dot` is left open (see `Verif.Model.RoundedKernel`).  Overflow is not modelled.
-/

namespace Mfpml.Rounded

variable {p : ℕ} {emin : ℤ} {R : Rounding p emin}

/-- The means returned by `HierarchicalKriging.predict` for the rows `Z`, hierarchical_kriging.py:82-93: `F` is a possible outcome.  `lf` are the predictions of the low-fidelity model, `beta`, `gamma` the trained coefficients, `X` the
high-fidelity samples, `m` and `s` mean and standard deviation of their responses.  `np.dot(f, self.beta)` multiplies an `r × 1` and a `1 × 1` array: one product per row. -/
def IsHKMeanPrediction {n r d : ℕ} (ex : ExpFn R) (low high param : Fin d → Fl R) (X : Fin n → Fin d → Fl R) (beta : Fl R) (gamma : Fin n → Fl R) (m s : Fl R) (lf : Fin r → Fl R) (Z : Fin r → Fin d → Fl R)
    (F : Fin r → Fl R) : Prop :=
  ∃ (K : Fin n → Fin r → Fl R) (kg : Fin r → Fl R), IsKernelMatrix ex param (normalizeFl low high X) (normalizeFl low high Z) K ∧
    (∀ j, DotOf R (List.ofFn fun i => (K i j, gamma i)) (kg j)) ∧
    ∀ j, F j = denormalizedOut m s ((lf j - m) / s * beta + kg j)

/-- The mean returned by `ScaledKriging.predict` with `return_std=True` for one point, scale_kriging.py:128-131, from the predictions `lf` of the low-fidelity model and `disc` of the discrepancy model. -/
def skMeanFl (rho lf disc : Fl R) : Fl R := rho * lf + disc

/-- The mean returned by `ScaledKriging.predict` with `return_std=False` for one point, scale_kriging.py:124-126. -/
def skMeanPlainFl (rho lf disc : Fl R) : Fl R := disc * rho + lf

end Mfpml.Rounded
