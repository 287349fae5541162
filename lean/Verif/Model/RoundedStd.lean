import Verif.Model.RoundedKernel

/-!
# Model of the last steps of the predicted standard deviations in floating-point arithmetic

The mean squared errors `mse`, which come out of linear solves, are arbitrary floating-point numbers here, also negative ones.  Every operation rounds its result, `sqrt` is correctly rounded.  `x**2` is modelled as the rounded product `x * x`, which is
what numpy computes for arrays; for a single number the C library's `pow` may differ in the last bit.  Overflow is not modelled.  `none` is `nan`.
-/

namespace Mfpml.Rounded

variable {p : ℕ} {emin : ℤ} {R : Rounding p emin}

/-- `x**2` (gaussian_process.py:136-139, hierarchical_kriging.py:110, co_kriging.py:239, 461, scale_kriging.py:130). -/
def Fl.square (x : Fl R) : Fl R := x * x

/-- `np.sqrt` with its domain (gaussian_process.py:139, hierarchical_kriging.py:105-110, co_kriging.py:239, 459-461, scale_kriging.py:131): `none` is the `nan` it returns (with a warning) for a negative number. -/
noncomputable def Fl.sqrtNaN (x : Fl R) : Option (Fl R) := if x.val < 0 then none else some x.sqrt

/-- The standard deviation returned by `GaussianProcessRegression.predict`, gaussian_process.py:136-140, from the mean squared error on the scale of the normalised responses, the standard deviation `ys` of the responses and the noise. -/
noncomputable def gpStdFl (mse ys noise : Fl R) : Option (Fl R) := (max (mse * ys.square + noise.square) 0).sqrtNaN

/-- The epistemic standard deviation of `HierarchicalKriging.predict` and `CoKriging.predict`, hierarchical_kriging.py:105-107, co_kriging.py:459. -/
noncomputable def epistemicFl (mse ys : Fl R) : Option (Fl R) := (max mse 0).sqrtNaN.map (· * ys)

/-- The total standard deviation from the epistemic one and the noise, hierarchical_kriging.py:110, co_kriging.py:461. -/
noncomputable def totalStdFl (epistemic noise : Fl R) : Option (Fl R) := (epistemic.square + noise.square).sqrtNaN

/-- The standard deviation of the low-fidelity model of co-Kriging, co_kriging.py:239. -/
noncomputable def lfStdFl (mse noise : Fl R) : Option (Fl R) := (max mse 0 + noise.square).sqrtNaN

/-- The standard deviation returned by `ScaledKriging.predict`, scale_kriging.py:130-131, from those of the low-fidelity and of the discrepancy model. -/
noncomputable def skStdFl (rho stdLf stdDisc : Fl R) : Option (Fl R) := (rho.square * stdLf.square + stdDisc.square).sqrtNaN

end Mfpml.Rounded
