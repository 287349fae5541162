import Verif.Model.Rounded

/-!
# Specification vocabulary for the joint covariance matrix in floating-point arithmetic
-/

namespace Mfpml.Spec

open Mfpml.Rounded

/-- The size of the entries of the joint covariance matrix of co-Kriging (plus one), for process variances `s2L` (low fidelity) and `s2` (difference), scale factor `rho` and noise levels `sigmaL` and `sigma`. -/
noncomputable def jointSize {p : ℕ} {emin : ℤ} {R : Rounding p emin} (sigmaL sigma rho s2L s2 : Fl R) : ℝ :=
  1 + s2L.val * (1 + rho.val ^ 2) * (1 + sigmaL.val ^ 2) + s2.val * (1 + sigma.val ^ 2)

end Mfpml.Spec
