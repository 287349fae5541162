import Verif.Model.CoKriging
import Verif.Model.HierarchicalKriging

/-!
# The log-likelihood stored by training (`self.logp`)

Nothing in the library reads the attribute again, so the other models leave it out.
-/

open scoped BigOperators Matrix

namespace Mfpml.GP

/-- The expression of gaussian_process.py:300-302, hierarchical_kriging.py:258-260 and co_kriging.py:198-200 (`_GP`). -/
noncomputable def glsLogp {n q : ℕ} (g : GLS n q) : ℝ := -0.5 * n * g.sigma2 - logDiag g.L

/-- `self.logp` of a trained `GaussianProcessRegression`, gaussian_process.py:300-302. -/
noncomputable def GPFit.logp {n d q : ℕ} (t : GPFit n d q) : ℝ := glsLogp t.gls

/-- `self.logp` of a trained `HierarchicalKriging`, hierarchical_kriging.py:258-260. -/
noncomputable def HKFit.logp {nh nl d q : ℕ} (t : HKFit nh nl d q) : ℝ := glsLogp t.gls

/-- `self.lfGP.logp` of a trained `CoKriging`, co_kriging.py:198-200. -/
noncomputable def RawFit.logp {n d q : ℕ} (t : RawFit n d q) : ℝ := glsLogp t.gls

/-- `self.logp` of a trained `CoKriging`, co_kriging.py:603-621: the lines of `_update_parameters` up to the attribute, on the attributes `train` has set by then.  `np.log(0.0)` gives an infinite `logp`. -/
noncomputable def CKObj.logp {nh nl d q : ℕ} (ck : CKObj d q) (t : CKFit nh nl d q) : Py ℝ :=
  match ck.noise with
  | none => .error .typeError
  | some noise => do
    let K := covTrain ck.kernel.param t.Xhs noise
    let pred := ck.lf.predict t.lfFit t.Xhs
    let g ← diffFit K (fun i => (t.yh i - t.yhMean) / t.yhStd - t.rho * pred i)
    let l ← npLog g.sigma2
    .ok (-0.5 * nh * l - logDiag g.L)

end Mfpml.GP
