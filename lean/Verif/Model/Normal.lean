import Mathlib.Probability.Distributions.Gaussian.Real
import Mathlib.Probability.CDF

/-!
# `scipy.stats.norm`

`norm.cdf` and `norm.pdf` at default location and scale (imported by sf_uncons_acqusitions.py:6, sf_cons_acqusitions.py:6 and mf_acqusitions.py:6), taken from Mathlib.
-/

namespace Mfpml.Acq

/-- `norm.cdf(z)` (sf_uncons_acqusitions.py:152, 197; mf_acqusitions.py:125). -/
noncomputable def normCdf (z : ℝ) : ℝ := ProbabilityTheory.cdf (ProbabilityTheory.gaussianReal 0 1) z

/-- `norm.pdf(z)` (sf_uncons_acqusitions.py:154; mf_acqusitions.py:125). -/
noncomputable def normPdf (z : ℝ) : ℝ := ProbabilityTheory.gaussianPDFReal 0 1 z

end Mfpml.Acq
