import Verif.Model.RoundedAcquisition
import Verif.Model.Normal

/-!
# Specification vocabulary for the acquisition functions in floating-point arithmetic
-/

namespace Mfpml.Spec

open Mfpml.Rounded Mfpml.Acq

variable {p : ℕ} {emin : ℤ} {R : Rounding p emin}

/-- What is assumed of `norm.cdf`: the error is at most `δ`. -/
def CdfAccurate (cdf : NormalFn R) (δ : ℝ) : Prop := ∀ a : Fl R, |(cdf a).val - normCdf a.val| ≤ δ

/-- What is assumed of `norm.pdf`: the error is at most `δ`. -/
def PdfAccurate (pdf : NormalFn R) (δ : ℝ) : Prop := ∀ a : Fl R, |(pdf a).val - normPdf a.val| ≤ δ

end Mfpml.Spec
