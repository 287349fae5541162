import Mathlib.Analysis.SpecialFunctions.Exp
import Verif.Model.RoundedKernel

/-!
# Specification vocabulary for the kernel in floating-point arithmetic
-/

namespace Mfpml.Spec

open Mfpml.Rounded

variable {p : ℕ} {emin : ℤ}

/-- What is assumed of `np.exp`: the error is at most `δ` relative to results above one, and at most `δ` below (where results may underflow). -/
def ExpAccurate {R : Rounding p emin} (ex : ExpFn R) (δ : ℝ) : Prop := ∀ a : Fl R, |(ex a).val - Real.exp a.val| ≤ δ * max 1 (Real.exp a.val)

/-- The exact values of an array of floats. -/
def vals {R : Rounding p emin} {n d : ℕ} (X : Fin n → Fin d → Fl R) : Fin n → Fin d → ℝ := fun i k => (X i k).val

/-- The accuracy proved for computed correlations of `d`-dimensional points of the unit cube with kernel parameters `param`, in arithmetic with `p` significant bits. -/
noncomputable def kernelAccuracy {R : Rounding p emin} {d : ℕ} (param : Fin d → Fl R) (δ : ℝ) : ℝ := 6 * (d + 6) * (1 + ∑ k, (param k).val) * 2 ^ (-(p : ℤ)) + 2 * δ

end Mfpml.Spec
