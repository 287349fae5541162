import Mathlib.Data.Real.Basic
import Mathlib.LinearAlgebra.Matrix.Defs
import Verif.Model.Rounded

/-!
# Specification vocabulary for the Cholesky factorisation in floating-point arithmetic
-/

namespace Mfpml.Spec

open Mfpml.Rounded

/-- The lower triangular matrix with the given entries. -/
def lowerTri {p : ℕ} {emin : ℤ} {R : Rounding p emin} {n : ℕ} (L : Fin n → Fin n → Fl R) : Matrix (Fin n) (Fin n) ℝ := fun i j => if j ≤ i then (L i j).val else 0

/-- The accuracy proved for the factorisation of an `n × n` matrix with entries up to `M`, in arithmetic with `p` significant bits. -/
noncomputable def cholAccuracy (p n : ℕ) (M : ℝ) : ℝ := 3 * (n + 4) * 2 ^ (-(p : ℤ)) * M

end Mfpml.Spec
