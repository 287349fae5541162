import Mathlib.Data.Real.Archimedean
import Mathlib.Algebra.Order.Round
import Mathlib.Data.Int.Log

/-!
# Rounded arithmetic

The arrays of the package hold binary floating-point numbers (numpy's `float64`).  Elsewhere the model uses exact numbers.  Here is an arithmetic in which
every single operation is rounded, so that theorems about programs can be instantiated with it: binary floating-point numbers with any number `p` of significant bits
and any least exponent `emin` (gradual underflow included; `float64` is `p = 53`, `emin = -1074`), every operation rounding its exact result to a
nearest such number, with any rule for ties.  Simplified: there is no largest number, so nothing overflows to `inf`, and there is no `nan` (and division by zero, which
gives `inf` or `nan` in numpy, gives `0` here; the one division of the modelled code, evolutionary_algorithms.py:340, divides by a positive number).
-/

namespace Mfpml.Rounded

/-- A number with at most `p` significant bits and no bit below `2 ^ emin`: the finite values an entry of a numpy array can hold, up to their size
(the arrays of evolutionary_algorithms.py:55-63 and sf_samplers.py:82-100). -/
def IsFloat (p : ℕ) (emin : ℤ) (x : ℝ) : Prop := ∃ m e : ℤ, |m| < 2 ^ p ∧ emin ≤ e ∧ x = m * 2 ^ e

/-- A way to round real numbers to nearest floating-point numbers (IEEE 754, the arithmetic behind every numpy operation, e.g. of evolutionary_algorithms.py:55-63).
How ties are broken is left open. -/
structure Rounding (p : ℕ) (emin : ℤ) where
  fl : ℝ → ℝ
  isFloat : ∀ x, IsFloat p emin (fl x)
  nearest : ∀ x y, IsFloat p emin y → |x - fl x| ≤ |x - y|

variable {p : ℕ} {emin : ℤ}

/-- The floating-point numbers, with the arithmetic of `R` (numpy's `float64` without `inf` and `nan`; e.g. evolutionary_algorithms.py:55-63). -/
structure Fl (R : Rounding p emin) where
  val : ℝ
  isFloat : IsFloat p emin val

namespace Fl
variable {R : Rounding p emin}

theorem val_injective : Function.Injective (Fl.val : Fl R → ℝ) := by
  rintro ⟨a, _⟩ ⟨b, _⟩ h
  cases h
  rfl

/-- A real number, rounded (evolutionary_algorithms.py:55-63). -/
def ofReal (R : Rounding p emin) (x : ℝ) : Fl R := ⟨R.fl x, R.isFloat x⟩

/-- `a + b`, rounded (e.g. evolutionary_algorithms.py:62). -/
instance : Add (Fl R) := ⟨fun a b => ofReal R (a.val + b.val)⟩
/-- `a - b`, rounded (e.g. evolutionary_algorithms.py:60). -/
instance : Sub (Fl R) := ⟨fun a b => ofReal R (a.val - b.val)⟩
/-- `a * b`, rounded (e.g. evolutionary_algorithms.py:60). -/
instance : Mul (Fl R) := ⟨fun a b => ofReal R (a.val * b.val)⟩
/-- `a / b`, rounded (e.g. evolutionary_algorithms.py:340). -/
noncomputable instance : Div (Fl R) := ⟨fun a b => ofReal R (a.val / b.val)⟩
/-- `-a`: the sign change is exact; it is rounded here for uniformity (rounding changes nothing) (`np.abs`, evolutionary_algorithms.py:339). -/
instance : Neg (Fl R) := ⟨fun a => ofReal R (-a.val)⟩
/-- `0.0` (e.g. the `np.zeros` of evolutionary_algorithms.py:166-171). -/
instance : Zero (Fl R) := ⟨0, 0, emin, by positivity, le_refl _, by simp⟩
/-- `1.0` (e.g. the error for an unknown optimum, sf_uncons_bo.py:136). -/
instance : One (Fl R) := ⟨ofReal R 1⟩
/-- Comparison of floats is comparison of their values (e.g. evolutionary_algorithms.py:324-333). -/
noncomputable instance : LinearOrder (Fl R) := LinearOrder.lift' Fl.val val_injective

end Fl

/-- Round to nearest: the multiple of the unit in the last place that is nearest to `x`; ties go up (IEEE 754 sends them to an even significand).  Shows that
`Rounding` is inhabited (the arithmetic of e.g. evolutionary_algorithms.py:55-63). -/
noncomputable def roundNearest (p : ℕ) (emin : ℤ) (x : ℝ) : ℝ :=
  round (x / 2 ^ max emin (Int.log 2 |x| + 1 - p)) * 2 ^ max emin (Int.log 2 |x| + 1 - p)

end Mfpml.Rounded
