import Verif.Model.Rounded

/-!
# Specification vocabulary for rounded arithmetic
-/

namespace Mfpml.Spec

open Mfpml.Rounded

/-- What `np.random.random` and scipy's engines promise of every number they draw: it lies in `[0, 1)`. -/
def HalfOpenUnit {p : ℕ} {emin : ℤ} {R : Rounding p emin} (u : Fl R) : Prop := 0 ≤ u.val ∧ u.val < 1

/-- The weaker promise `[0, 1]`. -/
def ClosedUnit {p : ℕ} {emin : ℤ} {R : Rounding p emin} (u : Fl R) : Prop := 0 ≤ u.val ∧ u.val ≤ 1

end Mfpml.Spec
