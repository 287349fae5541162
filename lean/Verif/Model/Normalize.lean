import Mathlib.Algebra.Order.Field.Basic
import Mathlib.Data.Fintype.Pi
import Verif.Model.Prelude
import Verif.Model.Evolutionary

/-!
# Input normalisation shared by all surrogate models
-/

namespace Mfpml

open Mfpml.EA (Box)

variable {K : Type} [Field K] [LinearOrder K]

/-- `(x - bounds[:, 0]) / (bounds[:, 1] - bounds[:, 0])` for one row: gaussian_process.py:331 and mf_gaussian_process.py:154-156.  Only meaningful when no
range is zero (see `normalizeInput`). -/
def normPt {d : ℕ} (b : Box K d) (x : Fin d → K) : Fin d → K := fun j => (x j - b.low j) / (b.high j - b.low j)

/-- `normalize_input`, gaussian_process.py:314-331 and mf_gaussian_process.py:142-156.  A zero range makes numpy divide by zero and return `nan`/`inf`. -/
def normalizeInput {n d : ℕ} (b : Box K d) (X : Fin n → Fin d → K) : Py (Fin n → Fin d → K) :=
  if ∀ j, b.high j - b.low j ≠ 0 then .ok (fun i => normPt b (X i)) else .error .nonFinite

end Mfpml
