import Mathlib.Data.Real.Basic
import Mathlib.Data.Fin.Tuple.Basic
import Verif.Model.Prelude

/-!
# Model of `src/mfpml/models/basis_functions.py`

Every basis function works row by row, so a basis is a function of one (scaled) sample row.
-/

namespace Mfpml.GP

/-- A row-wise basis with `q` columns (basis_functions.py:10, 33, 57). -/
abbrev Basis (d q : ℕ) := (Fin d → ℝ) → Fin q → ℝ

/-- `Ordinary.__call__`, basis_functions.py:10-27. -/
def ordinary (d : ℕ) : Basis d 1 := fun _ _ => 1

/-- `Linear.__call__`, basis_functions.py:33-50: `hstack((ones, x))`. -/
def linear (d : ℕ) : Basis d (d + 1) := fun x => Fin.cons 1 x

/-- One row of the array `f` while it is being filled: column index to value (columns are `0 … num_col - 1`) (basis_functions.py:77). -/
abbrev Row := ℕ → ℝ

/-- `f[:, j:(j + q)] = vals` (basis_functions.py:78-79, 84). -/
def fillSlice (f : Row) (j q : ℕ) (vals : ℕ → ℝ) : Row := fun c => if j ≤ c ∧ c < j + q then vals (c - j) else f c

/-- `x[:, k]`; only evaluated for `k < d` (basis_functions.py:84). -/
def xAt {d : ℕ} (x : Fin d → ℝ) (k : ℕ) : ℝ := if h : k < d then x ⟨k, h⟩ else 0

/-- `num_col`, basis_functions.py:74. -/
def numCol (d : ℕ) : ℕ := (d + 1) * (d + 2) / 2

/-- The loop of basis_functions.py:83-86 from iteration `k` on, for one row.  The right-hand side of line 84 has `num_dim - k` columns and numpy clips the slice
to the array, so shapes that do not match raise `ValueError`. -/
def quadLoop {d : ℕ} (x : Fin d → ℝ) : (more k j q : ℕ) → Row → Py Row
  | 0, _, _, _, f => .ok f
  | more + 1, k, j, q, f =>
    if min (j + q) (numCol d) - min j (numCol d) = d - k ∧ q = d - k then
      quadLoop x more (k + 1) (j + q) (q - 1) (fillSlice f j q (fun t => xAt x k * xAt x (k + t)))
    else .error .valueError

/-- `Quadratic.__call__`, basis_functions.py:57-88, for one row. -/
def quadratic {d : ℕ} (x : Fin d → ℝ) : Py Row :=
  let f0 : Row := fun _ => 0
  let f1 := fillSlice f0 0 1 (fun _ => 1)
  let f2 := fillSlice f1 1 d (fun t => xAt x t)
  quadLoop x d 0 (d + 1) d f2

/-- The quadratic basis as used by the models (it never raises, see property C28) (basis_functions.py:57-88). -/
def quadraticBasis (d : ℕ) : Basis d (numCol d) := fun x c =>
  match quadratic x with
  | .ok f => f c
  | .error _ => 0

end Mfpml.GP
