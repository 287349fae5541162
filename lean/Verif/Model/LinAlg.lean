import Mathlib.LinearAlgebra.Matrix.NonsingularInverse
import Mathlib.Data.Real.Basic
import Mathlib.Analysis.SpecialFunctions.Log.Basic
import Verif.Model.Prelude

/-!
# `numpy.linalg` as used by the surrogate models

These two functions are *specified*, not implemented: numpy's own code is outside the model.
-/

open scoped BigOperators Matrix

namespace Mfpml.GP

/-- `L` is a Cholesky factor of `A`: lower triangular with positive diagonal and `L Lᵀ = A` (gaussian_process.py:235, 244, 279, 288). -/
structure IsCholesky {n : ℕ} (A L : Matrix (Fin n) (Fin n) ℝ) : Prop where
  lower : ∀ i j, i < j → L i j = 0
  diag : ∀ i, 0 < L i i
  mul : L * Lᵀ = A

open Classical in
/-- `numpy.linalg.cholesky`: the Cholesky factor, `LinAlgError` if there is none.  (numpy reads only the lower triangle; every call in the code passes
a symmetric matrix.) (gaussian_process.py:235, 244, 279, 288; co_kriging.py:578, 654). -/
noncomputable def cholesky {n : ℕ} (A : Matrix (Fin n) (Fin n) ℝ) : Py (Matrix (Fin n) (Fin n) ℝ) :=
  if h : ∃ L, IsCholesky A L then .ok h.choose else .error .linAlgError

open Classical in
/-- `numpy.linalg.solve(A, B)` for a matrix right-hand side (gaussian_process.py:128, 242). -/
noncomputable def solve {n m : ℕ} (A : Matrix (Fin n) (Fin n) ℝ) (B : Matrix (Fin n) (Fin m) ℝ) : Py (Matrix (Fin n) (Fin m) ℝ) :=
  if IsUnit A.det then .ok (A⁻¹ * B) else .error .linAlgError

open Classical in
/-- `numpy.linalg.solve(A, b)` for a single column (gaussian_process.py:240, 245). -/
noncomputable def solveV {n : ℕ} (A : Matrix (Fin n) (Fin n) ℝ) (b : Fin n → ℝ) : Py (Fin n → ℝ) :=
  if IsUnit A.det then .ok (A⁻¹ *ᵥ b) else .error .linAlgError

/-- `solve(L.T, solve(L, B))` (gaussian_process.py:128, 242, 287). -/
noncomputable def cholSolve {n m : ℕ} (L : Matrix (Fin n) (Fin n) ℝ) (B : Matrix (Fin n) (Fin m) ℝ) : Py (Matrix (Fin n) (Fin m) ℝ) := do
  let z ← solve L B
  solve Lᵀ z

/-- `solve(L.T, solve(L, b))` for a single column (gaussian_process.py:240, 249, 285). -/
noncomputable def cholSolveV {n : ℕ} (L : Matrix (Fin n) (Fin n) ℝ) (b : Fin n → ℝ) : Py (Fin n → ℝ) := do
  let z ← solveV L b
  solveV Lᵀ z

open Classical in
/-- `np.log` of a number; `-inf`/`nan` for a non-positive one (gaussian_process.py:257). -/
noncomputable def npLog (x : ℝ) : Py ℝ := if 0 < x then .ok (Real.log x) else .error .nonFinite

open Classical in
/-- Division; `inf`/`nan` for a zero denominator (gaussian_process.py:252; co_kriging.py:587). -/
noncomputable def npDiv (a b : ℝ) : Py ℝ := if b = 0 then .error .nonFinite else .ok (a / b)

/-- `np.mean` of a column (gaussian_process.py:348, 373). -/
noncomputable def mean {n : ℕ} (y : Fin n → ℝ) : ℝ := (∑ i, y i) / n

/-- `np.std` of a column (population standard deviation) (gaussian_process.py:349, 384). -/
noncomputable def std {n : ℕ} (y : Fin n → ℝ) : ℝ := Real.sqrt ((∑ i, (y i - mean y) ^ 2) / n)

end Mfpml.GP
