import Mathlib.LinearAlgebra.Matrix.PosDef
import Mathlib.Analysis.SpecialFunctions.Exp
import Mathlib.Data.Real.Basic

/-!
# Specification vocabulary for surrogate models

Independent of the model.
-/

open scoped BigOperators Matrix

namespace Mfpml.Spec

/-- The anisotropic Gaussian correlation `exp(-∑ θ_k (x_k - y_k)²)`. -/
noncomputable def gaussCorr {d : ℕ} (θ x y : Fin d → ℝ) : ℝ := Real.exp (-∑ k, θ k * (x k - y k) ^ 2)

/-- All products `x_k x_l`, `k ≤ l`, ordered by `k`, then `l`. -/
def pairProducts : List ℝ → List ℝ
  | [] => []
  | a :: r => (a :: r).map (a * ·) ++ pairProducts r

/-- The full quadratic basis of a point: `1`, the coordinates, all products of two coordinates. -/
def quadCols (x : List ℝ) : List ℝ := 1 :: x ++ pairProducts x

/-- The columns of `F` are linearly independent. -/
def IndepColumns {n q : ℕ} (F : Matrix (Fin n) (Fin q) ℝ) : Prop := ∀ c : Fin q → ℝ, F *ᵥ c = 0 → c = 0

/-- The squared length `rᵀ K⁻¹ r`. -/
noncomputable def wnorm {n : ℕ} (K : Matrix (Fin n) (Fin n) ℝ) (r : Fin n → ℝ) : ℝ := r ⬝ᵥ (K⁻¹ *ᵥ r)

/-- `x` lies between `lo` and `hi`. -/
def Between {p : ℕ} (lo hi x : Fin p → ℝ) : Prop := ∀ j, lo j ≤ x j ∧ x j ≤ hi j

end Mfpml.Spec
