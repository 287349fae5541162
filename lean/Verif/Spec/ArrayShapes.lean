import Verif.Model.SurrogatesNd

/-!
# What it means for two calls to have the same effect
-/

namespace Mfpml.Spec

open Mfpml.GP

/-- Both calls raise the same exception, or both succeed with results related by `R`. -/
def SameOutcome {α β : Type} (R : α → β → Prop) : Py α → Py β → Prop
  | .ok a, .ok b => R a b
  | .error e, .error e' => e = e'
  | _, _ => False

/-- A call that raises an exception. -/
def Raises {α : Type} (r : Py α) : Prop := ∃ e, r = .error e

/-- The array `[[x₁₁, …, x₁d], …]` of shape `(n, d)`. -/
def array2 {n d : ℕ} (X : Fin n → Fin d → ℝ) : Nd := .mat (Matrix.of X)

/-- The array `[x₁, …, x_n]` of shape `(n,)`. -/
def array1 {n : ℕ} (x : Fin n → ℝ) : Nd := .vec x

/-- The array `[[x₁], …, [x_n]]` of shape `(n, 1)`. -/
def column {n : ℕ} (x : Fin n → ℝ) : Nd := array2 fun i (_ : Fin 1) => x i

/-- Number of entries of an array. -/
def count : Nd → ℕ
  | .scalar _ => 1
  | @Nd.vec n _ => n
  | @Nd.mat r c _ => r * c

end Mfpml.Spec
