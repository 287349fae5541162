import Verif.Model.EvolutionaryRaise

/-! # Specification vocabulary for objectives that may raise -/

namespace Mfpml.Spec

open Mfpml.EA (Pop)

variable {K : Type}

/-- `f` extends the partial objective `fM`. -/
def Extends {P D : ℕ} (f : Pop K P D → Fin P → K) (fM : Pop K P D → Py (Fin P → K)) : Prop := ∀ X y, fM X = .ok y → f X = y

/-- The first element of `l` on which `fM` raises is raised upon with `e`. -/
def FirstRaises {P D : ℕ} (fM : Pop K P D → Py (Fin P → K)) (l : List (Pop K P D)) (e : PyErr) : Prop :=
  ∃ pre X post, l = pre ++ X :: post ∧ (∀ Y ∈ pre, ∃ y, fM Y = .ok y) ∧ fM X = .error e

end Mfpml.Spec
