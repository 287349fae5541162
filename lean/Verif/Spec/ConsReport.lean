import Verif.Model.BayesOptNonFinite
import Mathlib.Data.EReal.Basic

/-! # What the constrained optimiser should report about floats that may be `nan` or infinite -/

namespace Mfpml.Spec

open Mfpml.NonFinite

variable {X S W : Type} {c : ℕ}

/-- The extended real number a float stands for, if it is one. -/
noncomputable def value : XF → Option EReal
  | .nan => none
  | .inf neg => some (if neg then ⊥ else ⊤)
  | .num v => some (v : EReal)

/-- Design number `i` satisfies all constraints. -/
def MeetsAll (s : ConsStateX X S W c) (i : ℕ) : Prop := ∃ g, s.consResponse[i]? = some g ∧ ∀ j, ∃ v, value (g j) = some v ∧ v ≤ 0

/-- The report is right: infinity and no design as long as there is no feasible design; otherwise the smallest objective value of the feasible designs, and the designs with this value. -/
def RightReport (s : ConsStateX X S W c) : Prop :=
  (¬(∃ i, MeetsAll s i) ∧ s.best = .inf false ∧ s.bestX = none) ∨
  ((∃ i : ℕ, MeetsAll s i ∧ s.objResponse[i]? = some s.best) ∧ (∀ (i : ℕ) (y : XF), MeetsAll s i → s.objResponse[i]? = some y → ∃ a b, value s.best = some a ∧ value y = some b ∧ a ≤ b) ∧
    ∃ xs, s.bestX = some xs ∧ ∀ x, x ∈ xs ↔ ∃ i : ℕ, s.sample[i]? = some x ∧ s.objResponse[i]? = some s.best)

/-- The report is lost: `nan` and an empty array of designs. -/
def LostReport (s : ConsStateX X S W c) : Prop := s.best = .nan ∧ s.bestX = some []

/-- One row of numbers for every design. -/
def RowPerDesign {R : Type} (f : List X → Py (List R)) : Prop := ∀ xs ys, f xs = .ok ys → ys.length = xs.length

end Mfpml.Spec
