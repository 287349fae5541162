import Verif.Model.Data

/-!
# Specification: the list an `mfArray` was given last (C172)
-/

namespace Mfpml.Spec

open Mfpml.Data

variable {A : Type}

/-- The operation constructs an `mfArray`. -/
def Constructs : Op A → Bool
  | .new _ => true
  | _ => false

/-- The `mfArray` object number `o` (in order of construction) of a program was last given `data`: by its constructor, or by a call; after that it was not called again. -/
def LastGiven (ops : List (Op A)) (o : ℕ) (data : Option ℕ) : Prop :=
  (∃ pre post, ops = pre ++ .new data :: post ∧ pre.countP Constructs = o ∧ ∀ r, .call o r ∉ post) ∨
  ∃ pre post r, ops = pre ++ .call o r :: post ∧ o < pre.countP Constructs ∧ data = some r ∧ ∀ r', .call o r' ∉ post

end Mfpml.Spec
