import Verif.Model.GPObjects

/-! # What "leaving a model alone" means -/

namespace Mfpml.Spec

open Mfpml.GPObjects

variable {d q : ℕ}

/-- The call does not train model `g` nor a model with the same kernel object, and does not write into the arrays and the kernel that `g` holds. -/
def LeavesAlone (h : Heap d q) (g : Ref) : Call d → Prop
  | .train g' _ _ _ => g' ≠ g ∧ (h.models g').kernel ≠ (h.models g).kernel
  | .writeResponses a _ => (h.models g).sampleY ≠ some a
  | .writeBounds b _ => b ≠ (h.models g).bounds
  | .setParams k _ => k ≠ (h.models g).kernel
  | .changeOptimizer _ _ => True

/-- Model `g` gives the same answers (values or exceptions) in both states. -/
def SamePredictions (h h' : Heap d q) (g : Ref) : Prop :=
  ∀ (m : ℕ) (X : GP.Samples m d), h'.predictMean g X = h.predictMean g X ∧ h'.predictStd g X = h.predictStd g X

end Mfpml.Spec
