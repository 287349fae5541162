import Verif.Model.SamplerObjects

/-!
# What programs see of sampler objects (specification for C134-C137)
-/

namespace Mfpml.Spec

open Mfpml.Sampling

variable {K : Type} {d : ℕ} {E : Env K d}

/-- The array an operation returned, if it is a successful `get_samples` call of the single-fidelity sampler `o`. -/
def returnedBySF (o : ℕ) : SOp E × Py Ret → Option ArrRef
  | (.sfGet o' _ _ _, .ok (.array a)) => if o' = o then some a else none
  | _ => none

/-- The arrays an operation returned, if it is a successful `get_samples` call of the multi-fidelity sampler `o`. -/
def returnedByMF (o : ℕ) : SOp E × Py Ret → Option (List ArrRef)
  | (.mfGet o' _ _ _, .ok (.arrays as)) => if o' = o then some as else none
  | _ => none

/-- The array the single-fidelity sampler `o` returned last in a program. -/
def lastSF (o : ℕ) (tr : List (SOp E × Py Ret)) : Option ArrRef := tr.reverse.findSome? (returnedBySF o)

/-- The arrays the multi-fidelity sampler `o` returned last in a program. -/
def lastMF (o : ℕ) (tr : List (SOp E × Py Ret)) : Option (List ArrRef) := tr.reverse.findSome? (returnedByMF o)

/-- All arrays an operation returned. -/
def arraysOf : Py Ret → List ArrRef
  | .ok (.array a) => [a]
  | .ok (.arrays as) => as
  | _ => []

/-- The operation may change the file. -/
def SavesTo (f : String) : SOp E → Prop
  | .sfSave _ name => name ++ ".pickle" = f
  | .mfSave _ name => name ++ ".pickle" = f
  | _ => False

/-- The operation writes into memory the array uses. -/
def WritesInto (a : ArrRef) : SOp E → Prop
  | .write a' _ _ => a'.buf = a.buf
  | _ => False

end Mfpml.Spec
