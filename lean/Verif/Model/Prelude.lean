/-!
# Python exceptions as values

`/repo` is Python: a call either returns or raises.  The model makes raising explicit.
-/

namespace Mfpml

/-- The exceptions the modelled code can raise.  `nonFinite` stands for a computation that numpy would
continue with `nan` or `inf` (division by zero, logarithm of a non-positive number): the model stops there.
`outOfModel` marks argument ranges that the model does not cover (always said where it is used) (for example mf_samplers.py:36, 100; evolutionary_algorithms.py:447, 492; sf_functions.py:24-30). -/
inductive PyErr
  | valueError
  | typeError
  | indexError
  | assertionError
  | unboundLocal
  | attributeError
  | notImplemented
  | linAlgError
  | nonFinite
  | outOfModel
  deriving DecidableEq, Repr

universe u

/-- Result of a Python call (any call of the modelled modules, for example mf_samplers.py:40-87). -/
abbrev Py (α : Type u) := Except PyErr α

/-- Results of calls can be compared (used in examples only; no code in /repo is modelled here). -/
instance {α : Type u} [DecidableEq α] : DecidableEq (Py α) := fun a b =>
  match a, b with
  | .ok x, .ok y => if h : x = y then isTrue (by rw [h]) else isFalse (by intro e; cases e; exact h rfl)
  | .error x, .error y => if h : x = y then isTrue (by rw [h]) else isFalse (by intro e; cases e; exact h rfl)
  | .ok _, .error _ => isFalse (by intro e; cases e)
  | .error _, .ok _ => isFalse (by intro e; cases e)

end Mfpml
