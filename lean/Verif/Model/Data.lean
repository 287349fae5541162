import Mathlib.Data.Int.Notation
import Mathlib.Data.Nat.Notation
import Verif.Model.Prelude

/-!
# `mfArray`: `src/mfpml/core/data.py`

An `mfArray` keeps a reference to the list of arrays it was given, so that a program is modelled with a store of list objects.  The arrays themselves are any values with a length.
-/

namespace Mfpml.Data

variable {A : Type}

/-- `l[i]` of a Python list: negative positions count from the end (data.py:17-18). -/
def listGet (l : List A) (i : ℤ) : Py A :=
  let k := if i < 0 then i + l.length else i
  if k < 0 then .error .indexError
  else match l[k.toNat]? with
    | some a => .ok a
    | none => .error .indexError

/-- The list objects of a program and, for every `mfArray` object, its attribute `data`: a list or `None` (data.py:11-12). -/
structure Store (A : Type) where
  lists : List (List A)
  objs : List (Option ℕ)

/-- What a program can do: make a list, change one of its lists (to anything: `append`, `pop`, assignment to a position), construct an `mfArray` (data.py:11-12), call one with another list (data.py:14-15). -/
inductive Op (A : Type)
  | newList (l : List A)
  | change (r : ℕ) (l : List A)
  | new (data : Option ℕ)
  | call (o : ℕ) (data : ℕ)

/-- The effect of one operation, data.py:11-15. -/
def step (st : Store A) : Op A → Store A
  | .newList l => { st with lists := st.lists ++ [l] }
  | .change r l => { st with lists := st.lists.set r l }
  | .new data => { st with objs := st.objs ++ [data] }
  | .call o data => { st with objs := st.objs.set o (some data) }

/-- A program, data.py:6-30. -/
def run (ops : List (Op A)) : Store A := ops.foldl step ⟨[], []⟩

/-- `self.data` of object `o` when it is used as a list: `TypeError` for `None`; objects and lists that do not exist give `outOfModel` (no program can name them) (data.py:17-30). -/
def Store.data (st : Store A) (o : ℕ) : Py (List A) :=
  match st.objs[o]? with
  | none => .error .outOfModel
  | some none => .error .typeError
  | some (some r) => match st.lists[r]? with
    | none => .error .outOfModel
    | some l => .ok l

/-- `arr[index]`, data.py:17-18. -/
def Store.getItem (st : Store A) (o : ℕ) (i : ℤ) : Py A := do
  let l ← st.data o
  listGet l i

/-- `arr.n_levels`, data.py:20-22. -/
def Store.nLevels (st : Store A) (o : ℕ) : Py ℕ := do
  let l ← st.data o
  .ok l.length

/-- `arr.hf`, data.py:24-26. -/
def Store.hf (st : Store A) (o : ℕ) : Py A := do
  let l ← st.data o
  listGet l 0

/-- `arr.size`, data.py:28-30: `len(self.data[i])` for `i` in `range(self.n_levels)`. -/
def Store.size (len : A → ℕ) (st : Store A) (o : ℕ) : Py (List ℕ) := do
  let n ← st.nLevels o
  (List.range n).mapM fun i : ℕ => do
    let l ← st.data o
    let a ← listGet l (i : ℤ)
    .ok (len a)

end Mfpml.Data
