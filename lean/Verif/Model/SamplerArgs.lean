import Verif.Model.Samplers

/-!
# Samplers called with the design spaces users write

`Model/Samplers.lean` starts from bounds of `d` variables.  Here the constructors take what Python callers pass (flat lists, nested lists, arrays, lists of arrays), rows and columns are lists, and the broadcasting of numpy
decides which arrays fit together.  Samples are lists of rows.
-/

namespace Mfpml.Sampling

variable {K : Type} [Add K] [Sub K] [Mul K]

/-- The random engines for all dimensions at once (the external calls of sf_samplers.py:203-204, 255-256, 313-319 and mf_samplers.py:197-202, 214-218, 266-270). -/
structure EnvAll (K : Type) where
  S : Type
  lhs : (d : ℕ) → Option ℕ → ℕ → S → List (Pt K d) × S
  sobol : (d : ℕ) → Option ℕ → S → (ℕ → Pt K d) × S
  seed : ℕ → S → S
  random : (d : ℕ) → ℕ → S → List (Pt K d) × S
  choice : ℕ → ℕ → S → List ℕ × S

/-- The engines of one dimension (sf_samplers.py:203, 313; mf_samplers.py:198, 266). -/
def EnvAll.at (E : EnvAll K) (d : ℕ) : Env K d :=
  { S := E.S, lhs := E.lhs d, sobol := E.sobol d, seed := E.seed, random := E.random d, choice := E.choice }

/-! ## Single fidelity -/

/-- The argument `design_space` of a single-fidelity sampler: a flat list or one-dimensional array, or a list of rows or two-dimensional array (sf_samplers.py:14, 24).  The Python value `[]` is `flat []`. -/
inductive SpaceArg (K : Type)
  | flat (xs : List K)
  | rows (r : List K) (rs : List (List K))

/-- `len(design_space)` of the argument (sf_samplers.py:285). -/
def SpaceArg.len : SpaceArg K → ℕ
  | .flat xs => xs.length
  | .rows _ rs => rs.length + 1

/-- `np.atleast_2d(np.asarray(design_space))`, sf_samplers.py:24: a flat list becomes one row; rows of different lengths raise `ValueError`. -/
def SpaceArg.atleast2d : SpaceArg K → Py (List (List K))
  | .flat xs => .ok [xs]
  | .rows r rs => if rs.all (fun r' => r'.length == r.length) then .ok (r :: rs) else .error .valueError

/-- A single-fidelity sampler object as constructed (sf_samplers.py:24-31, 283-287); `num_dim` is the number of rows. -/
structure SFRaw (K : Type) where
  space : List (List K)
  numSkip : ℕ

/-- The constructors, sf_samplers.py:14-31 and 269-287 (`num_skip` is used by `SobolSequence` only): the default is the length of the *argument*. -/
def mkSF (a : SpaceArg K) (numSkip : Option ℕ) : Py (SFRaw K) := do
  let space ← a.atleast2d
  .ok { space := space, numSkip := numSkip.getD a.len }

/-- Entry `k` of a row (sf_samplers.py:112, 116); `IndexError` if there is none. -/
def entry (k : ℕ) (r : List K) : Py K :=
  match r[k]? with
  | some x => .ok x
  | none => .error .indexError

/-- `a[:, k]` of a two-dimensional array, sf_samplers.py:112, 116; `IndexError` if there is no such column. -/
def column (space : List (List K)) (k : ℕ) : Py (List K) := space.mapM (entry k)

/-- One row of `lb + samples * (ub - lb)` (sf_samplers.py:98). -/
def scaleRow : List K → List K → List K → List K
  | l :: lb, u :: ub, x :: xs => (l + x * (u - l)) :: scaleRow lb ub xs
  | _, _, _ => []

/-- `scale_samples`, sf_samplers.py:82-100. -/
def scaleRaw (space : List (List K)) (us : List (List K)) : Py (List (List K)) := do
  let lb ← column space 0
  let ub ← column space 1
  .ok (us.map (scaleRow lb ub))

/-- `FixNumberSampler.get_samples`, sf_samplers.py:138-164. -/
def fixNumberRaw (o : SFRaw K) (n : ℕ) : List (List K) := List.replicate n o.space.flatten

/-- `LatinHyperCube.get_samples`, sf_samplers.py:184-209. -/
def lhsRaw (E : EnvAll K) (o : SFRaw K) (n : ℕ) (seed : Option ℕ) (s : E.S) : Py (List (List K) × E.S) := do
  let r := E.lhs o.space.length seed n s
  let xs ← scaleRaw o.space (r.1.map List.ofFn)
  .ok (xs, r.2)

/-- `RandomSampler.get_samples`, sf_samplers.py:231-261. -/
def randomRaw (E : EnvAll K) (o : SFRaw K) (n : ℕ) (seed : ℕ) (s : E.S) : Py (List (List K) × E.S) := do
  let r := E.random o.space.length n (E.seed seed s)
  let xs ← scaleRaw o.space (r.1.map List.ofFn)
  .ok (xs, r.2)

/-- `SobolSequence.get_samples`, sf_samplers.py:289-324. -/
def sobolRaw (E : EnvAll K) (o : SFRaw K) (n : ℕ) (seed : Option ℕ) (s : E.S) : Py (List (List K) × E.S) := do
  let r := E.sobol o.space.length seed s
  let e : SobolEngine K o.space.length := { seq := r.1, generated := 0 }
  let (_, e) ← e.randomBase2 n
  let e := e.reset
  let e := e.fastForward o.numSkip
  let (samples, _) ← e.random n
  let xs ← scaleRaw o.space (samples.map List.ofFn)
  .ok (xs, r.2)

/-! ## Multi fidelity -/

/-- One design space inside the list given to a multi-fidelity sampler (mf_samplers.py:30): an array with two axes (`cols` columns; all rows have this length), or a Python list of `len` elements. -/
inductive MFItem (K : Type)
  | array (cols : ℕ) (rows : List (Fin cols → K))
  | pyList (len : ℕ)

/-- The argument `design_space` of a multi-fidelity sampler (mf_samplers.py:25-36): an array with two axes, a list, or something else. -/
inductive MFArg (K : Type)
  | array (cols : ℕ) (rows : List (Fin cols → K))
  | list (items : List (MFItem K))
  | other

/-- `len(x)` of a design space (mf_samplers.py:34). -/
def MFItem.len : MFItem K → ℕ
  | .array _ rows => rows.length
  | .pyList n => n

/-- A multi-fidelity sampler object (mf_samplers.py:25-38, 251-254). -/
structure MFRaw (K : Type) where
  kind : Kind
  items : List (MFItem K)
  numDim : ℕ
  nested : Bool

/-- The constructors, mf_samplers.py:13-38, 166-184 and 228-254.  `range(None)` raises `TypeError` (line 141), as does an argument that is neither array nor list (36); an empty list raises `IndexError` (34). -/
def mkMF (sobol : Bool) (a : MFArg K) (numFidelity : Option ℕ) (nested : Bool) (numSkip : Option ℕ) : Py (MFRaw K) :=
  match a with
  | .array c rows =>
    match numFidelity with
    | none => .error .typeError
    | some f => .ok { kind := if sobol then .sobol (numSkip.getD rows.length) else .lhs, items := List.replicate f (.array c rows), numDim := rows.length, nested := nested }
  | .list [] => .error .indexError
  | .list (i :: is) => .ok { kind := if sobol then .sobol (numSkip.getD (is.length + 1)) else .lhs, items := i :: is, numDim := i.len, nested := nested }
  | .other => .error .typeError

/-- `self.design_space[fidelity][:, k]`, mf_samplers.py:116, 131: `IndexError` beyond the list or without such a column, `TypeError` for a Python list. -/
def bound (items : List (MFItem K)) (fidelity k : ℕ) : Py (List K) :=
  match items[fidelity]? with
  | none => .error .indexError
  | some (.pyList _) => .error .typeError
  | some (.array c rows) => if h : k < c then .ok (rows.map fun r => r ⟨k, h⟩) else .error .indexError

/-- `samples * (ub - lb) + lb`, mf_samplers.py:204-205, 273-274, for samples with `m` columns and bounds of length `lb.length = ub.length`: numpy repeats an axis of length one. -/
def scaleBroadcast (m : ℕ) (lb ub : List K) (us : List (List K)) : Py (List (List K)) :=
  if lb.length = m then .ok (us.map fun u => List.zipWith (fun x (w : K × K) => x * (w.2 - w.1) + w.1) u (lb.zip ub))
  else match lb, ub with
    | [l], [h] => .ok (us.map fun u => u.map fun x => x * (h - l) + l)
    | _, _ => if m = 1 then .ok (us.map fun u => (lb.zip ub).map fun w => match u with
        | x :: _ => x * (w.2 - w.1) + w.1
        | [] => w.1) else .error .valueError

/-- The draws of `_get_non_nested_samples`, mf_samplers.py:197-202 and 266-270, as rows with `num_dim` entries. -/
def drawRaw (E : EnvAll K) (m : MFRaw K) (seed : Option ℕ) (n fidelity : ℕ) (s : E.S) : Py (List (List K) × E.S) :=
  match m.kind with
  | .lhs =>
    let r := E.lhs m.numDim (seed.map (· + fidelity)) n s
    .ok (r.1.map List.ofFn, r.2)
  | .sobol skip => do
    let r := E.sobol m.numDim seed s
    let e : SobolEngine K m.numDim := { seq := r.1, generated := 0 }
    let e := e.reset
    let e := e.fastForward skip
    let us ← e.random n
    .ok (us.1.map List.ofFn, r.2)

/-- `_get_non_nested_samples`, mf_samplers.py:186-207 and 256-276 (the bounds are looked up after the draws: `ub`, then `lb`). -/
def nonNestedRaw (E : EnvAll K) (m : MFRaw K) (seed : Option ℕ) (n fidelity : ℕ) (s : E.S) : Py (List (List K) × E.S) := do
  let r ← drawRaw E m seed n fidelity s
  let ub ← bound m.items fidelity 1
  let lb ← bound m.items fidelity 0
  let xs ← scaleBroadcast m.numDim lb ub r.1
  .ok (xs, r.2)

/-- `_get_nested_samples`, mf_samplers.py:209-220 and 278-289. -/
def nestedRaw (E : EnvAll K) (m : MFRaw K) (n : ℕ) (lower : List (List K)) (s : E.S) : Py (List (List K) × E.S) :=
  match m.kind with
  | .lhs =>
    if n > lower.length then .error .valueError
    else
      let r := E.choice lower.length n s
      .ok (r.1.filterMap (fun i => lower[i]?), r.2)
  | .sobol _ => .ok (lower.take n, s)

/-- One round of the loop of `get_samples`, mf_samplers.py:71-80. -/
def stepRaw (E : EnvAll K) (m : MFRaw K) (seed : Option ℕ) (n fidelity : ℕ) (data0 : List (List K)) (s : E.S) : Py (List (List K) × E.S) :=
  if m.nested then nestedRaw E m n data0 s else nonNestedRaw E m seed n fidelity s

/-- The loop of `get_samples`, mf_samplers.py:70-83 (as `mfLoop`). -/
def mfLoopRaw (E : EnvAll K) (m : MFRaw K) (seed : Option ℕ) : (rev : List ℕ) → (data0 : List (List K)) → (rest : List (List (List K))) → E.S → Py (List (List (List K)) × E.S)
  | [], data0, rest, s => .ok (data0 :: rest, s)
  | n :: rev, data0, rest, s => do
    let r ← stepRaw E m seed n rev.length data0 s
    mfLoopRaw E m seed rev r.1 (data0 :: rest) r.2

/-- `MultiFidelitySampler.get_samples`, mf_samplers.py:40-87 (the effect on the caller's list is in `getSamples`). -/
def getSamplesRaw (E : EnvAll K) (m : MFRaw K) (numSamples : List ℕ) (seed : Option ℕ) (s : E.S) : Py (List (List (List K)) × E.S) := do
  rules numSamples
  match numSamples.reverse with
  | [] => .error .indexError
  | n :: rev =>
    let r ← nonNestedRaw E m seed n rev.length s
    mfLoopRaw E m seed rev r.1 [] r.2

end Mfpml.Sampling
