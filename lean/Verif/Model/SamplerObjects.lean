import Verif.Model.Samplers

/-!
# Sampler objects with their memory and files (`sf_samplers.py`, `mf_samplers.py`)

`Samplers.lean` models what one `get_samples` call computes.  Here whole programs are modelled: several sampler objects, the arrays they return (which callers may write into), the arrays
that hold the design spaces, and the files written by `save_data`.

Simplifications: all sampler objects of a program have the same number `d` of columns; `FixNumberSampler` is represented by the point it repeats; `pickle.dump` of an array or a list of
arrays always succeeds; the state of the random generators after a `get_samples` call that raised is not modelled (the operation carries an arbitrary one).
-/

namespace Mfpml.Sampling

open Mfpml.EA (Box)

variable {K : Type} [Add K] [Sub K] [Mul K]

/-- A numpy array as a caller holds it: the first `rows` rows of a block of memory.  `a[0:n, :]` (mf_samplers.py:289) makes another such view of the same block;
all other operations of the samplers (sf_samplers.py:162, 207, 259, 322; mf_samplers.py:204-205, 220, 273-274) allocate a new block. -/
structure ArrRef where
  buf : ℕ
  rows : ℕ
  deriving DecidableEq

/-- What a file contains: what `pickle.dump` wrote (sf_samplers.py:79-80, mf_samplers.py:157-158), or nothing, after an `open(…, "wb")` that was not followed by a `dump`. -/
inductive Content (K : Type) (d : ℕ)
  | empty
  | pickledNone
  | array (v : List (Pt K d))
  | arrays (vs : List (List (Pt K d)))

/-- Where a single-fidelity sampler's `design_space` lives (sf_samplers.py:27-29): `np.atleast_2d(np.asarray(…))` of an array is that array (or a view of it); of a list it is a new array,
which nobody else holds. -/
inductive SpaceOf (K : Type) (d : ℕ)
  | shared (i : ℕ)
  | own (b : Box K d)

/-- The subclasses of `SingleFidelitySampler` (sf_samplers.py:117, 167, 212, 264). -/
inductive SFKind (K : Type) (d : ℕ)
  | fixed (p : Pt K d)
  | lhs
  | random
  | sobol (numSkip : Option ℕ)

/-- A single-fidelity sampler object (sf_samplers.py:16-34): `samples` is `None` or the block of the array last returned. -/
structure SFObj (K : Type) (d : ℕ) where
  kind : SFKind K d
  space : SpaceOf K d
  samples : Option ArrRef

/-- A multi-fidelity sampler object (mf_samplers.py:13-38): `design_space` is a list of the callers' arrays; the attribute `data` does not exist before the first successful `get_samples`
(mf_samplers.py:85). -/
structure MFObj where
  kind : Kind
  nested : Bool
  spaces : List ℕ
  data : Option (List ArrRef)

/-- The state of a program: the design-space arrays, the blocks of memory of the sample arrays, the files, the sampler objects, the generators (state of the classes of sf_samplers.py:11
and mf_samplers.py:8). -/
structure SState {d : ℕ} (E : Env K d) where
  spaces : List (Box K d)
  bufs : List (List (Pt K d))
  files : String → Option (Content K d)
  sf : List (SFObj K d)
  mf : List MFObj
  s : E.S

/-- One step of a program (the public methods of sf_samplers.py:16-324 and mf_samplers.py:13-289, and writes by the caller). -/
inductive SOp {d : ℕ} (E : Env K d)
  /-- make a design-space array -/
  | newSpace (b : Box K d)
  /-- write bounds into a design-space array -/
  | writeSpace (i : ℕ) (b : Box K d)
  /-- construct a single-fidelity sampler -/
  | newSF (kind : SFKind K d) (space : SpaceOf K d)
  /-- construct a multi-fidelity sampler from one array -/
  | newMFShared (sobol : Bool) (space : ℕ) (numFidelity : Option ℕ) (nested : Bool) (numSkip : Option ℕ)
  /-- construct a multi-fidelity sampler from a list of arrays -/
  | newMFList (sobol : Bool) (spaces : List ℕ) (nested : Bool) (numSkip : Option ℕ)
  /-- `sampler.get_samples(n, seed)`; the last argument is the state of the generators if it raises -/
  | sfGet (o : ℕ) (n : ℕ) (seed : Option ℕ) (sErr : E.S)
  | mfGet (o : ℕ) (ns : List ℕ) (seed : Option ℕ) (sErr : E.S)
  /-- `sampler.save_data(name)` -/
  | sfSave (o : ℕ) (name : String)
  | mfSave (o : ℕ) (name : String)
  /-- `a[i, :] = x` for an array the caller holds -/
  | write (a : ArrRef) (i : ℕ) (x : Pt K d)

/-- What an operation returns (sf_samplers.py:164, 209, 261, 324, mf_samplers.py:87; constructors return the new object, by its number). -/
inductive Ret
  | unit
  | obj (o : ℕ)
  | array (a : ArrRef)
  | arrays (as : List ArrRef)
  deriving DecidableEq

variable {d : ℕ} {E : Env K d}

/-- The contents of an array (numpy indexing of the views made in mf_samplers.py:289). -/
def SState.contents (st : SState E) (a : ArrRef) : List (Pt K d) := (st.bufs[a.buf]?.getD []).take a.rows

/-- `self.design_space` as a single-fidelity sampler sees it now (sf_samplers.py:29, 103-115). -/
def SState.spaceOf (st : SState E) : SpaceOf K d → Option (Box K d)
  | .shared i => st.spaces[i]?
  | .own b => some b

/-- The computation of `get_samples` of the single-fidelity samplers (sf_samplers.py:138-164, 184-209, 231-261, 289-324).  `RandomSampler` with seed `None` is not modelled. -/
def sfValues (E : Env K d) (k : SFKind K d) (b : Box K d) (n : ℕ) (seed : Option ℕ) (s : E.S) : Py (List (Pt K d) × E.S) :=
  match k with
  | .fixed p => .ok (List.replicate n p, s)
  | .lhs => .ok (lhsSamples E b n seed s)
  | .random =>
    match seed with
    | none => .error .outOfModel
    | some sd => .ok (randomSamples E b n sd s)
  | .sobol skip => sobolSamples E b skip n seed s

/-- The blocks of memory a multi-fidelity `get_samples` call allocates, and the arrays in the list it returns (mf_samplers.py:64-87).  Nested Sobol samples are slices of the array of the
lower fidelity (mf_samplers.py:289), so that all arrays are views of the lowest one; in all other cases every array has its own block (mf_samplers.py:204, 220, 273). -/
def mfAlloc (kind : Kind) (nested : Bool) (data : List (List (Pt K d))) (base : ℕ) : List (List (Pt K d)) × List ArrRef :=
  match kind, nested with
  | .sobol _, true => ([data.getLast?.getD []], data.map fun v => ⟨base, v.length⟩)
  | _, _ => (data, data.mapIdx fun i v => ⟨base + i, v.length⟩)

/-- The sampler as `Samplers.lean` models it, with the present contents of its design-space arrays (mf_samplers.py:103-131). -/
def SState.mfSampler (st : SState E) (ob : MFObj) : MFSampler K d :=
  { kind := ob.kind, spaces := ob.spaces.filterMap (st.spaces[·]?), nested := ob.nested }

/-- `open(name + ".pickle", "wb")` (sf_samplers.py:79, mf_samplers.py:157) and what is then in the file. -/
def SState.putFile (st : SState E) (name : String) (c : Content K d) : SState E :=
  { st with files := fun f => if f = name ++ ".pickle" then some c else st.files f }

/-- One step: the new state, which a raised exception does not undo, and the result.  Objects and arrays that do not exist give `outOfModel` (no Python program can name them).
Constructors: sf_samplers.py:16-34, mf_samplers.py:13-38, 133-141, 251-254 (the default of `num_skip` is `len(design_space)`); `get_samples`: sf_samplers.py:36-63 and mf_samplers.py:40-87
(the attributes are assigned after everything that can raise); `save_data`: sf_samplers.py:65-80 and mf_samplers.py:143-158 (the file is opened, and so emptied, before `self.data` is
looked up). -/
def sstep (st : SState E) : SOp E → SState E × Py Ret
  | .newSpace b => ({ st with spaces := st.spaces ++ [b] }, .ok (.obj st.spaces.length))
  | .writeSpace i b => if i < st.spaces.length then ({ st with spaces := st.spaces.set i b }, .ok .unit) else (st, .error .outOfModel)
  | .newSF kind space => ({ st with sf := st.sf ++ [⟨kind, space, none⟩] }, .ok (.obj st.sf.length))
  | .newMFShared sobol space numFidelity nested numSkip =>
    match numFidelity with
    | none => (st, .error .typeError)
    | some nf => ({ st with mf := st.mf ++ [⟨if sobol then .sobol (numSkip.getD d) else .lhs, nested, List.replicate nf space, none⟩] }, .ok (.obj st.mf.length))
  | .newMFList sobol spaces nested numSkip =>
    if spaces = [] then (st, .error .indexError)
    else ({ st with mf := st.mf ++ [⟨if sobol then .sobol (numSkip.getD spaces.length) else .lhs, nested, spaces, none⟩] }, .ok (.obj st.mf.length))
  | .sfGet o n seed sErr =>
    match st.sf[o]? with
    | none => (st, .error .outOfModel)
    | some ob =>
      match st.spaceOf ob.space with
      | none => (st, .error .outOfModel)
      | some b =>
        match sfValues E ob.kind b n seed st.s with
        | .error e => ({ st with s := sErr }, .error e)
        | .ok (v, s') =>
          let a : ArrRef := ⟨st.bufs.length, v.length⟩
          ({ st with bufs := st.bufs ++ [v], sf := st.sf.set o { ob with samples := some a }, s := s' }, .ok (.array a))
  | .mfGet o ns seed sErr =>
    match st.mf[o]? with
    | none => (st, .error .outOfModel)
    | some ob =>
      match getSamples E (st.mfSampler ob) ns seed st.s with
      | .error e => ({ st with s := sErr }, .error e)
      | .ok (data, _, s') =>
        let r := mfAlloc ob.kind ob.nested data st.bufs.length
        ({ st with bufs := st.bufs ++ r.1, mf := st.mf.set o { ob with data := some r.2 }, s := s' }, .ok (.arrays r.2))
  | .sfSave o name =>
    match st.sf[o]? with
    | none => (st, .error .outOfModel)
    | some ob =>
      match ob.samples with
      | none => (st.putFile name .pickledNone, .ok .unit)
      | some a => (st.putFile name (.array (st.contents a)), .ok .unit)
  | .mfSave o name =>
    match st.mf[o]? with
    | none => (st, .error .outOfModel)
    | some ob =>
      match ob.data with
      | none => (st.putFile name .empty, .error .attributeError)
      | some as => (st.putFile name (.arrays (as.map st.contents)), .ok .unit)
  | .write a i x =>
    if i < (st.contents a).length then ({ st with bufs := st.bufs.modify a.buf fun v => v.set i x }, .ok .unit) else (st, .error .indexError)

/-- A program: the final state and what every operation returned (any program using the classes of sf_samplers.py:11-324 and mf_samplers.py:8-289). -/
def srun (st : SState E) : List (SOp E) → SState E × List (SOp E × Py Ret)
  | [] => (st, [])
  | op :: ops =>
    let r := sstep st op
    let r' := srun r.1 ops
    (r'.1, (op, r.2) :: r'.2)

/-- The state before the first operation (nothing has been constructed; sf_samplers.py:33-34) with given files and state of the generators. -/
def sinit (files : String → Option (Content K d)) (s : E.S) : SState E := { spaces := [], bufs := [], files := files, sf := [], mf := [], s := s }

end Mfpml.Sampling
