import Mathlib.Algebra.Order.Field.Basic
import Mathlib.Logic.Equiv.Fin.Basic
import Verif.Model.Prelude
import Verif.Model.Evolutionary

/-!
# Model of `src/mfpml/design_of_experiment/sf_samplers.py` and `mf_samplers.py`

The random engines are parameters (`Env`): scipy's `LatinHypercube`, scipy's `Sobol`, numpy's global generator.  Their contracts
(`Env.Lawful`) are assumptions about scipy/numpy, stated once and used as hypotheses.
-/

namespace Mfpml.Sampling

open Mfpml.EA (Box)

variable {K : Type} [Add K] [Sub K] [Mul K]

/-- A sample: one row (sf_samplers.py:204). -/
abbrev Pt (K : Type) (d : ℕ) := Fin d → K

/-- The outside world of the samplers.  `S` is the state of numpy's global generator together with the operating system's entropy (the external calls of sf_samplers.py:203-204, 255-256, 313-319 and mf_samplers.py:197-202, 214-218, 266-270). -/
structure Env (K : Type) (d : ℕ) where
  S : Type
  /-- `LatinHypercube(d, seed).random(n)` -/
  lhs : Option ℕ → ℕ → S → List (Pt K d) × S
  /-- The point sequence of a freshly constructed (scrambled) `Sobol(d, seed)`. -/
  sobol : Option ℕ → S → (ℕ → Pt K d) × S
  /-- `np.random.seed(seed)` -/
  seed : ℕ → S → S
  /-- `np.random.random((n, d))` -/
  random : ℕ → S → List (Pt K d) × S
  /-- `np.random.choice(np.arange(m), size=k, replace=False)` for `k ≤ m` -/
  choice : ℕ → ℕ → S → List ℕ × S

/-- What scipy and numpy promise about sizes, indices and seeds (about the calls of sf_samplers.py:203-204, 255-256, 313-319 and mf_samplers.py:197-202, 214-218, 266-270). -/
structure Env.Contract {d : ℕ} (E : Env K d) : Prop where
  lhs_len : ∀ sd n s, (E.lhs sd n s).1.length = n
  /-- with an integer seed the engine does not touch the global state -/
  lhs_seeded : ∀ sd n s s', (E.lhs (some sd) n s).1 = (E.lhs (some sd) n s').1 ∧ (E.lhs (some sd) n s).2 = s
  sobol_seeded : ∀ sd s s', (E.sobol (some sd) s).1 = (E.sobol (some sd) s').1 ∧ (E.sobol (some sd) s).2 = s
  /-- seeding forgets the past of the global generator -/
  seed_reset : ∀ sd s s', E.seed sd s = E.seed sd s'
  random_len : ∀ n s, (E.random n s).1.length = n
  choice_len : ∀ m k s, k ≤ m → (E.choice m k s).1.length = k
  choice_nodup : ∀ m k s, k ≤ m → (E.choice m k s).1.Nodup
  choice_lt : ∀ m k s, k ≤ m → ∀ i ∈ (E.choice m k s).1, i < m

/-- All numbers drawn (by the calls of sf_samplers.py:204, 256, 319 and mf_samplers.py:202, 270) satisfy `Q`. -/
structure Env.DrawsIn {d : ℕ} (E : Env K d) (Q : K → Prop) : Prop where
  lhs : ∀ sd n s, ∀ x ∈ (E.lhs sd n s).1, ∀ j, Q (x j)
  sobol : ∀ sd s k j, Q ((E.sobol sd s).1 k j)
  random : ∀ n s, ∀ x ∈ (E.random n s).1, ∀ j, Q (x j)

/-- What scipy and numpy promise (about the calls of sf_samplers.py:203-204, 255-256, 313-319 and mf_samplers.py:197-202, 214-218, 266-270): the
contract, and that all draws lie in the unit interval. -/
structure Env.Lawful [Zero K] [One K] [LE K] {d : ℕ} (E : Env K d) : Prop extends Env.Contract E where
  lhs_unit : ∀ sd n s, ∀ x ∈ (E.lhs sd n s).1, ∀ j, 0 ≤ x j ∧ x j ≤ 1
  sobol_unit : ∀ sd s k j, 0 ≤ (E.sobol sd s).1 k j ∧ (E.sobol sd s).1 k j ≤ 1
  random_unit : ∀ n s, ∀ x ∈ (E.random n s).1, ∀ j, 0 ≤ x j ∧ x j ≤ 1

/-! ## Single fidelity (sf_samplers.py) -/

/-- `SingleFidelitySampler.scale_samples`, sf_samplers.py:82-100, for one row (numpy broadcasts over rows). -/
def scalePt {d : ℕ} (b : Box K d) (u : Pt K d) : Pt K d := fun j => b.low j + u j * (b.high j - b.low j)

/-- `scale_samples` of a sample array (sf_samplers.py:82-100). -/
def scaleSamples {d : ℕ} (b : Box K d) (us : List (Pt K d)) : List (Pt K d) := us.map (scalePt b)

/-- `FixNumberSampler.get_samples`, sf_samplers.py:138-164: `design_space.flatten()` (row-major) tiled `n` times. -/
def fixNumber {m c : ℕ} (ds : Fin m → Fin c → K) (n : ℕ) : List (Fin (m * c) → K) :=
  List.replicate n (fun k => ds (finProdFinEquiv.symm k).1 (finProdFinEquiv.symm k).2)

/-- `LatinHyperCube.get_samples`, sf_samplers.py:184-209. -/
def lhsSamples {d : ℕ} (E : Env K d) (b : Box K d) (n : ℕ) (seed : Option ℕ) (s : E.S) : List (Pt K d) × E.S :=
  let r := E.lhs seed n s
  (scaleSamples b r.1, r.2)

/-- `RandomSampler.get_samples`, sf_samplers.py:231-261: seeds the *global* generator, then draws from it. -/
def randomSamples {d : ℕ} (E : Env K d) (b : Box K d) (n : ℕ) (seed : ℕ) (s : E.S) : List (Pt K d) × E.S :=
  let r := E.random n (E.seed seed s)
  (scaleSamples b r.1, r.2)

/-- State of a scipy `Sobol` engine: its sequence and how many points were generated (sf_samplers.py:313). -/
structure SobolEngine (K : Type) (d : ℕ) where
  seq : ℕ → Pt K d
  generated : ℕ

/-- Capacity of a scipy `Sobol` engine with the default 30 bits (sf_samplers.py:313). -/
def sobolMax : ℕ := 2 ^ 30

/-- scipy `Sobol.random(n)`: the next `n` points; raises `ValueError` when the engine's capacity is exceeded (sf_samplers.py:319). -/
def SobolEngine.random {d : ℕ} (e : SobolEngine K d) (n : ℕ) : Py (List (Pt K d) × SobolEngine K d) :=
  if n = 0 then .ok ([], e)
  else if e.generated + n > sobolMax then .error .valueError
  else .ok ((List.range n).map (fun k => e.seq (e.generated + k)), { e with generated := e.generated + n })

/-- scipy `Sobol.random_base2(m)`: raises `ValueError` unless the total is a power of two (it is, on a fresh engine), then
`random(2 ** m)`.  Only called on a fresh engine (sf_samplers.py:313-315). -/
def SobolEngine.randomBase2 {d : ℕ} (e : SobolEngine K d) (m : ℕ) : Py (List (Pt K d) × SobolEngine K d) :=
  if e.generated = 0 then e.random (2 ^ m) else .error .outOfModel

/-- scipy `Sobol.reset()` (sf_samplers.py:316). -/
def SobolEngine.reset {d : ℕ} (e : SobolEngine K d) : SobolEngine K d := { e with generated := 0 }

/-- scipy `Sobol.fast_forward(n)` (sf_samplers.py:317). -/
def SobolEngine.fastForward {d : ℕ} (e : SobolEngine K d) (n : ℕ) : SobolEngine K d :=
  { e with generated := e.generated + n }

/-- `SobolSequence.__init__`, sf_samplers.py:284-287: `num_skip`, by default the number of rows of the design space. -/
def sobolSkip (d : ℕ) (numSkip : Option ℕ) : ℕ := numSkip.getD d

/-- `SobolSequence.get_samples`, sf_samplers.py:289-324. -/
def sobolSamples {d : ℕ} (E : Env K d) (b : Box K d) (numSkip : Option ℕ) (n : ℕ) (seed : Option ℕ) (s : E.S) :
    Py (List (Pt K d) × E.S) := do
  let (seq, s') := E.sobol seed s
  let e : SobolEngine K d := { seq := seq, generated := 0 }
  let (_, e) ← e.randomBase2 n
  let e := e.reset
  let e := e.fastForward (sobolSkip d numSkip)
  let (samples, _) ← e.random n
  .ok (scaleSamples b samples, s')

/-! ## Multi fidelity (mf_samplers.py) -/

/-- Which subclass of `MultiFidelitySampler` (mf_samplers.py:161, 223). -/
inductive Kind
  /-- `MFLatinHyperCube`, mf_samplers.py:161-220 -/
  | lhs
  /-- `MFSobolSequence`, mf_samplers.py:223-289; the argument is the resolved `num_skip` -/
  | sobol (numSkip : ℕ)

/-- A multi-fidelity sampler object (mf_samplers.py:13-38): per-fidelity design spaces and the `nested` flag. -/
structure MFSampler (K : Type) (d : ℕ) where
  kind : Kind
  spaces : List (Box K d)
  nested : Bool

/-- Constructor call with one numpy design space and `num_fidelity` (mf_samplers.py:25-28, 133-141; `num_skip` 251-254:
`len(design_space)` is the number of dimensions). -/
def mkShared {d : ℕ} (sobol : Bool) (b : Box K d) (numFidelity : ℕ) (nested : Bool) (numSkip : Option ℕ) : MFSampler K d :=
  { kind := if sobol then .sobol (numSkip.getD d) else .lhs, spaces := List.replicate numFidelity b, nested := nested }

/-- Constructor call with a list of design spaces (mf_samplers.py:29-34; `num_skip` 251-254: `len(design_space)` is here the number of
*fidelities*).  (An empty list raises `IndexError` at line 34.) -/
def mkList {d : ℕ} (sobol : Bool) (bs : List (Box K d)) (nested : Bool) (numSkip : Option ℕ) : Py (MFSampler K d) :=
  if bs = [] then .error .indexError
  else .ok { kind := if sobol then .sobol (numSkip.getD bs.length) else .lhs, spaces := bs, nested := nested }

/-- `samples * (ub - lb) + lb`, mf_samplers.py:204-205 and 273-274. -/
def mfScale {d : ℕ} (b : Box K d) (us : List (Pt K d)) : List (Pt K d) :=
  us.map (fun u j => u j * (b.high j - b.low j) + b.low j)

/-- `_get_non_nested_samples`: mf_samplers.py:186-207 (Latin hypercube; the seed is shifted by the fidelity) and 256-276 (Sobol; the seed is not).
`self.lb(fidelity)` raises `IndexError` for a fidelity beyond the list of design spaces. -/
def nonNested {d : ℕ} (E : Env K d) (m : MFSampler K d) (seed : Option ℕ) (n fidelity : ℕ) (s : E.S) :
    Py (List (Pt K d) × E.S) :=
  match m.kind with
  | .lhs =>
    let sd := seed.map (· + fidelity)
    let (us, s') := E.lhs sd n s
    match m.spaces[fidelity]? with
    | none => .error .indexError
    | some b => .ok (mfScale b us, s')
  | .sobol skip => do
    let (seq, s') := E.sobol seed s
    let e : SobolEngine K d := { seq := seq, generated := 0 }
    let e := e.reset
    let e := e.fastForward skip
    let (us, _) ← e.random n
    match m.spaces[fidelity]? with
    | none => .error .indexError
    | some b => .ok (mfScale b us, s')

/-- `_get_nested_samples`: mf_samplers.py:209-220 (Latin hypercube: rows chosen by `np.random.choice(..., replace=False)` from the global generator;
`ValueError` if more rows are asked for than there are) and 278-289 (Sobol: the first rows). -/
def nestedFrom {d : ℕ} (E : Env K d) (m : MFSampler K d) (n : ℕ) (lower : List (Pt K d)) (s : E.S) :
    Py (List (Pt K d) × E.S) :=
  match m.kind with
  | .lhs =>
    if n > lower.length then .error .valueError
    else
      let (idx, s') := E.choice lower.length n s
      .ok (idx.filterMap (fun i => lower[i]?), s')
  | .sobol _ => .ok (lower.take n, s)

/-- `_mf_samples_rules`, mf_samplers.py:89-101. -/
def rules : List ℕ → Py Unit
  | a :: b :: t => if a ≤ b then rules (b :: t) else .error .assertionError
  | _ => .ok ()

/-- The `while len(num_samples) > 0` loop, mf_samplers.py:70-83.  The mutable list `num_samples` is held reversed, so that `pop()` takes the head and
`len(num_samples)` after the pop is the length of the tail; `data` is the list built with `insert(0, …)`.  Returns the data, the list as the loop leaves
it, and the world's state. -/
def mfLoop {d : ℕ} (E : Env K d) (m : MFSampler K d) (seed : Option ℕ) :
    (rev : List ℕ) → (data0 : List (Pt K d)) → (rest : List (List (Pt K d))) → E.S →
      Py (List (List (Pt K d)) × List ℕ × E.S)
  | [], data0, rest, s => .ok (data0 :: rest, [], s)
  | n :: rev, data0, rest, s => do
    let (sample, s') ←
      if m.nested then nestedFrom E m n data0 s else nonNested E m seed n rev.length s
    mfLoop E m seed rev sample (data0 :: rest) s'

/-- `MultiFidelitySampler.get_samples`, mf_samplers.py:40-87.  Returns the samples, what is left in the *caller's* list `num_samples`, and the
world's new state. `num_samples.pop()` of an empty list raises `IndexError`. -/
def getSamples {d : ℕ} (E : Env K d) (m : MFSampler K d) (numSamples : List ℕ) (seed : Option ℕ) (s : E.S) :
    Py (List (List (Pt K d)) × List ℕ × E.S) := do
  rules numSamples
  match numSamples.reverse with
  | [] => .error .indexError
  | n :: rev =>
    let (low, s') ← nonNested E m seed n rev.length s
    let (data, left, s'') ← mfLoop E m seed rev low [] s'
    .ok (data, left.reverse, s'')

end Mfpml.Sampling
