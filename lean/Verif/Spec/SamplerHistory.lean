import Verif.Model.SamplerObjects

/-!
# What seeded calls of sampler objects give (specification for C174, C175)
-/

namespace Mfpml.Spec

open Mfpml.Sampling
open Mfpml.EA (Box)

variable {K : Type} [Add K] [Sub K] [Mul K] {d : ℕ} {E : Env K d}

/-- What `get_samples(n, seed)` of the single-fidelity sampler `o` gives: the samples, or the exception. -/
def sfSamples (st : SState E) (o n : ℕ) (seed : Option ℕ) (sErr : E.S) : Py (List (Pt K d)) :=
  match sstep st (.sfGet o n seed sErr) with
  | (st', .ok (.array a)) => .ok (st'.contents a)
  | (_, .ok _) => .error .outOfModel
  | (_, .error e) => .error e

/-- What `get_samples(ns, seed)` of the multi-fidelity sampler `o` gives: the samples of the fidelities, or the exception. -/
def mfSamples (st : SState E) (o : ℕ) (ns : List ℕ) (seed : Option ℕ) (sErr : E.S) : Py (List (List (Pt K d))) :=
  match sstep st (.mfGet o ns seed sErr) with
  | (st', .ok (.arrays as)) => .ok (as.map st'.contents)
  | (_, .ok _) => .error .outOfModel
  | (_, .error e) => .error e

/-- The single-fidelity sampler `o` exists, is of this class (with these arguments), and its design space has these bounds. -/
def SFIs (st : SState E) (o : ℕ) (kind : SFKind K d) (b : Box K d) : Prop := ∃ ob, st.sf[o]? = some ob ∧ ob.kind = kind ∧ st.spaceOf ob.space = some b

/-- The multi-fidelity sampler `o` exists, is of this class, nested or not, and its design spaces have these bounds. -/
def MFIs (st : SState E) (o : ℕ) (kind : Kind) (nested : Bool) (bs : List (Box K d)) : Prop :=
  ∃ ob, st.mf[o]? = some ob ∧ ob.kind = kind ∧ ob.nested = nested ∧ ob.spaces.map (st.spaces[·]?) = bs.map some

/-- The program does not write into the design space of the single-fidelity sampler `o`. -/
def KeepsSFSpace (st : SState E) (o : ℕ) (ops : List (SOp E)) : Prop := ∀ ob i, st.sf[o]? = some ob → ob.space = .shared i → ∀ op ∈ ops, ∀ b', op ≠ .writeSpace i b'

/-- The program does not write into a design space of the multi-fidelity sampler `o`. -/
def KeepsMFSpaces (st : SState E) (o : ℕ) (ops : List (SOp E)) : Prop := ∀ ob, st.mf[o]? = some ob → ∀ i ∈ ob.spaces, ∀ op ∈ ops, ∀ b', op ≠ .writeSpace i b'

end Mfpml.Spec
