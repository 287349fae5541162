import Mathlib.Algebra.Order.Field.Basic
import Mathlib.Algebra.Order.Group.Abs

/-!
# Specification vocabulary for population-based optimisers

Nothing here refers to the model: a *run record* is a table of positions `samples g i` and responses
`resp g i` (generation `g`, member `i`).
-/

set_option linter.unusedSectionVars false

namespace Mfpml.Spec

variable {K : Type} [Add K] [Sub K] [Mul K] [Div K] [Neg K] [Zero K] [LinearOrder K]

/-- `x` lies in the box `[low, high]` in every coordinate. -/
def InBox {D : ℕ} (low high x : Fin D → K) : Prop := ∀ j, low j ≤ x j ∧ x j ≤ high j

/-- Scaling `u` into the box, in the arithmetic of `K`, gives a point of the box.  A consequence of `0 ≤ u ≤ 1` in exact arithmetic
and of `0 ≤ u < 1` in floating-point arithmetic (`Props/Rounded.lean`). -/
def ScalesIntoBox {D : ℕ} (low high u : Fin D → K) : Prop := InBox low high fun j => u j * (high j - low j) + low j

/-- `y` is the smallest response of all members in generations `0 … g`. -/
def RunningMin {P : ℕ} (resp : ℕ → Fin P → K) (g : ℕ) (y : K) : Prop :=
  (∀ k ≤ g, ∀ i, y ≤ resp k i) ∧ ∃ k ≤ g, ∃ i, resp k i = y

/-- `x` is a recorded position of generations `0 … g` whose recorded response is `y`. -/
def RecordedAt {P D : ℕ} (samples : ℕ → Fin P → Fin D → K) (resp : ℕ → Fin P → K) (g : ℕ)
    (x : Fin D → K) (y : K) : Prop :=
  ∃ k ≤ g, ∃ i, samples k i = x ∧ resp k i = y

/-- The user-supplied stopping threshold (if any) is undercut. -/
def Below (stop : Option K) (y : K) : Prop :=
  match stop with
  | none => False
  | some e => y < e

/-- `last` is the last generation of a run of at most `G` generations which stops right after the first generation whose
best value is below the threshold. -/
structure LastGen (G : ℕ) (stop : Option K) (best : ℕ → K) (last : ℕ) : Prop where
  pos : 1 ≤ last
  le : last ≤ G
  notBefore : ∀ g, 1 ≤ g → g < last → ¬ Below stop (best g)
  why : last = G ∨ Below stop (best last)

/-- The last generation is determined by the history of best values. -/
theorem LastGen.unique {G : ℕ} {stop : Option K} {best : ℕ → K} {a b : ℕ}
    (ha : LastGen G stop best a) (hb : LastGen G stop best b) : a = b := by
  have key : ∀ {a b : ℕ}, LastGen G stop best a → LastGen G stop best b → ¬ a < b := by
    intro a b ha hb hlt
    rcases ha.why with h | h
    · have := hb.le; omega
    · exact hb.notBefore a ha.pos hlt h
  have h1 := key ha hb
  have h2 := key hb ha
  omega

/-- Clipping to `[-m, m]`. -/
def clip (m a : K) : K := max (-m) (min m a)

/-- `pb` is a position of member `i` in generations `0 … g` at which that member had its smallest response so far. -/
def OwnBest {P D : ℕ} (samples : ℕ → Fin P → Fin D → K) (resp : ℕ → Fin P → K) (g : ℕ) (i : Fin P)
    (pb : Fin D → K) : Prop :=
  ∃ k ≤ g, samples k i = pb ∧ ∀ k' ≤ g, resp k i ≤ resp k' i

end Mfpml.Spec
