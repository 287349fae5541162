import Verif.Model.BOAssembled
import Verif.Spec.Acquisitions
import Verif.Spec.BayesOpt
import Verif.Spec.Oracles

/-!
# Vocabulary for the assembled Bayesian optimisers
-/

namespace Mfpml.Spec

open Mfpml.BO Mfpml.GP Mfpml.Acq
open Mfpml.EA (Box)

/-- A search that succeeds whenever the objective has a value everywhere in a non-empty box of at least one dimension. -/
def TotalSearch {W : Type} {d : ℕ} (de : DiffEvo W d) : Prop :=
  ∀ (f : (Fin d → ℝ) → Py ℝ) (b : Box ℝ d) (w : W), 0 < d → (∀ j, b.low j ≤ b.high j) → (∀ x, InBounds b x → ∃ v, f x = .ok v) → ∃ r, de f b w = .ok r

/-- What scipy and numpy promise to the optimisers. -/
structure Lawful {d : ℕ} (o : Outside d) : Prop where
  env : o.env.Lawful
  mini : GoodMinimizer o.mini
  uniform_len : ∀ n p lo hi w, (o.uniform n p lo hi w).1.length = n
  de : GoodSearch o.de
  de_total : TotalSearch o.de

/-- The acquisition is one of the library's: `LCB` with any weights, `EI` or `PI`. -/
def LibraryAcq {d : ℕ} (eval : (m : ℕ) → SFSurr d → Samples m d → Py (Fin m → ℝ)) : Prop :=
  (∃ kappa, eval = fun _ => lcbEval kappa) ∨ (eval = fun _ => eiEval) ∨ eval = fun _ => piEval

/-- The multi-fidelity `query` is one of the library's: `AugmentedEI`, `VFEI`, `VFLCB` with any weights or `ExtendedPI`, with the default search or an optimiser object. -/
def LibraryMFQuery {W : Type} {d : ℕ} (de : DiffEvo W d) (q : MFQuery W d) : Prop :=
  ∃ optimizer, q = aeiQuery optimizer de ∨ q = vfeiQuery optimizer de ∨ (∃ kappa, q = vflcbQuery kappa optimizer de) ∨ q = epiQuery optimizer de

/-- The objective is an ordinary function applied to every row. -/
def Rowwise {α β : Type} (f : List α → Py (List β)) (g : α → β) : Prop := ∀ xs, f xs = .ok (xs.map g)

end Mfpml.Spec
