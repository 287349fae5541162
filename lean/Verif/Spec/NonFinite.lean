import Verif.Model.BayesOptNonFinite
import Verif.Spec.BayesOpt

/-!
# Specification vocabulary: failed evaluations
-/

namespace Mfpml.Spec

open Mfpml.NonFinite Mfpml.BO

/-- A proper number, not `nan` and not infinite. -/
def XFinite (y : XF) : Prop := ∃ v : ℝ, y = .num v

/-- All entries are proper numbers. -/
def AllFinite (ys : List XF) : Prop := ∀ y ∈ ys, XFinite y

/-- `scipy.optimize.minimize` reports a value that its objective takes somewhere. -/
def ReportsValues {Θ W : Type} (L : Lib Θ W) : Prop := ∀ obj w r w', L.minimize obj w = .ok (r, w') → ∃ t, obj t = .ok r.2

variable {X S W : Type}

/-- A training that raises whenever a response is `nan` or infinite. -/
def Refuses (train : S → List X → List XF → W → Py (S × W)) : Prop := ∀ s xs ys w, ¬AllFinite ys → ∃ e, train s xs ys w = .error e

/-- The same for two fidelities. -/
def RefusesMF (train : S → List X × List X → List XF × List XF → W → Py (S × W)) : Prop :=
  ∀ s xs ys w, ¬(AllFinite ys.1 ∧ AllFinite ys.2) → ∃ e, train s xs ys w = .error e

/-- The same for an objective with constraints. -/
def RefusesCons {c : ℕ} (train : S → List X → List XF → List (Fin c → XF) → W → Py (S × W)) : Prop :=
  ∀ s xs ys gs w, ¬(AllFinite ys ∧ ∀ g ∈ gs, ∀ j, XFinite (g j)) → ∃ e, train s xs ys gs w = .error e

/-- What may become of a single-fidelity optimiser: any number of completed iterations and of iterations cut short by an exception (`run_optimizer` consists of them). -/
inductive SFLater (p : SFProblem XF X S W) (s : SFState XF X S W) : SFState XF X S W → Prop
  | now : SFLater p s s
  | step {t u} : SFLater p s t → sfIterate p t = .ok u → SFLater p s u
  | crash {t u} : SFLater p s t → SFCrash p t u → SFLater p s u

/-- The same for the multi-fidelity optimiser. -/
inductive MFLater (p : MFProblem XF X S W) (cr : XF) (s : MFState XF X S W) : MFState XF X S W → Prop
  | now : MFLater p cr s s
  | step {t u} : MFLater p cr s t → mfIterate p cr t = .ok u → MFLater p cr s u
  | crash {t u} : MFLater p cr s t → MFCrash p cr t u → MFLater p cr s u

/-- The same for the constrained optimiser. -/
inductive ConsLater {c : ℕ} (p : ConsProblemX X S W c) (s : ConsStateX X S W c) : ConsStateX X S W c → Prop
  | now : ConsLater p s s
  | step {t u} : ConsLater p s t → consIterate p t = .ok u → ConsLater p s u
  | crash {t u} : ConsLater p s t → p.Crash t u → ConsLater p s u

end Mfpml.Spec
