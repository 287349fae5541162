import Verif.Model.HKObjects
import Verif.Model.MFObjects
import Verif.Model.CKObjects

/-!
# Histories in which no training of a model has returned

Each predicate says how a state can come about: the model has just been constructed, or some call was made afterwards, where every training of the model itself raised.
-/

namespace Mfpml.Spec

open Mfpml.GP Mfpml.GPObjects Mfpml.CKObjects
open Mfpml.EA (Box)

variable {d q : ℕ}

/-- Model `g`, constructed with the design-space array `b`: none of its trainings has returned so far.  Any other call, such as a training of another model, may have returned or raised. -/
inductive NeverTrained (g b : Ref) : Heap d q → Prop
  | new (h : Heap d q) (kernel : Ref) (regr : Basis d q) (optimizer : Option PopOptimizer) (noise : Option ℝ) : h.models g = newModel b kernel regr optimizer noise → NeverTrained g b h
  | call (h : Heap d q) (c : Call d) : NeverTrained g b h → (∀ w X a, c = .train g w X a → ∃ e, (h.train g w X a).2 = .error e) → NeverTrained g b (h.step c)

/-- The same for a `HierarchicalKriging` object; the low-fidelity model may have been trained. -/
inductive NeverTrainedHK (b lf : Ref) : Heap d q → HKModel d → Prop
  | new (h : Heap d q) (low high : ℝ) (optimizer : Option PopOptimizer) (noise : Option ℝ) : NeverTrainedHK b lf h (newHK b lf low high optimizer noise)
  | call (h : Heap d q) (s : HKModel d) (c : Call d) : NeverTrainedHK b lf h s → NeverTrainedHK b lf (h.step c) s
  | train (h h' : Heap d q) (s s' : HKModel d) (w : MFWorld d) (Xh Xl : Σ n, Samples n d) (ah al : Ref) (e : PyErr) : NeverTrainedHK b lf h s → h.hkTrain s w Xh ah Xl al = (h', s', .error e) →
      NeverTrainedHK b lf h' s'

/-- The same for a `ScaledKriging` object that holds the models `lf` and `disc`; the discrepancy model, constructed with the design-space array `b`, has not been trained successfully elsewhere either. -/
inductive NeverTrainedSK (b : Ref) (s₀ : SKModel) : Heap d q → SKModel → Prop
  | new (h : Heap d q) : NeverTrained s₀.disc b h → NeverTrainedSK b s₀ h s₀
  | call (h : Heap d q) (s : SKModel) (c : Call d) : NeverTrainedSK b s₀ h s → (∀ w X a, c = .train s₀.disc w X a → ∃ e, (h.train s₀.disc w X a).2 = .error e) → NeverTrainedSK b s₀ (h.step c) s
  | train (h h' : Heap d q) (s s' : SKModel) (w : SKWorld d) (Xh Xl : Σ n, Samples n d) (ah al : Ref) (fresh : ℕ → Ref) (e : PyErr) : NeverTrainedSK b s₀ h s →
      h.skTrain s w Xh ah Xl al fresh = (h', s', .error e) → NeverTrainedSK b s₀ h' s'

/-- The same for a `CoKriging` object with design space `box`. -/
inductive NeverTrainedCK (box : Box ℝ d) : CKModel d q → Prop
  | new (regr : Basis d q) (optimizer : Option PopOptimizer) (low high rhoLow rhoHigh : ℝ) (noise : Option ℝ) : NeverTrainedCK box (newCK box regr optimizer low high rhoLow rhoHigh noise)
  | predict (s : CKModel d q) {m : ℕ} (Xnew : Samples m d) : NeverTrainedCK box s → NeverTrainedCK box (s.predictStd Xnew).1
  | train (s s' : CKModel d q) (w : CKWorld d) (Xh Xl : Σ n, Samples n d) (yh yl : Σ n, Fin n → ℝ) (e : PyErr) : NeverTrainedCK box s → s.train w Xh yh Xl yl = (s', .error e) → NeverTrainedCK box s'

end Mfpml.Spec
