import Verif.Model.CKObjects

/-!
# `_GP.update_model` of the low-fidelity model of co-Kriging (co_kriging.py:280-294)
-/

namespace Mfpml.CKObjects

open Mfpml.GP

variable {d q : ℕ}

/-- A `_GP` object with the attribute `sample_y` (co_kriging.py:260) next to the attributes of `RawModel` (whose `X` is `sample_x`, co_kriging.py:257-258). -/
structure RawObject (d q : ℕ) where
  model : RawModel d q
  y : Option (Σ n, Fin n → ℝ)

/-- `_GP(design_space, kernel, regr, optimizer, ..., noise_prior)`, co_kriging.py:18-43. -/
def RawObject.new (kernel : RBF d) (regr : Basis d q) (optimizer : Option PopOptimizer) (noise : Noise) : RawObject d q :=
  { model := { kernel := kernel, regr := regr, optimizer := optimizer, noise := noise, X := none, weights := none }, y := none }

/-- `_GP.train`, co_kriging.py:243-268: samples and responses are stored before anything can raise. -/
noncomputable def RawObject.train (s : RawObject d q) (w : World d) (X : Σ n, Samples n d) (y : Σ n, Fin n → ℝ) : RawObject d q × Py Unit :=
  ({ model := (s.model.train w X.2 y).1, y := some y }, (s.model.train w X.2 y).2.map fun _ => ())

/-- `np.concatenate` of two arrays (co_kriging.py:291-292). -/
def concat {α : Type} (a b : Σ n, Fin n → α) : Σ n, Fin n → α := ⟨a.1 + b.1, Fin.append a.2 b.2⟩

/-- `_GP.update_model`, co_kriging.py:280-294; before the first training the attributes do not exist. -/
noncomputable def RawObject.update (s : RawObject d q) (w : World d) (X' : Σ n, Samples n d) (y' : Σ n, Fin n → ℝ) : RawObject d q × Py Unit :=
  match s.model.X, s.y with
  | some X, some y => s.train w (concat X X') (concat y y')
  | _, _ => (s, .error .attributeError)

/-- `update_model` calls one after the other, each of which may raise (co_kriging.py:280-294): the object, and the outcome of the calls. -/
noncomputable def RawObject.updates (s : RawObject d q) : List (World d × (Σ n, Samples n d) × (Σ n, Fin n → ℝ)) → RawObject d q × List (Py Unit)
  | [] => (s, [])
  | (w, X', y') :: rest =>
    let r := s.update w X' y'
    let r' := r.1.updates rest
    (r'.1, r.2 :: r'.2)

end Mfpml.CKObjects
