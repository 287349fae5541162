import Verif.Model.NonFinitePredict
import Verif.Model.HierarchicalKriging
import Verif.Model.ScaledKriging
import Verif.Model.CoKriging

/-!
# Specification vocabulary: the program that follows `nan` and infinities, on finite numbers in exact arithmetic
-/

open scoped Matrix

namespace Mfpml.Spec

open Mfpml.NonFinite Mfpml.GP

/-- A matrix of finite numbers. -/
def up {m n : ℕ} (M : Matrix (Fin m) (Fin n) ℝ) : Mat m n := fun i j => .num (M i j)

/-- A column of finite numbers. -/
def upCol {n : ℕ} (v : Fin n → ℝ) : Mat n 1 := fun i _ => .num (v i)

/-- No operation rounds. -/
def ExactArith (A : Arith) : Prop := ∀ x, A.rnd x = .num x

/-- On finite numbers numpy's `cholesky` and `solve` do what linear algebra says. -/
structure ExactLib {Θ W : Type} (L : Lib Θ W) : Prop where
  cholesky : ∀ {n : ℕ} (M : Matrix (Fin n) (Fin n) ℝ), L.cholesky (up M) = (GP.cholesky M).map up
  solve : ∀ {n k : ℕ} (M : Matrix (Fin n) (Fin n) ℝ) (B : Matrix (Fin n) (Fin k) ℝ), L.solve (up M) (up B) = (GP.solve M B).map up

/-- Samples scaled with a design space. -/
noncomputable def scaledBy {n d : ℕ} (b : EA.Box ℝ d) (X : Samples n d) : Samples n d := fun i => normPt b (X i)

/-- The parts of a Kriging object that do not see the responses: RBF kernel between scaled samples and basis; the searched parameters are the kernel parameters and the scaled noise (which is only read if the noise is not given). -/
noncomputable def krigOf {d q : ℕ} (box : EA.Box ℝ d) (noise : Option ℝ) (regr : Basis d q) : Krig (Fin d → ℝ) ((Fin d → ℝ) × ℝ) where
  noise := noise.map .num
  cols := q
  kern := fun X Y t => up (rbfMatrix (pow10 t.1) (scaledBy box X) (scaledBy box Y))
  basis := fun X => up (regrMatrix regr (scaledBy box X))
  sigmaOf := fun t => .num t.2

/-- The search `opt` finds `t` for every likelihood that has the values of `lik` where these are finite numbers. -/
def Finds {Θ W : Type} (opt : Opt Θ W) (lik : Θ → Py ℝ) (w : W) (t : Θ) (w' : W) : Prop :=
  ∀ obj : Θ → Py XF, (∀ t v, lik t = .ok v → obj t = .ok (.num v)) → opt obj w = .ok (t, w')

/-- The likelihood of Kriging as a function of kernel parameters and scaled noise, for given noise and for noise that is searched. -/
noncomputable def gpLik {n d q : ℕ} (gp : GPObj d q) (yStd : ℝ) (Xs : Samples n d) (ys : Fin n → ℝ) (t : (Fin d → ℝ) × ℝ) : Py ℝ :=
  match gp.noise with
  | none => gp.logLikFree Xs ys (Fin.snoc t.1 t.2)
  | some s => gp.logLikKnown s yStd Xs ys t.1

/-- The same for hierarchical Kriging. -/
noncomputable def hkLik {n d : ℕ} (noise : Option ℝ) (yStd : ℝ) (Xs : Samples n d) (F : Matrix (Fin n) (Fin 1) ℝ) (ys : Fin n → ℝ) (t : (Fin d → ℝ) × ℝ) : Py ℝ :=
  match noise with
  | none => hkLogLikFree Xs F ys (Fin.snoc t.1 t.2)
  | some s => hkLogLikKnown s yStd Xs F ys t.1

/-- The likelihood of the low-fidelity model of co-Kriging, whose samples and responses are scaled already, for the noise `noise`. -/
noncomputable def rawLik {n d q : ℕ} (gp : RawGP d q) (noise : Option ℝ) (X : Samples n d) (y : Fin n → ℝ) (t : (Fin d → ℝ) × ℝ) : Py ℝ :=
  match noise with
  | none => negLogLik (covTrain (pow10 t.1) X t.2) (regrMatrix gp.regr X) y False
  | some s => negLogLik (covTrain (pow10 t.1) X s) (regrMatrix gp.regr X) y (s = 0)

/-- All entries finite, the given ones. -/
def upVec {n : ℕ} (v : Fin n → ℝ) : Fin n → XF := fun i => .num (v i)

end Mfpml.Spec
