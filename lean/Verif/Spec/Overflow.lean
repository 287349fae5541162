import Verif.Model.Overflow
import Verif.Spec.Rounded

/-!
# What "no overflow" means (C180)

A run on floats that can overflow, started with finite settings, bounds and draws, is compared with the run on floats without largest number.
-/

namespace Mfpml.Spec

open Mfpml.Rounded Mfpml.EA Mfpml.Overflow

variable {p : ℕ} {emin : ℤ} {R : Rounding p emin}

/-- An array of finite numbers as an array of floats. -/
def numPop (emax : ℤ) {P D : ℕ} (X : Pop (Fl R) P D) : Pop (XFl R emax) P D := fun i j => .num (X i j)

/-- Finite bounds. -/
def numBox (emax : ℤ) {D : ℕ} (b : Box (Fl R) D) : Box (XFl R emax) D := { low := fun j => .num (b.low j), high := fun j => .num (b.high j) }

/-- Finite settings of PSO. -/
def numPSOCfg (emax : ℤ) (cfg : PSOCfg (Fl R)) : PSOCfg (XFl R emax) :=
  { numGen := cfg.numGen, cognition := .num cfg.cognition, social := .num cfg.social, weight := .num cfg.weight, maxVRate := .num cfg.maxVRate }

/-- Draws of a PSO run (they are finite numbers). -/
def numPSORand (emax : ℤ) {P D : ℕ} (rnd : PSORand (Fl R) P D) : PSORand (XFl R emax) P D :=
  { pos := numPop emax rnd.pos, vel := numPop emax rnd.vel, repl := fun t k => numPop emax (rnd.repl t k) }

/-- Finite settings of DE. -/
def numDECfg (emax : ℤ) (cfg : DECfg (Fl R)) : DECfg (XFl R emax) :=
  { numGen := cfg.numGen, stepSize := .num cfg.stepSize, crossoverRate := .num cfg.crossoverRate, strategy := cfg.strategy }

/-- Draws of a DE run. -/
def numDERand (emax : ℤ) {P D : ℕ} (rnd : DERand (Fl R) P D) : DERand (XFl R emax) P D :=
  { pos := numPop emax rnd.pos, choice3 := rnd.choice3, choice2 := rnd.choice2, c := rnd.c, cr := fun t => numPop emax (rnd.cr t), repl := fun t k => numPop emax (rnd.repl t k) }

/-- What a run without overflow returns, as floats. -/
def numResult (emax : ℤ) {P D : ℕ} (r : Result (Fl R) P D) : ResultX (XFl R emax) (Fl R) P D :=
  { bestX := fun j => .num (r.bestX j), bestY := r.bestY, bestXHist := fun t j => .num (r.bestXHist t j), bestYHist := r.bestYHist, allSamples := fun t => numPop emax (r.allSamples t)
    allResponses := r.allResponses, retY := r.retY, retX := fun j => .num (r.retX j), calls := r.calls.map (numPop emax) }

/-- `x` is a point with finite coordinates between the bounds. -/
def FiniteInBox {emax : ℤ} {D : ℕ} (b : Box (Fl R) D) (x : Fin D → XFl R emax) : Prop := ∀ j, ∃ a : Fl R, x j = .num a ∧ b.low j ≤ a ∧ a ≤ b.high j

/-- All bounds are of size at most `2 ^ k`. -/
def BoundsUpTo {D : ℕ} (b : Box (Fl R) D) (k : ℕ) : Prop := ∀ j, |(b.low j).val| ≤ 2 ^ k ∧ |(b.high j).val| ≤ 2 ^ k

/-- The settings of PSO are of size at most `2 ^ c`, and the velocity rate is not negative. -/
structure CfgUpTo (cfg : PSOCfg (Fl R)) (c : ℕ) : Prop where
  weight : |cfg.weight.val| ≤ 2 ^ c
  cognition : |cfg.cognition.val| ≤ 2 ^ c
  social : |cfg.social.val| ≤ 2 ^ c
  rate : |cfg.maxVRate.val| ≤ 2 ^ c
  rate_nonneg : 0 ≤ cfg.maxVRate

end Mfpml.Spec
