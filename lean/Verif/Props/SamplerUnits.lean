import Verif.Props.SamplerArgsMF
import Verif.Spec.BOInputUnits
import Mathlib.Tactic.Ring

/-!
# Samples in other units (C153)
-/

set_option linter.unusedSectionVars false

namespace Mfpml.Props

open Mfpml.Sampling Mfpml.Spec
open Mfpml.EA (Box)

variable {K : Type} [CommRing K] {d : ℕ}

theorem scale_units (c : UnitChange K d) (b : Box K d) (us : List (Pt K d)) : scaleSamples (c.space b) us = (scaleSamples b us).map c.point := by
  unfold scaleSamples
  rw [List.map_map]
  refine List.map_congr_left fun u _ => funext fun j => ?_
  simp only [scalePt, UnitChange.space, UnitChange.point, Function.comp]
  ring

theorem mfScale_units (c : UnitChange K d) (b : Box K d) (us : List (Pt K d)) : mfScale (c.space b) us = (mfScale b us).map c.point := by
  unfold mfScale
  rw [List.map_map]
  refine List.map_congr_left fun u _ => funext fun j => ?_
  simp only [UnitChange.space, UnitChange.point, Function.comp]
  ring

/-- **C153 (single fidelity).** In exact arithmetic: the samples drawn in a design space given in other units are the samples drawn in the old units, converted; the generators are left in the same state. -/
theorem C153_sf (E : Env K d) (c : UnitChange K d) (b : Box K d) (n : ℕ) (s : E.S) :
    (∀ seed, lhsSamples E (c.space b) n seed s = ((lhsSamples E b n seed s).1.map c.point, (lhsSamples E b n seed s).2)) ∧
    (∀ seed, randomSamples E (c.space b) n seed s = ((randomSamples E b n seed s).1.map c.point, (randomSamples E b n seed s).2)) ∧
    (∀ numSkip seed, sobolSamples E (c.space b) numSkip n seed s = (sobolSamples E b numSkip n seed s).map fun r => (r.1.map c.point, r.2)) := by
  refine ⟨fun seed => ?_, fun seed => ?_, fun numSkip seed => ?_⟩
  · unfold lhsSamples
    simp only [scale_units]
  · unfold randomSamples
    simp only [scale_units]
  · unfold sobolSamples
    simp only [scale_units]
    cases h1 : ({ seq := (E.sobol seed s).1, generated := 0 } : SobolEngine K d).randomBase2 n with
    | error e => simp only [h1, bind, Except.bind, Except.map]
    | ok r1 =>
      simp only [h1, bind, Except.bind]
      cases h2 : (r1.2.reset.fastForward (sobolSkip d numSkip)).random n with
      | error e => simp only [h2, Except.map]
      | ok r2 => simp only [h2, Except.map]

theorem nonNested_units (E : Env K d) (c : UnitChange K d) (m : MFSampler K d) (seed : Option ℕ) (n f : ℕ) (s : E.S) :
    nonNested E { m with spaces := m.spaces.map c.space } seed n f s = (nonNested E m seed n f s).map fun r => (r.1.map c.point, r.2) := by
  unfold nonNested
  simp only [List.getElem?_map]
  cases m.kind with
  | lhs =>
    cases hb : m.spaces[f]? with
    | none => simp only [hb]; rfl
    | some b =>
      simp only [hb, Option.map_some, mfScale_units]
      rfl
  | sobol skip =>
    show (Except.bind ((({ seq := (E.sobol seed s).1, generated := 0 } : SobolEngine K d).reset.fastForward skip).random n) _) =
      Except.map _ (Except.bind ((({ seq := (E.sobol seed s).1, generated := 0 } : SobolEngine K d).reset.fastForward skip).random n) _)
    generalize (({ seq := (E.sobol seed s).1, generated := 0 } : SobolEngine K d).reset.fastForward skip).random n = q
    cases q with
    | error e => rfl
    | ok r =>
      cases hb : m.spaces[f]? with
      | none => simp only [Except.bind, hb]; rfl
      | some b =>
        simp only [Except.bind, hb, Option.map_some, mfScale_units]
        rfl

theorem nestedFrom_units (E : Env K d) (c : UnitChange K d) (m : MFSampler K d) (n : ℕ) (lower : List (Pt K d)) (s : E.S) :
    nestedFrom E { m with spaces := m.spaces.map c.space } n (lower.map c.point) s = (nestedFrom E m n lower s).map fun r => (r.1.map c.point, r.2) := by
  unfold nestedFrom
  cases m.kind with
  | lhs =>
    simp only [List.length_map]
    split
    · rfl
    · show Except.ok _ = Except.ok _
      congr 1
      refine Prod.ext ?_ rfl
      show List.filterMap _ _ = List.map _ (List.filterMap _ _)
      rw [List.map_filterMap]
      congr 1
      funext i
      rw [List.getElem?_map]
  | sobol skip =>
    show Except.ok _ = Except.ok _
    rw [← List.map_take]

theorem mfLoop_units (E : Env K d) (c : UnitChange K d) (m : MFSampler K d) (seed : Option ℕ) :
    ∀ (rev : List ℕ) (data0 : List (Pt K d)) (rest : List (List (Pt K d))) (s : E.S),
    mfLoop E { m with spaces := m.spaces.map c.space } seed rev (data0.map c.point) (rest.map fun x => x.map c.point) s =
      (mfLoop E m seed rev data0 rest s).map fun r => (r.1.map fun x => x.map c.point, r.2)
  | [], data0, rest, s => rfl
  | n :: rev, data0, rest, s => by
    rw [mfLoop_cons, mfLoop_cons]
    have hstep : (if m.nested then nestedFrom E { m with spaces := m.spaces.map c.space } n (data0.map c.point) s else nonNested E { m with spaces := m.spaces.map c.space } seed n rev.length s) =
        (if m.nested then nestedFrom E m n data0 s else nonNested E m seed n rev.length s).map fun r => (r.1.map c.point, r.2) := by
      cases m.nested
      · exact nonNested_units E c m seed n rev.length s
      · exact nestedFrom_units E c m n data0 s
    rw [hstep]
    generalize (if m.nested then nestedFrom E m n data0 s else nonNested E m seed n rev.length s) = q
    cases q with
    | error e => rfl
    | ok r => exact mfLoop_units E c m seed rev r.1 (data0 :: rest) r.2

/-- **C153 (several fidelities).** The same for multi-fidelity designs, nested or not, when the design spaces of all fidelities are given in the new units; also the same exceptions, and the same remains of the caller's list. -/
theorem C153_mf (E : Env K d) (c : UnitChange K d) (m : MFSampler K d) (ns : List ℕ) (seed : Option ℕ) (s : E.S) :
    getSamples E { m with spaces := m.spaces.map c.space } ns seed s = (getSamples E m ns seed s).map fun r => (r.1.map fun x => x.map c.point, r.2) := by
  unfold getSamples
  cases rules ns with
  | error e => rfl
  | ok u =>
    cases ns.reverse with
    | nil => rfl
    | cons n rev =>
      simp only [bind, Except.bind]
      rw [nonNested_units]
      cases nonNested E m seed n rev.length s with
      | error e => rfl
      | ok r =>
        have := mfLoop_units E c m seed rev r.1 [] r.2
        simp only [Except.map, List.map_nil] at this ⊢
        rw [this]
        cases mfLoop E m seed rev r.1 [] r.2 <;> rfl

/-- Degrees Celsius to Fahrenheit, and metres to millimetres: three samples. -/
example : (lhsSamples (exEnvAll.at 2) (UnitChange.space (K := ℚ) ⟨![9 / 5, 1000], ![32, 0]⟩ ⟨![0, 0], ![100, 1]⟩) 2 none ()).1.map List.ofFn = [[32, 0], [32 + 180 / 16, 1000 / 16]] := by
  decide +kernel

end Mfpml.Props
