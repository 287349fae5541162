import Verif.Model.SamplerArgs
import Verif.Lemmas.Py
import Mathlib.Data.Rat.Defs
import Mathlib.Algebra.Order.Ring.Rat
import Mathlib.Tactic.Linarith

/-!
# The ways of writing design spaces (C149-C152)
-/

set_option linter.unusedSectionVars false

namespace Mfpml.Props

open Mfpml.Sampling
open Mfpml.EA (Box)

section AnyArithmetic
variable {K : Type} [Add K] [Sub K] [Mul K] {d : ℕ}

/-- The argument `a` writes down the design space `b`: a list (or array) of one row `[lower, upper]` per variable, or for one variable the flat `[lower, upper]`. -/
def Written (a : SpaceArg K) (b : Box K d) : Prop :=
  match a with
  | .flat xs => ∃ h : d = 1, xs = [b.low ⟨0, by omega⟩, b.high ⟨0, by omega⟩]
  | .rows r rs => r :: rs = List.ofFn fun j => [b.low j, b.high j]

theorem rawColumn_eq (L : List (List K)) (k : ℕ) (g : List K → K) (h : ∀ r ∈ L, r[k]? = some (g r)) : column L k = .ok (L.map g) := by
  induction L with
  | nil => rfl
  | cons r L ih =>
    have ih := ih fun r' hr' => h r' (List.mem_cons_of_mem _ hr')
    unfold column at ih ⊢
    have hr : entry k r = .ok (g r) := by
      unfold entry
      rw [h r List.mem_cons_self]
    rw [List.mapM_cons, hr]
    simp only [bind, Except.bind, ih, pure, Except.pure, List.map_cons]

theorem rawColumn_error (L : List (List K)) (k : ℕ) {r : List K} (hr : r ∈ L) (h : r.length ≤ k) : column L k = .error .indexError := by
  induction L with
  | nil => cases hr
  | cons r' L ih =>
    unfold column at ih ⊢
    rw [List.mapM_cons]
    cases hk : r'[k]? with
    | none =>
      have he : entry k r' = .error .indexError := by
        unfold entry
        rw [hk]
      rw [he]
      rfl
    | some x =>
      have : r ∈ L := (List.mem_cons.mp hr).resolve_left fun e => by
        rw [← e, List.getElem?_eq_none_iff.mpr h] at hk
        cases hk
      have he : entry k r' = .ok x := by
        unfold entry
        rw [hk]
      rw [he]
      simp only [bind, Except.bind, ih this]

theorem rawColumn_bounds (l h : Fin d → K) : column (List.ofFn fun j => [l j, h j]) 0 = .ok (List.ofFn l) ∧ column (List.ofFn fun j => [l j, h j]) 1 = .ok (List.ofFn h) := by
  constructor
  · unfold column
    induction d with
    | zero => rfl
    | succ d ih =>
      rw [List.ofFn_succ, List.mapM_cons, List.ofFn_succ]
      simp only [entry, bind, Except.bind, ih (fun j => l j.succ) (fun j => h j.succ), List.getElem?_cons_zero, pure, Except.pure]
  · unfold column
    induction d with
    | zero => rfl
    | succ d ih =>
      rw [List.ofFn_succ, List.mapM_cons, List.ofFn_succ]
      simp only [entry, bind, Except.bind, ih (fun j => l j.succ) (fun j => h j.succ), List.getElem?_cons_zero, List.getElem?_cons_succ, pure, Except.pure]

theorem scaleRow_ofFn (b : Box K d) (u : Pt K d) : scaleRow (List.ofFn b.low) (List.ofFn b.high) (List.ofFn u) = List.ofFn (scalePt b u) := by
  obtain ⟨l, h⟩ := b
  induction d with
  | zero => rfl
  | succ d ih =>
    rw [List.ofFn_succ, List.ofFn_succ (f := h), List.ofFn_succ (f := u), List.ofFn_succ]
    unfold scaleRow
    rw [ih (fun j => u j.succ) (fun j => l j.succ) (fun j => h j.succ)]
    rfl

theorem scaleRaw_box (b : Box K d) (us : List (Pt K d)) : scaleRaw (List.ofFn fun j => [b.low j, b.high j]) (us.map List.ofFn) = .ok ((scaleSamples b us).map List.ofFn) := by
  unfold scaleRaw scaleSamples
  rw [(rawColumn_bounds b.low b.high).1, (rawColumn_bounds b.low b.high).2, List.map_map]
  simp only [bind, Except.bind, List.map_map]
  congr 1
  exact List.map_congr_left fun u _ => scaleRow_ofFn b u

theorem written_space {a : SpaceArg K} {b : Box K d} (h : Written a b) : a.atleast2d = .ok (List.ofFn fun j => [b.low j, b.high j]) := by
  cases a with
  | flat xs =>
    obtain ⟨rfl, rfl⟩ := h
    rfl
  | rows r rs =>
    have h : r :: rs = List.ofFn fun j => [b.low j, b.high j] := h
    have hlen : ∀ r' ∈ r :: rs, r'.length = 2 := by
      rw [h]
      intro r' hr'
      obtain ⟨j, rfl⟩ := (List.mem_ofFn' ..).mp hr'
      rfl
    have hall : (rs.all fun r' => r'.length == r.length) = true := by
      rw [List.all_eq_true]
      intro r' hr'
      rw [hlen r' (List.mem_cons_of_mem _ hr'), hlen r List.mem_cons_self]
      rfl
    show (if (rs.all fun r' => r'.length == r.length) = true then Except.ok (r :: rs) else Except.error PyErr.valueError) = _
    rw [if_pos hall, h]

/-- Samples as lists of rows. -/
def asRows {S : Type} (r : List (Pt K d) × S) : List (List K) × S := (r.1.map List.ofFn, r.2)

theorem raw_lhs (E : EnvAll K) {a : SpaceArg K} {b : Box K d} (h : Written a b) (skip n : ℕ) (seed : Option ℕ) (s : E.S) :
    lhsRaw E { space := List.ofFn fun j => [b.low j, b.high j], numSkip := skip } n seed s = .ok (asRows (lhsSamples (E.at d) b n seed s)) := by
  unfold lhsRaw lhsSamples
  have key : ∀ d', d' = d → (E.lhs d' seed n s).1.map List.ofFn = (E.lhs d seed n s).1.map List.ofFn ∧ (E.lhs d' seed n s).2 = (E.lhs d seed n s).2 := by
    rintro _ rfl
    exact ⟨rfl, rfl⟩
  simp only [(key _ List.length_ofFn).1, (key _ List.length_ofFn).2, scaleRaw_box]
  rfl

theorem raw_random (E : EnvAll K) {a : SpaceArg K} {b : Box K d} (h : Written a b) (skip n seed : ℕ) (s : E.S) :
    randomRaw E { space := List.ofFn fun j => [b.low j, b.high j], numSkip := skip } n seed s = .ok (asRows (randomSamples (E.at d) b n seed s)) := by
  unfold randomRaw randomSamples
  have key : ∀ d', d' = d → (E.random d' n (E.seed seed s)).1.map List.ofFn = (E.random d n (E.seed seed s)).1.map List.ofFn ∧ (E.random d' n (E.seed seed s)).2 = (E.random d n (E.seed seed s)).2 := by
    rintro _ rfl
    exact ⟨rfl, rfl⟩
  simp only [(key _ List.length_ofFn).1, (key _ List.length_ofFn).2, scaleRaw_box]
  rfl

theorem raw_sobol (E : EnvAll K) {a : SpaceArg K} {b : Box K d} (h : Written a b) (skip n : ℕ) (seed : Option ℕ) (s : E.S) :
    sobolRaw E { space := List.ofFn fun j => [b.low j, b.high j], numSkip := skip } n seed s = (sobolSamples (E.at d) b (some skip) n seed s).map asRows := by
  unfold sobolRaw sobolSamples
  have key : ∀ d', d' = d → ∀ sp : List (List K),
      (do
        let r := E.sobol d' seed s
        let e : SobolEngine K d' := { seq := r.1, generated := 0 }
        let (_, e) ← e.randomBase2 n
        let e := e.reset
        let e := e.fastForward skip
        let (samples, _) ← e.random n
        let xs ← scaleRaw sp (samples.map List.ofFn)
        Except.ok (xs, r.2) : Py (List (List K) × E.S)) =
      (do
        let r := E.sobol d seed s
        let e : SobolEngine K d := { seq := r.1, generated := 0 }
        let (_, e) ← e.randomBase2 n
        let e := e.reset
        let e := e.fastForward skip
        let (samples, _) ← e.random n
        let xs ← scaleRaw sp (samples.map List.ofFn)
        Except.ok (xs, r.2)) := by
    rintro _ rfl sp
    rfl
  refine (key _ List.length_ofFn _).trans ?_
  show _ = Except.map asRows (do
    let (_, e) ← ({ seq := (E.sobol d seed s).1, generated := 0 } : SobolEngine K d).randomBase2 n
    let e := e.reset
    let e := e.fastForward skip
    let (samples, _) ← e.random n
    Except.ok (scaleSamples b samples, (E.sobol d seed s).2))
  cases h1 : ({ seq := (E.sobol d seed s).1, generated := 0 } : SobolEngine K d).randomBase2 n with
  | error e => simp only [h1, bind, Except.bind, Except.map]
  | ok r1 =>
    simp only [h1, bind, Except.bind]
    cases h2 : (r1.2.reset.fastForward skip).random n with
    | error e => simp only [h2, Except.map]
    | ok r2 =>
      simp only [h2, Except.map, scaleRaw_box]
      rfl

/-- C149, partial: the design space `b` written in any of the accepted forms gives a sampler whose samples are those of `b` (the ones of all other properties), for all four samplers; the Sobol sampler if `num_skip` is given or
the rows are written out.  Missing: `SobolSequence` with a flat `[lower, upper]` and without `num_skip`. -/
theorem C149_partial (E : EnvAll K) {a : SpaceArg K} {b : Box K d} (h : Written a b) (numSkip : Option ℕ) :
    ∃ o, mkSF a numSkip = .ok o ∧
      (∀ n seed s, lhsRaw E o n seed s = .ok (asRows (lhsSamples (E.at d) b n seed s))) ∧
      (∀ n seed s, randomRaw E o n seed s = .ok (asRows (randomSamples (E.at d) b n seed s))) ∧
      (∀ n, fixNumberRaw o n = List.replicate n ((List.ofFn fun j => [b.low j, b.high j]).flatten)) ∧
      ((numSkip ≠ none ∨ ∃ r rs, a = .rows r rs) → ∀ n seed s, sobolRaw E o n seed s = (sobolSamples (E.at d) b numSkip n seed s).map asRows) := by
  refine ⟨⟨List.ofFn fun j => [b.low j, b.high j], numSkip.getD a.len⟩, ?_, fun n seed s => raw_lhs E h _ n seed s, fun n seed s => raw_random E h _ n seed s, fun n => rfl, fun hs n seed s => ?_⟩
  · unfold mkSF
    rw [written_space h]
    rfl
  · rw [raw_sobol E h]
    cases numSkip with
    | some k => rfl
    | none =>
      obtain ⟨r, rs, rfl⟩ := hs.resolve_left fun h => h rfl
      have hl : (SpaceArg.rows r rs).len = d := by
        have h' : r :: rs = List.ofFn fun j => [b.low j, b.high j] := h
        have := congrArg List.length h'
        rwa [List.length_ofFn] at this
      show (sobolSamples (E.at d) b (some (SpaceArg.rows r rs).len) n seed s).map asRows = _
      rw [hl]
      rfl

/-- C149, what the missing case does: `SobolSequence([lower, upper])` skips two points of the sequence, `SobolSequence([[lower, upper]])` one. -/
theorem C149_sobol_flat (E : EnvAll K) (b : Box K 1) (n : ℕ) (seed : Option ℕ) (s : E.S) :
    ∃ o o', mkSF (.flat [b.low 0, b.high 0]) none = .ok o ∧ mkSF (.rows [b.low 0, b.high 0] []) none = .ok o' ∧
      sobolRaw E o n seed s = (sobolSamples (E.at 1) b (some 2) n seed s).map asRows ∧
      sobolRaw E o' n seed s = (sobolSamples (E.at 1) b (some 1) n seed s).map asRows := by
  have hw : Written (.flat [b.low 0, b.high 0]) b := ⟨rfl, rfl⟩
  exact ⟨_, _, rfl, rfl, raw_sobol E hw 2 n seed s, raw_sobol E hw 1 n seed s⟩

end AnyArithmetic

/-- An environment for examples: point `k` of every sequence is `k / 16`. -/
def exEnvAll : EnvAll ℚ where
  S := Unit
  lhs := fun _ _ n s => ((List.range n).map fun k _ => (k : ℚ) / 16, s)
  sobol := fun _ _ s => (fun k _ => (k : ℚ) / 16, s)
  seed := fun _ s => s
  random := fun _ n s => ((List.range n).map fun k _ => (k : ℚ) / 16, s)
  choice := fun _ k s => (List.range k, s)

/-- C149, counterexample: one variable between 0 and 1, three Sobol samples; the flat and the nested list give different samples. -/
theorem C149_counterexample :
    (mkSF (.flat [0, 1]) none >>= fun o => (sobolRaw exEnvAll o 3 (some 1) ()).map Prod.fst) = .ok [[2 / 16], [3 / 16], [4 / 16]] ∧
    (mkSF (.rows [0, 1] []) none >>= fun o => (sobolRaw exEnvAll o 3 (some 1) ()).map Prod.fst) = .ok [[1 / 16], [2 / 16], [3 / 16]] := by
  constructor <;> decide +kernel

example : Written (.rows [0, 1] [[-5, 10]]) (d := 2) (⟨![0, -5], ![1, 10]⟩ : Box ℚ 2) := by simp [Written]

end Mfpml.Props
