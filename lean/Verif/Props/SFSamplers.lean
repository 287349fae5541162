import Verif.Lemmas.Samplers
import Verif.Lemmas.SamplerEnv
import Verif.Lemmas.Py
import Verif.Model.Normalize
import Verif.Spec.Sampling
import Verif.Spec.Evolutionary
import Mathlib.Tactic.Linarith
import Mathlib.Tactic.FieldSimp
import Mathlib.Tactic.FinCases
import Mathlib.Data.Fin.VecNotation

/-!
# Properties of the single-fidelity samplers (C15–C19)

`E` ranges over all outside worlds (`Env`: scipy's engines and numpy's global generator) that keep scipy's and numpy's promises (`E.Lawful`).
-/

set_option linter.unusedSectionVars false

namespace Mfpml.Props

open Mfpml.Sampling Mfpml.Spec
open Mfpml.EA (Box)

section AnyArithmetic
variable {K : Type} [Add K] [Sub K] [Mul K] {d : ℕ}

/-- C15, in every arithmetic (Latin hypercube, random and Sobol sampler): if the numbers drawn satisfy `Q`, and scaling such numbers (with operations that may round) leads into the
design space, `get_samples(n)` returns `n` rows, all of them inside the design space. -/
theorem C15_samples_in_bounds_any_arithmetic [LinearOrder K] (E : Env K d) (hE : E.Contract) {Q : K → Prop} (hQ : E.DrawsIn Q) (b : Box K d)
    (hb : ∀ u : Pt K d, (∀ j, Q (u j)) → InBox b.low b.high (fun j => b.low j + u j * (b.high j - b.low j))) (n : ℕ) (s : E.S) :
    (∀ seed, (lhsSamples E b n seed s).1.length = n ∧ ∀ x ∈ (lhsSamples E b n seed s).1, InBox b.low b.high x) ∧
    (∀ seed, (randomSamples E b n seed s).1.length = n ∧ ∀ x ∈ (randomSamples E b n seed s).1, InBox b.low b.high x) ∧
    (∀ numSkip seed xs s', sobolSamples E b numSkip n seed s = .ok (xs, s') →
      xs.length = n ∧ ∀ x ∈ xs, InBox b.low b.high x) := by
  have hsc : ∀ us : List (Pt K d), (∀ x ∈ us, ∀ j, Q (x j)) → ∀ x ∈ scaleSamples b us, InBox b.low b.high x := by
    intro us h x hx
    obtain ⟨u, hu, rfl⟩ := List.mem_map.mp hx
    exact hb u (h u hu)
  refine ⟨fun seed => ⟨?_, ?_⟩, fun seed => ⟨?_, ?_⟩, ?_⟩
  · simp [lhsSamples, scaleSamples, hE.lhs_len]
  · exact hsc _ (hQ.lhs _ _ _)
  · simp [randomSamples, scaleSamples, hE.random_len]
  · exact hsc _ (hQ.random _ _)
  · intro numSkip seed xs s' h
    obtain ⟨p, h1, h⟩ := Py.bind_ok.mp h
    obtain ⟨q, h2, h⟩ := Py.bind_ok.mp h
    simp only [Except.ok.injEq, Prod.mk.injEq] at h
    obtain ⟨hq, hl⟩ := SobolEngine.random_ok _ n h2
    rw [← h.1]
    refine ⟨by simp [scaleSamples, hl], hsc _ ?_⟩
    intro x hx
    rw [hq] at hx
    obtain ⟨k, _, rfl⟩ := List.mem_map.mp hx
    have hp : p.2.seq = (E.sobol seed s).1 := by
      unfold SobolEngine.randomBase2 SobolEngine.random at h1
      split at h1
      · split at h1
        · simp only [Except.ok.injEq] at h1; rw [← h1]
        · split at h1
          · cases h1
          · simp only [Except.ok.injEq] at h1; rw [← h1]
      · cases h1
    intro j
    have := hQ.sobol seed s
    simp only [SobolEngine.reset, SobolEngine.fastForward, hp]
    exact this _ j

/-- C17. `RandomSampler.get_samples(n, seed)` returns the same samples and leaves the same global generator state whatever happened to the global generator
before. -/
theorem C17_random_reproducible (E : Env K d) (hE : E.Contract) (b : Box K d) (n seed : ℕ) (s s' : E.S) :
    randomSamples E b n seed s = randomSamples E b n seed s' := by
  simp only [randomSamples, hE.seed_reset seed s s']

/-- C17 (side effect): the state left behind is the one obtained by seeding and drawing: earlier seeding by the user is lost, so code that draws from the global
generator afterwards is also determined by this call's `seed`. -/
theorem C17_random_clobbers_global_state (E : Env K d) (hE : E.Contract) (b b' : Box K d) (n seed : ℕ) (s s' : E.S) (f : E.S → Pt K d) :
    f (randomSamples E b n seed s).2 = f (randomSamples E b' n seed s').2 := by
  simp only [randomSamples, hE.seed_reset seed s s']

/-- C18 (partial): for `n ≤ 30` and within the capacity of scipy's generator, `SobolSequence.get_samples(n)` returns the scaled points number
`num_skip, …, num_skip + n - 1` of the sequence, in this order.  Missing: `n > 30`, where the call fails (`C18_sobol_fails_beyond_30`). -/
theorem C18_sobol_block_partial (E : Env K d) (b : Box K d) (numSkip : Option ℕ) (n : ℕ) (seed : Option ℕ) (s : E.S)
    (hn : n ≤ 30) (hcap : numSkip.getD d + n ≤ 2 ^ 30) :
    ∃ xs s', sobolSamples E b numSkip n seed s = .ok (xs, s') ∧ xs.length = n ∧
      ∀ k < n, xs[k]? = some (fun j => b.low j + (E.sobol seed s).1 (numSkip.getD d + k) j * (b.high j - b.low j)) := by
  have h1 : (SobolEngine.mk (E.sobol seed s).1 0).randomBase2 n =
      .ok ((List.range (2 ^ n)).map (fun k => (E.sobol seed s).1 (0 + k)), ⟨(E.sobol seed s).1, 0 + 2 ^ n⟩) := by
    unfold SobolEngine.randomBase2 SobolEngine.random
    have : 2 ^ n ≤ 2 ^ 30 := Nat.pow_le_pow_right (by norm_num) hn
    rw [if_pos rfl, if_neg (by positivity), if_neg (by simp only [sobolMax]; omega)]
  refine ⟨scaleSamples b ((List.range n).map (fun k => (E.sobol seed s).1 (numSkip.getD d + k))), (E.sobol seed s).2, ?_⟩
  · refine ⟨?_, by simp [scaleSamples], ?_⟩
    · refine Py.bind_ok.mpr ⟨_, h1, ?_⟩
      have h2 : (((⟨(E.sobol seed s).1, 0 + 2 ^ n⟩ : SobolEngine K d).reset).fastForward (sobolSkip d numSkip)).random n =
          .ok ((List.range n).map (fun k => (E.sobol seed s).1 (numSkip.getD d + k)),
            ⟨(E.sobol seed s).1, if n = 0 then numSkip.getD d else numSkip.getD d + n⟩) := by
        unfold SobolEngine.random
        split
        · rename_i h0; subst h0; simp [SobolEngine.reset, SobolEngine.fastForward, sobolSkip]
        · rename_i h0
          simp only [SobolEngine.reset, SobolEngine.fastForward, sobolSkip, Nat.zero_add]
          rw [if_neg (by unfold sobolMax; omega)]
      exact Py.bind_ok.mpr ⟨_, h2, rfl⟩
    · intro k hk
      simp [scaleSamples, hk]
      rfl

/-- C18 fails beyond 30 points: the warm-up call `random_base2(m=n)` asks for `2 ** n` points, more than the generator can produce, so *every* call with
`n > 30` raises `ValueError`, for every design space, seed and skip. -/
theorem C18_sobol_fails_beyond_30 (E : Env K d) (b : Box K d) (numSkip : Option ℕ) (n : ℕ) (seed : Option ℕ) (s : E.S) (hn : 30 < n) :
    sobolSamples E b numSkip n seed s = .error .valueError := by
  have h1 : (SobolEngine.mk (E.sobol seed s).1 0).randomBase2 n = .error .valueError := by
    unfold SobolEngine.randomBase2 SobolEngine.random
    have : 2 ^ 30 < 2 ^ n := Nat.pow_lt_pow_right (by norm_num) hn
    rw [if_pos rfl, if_neg (by positivity), if_pos (by simp only [sobolMax]; omega)]
  exact Py.bind_error.mpr (Or.inl h1)

/-- C19. `FixNumberSampler.get_samples(n)` returns `n` rows; entry `i * c + l` of each of them is entry `(i, l)` of the `(m, c)` design-space array. -/
theorem C19_fix_number {m c : ℕ} (ds : Fin m → Fin c → K) (n : ℕ) :
    (fixNumber ds n).length = n ∧
    ∀ row ∈ fixNumber ds n, ∀ (i : Fin m) (l : Fin c) (q : Fin (m * c)), q.val = i.val * c + l.val → row q = ds i l := by
  refine ⟨by simp [fixNumber], ?_⟩
  intro row hrow i l q hq
  unfold fixNumber at hrow
  rw [List.eq_of_mem_replicate hrow]
  have : q = finProdFinEquiv (i, l) := by
    apply Fin.ext
    rw [hq, finProdFinEquiv_apply_val]
    ring
  simp only [this, Equiv.symm_apply_apply]

end AnyArithmetic

section Exact
variable {K : Type} [Field K] [LinearOrder K] [IsStrictOrderedRing K] {d : ℕ}

/-- A scaled unit point lies in the box. -/
theorem scalePt_inBox (b : Box K d) (hb : ∀ j, b.low j ≤ b.high j) (u : Pt K d) (hu : ∀ j, 0 ≤ u j ∧ u j ≤ 1) :
    InBox b.low b.high (scalePt b u) := by
  intro j
  have h1 := hb j
  obtain ⟨h2, h3⟩ := hu j
  unfold scalePt
  constructor
  · nlinarith
  · nlinarith

/-- C15 (Latin hypercube, random and Sobol sampler): `get_samples(n)` returns `n` rows, all of them inside the design space. -/
theorem C15_samples_in_bounds (E : Env K d) (hE : E.Lawful) (b : Box K d) (hb : ∀ j, b.low j ≤ b.high j) (n : ℕ) (s : E.S) :
    (∀ seed, (lhsSamples E b n seed s).1.length = n ∧ ∀ x ∈ (lhsSamples E b n seed s).1, InBox b.low b.high x) ∧
    (∀ seed, (randomSamples E b n seed s).1.length = n ∧ ∀ x ∈ (randomSamples E b n seed s).1, InBox b.low b.high x) ∧
    (∀ numSkip seed xs s', sobolSamples E b numSkip n seed s = .ok (xs, s') →
      xs.length = n ∧ ∀ x ∈ xs, InBox b.low b.high x) :=
  C15_samples_in_bounds_any_arithmetic E hE.toContract hE.drawsIn b (fun u hu => scalePt_inBox b hb u hu) n s

/-- C15 (round trip): with non-degenerate bounds the models' input normalisation applied to the returned samples gives back exactly the unit-cube
points drawn by the engine. -/
theorem C15_normalisation_inverts_scaling (E : Env K d) (b : Box K d) (hb : ∀ j, b.low j < b.high j) (n : ℕ) (s : E.S) :
    (∀ seed, (lhsSamples E b n seed s).1.map (normPt b) = (E.lhs seed n s).1) ∧
    (∀ seed, (randomSamples E b n seed s).1.map (normPt b) = (E.random n (E.seed seed s)).1) ∧
    (∀ numSkip seed xs s', sobolSamples E b numSkip n seed s = .ok (xs, s') → xs.map (normPt b) = (List.range n).map fun k => (E.sobol seed s).1 (numSkip.getD d + k)) := by
  have key : ∀ us : List (Pt K d), (scaleSamples b us).map (normPt b) = us := by
    intro us
    unfold scaleSamples
    rw [List.map_map]
    conv_rhs => rw [← List.map_id us]
    apply List.map_congr_left
    intro u _
    funext j
    have h : b.high j - b.low j ≠ 0 := by have := hb j; intro h0; linarith
    simp only [Function.comp, normPt, scalePt, id]
    field_simp
    ring
  refine ⟨fun seed => key _, fun seed => key _, fun numSkip seed xs s' h => ?_⟩
  unfold sobolSamples at h
  obtain ⟨⟨_, e⟩, h1, h⟩ := Py.bind_ok.mp h
  obtain ⟨⟨us, _⟩, h2, h⟩ := Py.bind_ok.mp h
  cases h
  rw [key]
  have he : e.seq = (E.sobol seed s).1 := by
    unfold SobolEngine.randomBase2 SobolEngine.random at h1
    split at h1
    · split at h1
      · cases h1; rfl
      · split at h1
        · cases h1
        · cases h1; rfl
    · cases h1
  unfold SobolEngine.random at h2
  split at h2
  · rename_i h0
    cases h2
    rw [h0]
    rfl
  · split at h2
    · cases h2
    · cases h2
      simp only [SobolEngine.reset, SobolEngine.fastForward, sobolSkip, he, Nat.zero_add]

/-- C16. The points returned by `LatinHyperCube.get_samples(n)` form a Latin hypercube on the design space whenever scipy's engine returns a Latin hypercube
of the unit cube. -/
theorem C16_lhs_stratified (E : Env K d) (b : Box K d) (hb : ∀ j, b.low j < b.high j) (n : ℕ) (seed : Option ℕ) (s : E.S)
    (hlat : IsLatin (fun _ => 0) (fun _ => 1) (E.lhs seed n s).1) : IsLatin b.low b.high (lhsSamples E b n seed s).1 := by
  intro j k hk
  simp only [lhsSamples, scaleSamples, List.length_map] at hk ⊢
  obtain ⟨i, ⟨x, hx, h1, h2⟩, huniq⟩ := hlat j k hk
  have hpos : 0 < b.high j - b.low j := by have := hb j; linarith
  have hn : (0 : K) < ((E.lhs seed n s).1.length : K) := by exact_mod_cast (by omega : 0 < (E.lhs seed n s).1.length)
  have key : ∀ a u : K, (b.low j + a * ((b.high j - b.low j) / ((E.lhs seed n s).1.length : K)) < b.low j + u * (b.high j - b.low j) ↔
      0 + a * ((1 - 0) / ((E.lhs seed n s).1.length : K)) < u) ∧
      (b.low j + u * (b.high j - b.low j) ≤ b.low j + a * ((b.high j - b.low j) / ((E.lhs seed n s).1.length : K)) ↔
        u ≤ 0 + a * ((1 - 0) / ((E.lhs seed n s).1.length : K))) := by
    intro a u
    have e : a * ((b.high j - b.low j) / ((E.lhs seed n s).1.length : K)) =
        (0 + a * ((1 - 0) / ((E.lhs seed n s).1.length : K))) * (b.high j - b.low j) := by ring
    rw [e]
    constructor
    · rw [add_lt_add_iff_left, mul_lt_mul_iff_left₀ hpos]
    · rw [add_le_add_iff_left, mul_le_mul_iff_left₀ hpos]
  refine ⟨i, ⟨scalePt b x, by simp [hx], (key _ _).1.mpr h1, (key _ _).2.mpr h2⟩, ?_⟩
  rintro i' ⟨x', hx', h1', h2'⟩
  rw [List.getElem?_map, Option.map_eq_some_iff] at hx'
  obtain ⟨u', hu', rfl⟩ := hx'
  exact huniq i' ⟨u', hu', (key _ _).1.mp h1', (key _ _).2.mp h2'⟩

end Exact

/-! ### Concrete cases -/

/-- The box `[-1, 3] × [2, 4]`. -/
def sampleBox : Box ℚ 2 := { low := ![-1, 2], high := ![3, 4] }

example : ∀ j, sampleBox.low j < sampleBox.high j := by intro j; fin_cases j <;> norm_num [sampleBox]

example : (exEnv 2).Lawful := exEnv_lawful 2

/-- The engine of the concrete world produces Latin hypercubes, for every `n`. -/
example (n : ℕ) (seed : Option ℕ) (s : ℕ) : IsLatin (fun _ => 0) (fun _ => 1) ((exEnv 2).lhs seed n s).1 := by
  intro j k hk
  simp only [exEnv, List.length_map, List.length_range] at hk ⊢
  have hn : (0 : ℚ) < n := by exact_mod_cast (by omega : 0 < n)
  refine ⟨k, ⟨_, by simp [hk]; rfl, ?_, ?_⟩, ?_⟩
  · rw [zero_add, sub_zero, mul_one_div, div_lt_div_iff_of_pos_right hn]; linarith
  · rw [zero_add, sub_zero, mul_one_div]
  · rintro i ⟨x, hx, h1, h2⟩
    rw [List.getElem?_map, Option.map_eq_some_iff] at hx
    obtain ⟨i', hi', rfl⟩ := hx
    rw [List.getElem?_range (by
      by_contra h
      rw [List.getElem?_eq_none (by simpa using h)] at hi'
      cases hi')] at hi'
    simp only [Option.some.injEq] at hi'
    subst hi'
    simp only [zero_add, sub_zero, mul_one_div] at h1 h2
    rw [div_lt_div_iff_of_pos_right hn] at h1
    rw [div_le_div_iff_of_pos_right hn] at h2
    have h1' : (k : ℚ) < ((i + 1 : ℕ) : ℚ) := by push_cast; exact h1
    have h2' : ((i + 1 : ℕ) : ℚ) ≤ ((k + 1 : ℕ) : ℚ) := by push_cast; exact h2
    have := Nat.cast_lt.mp h1'
    have := Nat.cast_le.mp h2'
    omega

/-- A Sobol call that returns. -/
example : (sobolSamples (exEnv 2) sampleBox none 4 (some 7) (0 : ℕ)).isOk = true := by
  obtain ⟨xs, s', h, _⟩ := C18_sobol_block_partial (exEnv 2) sampleBox none 4 (some 7) (0 : ℕ) (by norm_num) (by norm_num)
  rw [h]; rfl

end Mfpml.Props
