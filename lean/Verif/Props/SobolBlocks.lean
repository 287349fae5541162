import Verif.Props.MFSamplers
import Verif.Props.SFSamplers

/-!
# Which points of the Sobol sequence the multi-fidelity sampler returns (C142)
-/

set_option linter.unusedSectionVars false

namespace Mfpml.Props

open Mfpml.Sampling
open Mfpml.EA (Box)

section AnyArithmetic
variable {K : Type} [Add K] [Sub K] [Mul K] {d : ℕ}

/-- Points number `skip, …, skip + n - 1` of the sequence `seq`, scaled into the design space `b`. -/
def sobolBlock (b : Box K d) (seq : ℕ → Pt K d) (skip n : ℕ) : List (Pt K d) :=
  (List.range n).map fun k j => seq (skip + k) j * (b.high j - b.low j) + b.low j

theorem mfScale_block (b : Box K d) (seq : ℕ → Pt K d) (skip n : ℕ) : mfScale b ((List.range n).map fun k => seq (skip + k)) = sobolBlock b seq skip n := by
  unfold mfScale sobolBlock
  rw [List.map_map]
  rfl

theorem sobolBlock_take (b : Box K d) (seq : ℕ → Pt K d) (skip n m : ℕ) (h : m ≤ n) : (sobolBlock b seq skip n).take m = sobolBlock b seq skip m := by
  unfold sobolBlock
  rw [← List.map_take, List.take_range, min_eq_left h]

theorem mf_sobol_blocks (E : Env K d) (hE : E.Contract) (m : MFSampler K d) (skip : ℕ) (hk : m.kind = .sobol skip) (ns : List ℕ) (sd : ℕ) (s : E.S)
    {data left s'} (h : getSamples E m ns (some sd) s = .ok (data, left, s')) :
    (m.nested = false → ∀ (i n : ℕ), ns[i]? = some n → ∃ b, m.spaces[i]? = some b ∧ data[i]? = some (sobolBlock b (E.sobol (some sd) s).1 skip n)) ∧
    (m.nested = true → ∃ b, m.spaces[ns.length - 1]? = some b ∧ ∀ (i n : ℕ), ns[i]? = some n → data[i]? = some (sobolBlock b (E.sobol (some sd) s).1 skip n)) := by
  obtain ⟨hp, hl, _, hpos, ⟨n0, xs0, s2, h1, h2, h3⟩, hall⟩ := getSamples_char E m ns (some sd) s h
  have hnn : ∀ n i s1 xs s2, nonNested E m (some sd) n i s1 = .ok (xs, s2) → ∃ b, m.spaces[i]? = some b ∧ xs = sobolBlock b (E.sobol (some sd) s).1 skip n := fun n i s1 xs s2 hx => by
    obtain ⟨b, us, hb, hxs, _, _, hu, _⟩ := nonNested_ok E hE m (some sd) n i s1 hx
    refine ⟨b, hb, ?_⟩
    rw [hxs, hu skip hk, (hE.sobol_seeded sd s1 s).1, mfScale_block]
  obtain ⟨b0, hb0, hx0⟩ := hnn _ _ _ _ _ h3
  refine ⟨fun hm i n hn => ?_, fun hm => ⟨b0, hb0, ?_⟩⟩
  · have hi : i < ns.length := (List.getElem?_eq_some_iff.mp hn).1
    rcases Nat.lt_or_ge (i + 1) ns.length with hlt | hge
    · obtain ⟨n', xs, ys, s1, s2', e1, e2, e3, e4⟩ := hall i hlt
      obtain rfl : n = n' := Option.some.inj (hn.symm.trans e1)
      unfold step at e4
      rw [hm] at e4
      obtain ⟨b, hb, hx⟩ := hnn _ _ _ _ _ e4
      exact ⟨b, hb, by rw [e2, hx]⟩
    · obtain rfl : i = ns.length - 1 := by omega
      obtain rfl : n = n0 := Option.some.inj (hn.symm.trans h1)
      exact ⟨b0, hb0, by rw [h2, hx0]⟩
  · have key : ∀ t i n, i + t + 1 = ns.length → ns[i]? = some n → data[i]? = some (sobolBlock b0 (E.sobol (some sd) s).1 skip n) := by
      intro t
      induction t with
      | zero =>
        intro i n hi hn
        obtain rfl : i = ns.length - 1 := by omega
        obtain rfl : n = n0 := Option.some.inj (hn.symm.trans h1)
        rw [h2, hx0]
      | succ t ih =>
        intro i n hi hn
        obtain ⟨n', xs, ys, s1, s2', e1, e2, e3, e4⟩ := hall i (by omega)
        obtain rfl : n = n' := Option.some.inj (hn.symm.trans e1)
        obtain ⟨n1, hn1⟩ : ∃ n1, ns[i + 1]? = some n1 := ⟨_, List.getElem?_eq_getElem (by omega)⟩
        have hy := ih (i + 1) n1 (by omega) hn1
        obtain rfl := Option.some.inj (e3.symm.trans hy)
        have hle : n ≤ n1 := by
          have := List.pairwise_iff_getElem.mp hp i (i + 1) (by omega) (by omega) (by omega)
          rw [List.getElem?_eq_getElem (by omega), Option.some.injEq] at hn hn1
          omega
        unfold step at e4
        rw [hm, if_pos rfl] at e4
        unfold nestedFrom at e4
        rw [hk] at e4
        have e5 := (Prod.mk.inj (Except.ok.inj e4)).1
        rw [e2, ← e5, sobolBlock_take _ _ _ _ _ hle]
    intro i n hn
    have hi : i < ns.length := (List.getElem?_eq_some_iff.mp hn).1
    exact key (ns.length - 1 - i) i n (by omega) hn

/-- **C142 (one design space).** `MFSobolSequence` with one design space and an integer seed: the `n_i` samples of every fidelity are points number `num_skip, …, num_skip + n_i - 1` of the sequence of this seed, scaled into
the design space; without `num_skip` the number of variables is skipped, as by `SobolSequence`. -/
theorem C142_shared (E : Env K d) (hE : E.Contract) (b : Box K d) (numFidelity : ℕ) (nested : Bool) (numSkip : Option ℕ) (ns : List ℕ) (sd : ℕ) (s : E.S)
    {data left s'} (h : getSamples E (mkShared true b numFidelity nested numSkip) ns (some sd) s = .ok (data, left, s')) :
    data = ns.map (sobolBlock b (E.sobol (some sd) s).1 (numSkip.getD d)) := by
  obtain ⟨h1, h2⟩ := mf_sobol_blocks E hE _ (numSkip.getD d) rfl ns sd s h
  have hl := (getSamples_char E _ ns (some sd) s h).2.1
  have hb : ∀ i b', (mkShared true b numFidelity nested numSkip).spaces[i]? = some b' → b' = b := fun i b' hb' => List.eq_of_mem_replicate (List.mem_of_getElem? hb')
  have hall : ∀ (i n : ℕ), ns[i]? = some n → data[i]? = some (sobolBlock b (E.sobol (some sd) s).1 (numSkip.getD d) n) := fun i n hn => by
    cases nested with
    | false =>
      obtain ⟨b', hb', hd⟩ := h1 rfl i n hn
      rwa [hb i b' hb'] at hd
    | true =>
      obtain ⟨b', hb', hd⟩ := h2 rfl
      have := hd i n hn
      rwa [hb _ b' hb'] at this
  apply List.ext_getElem?
  intro i
  rw [List.getElem?_map]
  cases hn : ns[i]? with
  | none =>
    rw [List.getElem?_eq_none_iff] at hn
    rw [Option.map_none, List.getElem?_eq_none_iff, hl]
    exact hn
  | some n => rw [hall i n hn]; rfl

/-- C142 (a list of design spaces), partial: the same in the design space of each fidelity (non-nested), or in the design space of the lowest fidelity for all fidelities (nested).  The sampler skips `num_skip` points.
Missing: without `num_skip`, where the number of skipped points is the number of *fidelities*, not of variables. -/
theorem C142_list_partial (E : Env K d) (hE : E.Contract) (bs : List (Box K d)) (nested : Bool) (numSkip : Option ℕ) (m : MFSampler K d) (hm : mkList true bs nested numSkip = .ok m) (ns : List ℕ) (sd : ℕ) (s : E.S)
    {data left s'} (h : getSamples E m ns (some sd) s = .ok (data, left, s')) (skip : ℕ) (hs : skip = numSkip.getD bs.length) :
    (nested = false → ∀ (i n : ℕ), ns[i]? = some n → ∃ b, bs[i]? = some b ∧ data[i]? = some (sobolBlock b (E.sobol (some sd) s).1 skip n)) ∧
    (nested = true → ∃ b, bs[ns.length - 1]? = some b ∧ data = ns.map (sobolBlock b (E.sobol (some sd) s).1 skip)) := by
  unfold mkList at hm
  split at hm
  · cases hm
  · obtain rfl := Except.ok.inj hm
    obtain ⟨h1, h2⟩ := mf_sobol_blocks E hE _ skip (by rw [hs]; rfl) ns sd s h
    have hl := (getSamples_char E _ ns (some sd) s h).2.1
    refine ⟨h1, fun hn => ?_⟩
    obtain ⟨b, hb, hall⟩ := h2 hn
    refine ⟨b, hb, ?_⟩
    apply List.ext_getElem?
    intro i
    rw [List.getElem?_map]
    cases hn : ns[i]? with
    | none =>
      rw [List.getElem?_eq_none_iff] at hn
      rw [Option.map_none, List.getElem?_eq_none_iff, hl]
      exact hn
    | some n => rw [hall i n hn]; rfl

end AnyArithmetic

/-- C142 is false for a list of design spaces: in three dimensions, with two fidelities and the same design space for both, leaving out `num_skip` skips two points if the design spaces are given as a list and three if they
are given as one array, and the samples differ. -/
theorem C142_list_counterexample : ∃ (E : Env ℚ 3) (b : Box ℚ 3) (m : MFSampler ℚ 3) (data data' : List (List (Pt ℚ 3))) (left left' : List ℕ) (s s' s'' : E.S), E.Lawful ∧ (∀ j, b.low j < b.high j) ∧
    mkList true [b, b] false none = .ok m ∧ getSamples E m [1, 1] (some 0) s = .ok (data, left, s') ∧ getSamples E (mkShared true b 2 false none) [1, 1] (some 0) s = .ok (data', left', s'') ∧
    data = [sobolBlock b (E.sobol (some 0) s).1 2 1, sobolBlock b (E.sobol (some 0) s).1 2 1] ∧ data' = [sobolBlock b (E.sobol (some 0) s).1 3 1, sobolBlock b (E.sobol (some 0) s).1 3 1] ∧ data ≠ data' := by
  refine ⟨exEnv 3, ⟨fun _ => 0, fun _ => 1⟩, _, _, _, _, _, (0 : ℕ), _, _, exEnv_lawful 3, fun _ => by norm_num, rfl, rfl, rfl, rfl, rfl, ?_⟩
  intro h
  have h1 := congrArg (fun l => (l.getD 0 []).getD 0 (fun _ => 0) 0) h
  norm_num [mfScale, exEnv, mkShared, SobolEngine.reset, SobolEngine.fastForward, List.range, List.range.loop] at h1

/-- A nested design with two design spaces for which the partial theorem speaks. -/
example : ∃ m data left s', mkList true [⟨fun _ => 0, fun _ => 1⟩, ⟨fun _ => 0, fun _ => 10⟩] true (some 4) = .ok m ∧ getSamples (exEnv 2) m [1, 3] (some 7) (0 : ℕ) = .ok (data, left, s') ∧
    data = [1, 3].map (sobolBlock ⟨fun _ => 0, fun _ => 10⟩ ((exEnv 2).sobol (some 7) (0 : ℕ)).1 4) := by
  refine ⟨_, _, _, _, rfl, rfl, ?_⟩
  obtain ⟨b, hb, h⟩ := (C142_list_partial (exEnv 2) (exEnv_lawful 2).toContract [⟨fun _ => 0, fun _ => 1⟩, ⟨fun _ => 0, fun _ => 10⟩] true (some 4) _ rfl [1, 3] 7 (0 : ℕ) rfl 4 rfl).2 rfl
  obtain rfl := Option.some.inj hb
  exact h

end Mfpml.Props
