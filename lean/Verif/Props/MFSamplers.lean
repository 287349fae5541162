import Verif.Lemmas.Samplers
import Verif.Lemmas.SamplerEnv
import Verif.Lemmas.Evolutionary
import Verif.Lemmas.Py
import Verif.Spec.Evolutionary
import Mathlib.Tactic.FinCases
import Mathlib.Data.Fin.VecNotation

/-!
# Properties of the multi-fidelity samplers (C20–C25)

`getSamples E m ns seed s = .ok (data, left, s')`: the call `m.get_samples(ns, seed=seed)` in world state `s` returned `data` (highest fidelity
first), left `left` in the caller's list `ns` and the world in state `s'`.
-/

set_option linter.unusedSectionVars false

namespace Mfpml.Props

open Mfpml.Sampling Mfpml.Spec
open Mfpml.EA (Box)

variable {K : Type} [Add K] [Sub K] [Mul K] {d : ℕ}

/-- C20 (sizes): a call that returns yields one array per entry of the list, the `i`-th with `ns[i]` rows. -/
theorem C20_mf_sizes (E : Env K d) (hE : E.Contract) (m : MFSampler K d) (ns : List ℕ) (seed : Option ℕ) (s : E.S) {data left s'}
    (h : getSamples E m ns seed s = .ok (data, left, s')) : data.map List.length = ns := by
  obtain ⟨hp, hl, _, hpos, ⟨n, xs, s2, h1, h2, h3⟩, hk⟩ := getSamples_char E m ns seed s h
  have key : ∀ t, t < ns.length → ∃ xs, data[ns.length - 1 - t]? = some xs ∧ ns[ns.length - 1 - t]? = some xs.length := by
    intro t
    induction t with
    | zero =>
      intro _
      obtain ⟨b, us, _, hx, hul, _⟩ := nonNested_ok E hE m seed n _ s h3
      refine ⟨xs, by simpa using h2, ?_⟩
      rw [hx, mfScale_length, hul]
      simpa using h1
    | succ t ih =>
      intro ht
      obtain ⟨ys', hy', hly'⟩ := ih (by omega)
      obtain ⟨n', xs', ys, s1, s2', h1', h2', h3', h4'⟩ := hk (ns.length - 1 - (t + 1)) (by omega)
      have e : ns.length - 1 - (t + 1) + 1 = ns.length - 1 - t := by omega
      rw [e] at h3'
      rw [h3'] at hy'
      cases hy'
      have hle : n' ≤ ys'.length := by
        have := List.pairwise_iff_getElem.mp hp (ns.length - 1 - (t + 1)) (ns.length - 1 - t) (by omega) (by omega) (by omega)
        rw [List.getElem?_eq_getElem (by omega), Option.some.injEq] at h1' hly'
        omega
      exact ⟨xs', h2', by rw [step_length E hE m seed n' _ ys' s1 hle h4']; exact h1'⟩
  apply List.ext_getElem?
  intro i
  rcases Nat.lt_or_ge i ns.length with hi | hi
  · obtain ⟨xs', h1', h2'⟩ := key (ns.length - 1 - i) (by omega)
    have e : ns.length - 1 - (ns.length - 1 - i) = i := by omega
    rw [e] at h1' h2'
    rw [List.getElem?_map, h1', h2']
    rfl
  · rw [List.getElem?_eq_none (by simpa [hl] using hi), List.getElem?_eq_none hi]

/-- C20 (when the sizes are refused): `AssertionError` is raised exactly when the list is not non-decreasing, that is when some fidelity is asked for more
samples than a lower one. -/
theorem C20_mf_assertion_iff (E : Env K d) (m : MFSampler K d) (ns : List ℕ) (seed : Option ℕ) (s : E.S) :
    getSamples E m ns seed s = .error .assertionError ↔ ¬ ns.Pairwise (· ≤ ·) := by
  constructor
  · intro h hp
    rcases ns.eq_nil_or_concat with rfl | ⟨init, n, rfl⟩
    · cases h
    · rw [List.concat_eq_append] at h hp
      rw [getSamples_append E m init n seed s hp] at h
      rcases Py.bind_error.mp h with h | ⟨a, h1, h⟩
      · exact nonNested_ne_assertion _ _ _ _ _ _ h
      · rcases Py.bind_error.mp h with h | ⟨a', h1, h⟩
        · exact mfLoop_ne_assertion _ _ _ _ _ _ _ h
        · cases h
  · intro hp
    exact Py.bind_error.mpr (Or.inl (rules_error ns hp))

/-- C20 (exactly when the call returns): the list is non-empty and non-decreasing, there is a design space for every requested fidelity, and (Sobol) the
generator can produce the largest set after the skipped points. -/
theorem C20_mf_returns_iff (E : Env K d) (hE : E.Contract) (m : MFSampler K d) (ns : List ℕ) (seed : Option ℕ) (s : E.S) :
    (∃ r, getSamples E m ns seed s = .ok r) ↔
      ns.Pairwise (· ≤ ·) ∧ ns ≠ [] ∧ ns.length ≤ m.spaces.length ∧
      ∀ skip, m.kind = .sobol skip → ∀ n ∈ ns, n = 0 ∨ skip + n ≤ 2 ^ 30 := by
  constructor
  · rintro ⟨⟨data, left, s'⟩, h⟩
    obtain ⟨hp, hl, _, hpos, ⟨n, xs, s2, h1, h2, h3⟩, hk⟩ := getSamples_char E m ns seed s h
    refine ⟨hp, ?_, ?_, ?_⟩
    · rintro rfl; simp at hpos
    · by_contra hc
      exact nonNested_fid_error E m seed n _ s (by omega) _ h3
    · intro skip hs n' hn'
      have hcap := nonNested_capacity E m seed n _ s h3 skip hs
      have hle : n' ≤ n := by
        obtain ⟨i, hi, rfl⟩ := List.mem_iff_getElem.mp hn'
        rw [List.getElem?_eq_getElem (by omega), Option.some.injEq] at h1
        rcases Nat.lt_or_ge i (ns.length - 1) with hlt | hge
        · have := List.pairwise_iff_getElem.mp hp i (ns.length - 1) (by omega) (by omega) hlt
          omega
        · have : i = ns.length - 1 := by omega
          subst this; omega
      unfold sobolMax at hcap
      omega
  · rintro ⟨hp, hne, hsp, hcap⟩
    rcases ns.eq_nil_or_concat with rfl | ⟨init, n, rfl⟩
    · exact absurd rfl hne
    · rw [List.concat_eq_append] at hp hsp hcap ⊢
      simp only [List.length_append, List.length_cons, List.length_nil] at hsp
      obtain ⟨⟨low, s1⟩, h1⟩ := nonNested_succeeds E m seed n init.length s (by omega)
        (fun skip hs => by unfold sobolMax; exact hcap skip hs n (by simp))
      obtain ⟨b, us, _, hx, hul, _⟩ := nonNested_ok E hE m seed n _ s h1
      have hlen : low.length = n := by rw [hx, mfScale_length, hul]
      obtain ⟨q, h2⟩ := mfLoop_succeeds E hE m seed init.reverse low [] s1
        (by simpa [hlen] using hp) (by simp; omega)
        (fun n' hn' skip hs => by unfold sobolMax; exact hcap skip hs n' (by simp at hn'; simp [hn']))
      refine ⟨(q.1, q.2.1.reverse, q.2.2), ?_⟩
      rw [getSamples_append E m init n seed s hp]
      exact Py.bind_ok.mpr ⟨_, h1, Py.bind_ok.mpr ⟨_, h2, rfl⟩⟩

/-- Adjacent fidelities of a nested design. -/
theorem nested_adjacent (E : Env K d) (hE : E.Contract) (m : MFSampler K d) (hm : m.nested = true) (ns : List ℕ) (seed : Option ℕ) (s : E.S)
    {data left s'} (h : getSamples E m ns seed s = .ok (data, left, s')) (i : ℕ) (hi : i + 1 < data.length) :
    (data[i]'(by omega)).Subperm (data[i + 1]) := by
  have hs := C20_mf_sizes E hE m ns seed s h
  obtain ⟨hp, hl, _, hpos, _, hk⟩ := getSamples_char E m ns seed s h
  obtain ⟨n', xs', ys, s1, s2', h1', h2', h3', h4'⟩ := hk i (by omega)
  rw [List.getElem?_eq_getElem (by omega), Option.some.injEq] at h2' h3'
  rw [h2', h3']
  have hle : n' ≤ ys.length := by
    have h5 := List.pairwise_iff_getElem.mp hp i (i + 1) (by omega) (by omega) (by omega)
    have h6 : ns[i + 1]'(by omega) = ys.length := by
      have : (data.map List.length)[i + 1]? = some ys.length := by
        rw [List.getElem?_map, List.getElem?_eq_getElem (by omega), h3']; rfl
      rw [hs, List.getElem?_eq_getElem (by omega), Option.some.injEq] at this
      exact this
    rw [List.getElem?_eq_getElem (by omega), Option.some.injEq] at h1'
    omega
  unfold step at h4'
  rw [if_pos hm] at h4'
  exact (nestedFrom_ok E hE m n' ys s1 h4' hle).1

/-- C21. With `nested=True`, the samples of a fidelity form, row for row (counting repetitions), a part of the samples of every lower fidelity: some reordering of
`data[i]` is a sub-sequence of `data[j]` for `i < j`. -/
theorem C21_mf_nested (E : Env K d) (hE : E.Contract) (m : MFSampler K d) (hm : m.nested = true) (ns : List ℕ) (seed : Option ℕ) (s : E.S)
    {data left s'} (h : getSamples E m ns seed s = .ok (data, left, s')) (i j : ℕ) (hij : i < j) (hj : j < data.length) :
    (data[i]'(by omega)).Subperm (data[j]) := by
  induction j, hij using Nat.le_induction with
  | base => exact nested_adjacent E hE m hm ns seed s h i hj
  | succ j hj' ih =>
    exact (ih (by omega)).trans (nested_adjacent E hE m hm ns seed s h j hj)

theorem mfScale_inBox_any [LinearOrder K] {Q : K → Prop} (b : Box K d) (hs : ∀ u : Pt K d, (∀ j, Q (u j)) → ScalesIntoBox b.low b.high u)
    (us : List (Pt K d)) (hu : ∀ u ∈ us, ∀ j, Q (u j)) : ∀ x ∈ mfScale b us, InBox b.low b.high x := by
  intro x hx
  obtain ⟨u, hu', rfl⟩ := List.mem_map.mp hx
  exact hs u (hu u hu')

/-- C22, in every arithmetic (partial, non-nested designs): every sample of fidelity `i` lies in the design space of fidelity `i`.  Missing: nested designs with different design
spaces, for which the property is false (`C22_mf_bounds_nested_counterexample`). -/
theorem C22_mf_bounds_non_nested_any_arithmetic_partial [LinearOrder K] (E : Env K d) (hE : E.Contract) {Q : K → Prop} (hQ : E.DrawsIn Q) (m : MFSampler K d) (hm : m.nested = false) (ns : List ℕ) (seed : Option ℕ) (s : E.S)
    (hs : ∀ b ∈ m.spaces, ∀ u : Pt K d, (∀ j, Q (u j)) → ScalesIntoBox b.low b.high u)
    {data left s'} (h : getSamples E m ns seed s = .ok (data, left, s')) (i : ℕ) (hi : i < data.length) :
    ∃ b, m.spaces[i]? = some b ∧ ∀ x ∈ data[i], InBox b.low b.high x := by
  obtain ⟨hp, hl, _, hpos, ⟨n, xs, s2, h1, h2, h3⟩, hk⟩ := getSamples_char E m ns seed s h
  have main : ∃ n s1 s2, nonNested E m seed n i s1 = .ok (data[i], s2) := by
    rcases Nat.lt_or_ge (i + 1) ns.length with hlt | hge
    · obtain ⟨n', xs', ys, s1, s2', h1', h2', h3', h4'⟩ := hk i hlt
      unfold step at h4'
      rw [hm] at h4'
      rw [List.getElem?_eq_getElem hi, Option.some.injEq] at h2'
      exact ⟨n', s1, s2', by rw [h2']; exact h4'⟩
    · have : ns.length - 1 = i := by omega
      rw [this] at h2 h3
      rw [List.getElem?_eq_getElem hi, Option.some.injEq] at h2
      exact ⟨n, s, s2, by rw [h2]; exact h3⟩
  obtain ⟨n', s1, s2', h4⟩ := main
  obtain ⟨b, us, hbs, hx, _, hu, _⟩ := nonNested_ok E hE m seed n' i s1 h4
  refine ⟨b, hbs, ?_⟩
  rw [hx]
  exact mfScale_inBox_any b (hs b (List.mem_of_getElem? hbs)) us (hu Q hQ)

/-- C22, in every arithmetic (partial, nested designs): all samples of all fidelities lie in the design space of the *lowest* fidelity requested. -/
theorem C22_mf_bounds_nested_any_arithmetic_partial [LinearOrder K] (E : Env K d) (hE : E.Contract) {Q : K → Prop} (hQ : E.DrawsIn Q) (m : MFSampler K d) (hm : m.nested = true) (ns : List ℕ) (seed : Option ℕ) (s : E.S)
    (hs : ∀ b ∈ m.spaces, ∀ u : Pt K d, (∀ j, Q (u j)) → ScalesIntoBox b.low b.high u)
    {data left s'} (h : getSamples E m ns seed s = .ok (data, left, s')) :
    ∃ b, m.spaces[data.length - 1]? = some b ∧ ∀ xs ∈ data, ∀ x ∈ xs, InBox b.low b.high x := by
  obtain ⟨hp, hl, _, hpos, ⟨n, xs, s2, h1, h2, h3⟩, hk⟩ := getSamples_char E m ns seed s h
  obtain ⟨b, us, hbs, hx, _, hu, _⟩ := nonNested_ok E hE m seed n _ s h3
  rw [← hl] at hbs h2
  refine ⟨b, hbs, ?_⟩
  have hlow := mfScale_inBox_any b (hs b (List.mem_of_getElem? hbs)) us (hu Q hQ)
  rw [← hx] at hlow
  intro zs hzs x hxz
  obtain ⟨i, hi, rfl⟩ := List.mem_iff_getElem.mp hzs
  rw [List.getElem?_eq_getElem (by omega), Option.some.injEq] at h2
  rcases Nat.lt_or_ge i (data.length - 1) with hlt | hge
  · have := C21_mf_nested E hE m hm ns seed s h i (data.length - 1) hlt (by omega)
    rw [h2] at this
    exact hlow x (this.subset hxz)
  · have : i = data.length - 1 := by omega
    subst this
    rw [h2] at hxz
    exact hlow x hxz

/-- C22, in every arithmetic (partial, the common case): with one design space shared by all fidelities every sample of every fidelity lies in it, nested or not. -/
theorem C22_mf_bounds_shared_any_arithmetic_partial [LinearOrder K] (E : Env K d) (hE : E.Contract) {Q : K → Prop} (hQ : E.DrawsIn Q) (sobol : Bool) (b : Box K d) (hs : ∀ u : Pt K d, (∀ j, Q (u j)) → ScalesIntoBox b.low b.high u) (numFidelity : ℕ) (nested : Bool)
    (numSkip : Option ℕ) (ns : List ℕ) (seed : Option ℕ) (s : E.S) {data left s'}
    (h : getSamples E (mkShared sobol b numFidelity nested numSkip) ns seed s = .ok (data, left, s')) :
    ∀ xs ∈ data, ∀ x ∈ xs, InBox b.low b.high x := by
  have hall : ∀ b' ∈ (mkShared sobol b numFidelity nested numSkip).spaces, b' = b := fun b' h' => List.eq_of_mem_replicate h'
  have hb' : ∀ b' ∈ (mkShared sobol b numFidelity nested numSkip).spaces, ∀ u : Pt K d, (∀ j, Q (u j)) → ScalesIntoBox b'.low b'.high u := by
    intro b' h'; rw [hall b' h']; exact hs
  cases hn : nested with
  | true =>
    obtain ⟨b', hbs, hx⟩ := C22_mf_bounds_nested_any_arithmetic_partial E hE hQ _ (by simp [mkShared, hn]) ns seed s hb' h
    rw [hall b' (List.mem_of_getElem? hbs)] at hx
    exact hx
  | false =>
    intro xs hxs
    obtain ⟨i, hi, rfl⟩ := List.mem_iff_getElem.mp hxs
    obtain ⟨b', hbs, hx⟩ := C22_mf_bounds_non_nested_any_arithmetic_partial E hE hQ _ (by simp [mkShared, hn]) ns seed s hb' h i hi
    rw [hall b' (List.mem_of_getElem? hbs)] at hx
    exact hx

section Exact
variable {K : Type} [Field K] [LinearOrder K] [IsStrictOrderedRing K] {d : ℕ}

/-- C22 (partial, non-nested designs): every sample of fidelity `i` lies in the design space of fidelity `i`.  Missing: nested designs with different design
spaces, for which the property is false (`C22_mf_bounds_nested_counterexample`). -/
theorem C22_mf_bounds_non_nested_partial (E : Env K d) (hE : E.Lawful) (m : MFSampler K d) (hm : m.nested = false) (ns : List ℕ) (seed : Option ℕ) (s : E.S)
    (hb : ∀ b ∈ m.spaces, ∀ j, b.low j ≤ b.high j)
    {data left s'} (h : getSamples E m ns seed s = .ok (data, left, s')) (i : ℕ) (hi : i < data.length) :
    ∃ b, m.spaces[i]? = some b ∧ ∀ x ∈ data[i], InBox b.low b.high x :=
  C22_mf_bounds_non_nested_any_arithmetic_partial E hE.toContract hE.drawsIn m hm ns seed s
    (fun b hb' _ hu => Mfpml.EA.scalesIntoBox_exact (hb b hb') hu) h i hi

/-- C22 (partial, nested designs): all samples of all fidelities lie in the design space of the *lowest* fidelity requested. -/
theorem C22_mf_bounds_nested_partial (E : Env K d) (hE : E.Lawful) (m : MFSampler K d) (hm : m.nested = true) (ns : List ℕ) (seed : Option ℕ) (s : E.S)
    (hb : ∀ b ∈ m.spaces, ∀ j, b.low j ≤ b.high j)
    {data left s'} (h : getSamples E m ns seed s = .ok (data, left, s')) :
    ∃ b, m.spaces[data.length - 1]? = some b ∧ ∀ xs ∈ data, ∀ x ∈ xs, InBox b.low b.high x :=
  C22_mf_bounds_nested_any_arithmetic_partial E hE.toContract hE.drawsIn m hm ns seed s
    (fun b hb' _ hu => Mfpml.EA.scalesIntoBox_exact (hb b hb') hu) h

/-- C22 (partial, the common case): with one design space shared by all fidelities every sample of every fidelity lies in it, nested or not. -/
theorem C22_mf_bounds_shared_partial (E : Env K d) (hE : E.Lawful) (sobol : Bool) (b : Box K d) (hb : ∀ j, b.low j ≤ b.high j) (numFidelity : ℕ) (nested : Bool)
    (numSkip : Option ℕ) (ns : List ℕ) (seed : Option ℕ) (s : E.S) {data left s'}
    (h : getSamples E (mkShared sobol b numFidelity nested numSkip) ns seed s = .ok (data, left, s')) :
    ∀ xs ∈ data, ∀ x ∈ xs, InBox b.low b.high x :=
  C22_mf_bounds_shared_any_arithmetic_partial E hE.toContract hE.drawsIn sobol b (fun _ hu => Mfpml.EA.scalesIntoBox_exact hb hu)
    numFidelity nested numSkip ns seed s h

end Exact

/-- Two design spaces, `[0,1]` for the high and `[0,10]` for the low fidelity. -/
def twoSpaces (sobol nested : Bool) : MFSampler ℚ 1 :=
  { kind := if sobol then .sobol 1 else .lhs, spaces := [⟨![0], ![1]⟩, ⟨![0], ![10]⟩], nested := nested }

/-- C22 is false for nested designs with different design spaces: a lawful world in which the high-fidelity sample (design space `[0,1]`) is `10`. -/
theorem C22_mf_bounds_nested_counterexample :
    ∃ (E : Env ℚ 1) (m : MFSampler ℚ 1) (s : E.S) (data : List (List (Pt ℚ 1))) (left : List ℕ) (s' : E.S) (b : Box ℚ 1),
      E.Lawful ∧ (∀ b ∈ m.spaces, ∀ j, b.low j < b.high j) ∧ getSamples E m [1, 1] (some 1) s = .ok (data, left, s') ∧
      m.spaces[0]? = some b ∧ ∃ xs x, data[0]? = some xs ∧ x ∈ xs ∧ ¬ InBox b.low b.high x := by
  refine ⟨exEnv 1, twoSpaces false true, (0 : ℕ), _, _, _, _, exEnv_lawful 1, ?_, rfl, rfl, _, _, rfl, List.mem_singleton.mpr rfl, ?_⟩
  · intro b hb j
    simp only [twoSpaces, List.mem_cons, List.not_mem_nil, or_false] at hb
    rcases hb with rfl | rfl <;> fin_cases j <;> norm_num
  · intro h
    have := (h 0).2
    norm_num [mfScale] at this

/-- C23 is false, for *every* execution: with an integer seed and a shared design space the "non-nested" Sobol designs are nested — the samples of each
fidelity are the first rows of the samples of every lower fidelity, because the same seed and skip are used for all fidelities. -/
theorem C23_mf_sobol_always_nested (E : Env K d) (hE : E.Contract) (b : Box K d) (numFidelity : ℕ) (numSkip : Option ℕ) (ns : List ℕ) (sd : ℕ) (s : E.S)
    {data left s'} (h : getSamples E (mkShared true b numFidelity false numSkip) ns (some sd) s = .ok (data, left, s'))
    (i j : ℕ) (hij : i ≤ j) (hj : j < data.length) : (data[i]'(by omega)) <+: data[j] := by
  obtain ⟨hp, hl, _, hpos, ⟨n, xs, s2, h1, h2, h3⟩, hk⟩ := getSamples_char E _ ns (some sd) s h
  have hform : ∀ i (hi : i < data.length), ∃ n, ns[i]? = some n ∧
      data[i] = mfScale b ((List.range n).map (fun k => (E.sobol (some sd) s).1 (numSkip.getD d + k))) := by
    intro i hi
    have main : ∃ n s1 s2, ns[i]? = some n ∧ nonNested E (mkShared true b numFidelity false numSkip) (some sd) n i s1 = .ok (data[i], s2) := by
      rcases Nat.lt_or_ge (i + 1) ns.length with hlt | hge
      · obtain ⟨n', xs', ys, s1, s2', h1', h2', h3', h4'⟩ := hk i hlt
        unfold step at h4'
        rw [List.getElem?_eq_getElem hi, Option.some.injEq] at h2'
        exact ⟨n', s1, s2', h1', by rw [h2']; exact h4'⟩
      · have : ns.length - 1 = i := by omega
        rw [this] at h1 h2 h3
        rw [List.getElem?_eq_getElem hi, Option.some.injEq] at h2
        exact ⟨n, s, s2, h1, by rw [h2]; exact h3⟩
    obtain ⟨n', s1, s2', hn, h4⟩ := main
    obtain ⟨b', us, hbs, hx, _, _, hu, _⟩ := nonNested_ok E hE _ (some sd) n' i s1 h4
    have hb' : b' = b := List.eq_of_mem_replicate (List.mem_of_getElem? hbs)
    refine ⟨n', hn, ?_⟩
    rw [hx, hu _ rfl, hb', (hE.sobol_seeded sd s1 s).1]
  obtain ⟨n1, hn1, e1⟩ := hform i (by omega)
  obtain ⟨n2, hn2, e2⟩ := hform j hj
  have hle : n1 ≤ n2 := by
    rw [List.getElem?_eq_getElem (by omega), Option.some.injEq] at hn1 hn2
    rcases Nat.lt_or_ge i j with hlt | hge
    · have := List.pairwise_iff_getElem.mp hp i j (by omega) (by omega) hlt
      omega
    · have : i = j := by omega
      subst this; omega
  rw [e1, e2]
  unfold mfScale
  apply List.IsPrefix.map
  apply List.IsPrefix.map
  rw [List.prefix_iff_eq_take]
  simp [List.take_range, hle]

/-- C24 (partial): with an integer seed, `MFSobolSequence` and non-nested `MFLatinHyperCube` return the same samples whatever state the global generator is in.
Missing: nested `MFLatinHyperCube`, for which the property is false (`C24_mf_nested_lhs_counterexample`). -/
theorem C24_mf_reproducible_partial (E : Env K d) (hE : E.Contract) (m : MFSampler K d) (hm : m.nested = false ∨ ∃ skip, m.kind = .sobol skip)
    (ns : List ℕ) (sd : ℕ) (s s' : E.S) :
    (getSamples E m ns (some sd) s).map Prod.fst = (getSamples E m ns (some sd) s').map Prod.fst := by
  have hnon : ∀ n fid s s', SameOutput (nonNested E m (some sd) n fid s) (nonNested E m (some sd) n fid s') := by
    intro n fid s s'
    unfold SameOutput nonNested
    cases m.kind with
    | lhs =>
      simp only [Option.map_some, (hE.lhs_seeded (sd + fid) n s s').1]
      cases m.spaces[fid]? <;> rfl
    | sobol skip =>
      simp only [(hE.sobol_seeded sd s s').1]
      cases hr : (((SobolEngine.mk (E.sobol (some sd) s').1 0).reset).fastForward skip).random n with
      | error e => rfl
      | ok p => cases m.spaces[fid]? <;> rfl
  have hstep : ∀ n fid lower s s', SameOutput (step E m (some sd) n fid lower s) (step E m (some sd) n fid lower s') := by
    intro n fid lower s s'
    unfold step
    split
    · rename_i hn
      rcases hm with hm | ⟨skip, hm⟩
      · rw [hm] at hn; cases hn
      · unfold nestedFrom SameOutput
        rw [hm]; rfl
    · exact hnon n fid s s'
  by_cases hp : ns.Pairwise (· ≤ ·)
  · rcases ns.eq_nil_or_concat with rfl | ⟨init, n, rfl⟩
    · rfl
    · rw [List.concat_eq_append] at hp ⊢
      rw [getSamples_append E m init n _ s hp, getSamples_append E m init n _ s' hp]
      have h1 := hnon n init.length s s'
      unfold SameOutput at h1
      cases hs : nonNested E m (some sd) n init.length s with
      | error e =>
        cases hs' : nonNested E m (some sd) n init.length s' with
        | error e' =>
          rw [hs, hs'] at h1
          simp only [Except.map, Except.error.injEq] at h1
          simp [Except.bind, Except.map, h1]
        | ok p' => rw [hs, hs'] at h1; cases h1
      | ok p =>
        cases hs' : nonNested E m (some sd) n init.length s' with
        | error e => rw [hs, hs'] at h1; cases h1
        | ok p' =>
          rw [hs, hs'] at h1
          simp only [Except.map, Except.ok.injEq] at h1
          have h2 := mfLoop_deterministic E m (some sd) hstep init.reverse p.1 [] p.2 p'.2
          unfold SameOutput at h2
          simp only [Except.bind]
          rw [← h1]
          cases ht : mfLoop E m (some sd) init.reverse p.1 [] p.2 with
          | error e =>
            cases ht' : mfLoop E m (some sd) init.reverse p.1 [] p'.2 with
            | error e' =>
              rw [ht, ht'] at h2
              simp only [Except.map, Except.error.injEq] at h2
              simp [Except.map, h2]
            | ok q' => rw [ht, ht'] at h2; cases h2
          | ok q =>
            cases ht' : mfLoop E m (some sd) init.reverse p.1 [] p'.2 with
            | error e => rw [ht, ht'] at h2; cases h2
            | ok q' =>
              rw [ht, ht'] at h2
              simp only [Except.map, Except.ok.injEq] at h2
              simp [Except.map, h2]
  · rw [(C20_mf_assertion_iff E m ns (some sd) s).mpr hp, (C20_mf_assertion_iff E m ns (some sd) s').mpr hp]

/-- C24 is false for nested Latin hypercubes: the rows are drawn from numpy's global generator, which the `seed` argument does not touch.  In a lawful world two
calls with the same seed and sizes, in different global generator states, return different high-fidelity samples. -/
theorem C24_mf_nested_lhs_counterexample :
    ∃ (E : Env ℚ 1) (m : MFSampler ℚ 1) (s s' : E.S) (r r' : List (List (Pt ℚ 1)) × List ℕ × E.S), E.Lawful ∧ m.kind = .lhs ∧ m.nested = true ∧
      getSamples E m [1, 2] (some 7) s = .ok r ∧ getSamples E m [1, 2] (some 7) s' = .ok r' ∧ r.1 ≠ r'.1 := by
  refine ⟨exEnv 1, twoSpaces false true, (0 : ℕ), (1 : ℕ), _, _, exEnv_lawful 1, rfl, rfl, rfl, rfl, ?_⟩
  intro h
  have h0 := congrArg (fun l => (l.head?.bind List.head?).map (fun p => p 0)) h
  simp [mfScale] at h0

/-- C25 is false, for *every* call that returns: the caller's list is empty afterwards … -/
theorem C25_mf_list_emptied (E : Env K d) (m : MFSampler K d) (ns : List ℕ) (seed : Option ℕ) (s : E.S) {data left s'}
    (h : getSamples E m ns seed s = .ok (data, left, s')) : left = [] ∧ left ≠ ns := by
  obtain ⟨_, _, hl, hpos, _⟩ := getSamples_char E m ns seed s h
  refine ⟨hl, ?_⟩
  rintro rfl
  rw [hl] at hpos
  simp at hpos

/-- … so a second call with the same list raises `IndexError`, for every sampler, seed and state. -/
theorem C25_mf_second_call_fails (E : Env K d) (m m2 : MFSampler K d) (ns : List ℕ) (seed seed2 : Option ℕ) (s s2 : E.S) {data left s'}
    (h : getSamples E m ns seed s = .ok (data, left, s')) : getSamples E m2 left seed2 s2 = .error .indexError := by
  rw [(C25_mf_list_emptied E m ns seed s h).1]
  rfl

/-! ### Concrete cases: calls that return, for all four kinds of sampler -/

example (sobol nested : Bool) : ∃ r, getSamples (exEnv 1) (twoSpaces sobol nested) [3, 5] (some 7) (0 : ℕ) = .ok r := by
  refine (C20_mf_returns_iff (exEnv 1) (exEnv_lawful 1).toContract _ _ _ _).mpr ⟨by simp, by simp, by simp [twoSpaces], ?_⟩
  intro skip hs n hn
  cases sobol with
  | false => cases hs
  | true =>
    simp only [twoSpaces, if_true, Kind.sobol.injEq] at hs
    simp only [List.mem_cons, List.not_mem_nil, or_false] at hn
    omega

example : ∃ r, getSamples (exEnv 1) (mkShared true ⟨![0], ![1]⟩ 3 false none) [1, 2, 4] (some 7) (0 : ℕ) = .ok r := by
  refine (C20_mf_returns_iff (exEnv 1) (exEnv_lawful 1).toContract _ _ _ _).mpr ⟨by simp, by simp, by simp [mkShared], ?_⟩
  intro skip hs n hn
  simp only [mkShared, if_true, Option.getD_none, Kind.sobol.injEq] at hs
  simp only [List.mem_cons, List.not_mem_nil, or_false] at hn
  omega

end Mfpml.Props
