import Verif.Props.MFSamplers
import Verif.Props.SFSamplers

/-!
# C161: are the samples of each fidelity of `MFLatinHyperCube` a Latin hypercube?
-/

namespace Mfpml.Props

open Mfpml.Sampling Mfpml.Spec
open Mfpml.EA (Box)

set_option linter.unusedSectionVars false

variable {K : Type} [Field K] [LinearOrder K] [IsStrictOrderedRing K] {d : ℕ}

/-- scipy's promise: every output of `LatinHypercube(d, seed).random(n)` is a Latin hypercube on the unit cube. -/
def LatinEngine (E : Env K d) : Prop := ∀ seed n s, IsLatin (fun _ => 0) (fun _ => 1) (E.lhs seed n s).1

theorem mfScale_eq (b : Box K d) (us : List (Pt K d)) : mfScale b us = scaleSamples b us := by
  unfold mfScale scaleSamples
  refine congrArg (us.map ·) (funext fun u => funext fun j => ?_)
  exact add_comm _ _

theorem nonNested_latin (E : Env K d) (hE : E.Contract) (hlat : LatinEngine E) (m : MFSampler K d) (hk : m.kind = .lhs) (hb : ∀ b ∈ m.spaces, ∀ j, b.low j < b.high j) {seed : Option ℕ} {n fid : ℕ}
    {s : E.S} {xs s'} (h : nonNested E m seed n fid s = .ok (xs, s')) : ∃ b, m.spaces[fid]? = some b ∧ IsLatin b.low b.high xs := by
  obtain ⟨b, us, hbs, hx, _, _, _, hus⟩ := nonNested_ok E hE m seed n fid s h
  refine ⟨b, hbs, ?_⟩
  rw [hx, mfScale_eq, hus hk]
  exact C16_lhs_stratified E b (hb b (List.mem_of_getElem? hbs)) n _ s (hlat _ _ _)

/-- C161 (partial, non-nested designs). The samples of every fidelity form a Latin hypercube on the design space of that fidelity. -/
theorem C161_non_nested_partial (E : Env K d) (hE : E.Contract) (hlat : LatinEngine E) (m : MFSampler K d) (hk : m.kind = .lhs) (hm : m.nested = false) (hb : ∀ b ∈ m.spaces, ∀ j, b.low j < b.high j)
    (ns : List ℕ) (seed : Option ℕ) (s : E.S) {data left s'} (h : getSamples E m ns seed s = .ok (data, left, s')) (i : ℕ) (hi : i < data.length) :
    ∃ b, m.spaces[i]? = some b ∧ IsLatin b.low b.high data[i] := by
  obtain ⟨hp, hl, _, hpos, ⟨n, xs, s2, h1, h2, h3⟩, hst⟩ := getSamples_char E m ns seed s h
  rcases Nat.lt_or_ge (i + 1) ns.length with hlt | hge
  · obtain ⟨n', xs', ys, s1, s2', h1', h2', h3', h4'⟩ := hst i hlt
    unfold step at h4'
    rw [hm] at h4'
    rw [List.getElem?_eq_getElem hi, Option.some.injEq] at h2'
    rw [h2']
    exact nonNested_latin E hE hlat m hk hb h4'
  · have : ns.length - 1 = i := by omega
    rw [this] at h2 h3
    rw [List.getElem?_eq_getElem hi, Option.some.injEq] at h2
    rw [h2]
    exact nonNested_latin E hE hlat m hk hb h3

theorem countP_le_one {α : Type} (P : α → Prop) [DecidablePred P] : ∀ (l : List α), (∀ (i i' : ℕ) x x', l[i]? = some x → P x → l[i']? = some x' → P x' → i = i') → l.countP P ≤ 1
  | [], _ => by simp
  | a :: l, h => by
    have hl : ∀ (i i' : ℕ) x x', l[i]? = some x → P x → l[i']? = some x' → P x' → i = i' := by
      intro i i' x x' h1 h2 h3 h4
      have := h (i + 1) (i' + 1) x x' (by simpa using h1) h2 (by simpa using h3) h4
      omega
    rw [List.countP_cons]
    by_cases ha : P a
    · have h0 : l.countP P = 0 := by
        rw [List.countP_eq_zero]
        intro x hx hPx
        obtain ⟨i, hi⟩ := List.mem_iff_getElem?.mp hx
        have := h 0 (i + 1) a x rfl ha (by simpa using hi) (by simpa using hPx)
        omega
      simp [h0, ha]
    · simpa [ha] using countP_le_one P l hl

/-- C161 (partial, nested designs). The samples of the lowest fidelity form a Latin hypercube on its design space.  The samples of a higher fidelity are at least spread over the grid of the
lowest fidelity: none of its cells has two of them.  Missing: that each fidelity is a Latin hypercube on its own grid, which is false (`C161_counterexample`). -/
theorem C161_nested_partial (E : Env K d) (hE : E.Contract) (hlat : LatinEngine E) (m : MFSampler K d) (hk : m.kind = .lhs) (hm : m.nested = true) (hb : ∀ b ∈ m.spaces, ∀ j, b.low j < b.high j)
    (ns : List ℕ) (seed : Option ℕ) (s : E.S) {data left s'} (h : getSamples E m ns seed s = .ok (data, left, s')) :
    ∃ b low, m.spaces[data.length - 1]? = some b ∧ data[data.length - 1]? = some low ∧ IsLatin b.low b.high low ∧
      ∀ xs ∈ data, ∀ (j : Fin d) (k : ℕ), k < low.length →
        xs.countP (fun x => b.low j + (k : K) * ((b.high j - b.low j) / (low.length : K)) < x j ∧ x j ≤ b.low j + ((k : K) + 1) * ((b.high j - b.low j) / (low.length : K))) ≤ 1 := by
  obtain ⟨hp, hl, _, hpos, ⟨n, xs, s2, h1, h2, h3⟩, hst⟩ := getSamples_char E m ns seed s h
  obtain ⟨b, hbs, hL⟩ := nonNested_latin E hE hlat m hk hb h3
  rw [← hl] at hbs h2
  refine ⟨b, xs, hbs, h2, hL, fun ys hys j k hkl => ?_⟩
  have hsub : ys.Subperm xs := by
    obtain ⟨i, hi, rfl⟩ := List.mem_iff_getElem.mp hys
    rw [List.getElem?_eq_getElem (by omega), Option.some.injEq] at h2
    rcases Nat.lt_or_ge i (data.length - 1) with hlt | hge
    · have := C21_mf_nested E hE m hm ns seed s h i (data.length - 1) hlt (by omega)
      rwa [h2] at this
    · have : i = data.length - 1 := by omega
      subst this
      rw [h2]
  refine (hsub.countP_le _).trans (countP_le_one _ xs ?_)
  obtain ⟨i0, _, hu⟩ := hL j k hkl
  intro i i' x x' hx hP hx' hP'
  rw [hu i ⟨x, hx, hP⟩, hu i' ⟨x', hx', hP'⟩]

/-- The engine of the concrete world produces Latin hypercubes. -/
theorem exEnv_latin (d : ℕ) : LatinEngine (exEnv d) := by
  intro seed n s j k hk
  simp only [exEnv, List.length_map, List.length_range] at hk ⊢
  have hn : (0 : ℚ) < n := by exact_mod_cast (by omega : 0 < n)
  refine ⟨k, ⟨_, by simp [hk]; rfl, ?_, ?_⟩, ?_⟩
  · rw [zero_add, sub_zero, mul_one_div, div_lt_div_iff_of_pos_right hn]; linarith
  · rw [zero_add, sub_zero, mul_one_div]
  · rintro i ⟨x, hx, h1, h2⟩
    rw [List.getElem?_map, Option.map_eq_some_iff] at hx
    obtain ⟨i', hi', rfl⟩ := hx
    rw [List.getElem?_range (by
      by_contra h
      rw [List.getElem?_eq_none (by simpa using h)] at hi'
      cases hi')] at hi'
    simp only [Option.some.injEq] at hi'
    subst hi'
    simp only [zero_add, sub_zero, mul_one_div] at h1 h2
    rw [div_lt_div_iff_of_pos_right hn] at h1
    rw [div_le_div_iff_of_pos_right hn] at h2
    have h1' : (k : ℚ) < ((i + 1 : ℕ) : ℚ) := by push_cast; exact h1
    have h2' : ((i + 1 : ℕ) : ℚ) ≤ ((k + 1 : ℕ) : ℚ) := by push_cast; exact h2
    have := Nat.cast_lt.mp h1'
    have := Nat.cast_le.mp h2'
    omega

/-- C161 is false for nested designs: in a lawful world whose engine produces Latin hypercubes, both high-fidelity samples of a nested design with 2 and 4 samples on `[0, 1]` lie in the lower
half (they are 1/4 and 1/2). -/
theorem C161_counterexample : ∃ (E : Env ℚ 1) (m : MFSampler ℚ 1) (s : E.S) (hf lf : List (Pt ℚ 1)) (left : List ℕ) (s' : E.S), E.Lawful ∧ LatinEngine E ∧ m.kind = .lhs ∧
    m = mkShared false ⟨fun _ => 0, fun _ => 1⟩ 2 true none ∧ getSamples E m [2, 4] (some 7) s = .ok ([hf, lf], left, s') ∧ (∀ x ∈ hf, x 0 ≤ 1 / 2) ∧ ¬ IsLatin (fun _ => 0) (fun _ => 1) hf := by
  have hpts : ∀ x ∈ ([fun _ => 1 / 4, fun _ => 1 / 2] : List (Pt ℚ 1)), x 0 ≤ 1 / 2 := by
    intro x hx
    simp only [List.mem_cons, List.not_mem_nil, or_false] at hx
    rcases hx with rfl | rfl <;> norm_num
  have hrun : getSamples (exEnv 1) (mkShared false ⟨fun _ => 0, fun _ => 1⟩ 2 true none) [2, 4] (some 7) (0 : ℕ) =
      .ok ([[fun _ => 1 / 4, fun _ => 1 / 2], [fun _ => 1 / 4, fun _ => 1 / 2, fun _ => 3 / 4, fun _ => 1]], [], (1 : ℕ)) := by
    have hsc : (nonNested (exEnv 1) (mkShared false ⟨fun _ => 0, fun _ => 1⟩ 2 true none) (some 7) 4 1 (0 : ℕ)) = .ok ([fun _ => 1 / 4, fun _ => 1 / 2, fun _ => 3 / 4, fun _ => 1], (0 : ℕ)) := by
      show Except.ok (mfScale _ ((List.range 4).map fun i : ℕ => fun _ => ((i : ℚ) + 1) / (4 : ℕ)), _) = _
      congr 2
      simp only [List.range_succ, List.range_zero, mfScale, List.nil_append, List.cons_append, List.map_cons, List.map_nil]
      norm_num
    have hp := getSamples_append (exEnv 1) (mkShared false ⟨fun _ => 0, fun _ => 1⟩ 2 true none) [2] 4 (some 7) (0 : ℕ) (by simp)
    rw [show ([2] ++ [4] : List ℕ) = [2, 4] from rfl] at hp
    rw [hp]
    exact Py.bind_ok.mpr ⟨_, hsc, rfl⟩
  refine ⟨exEnv 1, _, (0 : ℕ), _, _, _, _, exEnv_lawful 1, exEnv_latin 1, rfl, rfl, hrun, hpts, fun hL => ?_⟩
  obtain ⟨i, ⟨x, hx, h1, _⟩, _⟩ := hL 0 1 (by simp)
  have := hpts x (List.mem_of_getElem? hx)
  norm_num at h1
  linarith

/-! ### The hypotheses are met -/

/-- Non-nested and nested designs that are returned. -/
example (nested : Bool) : ∃ r, getSamples (exEnv 2) (mkShared false sampleBox 2 nested none) [3, 5] (some 7) (0 : ℕ) = .ok r ∧ (mkShared false sampleBox 2 nested none).kind = .lhs ∧
    ∀ b ∈ (mkShared false sampleBox 2 nested none).spaces, ∀ j, b.low j < b.high j := by
  obtain ⟨r, hr⟩ := (C20_mf_returns_iff (exEnv 2) (exEnv_lawful 2).toContract (mkShared false sampleBox 2 nested none) [3, 5] (some 7) (0 : ℕ)).mpr
    ⟨by simp, by simp, by simp [mkShared], fun skip hs => by cases hs⟩
  refine ⟨r, hr, rfl, fun b hb j => ?_⟩
  rw [List.eq_of_mem_replicate hb]
  fin_cases j <;> norm_num [sampleBox]

end Mfpml.Props
