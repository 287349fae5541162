import Verif.Model.Samplers
import Verif.Props.SFSamplers

/-!
# Helper lemma for C180: what holds of all scaled draws holds of all samples
-/

namespace Mfpml.Overflow

open Mfpml.EA Mfpml.Sampling

theorem samples_satisfy {K : Type} [Add K] [Sub K] [Mul K] {d : ℕ} (E : Env K d) {Q : K → Prop} (hQ : E.DrawsIn Q) (b : Box K d) {T : Pt K d → Prop} (hT : ∀ u : Pt K d, (∀ j, Q (u j)) → T (scalePt b u))
    (n : ℕ) (s : E.S) :
    (∀ seed, ∀ x ∈ (lhsSamples E b n seed s).1, T x) ∧ (∀ seed, ∀ x ∈ (randomSamples E b n seed s).1, T x) ∧
      ∀ numSkip seed xs s', sobolSamples E b numSkip n seed s = .ok (xs, s') → ∀ x ∈ xs, T x := by
  have hsc : ∀ us : List (Pt K d), (∀ x ∈ us, ∀ j, Q (x j)) → ∀ x ∈ scaleSamples b us, T x := by
    intro us h x hx
    obtain ⟨u, hu, rfl⟩ := List.mem_map.mp hx
    exact hT u (h u hu)
  refine ⟨fun seed => hsc _ (hQ.lhs _ _ _), fun seed => hsc _ (hQ.random _ _), ?_⟩
  intro numSkip seed xs s' h
  obtain ⟨p, h1, h⟩ := Py.bind_ok.mp h
  obtain ⟨q, h2, h⟩ := Py.bind_ok.mp h
  simp only [Except.ok.injEq, Prod.mk.injEq] at h
  obtain ⟨hq, hl⟩ := SobolEngine.random_ok _ n h2
  rw [← h.1]
  refine hsc _ ?_
  intro x hx
  rw [hq] at hx
  obtain ⟨k, _, rfl⟩ := List.mem_map.mp hx
  have hp : p.2.seq = (E.sobol seed s).1 := by
    unfold SobolEngine.randomBase2 SobolEngine.random at h1
    split at h1
    · split at h1
      · simp only [Except.ok.injEq] at h1; rw [← h1]
      · split at h1
        · cases h1
        · simp only [Except.ok.injEq] at h1; rw [← h1]
    · cases h1
  intro j
  have := hQ.sobol seed s
  simp only [SobolEngine.reset, SobolEngine.fastForward, hp]
  exact this _ j

end Mfpml.Overflow
