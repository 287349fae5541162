import Verif.Props.Evaluated
import Verif.Props.BOAssembled

/-!
# The acquisitions at evaluated points (C116)
-/

set_option linter.unusedSectionVars false

open scoped BigOperators Matrix

namespace Mfpml.Props

open Mfpml.GP Mfpml.Spec Mfpml.BO Mfpml.Acq
open Mfpml.EA (Box)

variable {n m d q : ℕ}

/-- Expected improvement is at most the certain improvement plus the standard deviation. -/
theorem expectedImprovement_le (best μ σ : ℝ) : expectedImprovement best μ σ ≤ max (best - μ) 0 + |σ| := by
  have h1 := (abs_le.mp (expectedImprovement_lipschitz best μ σ 0)).2
  have h2 : expectedImprovement best μ 0 = max (best - μ) 0 := by
    rw [expectedImprovement_eq_integral]
    simp only [zero_mul, sub_zero]
    rw [MeasureTheory.integral_const_mul]
    have : ∫ z, normPdf z = 1 := ProbabilityTheory.integral_gaussianPDFReal_eq_one 0 one_ne_zero
    rw [this, mul_one]
  rw [sub_zero] at h1
  linarith

/-- C116 (expected improvement). In every reachable state of the single-fidelity optimiser, whatever the problem and acquisition, the expected improvement at every point that was already evaluated is at most
`1e-5 (sqrt (2 n) + 1)` standard deviations of the fitted process. -/
theorem C116_ei_evaluated_partial (o : Outside d) (b : Box ℝ d) (f : List (Fin d → ℝ) → Py (List ℝ)) (optimum : Option ℝ) (eval : (m : ℕ) → SFSurr d → Samples m d → Py (Fin m → ℝ))
    (opt : Option (PopOpt o.env.S d)) (numInit seed : ℕ) {s : SFState ℝ (Fin d → ℝ) (Kriging d) o.env.S} (h : SFReachable (sfBO o b f optimum eval opt numInit seed) s) :
    ∃ (t : GPFit s.sample.length d 1) (v : SFSurr d), s.surrogate.fit = some ⟨_, t⟩ ∧ s.surrogate.view = .ok v ∧ ∀ x ∈ s.sample, ∃ mean std,
      v.predict 1 (onePoint x) = .ok (mean, std) ∧
      expectedImprovement s.best (mean 0) (std 0) ≤ 1e-5 * (Real.sqrt (2 * s.sample.length) + 1) * (Real.sqrt t.gls.sigma2 * t.yStd) := by
  obtain ⟨⟨hl, gp, w, t, h0, h1, h2⟩, _, hm⟩ := sf_fitted h
  obtain ⟨hT, hX, hy, hbox, hregr, hno, hmn, hstd, hys⟩ := trained_of_train h1
  refine ⟨t, _, h2, by rw [Kriging.view, h2], fun x hx => ?_⟩
  obtain ⟨i, hi, rfl⟩ := List.mem_iff_getElem.mp hx
  obtain ⟨μ, σ, hp, hμ, hσ⟩ := C114_gp_noise_free gp w _ _ h0.noise _ t h1 (onePoint s.sample[i]) 0 ⟨i, hi⟩ rfl
  have hnn := ofGP_nonneg s.surrogate.obj t 1 (onePoint s.sample[i]) μ σ hp 0
  refine ⟨μ, σ, hp, (expectedImprovement_le _ _ _).trans ?_⟩
  have hbest : s.best ≤ column s.response hl ⟨i, hi⟩ := (npMin_isLeast hm).2 (List.getElem_mem _)
  rw [← hstd] at hμ hσ
  have h3 := (abs_le.mp hμ).1
  have hP : 0 ≤ Real.sqrt t.gls.sigma2 * t.yStd := mul_nonneg (Real.sqrt_nonneg _) hT.stdpos.le
  have h4 : max (s.best - μ 0) 0 ≤ 1e-5 * Real.sqrt (2 * s.sample.length) * (Real.sqrt t.gls.sigma2 * t.yStd) := by
    refine max_le ?_ (by positivity)
    linarith
  rw [abs_of_nonneg hnn]
  calc _ ≤ 1e-5 * Real.sqrt (2 * s.sample.length) * (Real.sqrt t.gls.sigma2 * t.yStd) + 1e-5 * (Real.sqrt t.gls.sigma2 * t.yStd) := add_le_add h4 hσ
    _ = _ := by ring

/-- C116 (no repeated evaluation). With `EI` and a search that comes within `ε` of the minimum, the optimiser proposes a point it has not evaluated, if some point of the domain has an expected
improvement over `best` above that bound (by more than `ε + 4e-9`). -/
theorem C116_ei_new_point_partial (o : Outside d) {ε : ℝ} (hde : ApproxSearch ε o.de) (b : Box ℝ d) (f : List (Fin d → ℝ) → Py (List ℝ)) (optimum : Option ℝ) (numInit seed : ℕ)
    {s : SFState ℝ (Fin d → ℝ) (Kriging d) o.env.S} (h : SFReachable (sfBO o b f optimum (fun _ => eiEval) none numInit seed) s) {x : Fin d → ℝ} {w : o.env.S}
    (hq : (sfBO o b f optimum (fun _ => eiEval) none numInit seed).query s.surrogate s.rng = .ok (x, w))
    {t : GPFit s.sample.length d 1} (ht : s.surrogate.fit = some ⟨_, t⟩) {v : SFSurr d} (hv : s.surrogate.view = .ok v) (x' : Fin d → ℝ) (hx' : InBounds b x') (mean std : Fin 1 → ℝ)
    (hp : v.predict 1 (onePoint x') = .ok (mean, std))
    (hbig : 1e-5 * (Real.sqrt (2 * s.sample.length) + 1) * (Real.sqrt t.gls.sigma2 * t.yStd) + ε + 4e-9 < expectedImprovement s.best (mean 0) (std 0)) : x ∉ s.sample := by
  intro hx
  obtain ⟨t', v', ht', hv', hsm⟩ := C116_ei_evaluated_partial o b f optimum (fun _ => eiEval) none numInit seed h
  obtain rfl : v' = v := Except.ok.inj (hv'.symm.trans hv)
  rw [ht, Option.some.injEq, Sigma.mk.injEq] at ht'
  obtain rfl := eq_of_heq ht'.2
  obtain ⟨v'', hv'', mean', std', hp', hbest⟩ := C88_ei_proposal o hde b f optimum numInit seed h hq
  obtain rfl : v' = v'' := Except.ok.inj (hv.symm.trans hv'')
  have h1 := hbest x' mean std hx' hp
  obtain ⟨mean'', std'', hp'', h2⟩ := hsm x hx
  rw [hp'] at hp''
  cases hp''
  linarith

end Mfpml.Props
