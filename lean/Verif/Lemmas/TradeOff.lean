import Verif.Lemmas.Acquisitions

/-! # Monotonicity of the expected improvement and of the formula of the code -/

open MeasureTheory ProbabilityTheory Set Filter Topology

namespace Mfpml.Acq

open Mfpml.Spec

/-- A larger mean improvement is a larger expected improvement. -/
theorem expectedImprovement_mono_diff {best best' μ μ' : ℝ} (h : best - μ ≤ best' - μ') (σ : ℝ) : expectedImprovement best μ σ ≤ expectedImprovement best' μ' σ := by
  rw [expectedImprovement_eq_integral, expectedImprovement_eq_integral]
  refine integral_mono (improve_integrable _ _) (improve_integrable _ _) fun z => ?_
  exact mul_le_mul_of_nonneg_right (max_le_max (by linarith) le_rfl) (normPdf_pos z).le

theorem expectedImprovement_scaled (best μ : ℝ) {σ : ℝ} (h : 0 < σ) : expectedImprovement best μ σ = σ * gLoss ((best - μ) / σ) := by
  rw [expectedImprovement_eq best μ h, gLoss]
  field_simp

theorem gLoss_strictMono : StrictMono gLoss := by
  apply strictMono_of_deriv_pos
  intro x
  rw [(gLoss_hasDerivAt x).deriv]
  exact normCdf_pos x

theorem expectedImprovement_strict_diff {best best' μ μ' : ℝ} (h : best - μ < best' - μ') {σ : ℝ} (hσ : 0 < σ) : expectedImprovement best μ σ < expectedImprovement best' μ' σ := by
  rw [expectedImprovement_scaled _ _ hσ, expectedImprovement_scaled _ _ hσ]
  exact mul_lt_mul_of_pos_left (gLoss_strictMono (div_lt_div_of_pos_right h hσ)) hσ

theorem expectedImprovement_hasDerivAt (best μ : ℝ) {σ : ℝ} (hσ : 0 < σ) : HasDerivAt (fun σ => expectedImprovement best μ σ) (normPdf ((best - μ) / σ)) σ := by
  have h1 : HasDerivAt (fun s : ℝ => s * gLoss ((best - μ) / s)) (normPdf ((best - μ) / σ)) σ := by
    have hz : HasDerivAt (fun s : ℝ => (best - μ) / s) (-(best - μ) / σ ^ 2) σ := by
      have := (hasDerivAt_const σ (best - μ)).div (hasDerivAt_id σ) hσ.ne'
      refine this.congr_deriv ?_
      simp
    have h2 := (hasDerivAt_id σ).mul ((gLoss_hasDerivAt ((best - μ) / σ)).comp σ hz)
    refine h2.congr_deriv ?_
    simp only [gLoss, id, Function.comp]
    field_simp
    ring
  refine h1.congr_of_eventuallyEq ?_
  filter_upwards [lt_mem_nhds hσ] with s hs
  exact expectedImprovement_scaled best μ hs

/-- More uncertainty is more expected improvement. -/
theorem expectedImprovement_strictMonoOn (best μ : ℝ) : StrictMonoOn (fun σ => expectedImprovement best μ σ) (Ici 0) := by
  apply strictMonoOn_of_deriv_pos (convex_Ici 0)
  · have : LipschitzWith 1 (fun σ => expectedImprovement best μ σ) := by
      refine LipschitzWith.of_dist_le_mul fun a b => ?_
      simpa [Real.dist_eq] using expectedImprovement_lipschitz best μ a b
    exact this.continuous.continuousOn
  · intro σ hσ
    rw [interior_Ici] at hσ
    rw [(expectedImprovement_hasDerivAt best μ hσ).deriv]
    exact normPdf_pos _

/-- Lower and more uncertain is better. -/
theorem expectedImprovement_mono {best μ μ' σ σ' : ℝ} (hμ : μ' ≤ μ) (h0 : 0 ≤ σ) (hσ : σ ≤ σ') : expectedImprovement best μ σ ≤ expectedImprovement best μ' σ' :=
  ((expectedImprovement_strictMonoOn best μ).monotoneOn h0 (h0.trans hσ) hσ).trans (expectedImprovement_mono_diff (by linarith) σ')

theorem expectedImprovement_strict {best μ μ' σ σ' : ℝ} (hμ : μ' ≤ μ) (h0 : 0 ≤ σ) (hσ : σ ≤ σ') (hpos : 0 < σ') (h : μ' < μ ∨ σ < σ') :
    expectedImprovement best μ σ < expectedImprovement best μ' σ' := by
  rcases h with h | h
  · exact ((expectedImprovement_strictMonoOn best μ).monotoneOn h0 (h0.trans hσ) hσ).trans_lt (expectedImprovement_strict_diff (by linarith) hpos)
  · exact ((expectedImprovement_strictMonoOn best μ) h0 (h0.trans hσ) h).trans_le (expectedImprovement_mono_diff (by linarith) σ')

/-- Mills ratio, lower bound. -/
theorem mills_lower (t : ℝ) : 0 ≤ normCdf t * (1 + t ^ 2) + t * normPdf t := by
  rcases le_or_gt 0 t with h0 | h0
  · exact add_nonneg (mul_nonneg (normCdf_nonneg t) (by positivity)) (mul_nonneg h0 (normPdf_pos t).le)
  let q : ℝ → ℝ := fun s => normCdf s + s * gLoss s
  have hd : ∀ s, HasDerivAt q (2 * gLoss s) s := by
    intro s
    have := (normCdf_hasDerivAt s).add ((hasDerivAt_id s).mul (gLoss_hasDerivAt s))
    refine this.congr_deriv ?_
    simp only [id, gLoss]
    ring
  have hmono : Monotone q := by
    apply monotone_of_deriv_nonneg (fun s => (hd s).differentiableAt)
    intro s
    rw [(hd s).deriv]
    exact mul_nonneg (by norm_num) (gLoss_nonneg s)
  have hlim : Tendsto (fun s : ℝ => normPdf s * s⁻¹) atBot (𝓝 0) := by
    simpa using normPdf_tendsto_atBot.mul tendsto_inv_atBot_zero
  have hq : 0 ≤ q t := by
    refine le_of_tendsto hlim ?_
    filter_upwards [Iic_mem_atBot t] with s hs
    have hs0 : s < 0 := lt_of_le_of_lt hs h0
    refine le_trans ?_ (hmono hs)
    have h1 := gLoss_le_mills hs0
    have h2 : normPdf s * s⁻¹ = s * (normPdf s / s ^ 2) := by field_simp [hs0.ne]
    rw [h2]
    have h3 : s * (normPdf s / s ^ 2) ≤ s * gLoss s := mul_le_mul_of_nonpos_left h1 hs0.le
    have := normCdf_nonneg s
    simp only [q]
    linarith
  have : q t = normCdf t * (1 + t ^ 2) + t * normPdf t := by
    simp only [q, gLoss]; ring
  rwa [this] at hq

/-- The formula of the code as a function of the mean improvement `u`. -/
noncomputable def regEI (ε u σ : ℝ) : ℝ := u * normCdf (u / (σ + ε)) + σ * normPdf (u / (σ + ε))

theorem regEI_hasDerivAt_u {ε σ : ℝ} (hs : 0 < σ + ε) (u : ℝ) :
    HasDerivAt (fun u => regEI ε u σ) (normCdf (u / (σ + ε)) + u / (σ + ε) * normPdf (u / (σ + ε)) * (ε / (σ + ε))) u := by
  have hz : HasDerivAt (fun u : ℝ => u / (σ + ε)) (1 / (σ + ε)) u := (hasDerivAt_id u).div_const _
  have h1 := (hasDerivAt_id u).mul ((normCdf_hasDerivAt (u / (σ + ε))).comp u hz)
  have h2 := ((normPdf_hasDerivAt (u / (σ + ε))).comp u hz).const_mul σ
  refine (h1.add h2).congr_deriv ?_
  simp only [id, Function.comp]
  field_simp
  ring

theorem regEI_hasDerivAt_σ {ε σ : ℝ} (hs : 0 < σ + ε) (u : ℝ) :
    HasDerivAt (fun σ => regEI ε u σ) (normPdf (u / (σ + ε)) * (1 - (u / (σ + ε)) ^ 2 * (ε / (σ + ε)))) σ := by
  have hz : HasDerivAt (fun s : ℝ => u / (s + ε)) (-u / (σ + ε) ^ 2) σ := by
    have := (hasDerivAt_const σ u).div ((hasDerivAt_id σ).add_const ε) hs.ne'
    refine this.congr_deriv ?_
    simp
  have h1 := ((normCdf_hasDerivAt (u / (σ + ε))).comp σ hz).const_mul u
  have h2 := (hasDerivAt_id σ).mul ((normPdf_hasDerivAt (u / (σ + ε))).comp σ hz)
  refine (h1.add h2).congr_deriv ?_
  simp only [id, Function.comp]
  field_simp
  ring

/-- Where the formula of the code is monotone: `u` is at most `√(σ/ε)` regularised standard deviations. -/
theorem regEI_mono {ε u u' σ σ' : ℝ} (hε : 0 < ε) (h0 : 0 ≤ σ) (hreg : u ^ 2 * ε ≤ σ * (σ + ε) ^ 2) (hu : u ≤ u') (hσ : σ ≤ σ') : regEI ε u σ ≤ regEI ε u' σ' := by
  have hreg' : ∀ s, σ ≤ s → u ^ 2 * ε ≤ s * (s + ε) ^ 2 := fun s hs =>
    hreg.trans (mul_le_mul hs (pow_le_pow_left₀ (by linarith) (by linarith) 2) (by positivity) (h0.trans hs))
  have h1 : regEI ε u σ ≤ regEI ε u σ' := by
    have hm : MonotoneOn (fun σ => regEI ε u σ) (Ici σ) := by
      apply monotoneOn_of_deriv_nonneg (convex_Ici σ)
      · exact fun s hs => (regEI_hasDerivAt_σ (by have := mem_Ici.mp hs; linarith) u).continuousAt.continuousWithinAt
      · exact fun s hs => (regEI_hasDerivAt_σ (by have := mem_Ici.mp (interior_subset hs); linarith) u).differentiableAt.differentiableWithinAt
      · intro s hs
        have hs := mem_Ici.mp (interior_subset hs)
        have hp : 0 < s + ε := by linarith
        rw [(regEI_hasDerivAt_σ hp u).deriv]
        refine mul_nonneg (normPdf_pos _).le (sub_nonneg.mpr ?_)
        rw [div_pow, div_mul_div_comm, div_le_one (by positivity)]
        have := hreg' s hs
        nlinarith [sq_nonneg (s + ε)]
    exact hm (mem_Ici.mpr le_rfl) (mem_Ici.mpr hσ) hσ
  refine h1.trans ?_
  have hp : 0 < σ' + ε := by linarith
  have hm : MonotoneOn (fun u => regEI ε u σ') (Ici u) := by
    apply monotoneOn_of_deriv_nonneg (convex_Ici u)
    · exact fun s _ => (regEI_hasDerivAt_u hp s).continuousAt.continuousWithinAt
    · exact fun s _ => (regEI_hasDerivAt_u hp s).differentiableAt.differentiableWithinAt
    · intro s hs
      have hs := mem_Ici.mp (interior_subset hs)
      rw [(regEI_hasDerivAt_u hp s).deriv]
      set z := s / (σ' + ε) with hz
      rcases le_or_gt 0 s with hs0 | hs0
      · have : 0 ≤ z := div_nonneg hs0 hp.le
        exact add_nonneg (normCdf_nonneg z) (mul_nonneg (mul_nonneg this (normPdf_pos z).le) (div_nonneg hε.le hp.le))
      · have hz0 : z < 0 := div_neg_of_neg_of_pos hs0 hp
        have hsq : s ^ 2 ≤ u ^ 2 := by nlinarith
        have hzε : (1 + z ^ 2) * (ε / (σ' + ε)) ≤ 1 := by
          rw [hz, div_pow, mul_div_assoc', div_le_one hp]
          have h3 := hreg' σ' hσ
          have h4 : s ^ 2 / (σ' + ε) ^ 2 * ε ≤ σ' := by
            rw [div_mul_eq_mul_div, div_le_iff₀ (by positivity)]
            nlinarith
          linarith
        have h5 := mills_lower z
        have hq : 0 ≤ ε / (σ' + ε) := div_nonneg hε.le hp.le
        have h6 : 0 ≤ (normCdf z * (1 + z ^ 2) + z * normPdf z) * (ε / (σ' + ε)) := mul_nonneg h5 hq
        have h7 : normCdf z * ((1 + z ^ 2) * (ε / (σ' + ε))) ≤ normCdf z := by
          have := normCdf_nonneg z
          nlinarith
        nlinarith
  exact hm (mem_Ici.mpr le_rfl) (mem_Ici.mpr hu) hu

end Mfpml.Acq
