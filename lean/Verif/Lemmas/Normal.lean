import Mathlib.Probability.Distributions.Gaussian.Real
import Mathlib.Probability.CDF
import Mathlib.MeasureTheory.Integral.IntegralEqImproper
import Mathlib.MeasureTheory.Measure.OpenPos
import Mathlib.Analysis.Calculus.MeanValue
import Mathlib.Analysis.Real.Pi.Bounds
import Mathlib.Analysis.Calculus.Deriv.Inv
import Mathlib.Analysis.SpecialFunctions.Gaussian.GaussianIntegral
import Verif.Model.Normal

/-!
# Lemmas about the standard normal distribution
-/

open MeasureTheory ProbabilityTheory Filter Set
open scoped Topology NNReal ENNReal

namespace Mfpml.Acq

theorem normPdf_eq (z : ℝ) : normPdf z = (Real.sqrt (2 * Real.pi))⁻¹ * Real.exp (-z ^ 2 / 2) := by
  simp [normPdf, gaussianPDFReal]

theorem normPdf_pos (z : ℝ) : 0 < normPdf z := gaussianPDFReal_pos 0 1 z one_ne_zero

theorem normPdf_neg (z : ℝ) : normPdf (-z) = normPdf z := by
  rw [normPdf_eq, normPdf_eq]; simp

theorem normPdf_le_zero (z : ℝ) : normPdf z ≤ normPdf 0 := by
  rw [normPdf_eq, normPdf_eq]
  apply mul_le_mul_of_nonneg_left _ (by positivity)
  apply Real.exp_le_exp.mpr
  nlinarith [sq_nonneg z]

theorem normPdf_le_half (z : ℝ) : normPdf z ≤ 1 / 2 := by
  refine (normPdf_le_zero z).trans ?_
  rw [normPdf_eq]
  have h : (2 : ℝ) ≤ Real.sqrt (2 * Real.pi) := by
    rw [Real.le_sqrt (by norm_num) (by positivity)]
    nlinarith [Real.pi_gt_three]
  simp only [ne_eq, OfNat.ofNat_ne_zero, not_false_eq_true, zero_pow, neg_zero, zero_div, Real.exp_zero, mul_one]
  rw [inv_eq_one_div]
  exact one_div_le_one_div_of_le (by norm_num) h

theorem normPdf_hasDerivAt (z : ℝ) : HasDerivAt normPdf (-(z * normPdf z)) z := by
  have h1 : HasDerivAt (fun z : ℝ => -z ^ 2 / 2) (-z) z := by
    have := ((hasDerivAt_id z).pow 2).neg.div_const 2
    simp only [id] at this
    refine this.congr_deriv ?_
    simp
    ring
  have h2 := (h1.exp).const_mul (Real.sqrt (2 * Real.pi))⁻¹
  have h3 : normPdf = fun z : ℝ => (Real.sqrt (2 * Real.pi))⁻¹ * Real.exp (-z ^ 2 / 2) := funext normPdf_eq
  rw [h3]
  refine h2.congr_deriv ?_
  ring

theorem normPdf_continuous : Continuous normPdf :=
  continuous_iff_continuousAt.mpr fun z => (normPdf_hasDerivAt z).continuousAt

theorem normPdf_integrable : Integrable normPdf := integrable_gaussianPDFReal 0 1

theorem mul_normPdf_integrable : Integrable (fun z : ℝ => z * normPdf z) := by
  have h := (integrable_mul_exp_neg_mul_sq (b := 1 / 2) (by norm_num)).const_mul (Real.sqrt (2 * Real.pi))⁻¹
  refine h.congr (Eventually.of_forall fun z => ?_)
  simp only [normPdf_eq]
  rw [show -z ^ 2 / 2 = -(1 / 2 : ℝ) * z ^ 2 by ring]
  ring

theorem normPdf_tendsto_atBot : Tendsto normPdf atBot (𝓝 0) := by
  have h : Tendsto (fun z : ℝ => -z ^ 2 / 2) atBot atBot := by
    have h1 : Tendsto (fun z : ℝ => z ^ 2) atBot atTop := by
      simpa [pow_two] using (tendsto_id.atBot_mul_atBot₀ (tendsto_id (α := ℝ) (x := atBot)))
    have h2 : Tendsto (fun z : ℝ => -(z ^ 2)) atBot atBot := tendsto_neg_atTop_atBot.comp h1
    exact h2.atBot_div_const (by norm_num)
  have h2 := (Real.tendsto_exp_atBot.comp h).const_mul (Real.sqrt (2 * Real.pi))⁻¹
  rw [mul_zero] at h2
  refine h2.congr fun z => ?_
  simp [normPdf_eq]

theorem gaussianReal_eq : gaussianReal 0 1 = volume.withDensity (fun z => ENNReal.ofReal (normPdf z)) := by
  rw [gaussianReal_of_var_ne_zero 0 one_ne_zero]; rfl

theorem normCdf_eq_integral (t : ℝ) : normCdf t = ∫ z in Iic t, normPdf z := by
  rw [normCdf, cdf_eq_real, measureReal_def, gaussianReal_apply_eq_integral 0 one_ne_zero]
  rw [ENNReal.toReal_ofReal]
  · rfl
  · exact setIntegral_nonneg measurableSet_Iic fun z _ => (normPdf_pos z).le

theorem normCdf_nonneg (t : ℝ) : 0 ≤ normCdf t := cdf_nonneg _ t
theorem normCdf_le_one (t : ℝ) : normCdf t ≤ 1 := cdf_le_one _ t
theorem normCdf_mono : Monotone normCdf := monotone_cdf _
theorem normCdf_tendsto_atBot : Tendsto normCdf atBot (𝓝 0) := tendsto_cdf_atBot _

theorem normCdf_hasDerivAt (t : ℝ) : HasDerivAt normCdf (normPdf t) t := by
  have h1 : HasDerivAt (fun t => ∫ z in (0 : ℝ)..t, normPdf z) (normPdf t) t :=
    intervalIntegral.integral_hasDerivAt_right (normPdf_continuous.intervalIntegrable _ _) (normPdf_continuous.stronglyMeasurableAtFilter _ _) normPdf_continuous.continuousAt
  have h2 := h1.const_add (normCdf 0)
  refine h2.congr_of_eventuallyEq (Eventually.of_forall fun x => ?_)
  show normCdf x = normCdf 0 + _
  rw [normCdf_eq_integral, normCdf_eq_integral,
    ← intervalIntegral.integral_Iic_sub_Iic normPdf_integrable.integrableOn normPdf_integrable.integrableOn]
  ring

theorem normCdf_strictMono : StrictMono normCdf := by
  apply strictMono_of_deriv_pos
  intro x
  rw [(normCdf_hasDerivAt x).deriv]
  exact normPdf_pos x

theorem normCdf_continuous : Continuous normCdf :=
  continuous_iff_continuousAt.mpr fun z => (normCdf_hasDerivAt z).continuousAt

theorem normCdf_pos (t : ℝ) : 0 < normCdf t :=
  (normCdf_nonneg (t - 1)).trans_lt (normCdf_strictMono (by linarith))

theorem normCdf_lt_one (t : ℝ) : normCdf t < 1 :=
  (normCdf_strictMono (show t < t + 1 by linarith)).trans_le (normCdf_le_one _)

theorem normCdf_neg (t : ℝ) : normCdf (-t) = 1 - normCdf t := by
  have h1 : ∫ z, normPdf z = 1 := integral_gaussianPDFReal_eq_one 0 one_ne_zero
  have h2 : (∫ z in Iic t, normPdf z) + ∫ z in Ioi t, normPdf z = ∫ z, normPdf z :=
    intervalIntegral.integral_Iic_add_Ioi normPdf_integrable.integrableOn normPdf_integrable.integrableOn
  have h3 : (∫ z in Iic (-t), normPdf z) = ∫ z in Ioi t, normPdf z := by
    have := integral_comp_neg_Ioi t normPdf
    simp only [normPdf_neg] at this
    exact this.symm
  rw [normCdf_eq_integral, normCdf_eq_integral, h3]
  linarith

theorem normCdf_zero : normCdf 0 = 1 / 2 := by
  have := normCdf_neg 0
  rw [neg_zero] at this
  linarith

/-- `∫_{-∞}^t (t - z) φ(z) dz = t Φ(t) + φ(t)`. -/
theorem integral_id_mul_normPdf (t : ℝ) : ∫ z in Iic t, z * normPdf z = -normPdf t := by
  have h := integral_Iic_of_hasDerivAt_of_tendsto' (f := fun z => -normPdf z) (f' := fun z => z * normPdf z) (a := t) (m := -0)
    (fun z _ => ((normPdf_hasDerivAt z).neg.congr_deriv (by simp))) mul_normPdf_integrable.integrableOn normPdf_tendsto_atBot.neg
  rw [h]; simp

/-- The loss function of the standard normal distribution. -/
noncomputable def gLoss (t : ℝ) : ℝ := t * normCdf t + normPdf t

theorem gLoss_hasDerivAt (t : ℝ) : HasDerivAt gLoss (normCdf t) t := by
  have h := ((hasDerivAt_id t).mul (normCdf_hasDerivAt t)).add (normPdf_hasDerivAt t)
  refine h.congr_deriv ?_
  simp

theorem integral_improve (d s : ℝ) (hs : 0 < s) : ∫ z, max (d - s * z) 0 * normPdf z = d * normCdf (d / s) + s * normPdf (d / s) := by
  have h1 : ∀ z, max (d - s * z) 0 * normPdf z = (Iic (d / s)).indicator (fun z => d * normPdf z - s * (z * normPdf z)) z := by
    intro z
    by_cases h : z ≤ d / s
    · rw [indicator_of_mem (mem_Iic.mpr h), max_eq_left]
      · ring
      · rw [le_div_iff₀ hs] at h; linarith [mul_comm z s]
    · rw [indicator_of_notMem (by simpa using h), max_eq_right]
      · ring
      · push Not at h
        rw [div_lt_iff₀ hs] at h; linarith [mul_comm z s]
  simp only [h1]
  rw [integral_indicator measurableSet_Iic, integral_sub (normPdf_integrable.integrableOn.const_mul d) (mul_normPdf_integrable.integrableOn.const_mul s),
    integral_const_mul, integral_const_mul, integral_id_mul_normPdf, ← normCdf_eq_integral]
  ring

theorem gLoss_eq_integral (t : ℝ) : gLoss t = ∫ z, max (t - z) 0 * normPdf z := by
  have := integral_improve t 1 one_pos
  simp only [one_mul, div_one] at this
  rw [this, gLoss]

theorem gLoss_nonneg (t : ℝ) : 0 ≤ gLoss t := by
  rw [gLoss_eq_integral]
  exact integral_nonneg fun z => mul_nonneg (le_max_right _ _) (normPdf_pos z).le

theorem gLoss_pos (t : ℝ) : 0 < gLoss t := by
  have h : StrictMono gLoss := by
    apply strictMono_of_deriv_pos
    intro x
    rw [(gLoss_hasDerivAt x).deriv]
    exact normCdf_pos x
  exact (gLoss_nonneg (t - 1)).trans_lt (h (by linarith))

/-- Mills ratio, first bound. -/
theorem normCdf_le_mills {t : ℝ} (ht : t < 0) : normCdf t ≤ normPdf t / -t := by
  have := gLoss_nonneg t
  rw [gLoss] at this
  rw [le_div_iff₀ (by linarith)]
  linarith [mul_comm t (normCdf t)]

/-- Mills ratio, second bound. -/
theorem gLoss_le_mills {t : ℝ} (ht : t < 0) : gLoss t ≤ normPdf t / t ^ 2 := by
  let q : ℝ → ℝ := fun s => normPdf s / s ^ 2 - gLoss s
  have hd : ∀ s, s < 0 → HasDerivAt q (-(s * normPdf s) / s ^ 2 - normPdf s * (2 * s) / (s ^ 2) ^ 2 - normCdf s) s := by
    intro s hs
    have h1 := (normPdf_hasDerivAt s).div ((hasDerivAt_id s).pow 2) (pow_ne_zero 2 hs.ne)
    have h2 := h1.sub (gLoss_hasDerivAt s)
    refine h2.congr_deriv ?_
    simp only [id]
    have : s ≠ 0 := hs.ne
    field_simp
    simp
    ring
  have hmono : MonotoneOn q (Iic t) := by
    apply monotoneOn_of_deriv_nonneg (convex_Iic t)
    · exact fun s hs => (hd s (lt_of_le_of_lt hs ht)).continuousAt.continuousWithinAt
    · exact fun s hs => (hd s (lt_of_le_of_lt (mem_Iic.mp (interior_subset hs)) ht)).differentiableAt.differentiableWithinAt
    · intro s hs
      have hs0 : s < 0 := lt_of_le_of_lt (mem_Iic.mp (interior_subset hs)) ht
      rw [(hd s hs0).deriv]
      have h1 := normCdf_le_mills hs0
      have h2 : -(s * normPdf s) / s ^ 2 = normPdf s / -s := by field_simp [hs0.ne]
      have h3 : 0 ≤ -(normPdf s * (2 * s) / (s ^ 2) ^ 2) := by
        rw [← neg_div]
        apply div_nonneg _ (by positivity)
        nlinarith [normPdf_pos s]
      linarith
  have hlim : Tendsto q atBot (𝓝 0) := by
    have hsq : Tendsto (fun s : ℝ => s ^ 2) atBot atTop := by
      simpa [pow_two] using (tendsto_id.atBot_mul_atBot₀ (tendsto_id (α := ℝ) (x := atBot)))
    have h1 : Tendsto (fun s : ℝ => normPdf s / s ^ 2) atBot (𝓝 0) := normPdf_tendsto_atBot.div_atTop hsq
    have h2 : Tendsto gLoss atBot (𝓝 0) := by
      refine squeeze_zero' (Eventually.of_forall gLoss_nonneg) ?_ normPdf_tendsto_atBot
      filter_upwards [Iio_mem_atBot (0 : ℝ)] with s hs
      rw [gLoss]
      nlinarith [normCdf_nonneg s, (mem_Iio.mp hs)]
    simpa using h1.sub h2
  have hge : 0 ≤ q t := by
    refine le_of_tendsto hlim ?_
    filter_upwards [Iic_mem_atBot t] with s hs
    exact hmono hs (mem_Iic.mpr le_rfl) hs
  simp only [q] at hge
  linarith

/-- The normal distribution with mean `μ` and standard deviation `|s|` is the law of `μ + s Z`. -/
theorem gaussianReal_affine (μ s : ℝ) : gaussianReal μ (NNReal.mk (s ^ 2) (sq_nonneg s)) = (gaussianReal 0 1).map (fun z => μ + s * z) := by
  have h1 := gaussianReal_map_const_mul (μ := 0) (v := 1) s
  have h2 := gaussianReal_map_const_add (μ := s * 0) (v := (NNReal.mk (s ^ 2) (sq_nonneg s)) * 1) μ
  rw [← h1, Measure.map_map (by fun_prop) (by fun_prop)] at h2
  simp only [mul_zero, zero_add, mul_one] at h2
  exact h2.symm

theorem integral_gaussianReal_affine (μ s : ℝ) {f : ℝ → ℝ} (hf : Continuous f) :
    ∫ y, f y ∂(gaussianReal μ (NNReal.mk (s ^ 2) (sq_nonneg s))) = ∫ z, f (μ + s * z) * normPdf z := by
  rw [gaussianReal_affine, integral_map (by fun_prop) hf.aestronglyMeasurable, integral_gaussianReal_eq_integral_smul one_ne_zero]
  simp only [smul_eq_mul, mul_comm (gaussianPDFReal 0 1 _)]
  rfl

theorem gaussianReal_Iic (μ : ℝ) {s : ℝ} (hs : 0 < s) (a : ℝ) : (gaussianReal μ (NNReal.mk (s ^ 2) (sq_nonneg s))).real (Iic a) = normCdf ((a - μ) / s) := by
  rw [gaussianReal_affine, measureReal_def, Measure.map_apply (by fun_prop) measurableSet_Iic, normCdf, cdf_eq_real, measureReal_def]
  congr 2
  ext z
  simp only [mem_preimage, mem_Iic]
  rw [le_div_iff₀ hs]
  constructor <;> intro h <;> linarith [mul_comm z s]

theorem improve_integrable (d s : ℝ) : Integrable (fun z => max (d - s * z) 0 * normPdf z) := by
  have hb : Integrable (fun z : ℝ => |d| * normPdf z + |s| * |z * normPdf z|) :=
    (normPdf_integrable.const_mul _).add (mul_normPdf_integrable.abs.const_mul _)
  refine hb.mono' ?_ (Eventually.of_forall fun z => ?_)
  · exact (((continuous_const.sub (continuous_const.mul continuous_id)).max continuous_const).mul normPdf_continuous).aestronglyMeasurable
  · have hp := (normPdf_pos z).le
    rw [Real.norm_eq_abs, abs_mul, abs_of_nonneg hp, abs_of_nonneg (le_max_right _ _), abs_mul, abs_of_nonneg hp, ← mul_assoc, ← add_mul, ← abs_mul]
    apply mul_le_mul_of_nonneg_right _ hp
    apply max_le
    · exact (le_abs_self _).trans ((abs_sub d (s * z)).trans le_rfl)
    · positivity

/-- The expected improvement as a function of the standard deviation moves by at most the change of the standard deviation. -/
theorem improve_lipschitz (d s s' : ℝ) : |(∫ z, max (d - s * z) 0 * normPdf z) - ∫ z, max (d - s' * z) 0 * normPdf z| ≤ |s - s'| := by
  rw [← integral_sub (improve_integrable d s) (improve_integrable d s')]
  have hA : ∫ z, |z| * normPdf z ≤ 1 := by
    have h1 : ∫ z, |z| * normPdf z = 2 * normPdf 0 := by
      have hi : Integrable (fun z : ℝ => |z| * normPdf z) := by
        refine mul_normPdf_integrable.abs.congr (Eventually.of_forall fun z => ?_)
        simp only [abs_mul, abs_of_pos (normPdf_pos z)]
      rw [← intervalIntegral.integral_Iic_add_Ioi (b := 0) hi.integrableOn hi.integrableOn]
      have h2 : ∫ z in Iic (0 : ℝ), |z| * normPdf z = normPdf 0 := by
        have : ∫ z in Iic (0 : ℝ), |z| * normPdf z = ∫ z in Iic (0 : ℝ), -(z * normPdf z) := by
          apply setIntegral_congr_fun measurableSet_Iic
          intro z hz
          simp only [abs_of_nonpos (mem_Iic.mp hz)]
          ring
        rw [this, integral_neg, integral_id_mul_normPdf, neg_neg]
      have h3 : ∫ z in Ioi (0 : ℝ), |z| * normPdf z = normPdf 0 := by
        have := integral_comp_neg_Ioi (0 : ℝ) (fun z => |z| * normPdf z)
        simp only [abs_neg, normPdf_neg, neg_zero] at this
        rw [this, h2]
      rw [h2, h3]; ring
    rw [h1]
    linarith [normPdf_le_half 0]
  have hi : Integrable (fun z : ℝ => |s - s'| * (|z| * normPdf z)) := by
    refine (mul_normPdf_integrable.abs.const_mul |s - s'|).congr (Eventually.of_forall fun z => ?_)
    simp only [abs_mul, abs_of_pos (normPdf_pos z)]
  calc |∫ z, (max (d - s * z) 0 * normPdf z - max (d - s' * z) 0 * normPdf z)|
      ≤ ∫ z, |max (d - s * z) 0 * normPdf z - max (d - s' * z) 0 * normPdf z| := abs_integral_le_integral_abs
    _ ≤ ∫ z, |s - s'| * (|z| * normPdf z) := by
        apply integral_mono (((improve_integrable d s).sub (improve_integrable d s')).abs) hi
        intro z
        simp only [Pi.sub_apply]
        rw [← sub_mul, abs_mul, abs_of_pos (normPdf_pos z), ← mul_assoc]
        apply mul_le_mul_of_nonneg_right _ (normPdf_pos z).le
        refine (abs_max_sub_max_le_abs _ _ _).trans ?_
        rw [show d - s * z - (d - s' * z) = -((s - s') * z) by ring, abs_neg, abs_mul]
    _ = |s - s'| * ∫ z, |z| * normPdf z := integral_const_mul _ _
    _ ≤ |s - s'| * 1 := mul_le_mul_of_nonneg_left hA (abs_nonneg _)
    _ = |s - s'| := mul_one _

end Mfpml.Acq
