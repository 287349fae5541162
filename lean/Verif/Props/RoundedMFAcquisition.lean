import Verif.Lemmas.RoundedMFAcquisition
import Verif.Props.RoundedAcquisition

/-!
# The multi-fidelity acquisition functions in floating-point arithmetic (C186)

`R` ranges over all roundings to nearest with `p` significant bits (`float64`: `p = 53`, `emin = -1074`).
-/

set_option linter.unusedSectionVars false

namespace Mfpml.Props

open Mfpml.Rounded Mfpml.Acq Mfpml.Spec

variable {p : ℕ} {emin : ℤ} {R : Rounding p emin}

/-- `np.finfo(float).eps` is a float. -/
theorem epsFl_val (hp : 1 ≤ p) (he : emin ≤ -52) : (epsFl : Fl R).val = 2 ^ (-52 : ℤ) :=
  R.fl_of_isFloat ⟨1, -52, by rw [abs_one]; exact_mod_cast Nat.one_lt_two_pow (by omega), he, by push_cast; rw [one_mul]⟩

theorem absFl_val (a : Fl R) : (absFl a).val = |a.val| := by
  unfold absFl
  split_ifs with h
  · rw [neg_val, abs_of_neg h]
  · rw [abs_of_nonneg (not_lt.mp h)]

theorem mul_one_fl (hp : 1 ≤ p) (he : emin ≤ 0) (a : Fl R) : a * 1 = a := by
  apply Fl.val_injective
  have hone : (1 : Fl R).val = 1 := R.fl_of_isFloat (isFloat_one hp he)
  change R.fl (a.val * (1 : Fl R).val) = a.val
  rw [hone, mul_one, R.fl_of_isFloat (Fl.isFloat a)]

/-- The error of `(fmin - pre) * cdf(z) + std * pdf(z)`, when the argument of the distribution has a small relative error. -/
theorem ei_sum_near (hp : 10 ≤ p) {cdf pdf : NormalFn R} {δ : ℝ} (hcdf : CdfAccurate cdf δ) (hpdf : PdfAccurate pdf δ) (hδ : δ ≤ 1 / 10) (fmin yhat : Fl R) {sigma : Fl R} (hs : 0 ≤ sigma.val) {z' : Fl R} {z : ℝ}
    (hz : |z'.val - z| ≤ 7 * 2 ^ (-(p : ℤ)) * |z| + 3 * 2 ^ (-(p : ℤ))) :
    |((fmin - yhat) * cdf z' + sigma * pdf z').val - ((fmin.val - yhat.val) * normCdf z + sigma.val * normPdf z)| ≤
      (|fmin.val - yhat.val| + sigma.val) * (δ + 14 * 2 ^ (-(p : ℤ))) + 5 * (2 ^ (-(p : ℤ)) * 2 ^ (emin + p - 1)) := by
  have hp1 : 1 ≤ p := by omega
  have hu0 : (0 : ℝ) < 2 ^ (-(p : ℤ)) := two_zpow_pos _
  have ht0 : (0 : ℝ) < 2 ^ (emin + (p : ℤ) - 1) := two_zpow_pos _
  have hu1 : (2 : ℝ) ^ (-(p : ℤ)) ≤ 1 / 1000 := (zpow_le_zpow_right₀ (by norm_num) (by omega : -(p : ℤ) ≤ -10)).trans (by norm_num)
  have hδ0 : 0 ≤ δ := (abs_nonneg _).trans (hcdf 0)
  have hf := fl_error hp1 R
  change |R.fl (R.fl (R.fl (fmin.val - yhat.val) * (cdf z').val) + R.fl (sigma.val * (pdf z').val)) - _| ≤ _
  generalize fmin.val - yhat.val = d
  have hc : |(cdf z').val - normCdf z| ≤ δ + 10 * 2 ^ (-(p : ℤ)) := by
    have h1 := normCdf_rel hz (by positivity) (by linarith) (by positivity) (by linarith)
    have h2 := hcdf z'
    rw [show (cdf z').val - normCdf z = ((cdf z').val - normCdf z'.val) + (normCdf z'.val - normCdf z) by ring]
    exact (abs_add_le _ _).trans (by linarith)
  have hq : |(pdf z').val - normPdf z| ≤ δ + 11 * 2 ^ (-(p : ℤ)) := by
    have h1 := normPdf_rel hz (by positivity) (by linarith) (by positivity) (by linarith)
    have h2 := hpdf z'
    rw [show (pdf z').val - normPdf z = ((pdf z').val - normPdf z'.val) + (normPdf z'.val - normPdf z) by ring]
    exact (abs_add_le _ _).trans (by linarith)
  generalize (2 : ℝ) ^ (-(p : ℤ)) = u at *
  generalize (2 : ℝ) ^ (emin + (p : ℤ) - 1) = t at *
  have hc1 : |normCdf z| ≤ 1 := by rw [abs_of_nonneg (normCdf_nonneg z)]; exact normCdf_le_one z
  have hq1 : |normPdf z| ≤ 1 := by rw [abs_of_pos (normPdf_pos z)]; exact (normPdf_le_half z).trans (by norm_num)
  have hA := near_times hf hu0.le (hf d) le_rfl hc hc1 (by linarith)
  have hB := near_times hf hu0.le (x := sigma.val) (x' := sigma.val) (a := 0) (by simp) (abs_of_nonneg hs).le hq hq1 (by linarith)
  have hwa : |d * normCdf z| ≤ |d| := by rw [abs_mul]; exact mul_le_of_le_one_right (abs_nonneg _) hc1
  have hwb : |sigma.val * normPdf z| ≤ sigma.val := by rw [abs_mul, abs_of_nonneg hs]; exact mul_le_of_le_one_right hs hq1
  exact (near_sum hf hu0.le hA hB hwa hwb).trans (ei_arith hu0.le hu1 ht0.le hδ0 hδ (abs_nonneg d) hs)

/-- The argument of the distribution in `AugmentedEI` and `ExtendedPI`. -/
theorem quotient_near (hp : 10 ≤ p) (he : emin + p ≤ -51) (fmin pre : Fl R) {std : Fl R} (hs : 2 ^ (-52 : ℤ) ≤ std.val) :
    |((fmin - pre) / std).val - (fmin.val - pre.val) / std.val| ≤ 7 * 2 ^ (-(p : ℤ)) * |(fmin.val - pre.val) / std.val| + 3 * 2 ^ (-(p : ℤ)) := by
  have ht : (2 : ℝ) ^ (emin + p - 1) ≤ 2 ^ (-52 : ℤ) := zpow_le_zpow_right₀ (by norm_num) (by omega)
  have hu1 : (2 : ℝ) ^ (-(p : ℤ)) ≤ 2 ^ (-10 : ℤ) := zpow_le_zpow_right₀ (by norm_num) (by omega)
  exact near_quotient (f := R.fl) (fl_error (by omega) R) (two_zpow_pos _).le (hu1.trans (by norm_num)) (ht.trans (by norm_num)) ((two_zpow_pos _).trans_le hs) (ht.trans hs)

/-- The expected improvement in `AugmentedEI`. -/
theorem plainEiFl_near (hp : 10 ≤ p) (he : emin + p ≤ -51) {cdf pdf : NormalFn R} {δ : ℝ} (hcdf : CdfAccurate cdf δ) (hpdf : PdfAccurate pdf δ) (hδ : δ ≤ 1 / 10) (fmin pre : Fl R) {std : Fl R} (hs : 2 ^ (-52 : ℤ) ≤ std.val) :
    |(plainEiFl cdf pdf fmin pre std).val - expectedImprovement fmin.val pre.val std.val| ≤
      (|fmin.val - pre.val| + std.val) * (δ + 14 * 2 ^ (-(p : ℤ))) + 5 * (2 ^ (-(p : ℤ)) * 2 ^ (emin + p - 1)) := by
  have hs0 : 0 < std.val := (two_zpow_pos _).trans_le hs
  have hlt : ¬std < epsFl := by
    have h1 := epsFl_val (R := R) (by omega) (by omega)
    exact not_lt.mpr (show (epsFl : Fl R).val ≤ std.val by rw [h1]; exact hs)
  unfold plainEiFl
  rw [if_neg hlt, expectedImprovement_eq _ _ hs0]
  exact ei_sum_near hp hcdf hpdf hδ fmin pre hs0.le (quotient_near hp he fmin pre hs)

/-- **C186 (augmented expected improvement, high fidelity).**  The value computed by `AugmentedEI.eval` is minus the expected improvement, up to the error of `norm.cdf` and `norm.pdf` plus 14 roundings relative to the distance of the prediction from `fmin`
plus the standard deviation, and zero when the standard deviation is below `eps = 2^-52`. -/
theorem C186_augmented_hf (hp : 10 ≤ p) (he : emin + p ≤ -51) {cdf pdf : NormalFn R} {δ : ℝ} (hcdf : CdfAccurate cdf δ) (hpdf : PdfAccurate pdf δ) (hδ : δ ≤ 1 / 10) (fmin pre std : Fl R) :
    (2 ^ (-52 : ℤ) ≤ std.val → |(augmentedHfFl cdf pdf fmin pre std).val + expectedImprovement fmin.val pre.val std.val| ≤
      (|fmin.val - pre.val| + std.val) * (δ + 14 * 2 ^ (-(p : ℤ))) + 5 * (2 ^ (-(p : ℤ)) * 2 ^ (emin + p - 1))) ∧
    (std.val < 2 ^ (-52 : ℤ) → (augmentedHfFl cdf pdf fmin pre std).val = 0) := by
  unfold augmentedHfFl
  rw [mul_one_fl (by omega) (by omega), mul_one_fl (by omega) (by omega), neg_val]
  refine ⟨fun hs => ?_, fun hs => ?_⟩
  · rw [neg_add_eq_sub, abs_sub_comm]
    exact plainEiFl_near hp he hcdf hpdf hδ fmin pre hs
  · have hlt : std < epsFl := show std.val < (epsFl : Fl R).val by rw [epsFl_val (by omega) (by omega)]; exact hs
    unfold plainEiFl
    rw [if_pos hlt]
    exact neg_zero

/-- The correlation of the fidelities. -/
theorem corrFl_near (hp : 10 ≤ p) (he : emin + p ≤ -51) (pre preLf : Fl R) {std stdLf : Fl R} (hs : 2 ^ (-52 : ℤ) ≤ std.val) (hl : 0 ≤ stdLf.val) :
    |(corrFl pre std preLf stdLf).val - stdLf.val / (|pre.val - preLf.val| + std.val)| ≤ 6 * 2 ^ (-(p : ℤ)) * (stdLf.val / (|pre.val - preLf.val| + std.val)) + 2 ^ (-(p : ℤ)) * 2 ^ (emin + p - 1) := by
  have ht : (2 : ℝ) ^ (emin + p - 1) ≤ 2 ^ (-52 : ℤ) := zpow_le_zpow_right₀ (by norm_num) (by omega)
  have hu1 : (2 : ℝ) ^ (-(p : ℤ)) ≤ 2 ^ (-10 : ℤ) := zpow_le_zpow_right₀ (by norm_num) (by omega)
  change |R.fl (stdLf.val / R.fl ((absFl (pre - preLf)).val + std.val)) - _| ≤ _
  rw [absFl_val]
  exact near_corr (f := R.fl) (fl_error (by omega) R) (two_zpow_pos _).le (hu1.trans (by norm_num)) (two_zpow_pos _).le ((two_zpow_pos _).trans_le hs) (ht.trans hs) hl

/-- **C186 (augmented expected improvement, low fidelity).**  The value computed by `AugmentedEI.eval` is minus the product of expected improvement, correlation `std_lf / (|pre - pre_lf| + std)` and cost ratio, up to the error of
`norm.cdf` and `norm.pdf` plus 24 roundings, relative to the size of the factors (the last term is far below the smallest normal number); and zero when the standard deviation is below `eps = 2^-52`. -/
theorem C186_augmented_lf (hp : 10 ≤ p) (he : emin + p ≤ -51) {cdf pdf : NormalFn R} {δ : ℝ} (hcdf : CdfAccurate cdf δ) (hpdf : PdfAccurate pdf δ) (hδ : δ ≤ 1 / 10) (fmin pre std preLf stdLf costRatio : Fl R)
    (hl : 0 ≤ stdLf.val) {size corr : ℝ} (hsize : size = |fmin.val - pre.val| + std.val) (hcorr : corr = stdLf.val / (|pre.val - preLf.val| + std.val)) :
    (2 ^ (-52 : ℤ) ≤ std.val → |(augmentedLfFl cdf pdf fmin pre std preLf stdLf costRatio).val + expectedImprovement fmin.val pre.val std.val * corr * costRatio.val| ≤
      size * corr * |costRatio.val| * (δ + 24 * 2 ^ (-(p : ℤ))) + 6 * (2 ^ (-(p : ℤ)) * 2 ^ (emin + p - 1)) * (size + corr + 1) * (|costRatio.val| + 1)) ∧
    (std.val < 2 ^ (-52 : ℤ) → (augmentedLfFl cdf pdf fmin pre std preLf stdLf costRatio).val = 0) := by
  have hp1 : 1 ≤ p := by omega
  unfold augmentedLfFl
  rw [neg_val]
  refine ⟨fun hs => ?_, fun hs => ?_⟩
  · have hs0 : 0 < std.val := (two_zpow_pos _).trans_le hs
    have hu0 : (0 : ℝ) < 2 ^ (-(p : ℤ)) := two_zpow_pos _
    have ht0 : (0 : ℝ) < 2 ^ (emin + (p : ℤ) - 1) := two_zpow_pos _
    have hu1 : (2 : ℝ) ^ (-(p : ℤ)) ≤ 1 / 1000 := (zpow_le_zpow_right₀ (by norm_num) (by omega : -(p : ℤ) ≤ -10)).trans (by norm_num)
    have ht1 : (2 : ℝ) ^ (emin + (p : ℤ) - 1) ≤ 1 := (zpow_le_zpow_right₀ (by norm_num) (by omega : emin + (p : ℤ) - 1 ≤ 0)).trans (by norm_num)
    have hδ0 : 0 ≤ δ := (abs_nonneg _).trans (hcdf 0)
    have hf := fl_error hp1 R
    have hE := plainEiFl_near hp he hcdf hpdf hδ fmin pre hs
    have hc := corrFl_near hp he pre preLf hs hl
    have hE0 : |expectedImprovement fmin.val pre.val std.val| ≤ size := by
      rw [abs_of_nonneg (expectedImprovement_nonneg _ _ _), hsize]
      exact ei_le_size _ _ hs0.le
    have hc0 : 0 ≤ corr := by rw [hcorr]; positivity
    rw [← hsize] at hE
    rw [← hcorr] at hc
    rw [neg_add_eq_sub, abs_sub_comm]
    change |R.fl (R.fl ((plainEiFl cdf pdf fmin pre std).val * (corrFl pre std preLf stdLf).val) * costRatio.val) - _| ≤ _
    generalize (plainEiFl cdf pdf fmin pre std).val = x' at *
    generalize (corrFl pre std preLf stdLf).val = c' at *
    generalize expectedImprovement fmin.val pre.val std.val = x at *
    generalize costRatio.val = r at *
    clear hsize hcorr
    generalize (2 : ℝ) ^ (-(p : ℤ)) = u at *
    generalize (2 : ℝ) ^ (emin + (p : ℤ) - 1) = t at *
    have hS0 : 0 ≤ size := (abs_nonneg _).trans hE0
    have h1 := near_correlated hf hu0.le hu1 ht0.le ht1 hE hE0 (by linarith) hc0 hc
    have h2 : |x * corr| ≤ size * corr := by
      rw [abs_mul, abs_of_nonneg hc0]
      exact mul_le_mul_of_nonneg_right hE0 hc0
    have h3 := near_factor hf hu0.le hu1 (y := r) h1 h2 (by linarith) (by positivity)
    refine h3.trans ?_
    have hr := abs_nonneg r
    generalize |r| = ρ at *
    have hτ : 0 ≤ u * t := by positivity
    generalize u * t = τ at *
    have e1 : size * corr * ρ * (δ + 14 * u + 8 * u + 1.3 * u) ≤ size * corr * ρ * (δ + 24 * u) := mul_le_mul_of_nonneg_left (by linarith) (by positivity)
    have e2 : 1.001 * (5.1 * (τ * (size + corr + 1)) * ρ) + τ ≤ 6 * τ * (size + corr + 1) * (ρ + 1) := by
      have a1 : 0 ≤ τ * (size + corr) * ρ := by positivity
      have a2 : 0 ≤ τ * ρ := by positivity
      have a3 : 0 ≤ τ * (size + corr) := by positivity
      nlinarith
    linarith
  · have hlt : std < epsFl := show std.val < (epsFl : Fl R).val by rw [epsFl_val hp1 (by omega)]; exact hs
    unfold plainEiFl
    rw [if_pos hlt]
    change -R.fl (R.fl (0 * _) * _) = 0
    rw [zero_mul, R.fl_of_isFloat isFloat_zero, zero_mul, R.fl_of_isFloat isFloat_zero, neg_zero]

/-- **C186 (variable-fidelity expected improvement).**  For both fidelities, the value computed by `VFEI.eval` is minus the expected improvement of the high fidelity, up to `2e-8` (from the `1e-8` in the code), the error of
`norm.cdf` and `norm.pdf` and 14 roundings; unless the standard deviation compared with `eps` is below `2^-52`: then it is zero. -/
theorem C186_variable_fidelity_ei (hp : 10 ≤ p) (he : emin + p ≤ -51) {cdf pdf : NormalFn R} {δ : ℝ} (hcdf : CdfAccurate cdf δ) (hpdf : PdfAccurate pdf δ) (hδ : δ ≤ 1 / 10) (fmin pre std s : Fl R) (hs : 0 ≤ std.val) :
    (2 ^ (-52 : ℤ) ≤ s.val → |(vfeiFl cdf pdf fmin pre std s).val + expectedImprovement fmin.val pre.val std.val| ≤
      2e-8 + (|fmin.val - pre.val| + std.val) * (δ + 14 * 2 ^ (-(p : ℤ))) + 5 * (2 ^ (-(p : ℤ)) * 2 ^ (emin + p - 1))) ∧
    (s.val < 2 ^ (-52 : ℤ) → (vfeiFl cdf pdf fmin pre std s).val = 0) := by
  have hp1 : 1 ≤ p := by omega
  unfold vfeiFl
  rw [neg_val]
  refine ⟨fun h => ?_, fun h => ?_⟩
  · have hlt : ¬s < epsFl := not_lt.mpr (show (epsFl : Fl R).val ≤ s.val by rw [epsFl_val hp1 (by omega)]; exact h)
    rw [if_neg hlt]
    have ht : (2 : ℝ) ^ (emin + p - 1) ≤ 2 ^ (-52 : ℤ) := zpow_le_zpow_right₀ (by norm_num) (by omega)
    have hu1 : (2 : ℝ) ^ (-(p : ℤ)) ≤ 2 ^ (-10 : ℤ) := zpow_le_zpow_right₀ (by norm_num) (by omega)
    have hz := near_z (f := R.fl) (fl_error hp1 R) (two_zpow_pos _).le (hu1.trans (by norm_num)) (two_zpow_pos _).le (c := 1e-8) (ht.trans (by norm_num)) (by norm_num) (ht.trans (by norm_num)) (d := fmin.val - pre.val) hs
    have h1 := ei_sum_near hp hcdf hpdf hδ fmin pre hs (z' := (fmin - pre) / (std + Fl.ofReal R (1e-8))) hz
    have h2 := regularised_ei_near fmin.val pre.val hs (by norm_num : (0 : ℝ) < 1e-8)
    have e1 : ∀ a b c : ℝ, |-a + c| ≤ |a - b| + |b - c| := fun a b c => by
      rw [show -a + c = -((a - b) + (b - c)) by ring, abs_neg]
      exact abs_add_le _ _
    refine (e1 _ _ _).trans ((add_le_add h1 h2).trans ?_)
    have e2 : (2 : ℝ) * 1e-8 = 2e-8 := by norm_num
    rw [e2]
    linarith
  · have hlt : s < epsFl := show s.val < (epsFl : Fl R).val by rw [epsFl_val hp1 (by omega)]; exact h
    rw [if_pos hlt]
    exact neg_zero

/-- **C186 (variable-fidelity expected improvement, which standard deviation is compared).**  For the high fidelity it is the predicted one; for the low fidelity, that of the low fidelity times the regression coefficient, rounded. -/
theorem C186_compared (cdf pdf : NormalFn R) (fmin pre std beta stdLf : Fl R) :
    vfeiHfFl cdf pdf fmin pre std = vfeiFl cdf pdf fmin pre std std ∧
    ∃ s : Fl R, s.val = R.fl (beta.val * stdLf.val) ∧ vfeiLfFl cdf pdf fmin pre std beta stdLf = vfeiFl cdf pdf fmin pre std s :=
  ⟨rfl, _, rfl, rfl⟩

/-- **C186 (variable-fidelity confidence bound).**  The value computed by `VFLCB.eval` for the low fidelity is `kappa[0] * mean - kappa[1] * std_lf * cost_ratio` up to five roundings.  (For the high fidelity it is that of
`C183_lower_confidence_bound`.) -/
theorem C186_variable_fidelity_bound (hp : 10 ≤ p) (kappa : Fl R × Fl R) (mean stdLf costRatio : Fl R) :
    |(vflcbLfFl kappa mean stdLf costRatio).val - (kappa.1.val * mean.val - kappa.2.val * (stdLf.val * costRatio.val))| ≤
      5 * 2 ^ (-(p : ℤ)) * (|kappa.1.val * mean.val| + |kappa.2.val * (stdLf.val * costRatio.val)|) + 5 * (2 ^ (-(p : ℤ)) * 2 ^ (emin + p - 1)) * (|kappa.2.val| + 1) := by
  have h1 := C183_lower_confidence_bound hp kappa mean (stdLf * costRatio)
  have hu0 : (0 : ℝ) < 2 ^ (-(p : ℤ)) := two_zpow_pos _
  have ht0 : (0 : ℝ) < 2 ^ (emin + (p : ℤ) - 1) := two_zpow_pos _
  have hu1 : (2 : ℝ) ^ (-(p : ℤ)) ≤ 1 / 1000 := (zpow_le_zpow_right₀ (by norm_num) (by omega : -(p : ℤ) ≤ -10)).trans (by norm_num)
  have h2 := fl_error (by omega : 1 ≤ p) R (stdLf.val * costRatio.val)
  have h3 : (stdLf * costRatio).val = R.fl (stdLf.val * costRatio.val) := rfl
  rw [h3] at h1
  change |(lcbFl kappa mean (stdLf * costRatio)).val - _| ≤ _
  generalize R.fl (stdLf.val * costRatio.val) = s' at *
  generalize stdLf.val * costRatio.val = s at *
  generalize (lcbFl kappa mean (stdLf * costRatio)).val = v at *
  generalize (2 : ℝ) ^ (-(p : ℤ)) = u at *
  generalize (2 : ℝ) ^ (emin + (p : ℤ) - 1) = t at *
  generalize kappa.1.val * mean.val = A at *
  generalize kappa.2.val = k at *
  have h4 : |k * s' - k * s| ≤ u * |k * s| + u * t * |k| := by
    rw [← mul_sub, abs_mul, abs_mul]
    have := mul_le_mul_of_nonneg_left h2 (abs_nonneg k)
    nlinarith
  have h5 : |k * s'| ≤ |k * s| + (u * |k * s| + u * t * |k|) := near_size h4 le_rfl
  have h6 : |v - (A - k * s)| ≤ |v - (A - k * s')| + |k * s' - k * s| := by
    rw [show v - (A - k * s) = (v - (A - k * s')) + -(k * s' - k * s) by ring]
    exact (abs_add_le _ _).trans (by rw [abs_neg])
  refine h6.trans ?_
  have hk := abs_nonneg k
  have hA := abs_nonneg A
  have hks := abs_nonneg (k * s)
  generalize |k * s'| = B' at *
  generalize |k * s| = B at *
  generalize |A| = A' at *
  generalize |k| = κ at *
  have g1 : 3 * u * (A' + B') ≤ 3 * u * (A' + (B + (u * B + u * t * κ))) := mul_le_mul_of_nonneg_left (by linarith) (by positivity)
  have g2 : u * (u * B) ≤ 1 / 1000 * (u * B) := mul_le_mul_of_nonneg_right hu1 (by positivity)
  have g3 : u * (u * t * κ) ≤ 1 / 1000 * (u * t * κ) := mul_le_mul_of_nonneg_right hu1 (by positivity)
  have g4 : 0 ≤ u * B := by positivity
  have g5 : 0 ≤ u * t * κ := by positivity
  have g6 : 0 ≤ u * t := by positivity
  have g7 : 0 ≤ u * A' := by positivity
  have e1 : 3 * u * (A' + (B + (u * B + u * t * κ))) = 3 * (u * A') + 3 * (u * B) + 3 * (u * (u * B)) + 3 * (u * (u * t * κ)) := by ring
  have e2 : 5 * u * (A' + B) + 5 * (u * t) * (κ + 1) = 5 * (u * A') + 5 * (u * B) + 5 * (u * t * κ) + 5 * (u * t) := by ring
  rw [e1] at g1
  rw [e2]
  linarith

/-- The probability of improvement in `ExtendedPI`. -/
theorem plainPiFl_near (hp : 10 ≤ p) (he : emin + p ≤ -51) {cdf : NormalFn R} {δ : ℝ} (hcdf : CdfAccurate cdf δ) (fmin pre : Fl R) {std : Fl R} (hs : 2 ^ (-52 : ℤ) ≤ std.val) :
    |(plainPiFl cdf fmin pre std).val - probAtMost fmin.val pre.val std.val| ≤ δ + 10 * 2 ^ (-(p : ℤ)) := by
  have hs0 : 0 < std.val := (two_zpow_pos _).trans_le hs
  have hu0 : (0 : ℝ) < 2 ^ (-(p : ℤ)) := two_zpow_pos _
  have hu1 : (2 : ℝ) ^ (-(p : ℤ)) ≤ 1 / 1000 := (zpow_le_zpow_right₀ (by norm_num) (by omega : -(p : ℤ) ≤ -10)).trans (by norm_num)
  have hlt : ¬std < epsFl := not_lt.mpr (show (epsFl : Fl R).val ≤ std.val by rw [epsFl_val (by omega) (by omega)]; exact hs)
  unfold plainPiFl
  rw [if_neg hlt, probAtMost_eq _ _ hs0]
  have h1 := normCdf_rel (quotient_near hp he fmin pre hs) (by positivity) (by linarith) (by positivity) (by linarith)
  have h2 := hcdf ((fmin - pre) / std)
  rw [show (cdf ((fmin - pre) / std)).val - normCdf ((fmin.val - pre.val) / std.val) =
    ((cdf ((fmin - pre) / std)).val - normCdf ((fmin - pre) / std).val) + (normCdf ((fmin - pre) / std).val - normCdf ((fmin.val - pre.val) / std.val)) by ring]
  exact (abs_add_le _ _).trans (by linarith)

theorem probAtMost_abs (a μ : ℝ) {σ : ℝ} (hσ : 0 < σ) : |-probAtMost a μ σ| ≤ 1 := by
  rw [abs_neg, probAtMost_eq _ _ hσ, abs_of_nonneg (normCdf_nonneg _)]
  exact normCdf_le_one _

/-- **C186 (extended probability of improvement, high fidelity).**  The value computed by `ExtendedPI.eval` is minus the probability of an outcome of at most `fmin`, times the product of correlations `eta`, up to the error of
`norm.cdf` and twelve roundings; and zero when the standard deviation is below `eps = 2^-52`. -/
theorem C186_extended_hf (hp : 10 ≤ p) (he : emin + p ≤ -51) {cdf : NormalFn R} {δ : ℝ} (hcdf : CdfAccurate cdf δ) (hδ : δ ≤ 1 / 10) (fmin pre std eta : Fl R) :
    (2 ^ (-52 : ℤ) ≤ std.val → |(extendedHfFl cdf fmin pre std eta).val + probAtMost fmin.val pre.val std.val * eta.val| ≤ |eta.val| * (δ + 12 * 2 ^ (-(p : ℤ))) + 2 ^ (-(p : ℤ)) * 2 ^ (emin + p - 1)) ∧
    (std.val < 2 ^ (-52 : ℤ) → (extendedHfFl cdf fmin pre std eta).val = 0) := by
  have hp1 : 1 ≤ p := by omega
  unfold extendedHfFl
  rw [mul_one_fl hp1 (by omega), mul_one_fl hp1 (by omega)]
  refine ⟨fun hs => ?_, fun hs => ?_⟩
  · have hs0 : 0 < std.val := (two_zpow_pos _).trans_le hs
    have hu0 : (0 : ℝ) < 2 ^ (-(p : ℤ)) := two_zpow_pos _
    have hu1 : (2 : ℝ) ^ (-(p : ℤ)) ≤ 1 / 1000 := (zpow_le_zpow_right₀ (by norm_num) (by omega : -(p : ℤ) ≤ -10)).trans (by norm_num)
    have h1 := plainPiFl_near hp he hcdf fmin pre hs
    have h2 : |(-plainPiFl cdf fmin pre std).val - -probAtMost fmin.val pre.val std.val| ≤ 1 * (δ + 10 * 2 ^ (-(p : ℤ))) + 0 := by
      rw [neg_val, ← neg_sub', abs_neg]
      linarith
    have h3 := near_factor (fl_error hp1 R) hu0.le hu1 (y := eta.val) h2 (probAtMost_abs _ _ hs0) (by linarith) le_rfl
    change |R.fl ((-plainPiFl cdf fmin pre std).val * eta.val) + _| ≤ _
    rw [neg_mul (probAtMost _ _ _), sub_neg_eq_add] at h3
    refine h3.trans ?_
    have h4 : |eta.val| * (δ + 10 * 2 ^ (-(p : ℤ)) + 1.3 * 2 ^ (-(p : ℤ))) ≤ |eta.val| * (δ + 12 * 2 ^ (-(p : ℤ))) := mul_le_mul_of_nonneg_left (by linarith) (abs_nonneg _)
    linarith
  · have hlt : std < epsFl := show std.val < (epsFl : Fl R).val by rw [epsFl_val hp1 (by omega)]; exact hs
    unfold plainPiFl
    rw [if_pos hlt]
    change R.fl ((-(0 : Fl R)).val * _) = 0
    rw [neg_val]
    change R.fl (-0 * _) = 0
    rw [neg_zero, zero_mul, R.fl_of_isFloat isFloat_zero]

/-- **C186 (extended probability of improvement, low fidelity).**  The value computed by `ExtendedPI.eval` is minus the probability of an outcome of at most `fmin`, times the correlation `std_lf / (|pre - pre_lf| + std)`, the cost ratio and
the product of correlations `eta`, up to the error of `norm.cdf` and 21 roundings relative to the factors; and zero when the standard deviation is below `eps = 2^-52`. -/
theorem C186_extended_lf (hp : 10 ≤ p) (he : emin + p ≤ -51) {cdf : NormalFn R} {δ : ℝ} (hcdf : CdfAccurate cdf δ) (hδ : δ ≤ 1 / 10) (fmin pre std preLf stdLf costRatio eta : Fl R) (hl : 0 ≤ stdLf.val) {corr : ℝ}
    (hcorr : corr = stdLf.val / (|pre.val - preLf.val| + std.val)) :
    (2 ^ (-52 : ℤ) ≤ std.val → |(extendedLfFl cdf fmin pre std preLf stdLf costRatio eta).val + probAtMost fmin.val pre.val std.val * corr * costRatio.val * eta.val| ≤
      corr * |costRatio.val| * |eta.val| * (δ + 21 * 2 ^ (-(p : ℤ))) + 7 * (2 ^ (-(p : ℤ)) * 2 ^ (emin + p - 1)) * (corr + 2) * (|costRatio.val| + 1) * (|eta.val| + 1)) ∧
    (std.val < 2 ^ (-52 : ℤ) → (extendedLfFl cdf fmin pre std preLf stdLf costRatio eta).val = 0) := by
  have hp1 : 1 ≤ p := by omega
  unfold extendedLfFl
  refine ⟨fun hs => ?_, fun hs => ?_⟩
  · have hs0 : 0 < std.val := (two_zpow_pos _).trans_le hs
    have hu0 : (0 : ℝ) < 2 ^ (-(p : ℤ)) := two_zpow_pos _
    have ht0 : (0 : ℝ) < 2 ^ (emin + (p : ℤ) - 1) := two_zpow_pos _
    have hu1 : (2 : ℝ) ^ (-(p : ℤ)) ≤ 1 / 1000 := (zpow_le_zpow_right₀ (by norm_num) (by omega : -(p : ℤ) ≤ -10)).trans (by norm_num)
    have ht1 : (2 : ℝ) ^ (emin + (p : ℤ) - 1) ≤ 1 := (zpow_le_zpow_right₀ (by norm_num) (by omega : emin + (p : ℤ) - 1 ≤ 0)).trans (by norm_num)
    have hf := fl_error hp1 R
    have h1 := plainPiFl_near hp he hcdf fmin pre hs
    have hτ : 0 ≤ (2 : ℝ) ^ (-(p : ℤ)) * 2 ^ (emin + (p : ℤ) - 1) := by positivity
    have h2 : |(-plainPiFl cdf fmin pre std).val - -probAtMost fmin.val pre.val std.val| ≤ 1 * (δ + 10 * 2 ^ (-(p : ℤ))) + 5 * (2 ^ (-(p : ℤ)) * 2 ^ (emin + p - 1)) := by
      rw [neg_val, ← neg_sub', abs_neg]
      linarith
    have hx := probAtMost_abs fmin.val pre.val hs0
    have hc := corrFl_near hp he pre preLf hs hl
    have hc0 : 0 ≤ corr := by rw [hcorr]; positivity
    rw [← hcorr] at hc
    change |R.fl (R.fl (R.fl ((-plainPiFl cdf fmin pre std).val * (corrFl pre std preLf stdLf).val) * costRatio.val) * eta.val) + _| ≤ _
    generalize (-plainPiFl cdf fmin pre std).val = x' at *
    generalize (corrFl pre std preLf stdLf).val = c' at *
    have e0 : probAtMost fmin.val pre.val std.val * corr * costRatio.val * eta.val = -(-probAtMost fmin.val pre.val std.val * corr * costRatio.val * eta.val) := by ring
    rw [e0, ← sub_eq_add_neg]
    clear e0 h1 hcorr
    generalize -probAtMost fmin.val pre.val std.val = x at *
    generalize costRatio.val = r at *
    generalize eta.val = η at *
    generalize (2 : ℝ) ^ (-(p : ℤ)) = u at *
    generalize (2 : ℝ) ^ (emin + (p : ℤ) - 1) = t at *
    have g1 := near_correlated hf hu0.le hu1 ht0.le ht1 h2 hx (by linarith) hc0 hc
    have s1 : |x * corr| ≤ 1 * corr := by
      rw [abs_mul, abs_of_nonneg hc0]
      exact mul_le_mul_of_nonneg_right hx hc0
    have g2 := near_factor hf hu0.le hu1 (y := r) g1 s1 (by linarith) (by positivity)
    have s2 : |x * corr * r| ≤ 1 * corr * |r| := by
      rw [abs_mul]
      exact mul_le_mul_of_nonneg_right s1 (abs_nonneg _)
    rw [add_assoc] at g2
    have g3 := near_factor hf hu0.le hu1 (y := η) g2 s2 (by linarith) (by positivity)
    refine g3.trans ?_
    have hr := abs_nonneg r
    have hη := abs_nonneg η
    generalize |r| = ρ at *
    generalize |η| = ζ at *
    generalize u * t = τ at *
    have e1 : 1 * corr * ρ * ζ * (δ + 10 * u + 8 * u + 1.3 * u + 1.3 * u) ≤ corr * ρ * ζ * (δ + 21 * u) := by
      rw [one_mul]
      exact mul_le_mul_of_nonneg_left (by linarith) (by positivity)
    have e2 : 1.001 * ((1.001 * (5.1 * (τ * (1 + corr + 1)) * ρ) + τ) * ζ) + τ ≤ 7 * τ * (corr + 2) * (ρ + 1) * (ζ + 1) := by
      have a1 : 0 ≤ τ * corr * ρ * ζ := by positivity
      have a2 : 0 ≤ τ * ρ * ζ := by positivity
      have a3 : 0 ≤ τ * corr * ρ := by positivity
      have a4 : 0 ≤ τ * corr * ζ := by positivity
      have a5 : 0 ≤ τ * corr := by positivity
      have a6 : 0 ≤ τ * ρ := by positivity
      have a7 : 0 ≤ τ * ζ := by positivity
      have l1 : 1.001 * ((1.001 * (5.1 * (τ * (1 + corr + 1)) * ρ) + τ) * ζ) + τ = 1.001 * (1.001 * (5.1 * (2 * (τ * ρ * ζ) + τ * corr * ρ * ζ)) + τ * ζ) + τ := by ring
      have l2 : 7 * τ * (corr + 2) * (ρ + 1) * (ζ + 1) = 7 * (τ * corr * ρ * ζ) + 14 * (τ * ρ * ζ) + 7 * (τ * corr * ρ) + 7 * (τ * corr * ζ) + 7 * (τ * corr) + 14 * (τ * ρ) + 14 * (τ * ζ) + 14 * τ := by ring
      rw [l1, l2]
      linarith
    linarith
  · have hlt : std < epsFl := show std.val < (epsFl : Fl R).val by rw [epsFl_val hp1 (by omega)]; exact hs
    unfold plainPiFl
    rw [if_pos hlt]
    change R.fl (R.fl (R.fl ((-(0 : Fl R)).val * _) * _) * _) = 0
    rw [neg_val]
    change R.fl (R.fl (R.fl (-0 * _) * _) * _) = 0
    rw [neg_zero, zero_mul, R.fl_of_isFloat isFloat_zero, zero_mul, R.fl_of_isFloat isFloat_zero, zero_mul, R.fl_of_isFloat isFloat_zero]

/-- **C186 (which fidelity is chosen).**  If the computed value at the point found for the high fidelity is at most that at the point found for the low fidelity, as `AugmentedEI.query` checks, then the expected improvement of the
former is at least the discounted one of the latter, up to the errors of both. -/
theorem C186_choice (hp : 10 ≤ p) (he : emin + p ≤ -51) {cdf pdf : NormalFn R} {δ : ℝ} (hcdf : CdfAccurate cdf δ) (hpdf : PdfAccurate pdf δ) (hδ : δ ≤ 1 / 10) (fmin pre std pre' std' preLf' stdLf' costRatio : Fl R)
    (hs : 2 ^ (-52 : ℤ) ≤ std.val) (hs' : 2 ^ (-52 : ℤ) ≤ std'.val) (hl : 0 ≤ stdLf'.val) {size size' corr : ℝ} (hsize : size = |fmin.val - pre.val| + std.val) (hsize' : size' = |fmin.val - pre'.val| + std'.val)
    (hcorr : corr = stdLf'.val / (|pre'.val - preLf'.val| + std'.val))
    (hle : augmentedHfFl cdf pdf fmin pre std ≤ augmentedLfFl cdf pdf fmin pre' std' preLf' stdLf' costRatio) :
    expectedImprovement fmin.val pre'.val std'.val * corr * costRatio.val ≤ expectedImprovement fmin.val pre.val std.val + size * (δ + 14 * 2 ^ (-(p : ℤ))) + size' * corr * |costRatio.val| * (δ + 24 * 2 ^ (-(p : ℤ))) +
      (2 ^ (-(p : ℤ)) * 2 ^ (emin + p - 1)) * (5 + 6 * (size' + corr + 1) * (|costRatio.val| + 1)) := by
  have h1 := (abs_le.mp ((C186_augmented_hf hp he hcdf hpdf hδ fmin pre std).1 hs)).1
  have h2 := (abs_le.mp ((C186_augmented_lf hp he hcdf hpdf hδ fmin pre' std' preLf' stdLf' costRatio hl hsize' hcorr).1 hs')).2
  have h3 : (augmentedHfFl cdf pdf fmin pre std).val ≤ (augmentedLfFl cdf pdf fmin pre' std' preLf' stdLf' costRatio).val := hle
  rw [← hsize] at h1
  linarith

/-- In double precision, with distribution function and density correctly rounded: prediction within ten of `fmin`, standard deviations up to ten and correlation and cost ratio up to ten. -/
example (fmin pre std preLf stdLf costRatio : Double) (hs : 2 ^ (-52 : ℤ) ≤ std.val) (hl : 0 ≤ stdLf.val) (hy : |fmin.val - pre.val| + std.val ≤ 20) (hc : stdLf.val / (|pre.val - preLf.val| + std.val) ≤ 10) (hr : |costRatio.val| ≤ 10) :
    |(augmentedLfFl (fun a => Fl.ofReal _ (normCdf a.val)) (fun a => Fl.ofReal _ (normPdf a.val)) fmin pre std preLf stdLf costRatio).val +
      expectedImprovement fmin.val pre.val std.val * (stdLf.val / (|pre.val - preLf.val| + std.val)) * costRatio.val| ≤ 1e-11 := by
  obtain ⟨h1, h2⟩ := normal_accurate (R := nearestRounding 53 (-1074) (by norm_num)) (by norm_num) (by norm_num)
  refine ((C186_augmented_lf (by norm_num) (by norm_num) h1 h2 (by norm_num) fmin pre std preLf stdLf costRatio hl rfl rfl).1 hs).trans ?_
  have hs0 : 0 < std.val := (two_zpow_pos _).trans_le hs
  have hc0 : 0 ≤ stdLf.val / (|pre.val - preLf.val| + std.val) := by positivity
  have hy0 : 0 ≤ |fmin.val - pre.val| + std.val := by positivity
  have hr0 := abs_nonneg costRatio.val
  generalize stdLf.val / (|pre.val - preLf.val| + std.val) = c at *
  generalize |fmin.val - pre.val| + std.val = s at *
  generalize |costRatio.val| = r at *
  have h4 : (2 : ℝ) ^ (-1074 + ((53 : ℕ) : ℤ) - 1) ≤ 2 ^ (-30 : ℤ) := zpow_le_zpow_right₀ (by norm_num) (by norm_num)
  have h4' : (0 : ℝ) ≤ 2 ^ (-1074 + ((53 : ℕ) : ℤ) - 1) := (two_zpow_pos _).le
  generalize (2 : ℝ) ^ (-1074 + ((53 : ℕ) : ℤ) - 1) = t at *
  have g1 : s * c * r ≤ 20 * 10 * 10 := mul_le_mul (mul_le_mul hy hc hc0 (by norm_num)) hr hr0 (by norm_num)
  have g2 : s * c * r * ((2 : ℝ) ^ (1 - ((53 : ℕ) : ℤ)) + 24 * 2 ^ (-((53 : ℕ) : ℤ))) ≤ 20 * 10 * 10 * (2 ^ (1 - ((53 : ℕ) : ℤ)) + 24 * 2 ^ (-((53 : ℕ) : ℤ))) := mul_le_mul_of_nonneg_right g1 (by norm_num)
  have g3 : (2 : ℝ) ^ (-((53 : ℕ) : ℤ)) * t ≤ 2 ^ (-((53 : ℕ) : ℤ)) * 2 ^ (-30 : ℤ) := mul_le_mul_of_nonneg_left h4 (by norm_num)
  have g4 : 6 * ((2 : ℝ) ^ (-((53 : ℕ) : ℤ)) * t) * (s + c + 1) * (r + 1) ≤ 6 * (2 ^ (-((53 : ℕ) : ℤ)) * 2 ^ (-30 : ℤ)) * (20 + 10 + 1) * (10 + 1) :=
    mul_le_mul (mul_le_mul (mul_le_mul_of_nonneg_left g3 (by norm_num)) (by linarith) (by positivity) (by norm_num)) (by linarith) (by positivity) (by norm_num)
  refine (add_le_add g2 g4).trans (by norm_num)

end Mfpml.Props
