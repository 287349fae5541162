import Verif.Lemmas.Acquisitions
import Verif.Lemmas.RoundedAcquisition
import Verif.Spec.Acquisitions
import Verif.Spec.RoundedAcquisition
import Verif.Props.RoundedKernel

/-!
# The acquisition functions in floating-point arithmetic (C183)

`R` ranges over all roundings to nearest with `p` significant bits (`float64`: `p = 53`, `emin = -1074`).
-/

set_option linter.unusedSectionVars false

namespace Mfpml.Props

open Mfpml.Rounded Mfpml.Acq Mfpml.Spec

variable {p : ℕ} {emin : ℤ} {R : Rounding p emin}

theorem neg_val (a : Fl R) : (-a).val = -a.val := by
  change R.fl (-a.val) = -a.val
  obtain ⟨m, e, h1, h2, h3⟩ := Fl.isFloat a
  exact R.fl_of_isFloat ⟨-m, e, by rwa [abs_neg], h2, by rw [h3]; push_cast; ring⟩

/-- The arguments of the distribution function and of the density. -/
theorem zFl_near (hp : 10 ≤ p) (he : emin + p ≤ -29) (fmin yhat : Fl R) {sigma : Fl R} (hs : 0 ≤ sigma.val) :
    |(zFl fmin yhat sigma).val - (fmin.val - yhat.val) / (sigma.val + 1e-9)| ≤ 7 * 2 ^ (-(p : ℤ)) * |(fmin.val - yhat.val) / (sigma.val + 1e-9)| + 3 * 2 ^ (-(p : ℤ)) := by
  have ht : (2 : ℝ) ^ (emin + p - 1) ≤ 2 ^ (-30 : ℤ) := zpow_le_zpow_right₀ (by norm_num) (by omega)
  have hu1 : (2 : ℝ) ^ (-(p : ℤ)) ≤ 2 ^ (-10 : ℤ) := zpow_le_zpow_right₀ (by norm_num) (by omega)
  exact near_z (f := R.fl) (fl_error (by omega) R) (two_zpow_pos _).le (hu1.trans (by norm_num)) (two_zpow_pos _).le (ht.trans (by norm_num)) (by norm_num) (ht.trans (by norm_num)) hs

/-- The arithmetic of the error estimate. -/
theorem ei_arith {u t δ D s : ℝ} (hu : 0 ≤ u) (hu1 : u ≤ 1 / 1000) (ht : 0 ≤ t) (hδ : 0 ≤ δ) (hδ1 : δ ≤ 1 / 10) (hD : 0 ≤ D) (hs : 0 ≤ s) :
    1.2 * (u * (D + t)) + D * (δ + 10 * u) + u * (1.2 * D + 1.2 * (u * (D + t)) + t) + (1.2 * 0 + s * (δ + 11 * u) + u * (1.2 * s + 1.2 * 0 + t)) +
      u * (D + s + (1.2 * (u * (D + t)) + D * (δ + 10 * u) + u * (1.2 * D + 1.2 * (u * (D + t)) + t) + (1.2 * 0 + s * (δ + 11 * u) + u * (1.2 * s + 1.2 * 0 + t))) + t) ≤
    (D + s) * (δ + 14 * u) + 5 * (u * t) := by
  have hut : 0 ≤ u * t := by positivity
  have huD : 0 ≤ u * D := by positivity
  have hus : 0 ≤ u * s := by positivity
  have h1 : u * (u * D) ≤ 1 / 1000 * (u * D) := mul_le_mul_of_nonneg_right hu1 huD
  have h2 : u * (u * t) ≤ 1 / 1000 * (u * t) := mul_le_mul_of_nonneg_right hu1 hut
  have h3 : u * (u * s) ≤ 1 / 1000 * (u * s) := mul_le_mul_of_nonneg_right hu1 hus
  have h1' : u * (u * (u * D)) ≤ u * (1 / 1000 * (u * D)) := mul_le_mul_of_nonneg_left h1 hu
  have h2' : u * (u * (u * t)) ≤ u * (1 / 1000 * (u * t)) := mul_le_mul_of_nonneg_left h2 hu
  have h4 : u * D * δ ≤ u * D * (1 / 10) := mul_le_mul_of_nonneg_left hδ1 huD
  have h5 : u * s * δ ≤ u * s * (1 / 10) := mul_le_mul_of_nonneg_left hδ1 hus
  nlinarith

/-- **C183 (expected improvement).**  The value computed by `EI.eval` is minus the expected improvement over the smallest response, up to `2e-9` (from the `1e-9` in the code) and rounding: relative to the distance of the
prediction from the smallest response plus the standard deviation, the error is at most that of `norm.cdf` and `norm.pdf` plus 14 roundings (the last term is far below the smallest normal number). -/
theorem C183_expected_improvement (hp : 10 ≤ p) (he : emin + p ≤ -29) {cdf pdf : NormalFn R} {δ : ℝ} (hcdf : CdfAccurate cdf δ) (hpdf : PdfAccurate pdf δ) (hδ : δ ≤ 1 / 10) (fmin yhat : Fl R) {sigma : Fl R}
    (hs : 0 ≤ sigma.val) :
    |(eiFl cdf pdf fmin yhat sigma).val + expectedImprovement fmin.val yhat.val sigma.val| ≤
      2e-9 + (|fmin.val - yhat.val| + sigma.val) * (δ + 14 * 2 ^ (-(p : ℤ))) + 5 * (2 ^ (-(p : ℤ)) * 2 ^ (emin + p - 1)) := by
  have hp1 : 1 ≤ p := by omega
  have hu0 : (0 : ℝ) < 2 ^ (-(p : ℤ)) := two_zpow_pos _
  have ht0 : (0 : ℝ) < 2 ^ (emin + (p : ℤ) - 1) := two_zpow_pos _
  have hu1 : (2 : ℝ) ^ (-(p : ℤ)) ≤ 1 / 1000 := (zpow_le_zpow_right₀ (by norm_num) (by omega : -(p : ℤ) ≤ -10)).trans (by norm_num)
  have hδ0 : 0 ≤ δ := (abs_nonneg _).trans (hcdf 0)
  have hf := fl_error hp1 R
  have hz := zFl_near hp he fmin yhat hs
  have hreg := regularised_ei_near fmin.val yhat.val hs (by norm_num : (0 : ℝ) < 1e-9)
  set d := fmin.val - yhat.val with hd
  set z := d / (sigma.val + 1e-9) with hzd
  have hneg : (eiFl cdf pdf fmin yhat sigma).val = -(R.fl (R.fl (R.fl d * (cdf (zFl fmin yhat sigma)).val) + R.fl (sigma.val * (pdf (zFl fmin yhat sigma)).val))) := by
    unfold eiFl
    rw [neg_val]
    rfl
  rw [hneg]
  have hc : |(cdf (zFl fmin yhat sigma)).val - normCdf z| ≤ δ + 10 * 2 ^ (-(p : ℤ)) := by
    have h1 := normCdf_rel hz (by positivity) (by linarith) (by positivity) (by linarith)
    have h2 := hcdf (zFl fmin yhat sigma)
    rw [show (cdf (zFl fmin yhat sigma)).val - normCdf z = ((cdf (zFl fmin yhat sigma)).val - normCdf (zFl fmin yhat sigma).val) + (normCdf (zFl fmin yhat sigma).val - normCdf z) by ring]
    exact (abs_add_le _ _).trans (by linarith)
  have hq : |(pdf (zFl fmin yhat sigma)).val - normPdf z| ≤ δ + 11 * 2 ^ (-(p : ℤ)) := by
    have h1 := normPdf_rel hz (by positivity) (by linarith) (by positivity) (by linarith)
    have h2 := hpdf (zFl fmin yhat sigma)
    rw [show (pdf (zFl fmin yhat sigma)).val - normPdf z = ((pdf (zFl fmin yhat sigma)).val - normPdf (zFl fmin yhat sigma).val) + (normPdf (zFl fmin yhat sigma).val - normPdf z) by ring]
    exact (abs_add_le _ _).trans (by linarith)
  generalize (2 : ℝ) ^ (-(p : ℤ)) = u at *
  generalize (2 : ℝ) ^ (emin + (p : ℤ) - 1) = t at *
  have hc1 : |normCdf z| ≤ 1 := by rw [abs_of_nonneg (normCdf_nonneg z)]; exact normCdf_le_one z
  have hq1 : |normPdf z| ≤ 1 := by rw [abs_of_pos (normPdf_pos z)]; exact (normPdf_le_half z).trans (by norm_num)
  have hA := near_times hf hu0.le (hf d) le_rfl hc hc1 (by linarith)
  have hB := near_times hf hu0.le (x := sigma.val) (x' := sigma.val) (a := 0) (by simp) (abs_of_nonneg hs).le hq hq1 (by linarith)
  have hwa : |d * normCdf z| ≤ |d| := by rw [abs_mul]; exact mul_le_of_le_one_right (abs_nonneg _) hc1
  have hwb : |sigma.val * normPdf z| ≤ sigma.val := by rw [abs_mul, abs_of_nonneg hs]; exact mul_le_of_le_one_right hs hq1
  have hS := (near_sum hf hu0.le hA hB hwa hwb).trans (ei_arith hu0.le hu1 ht0.le hδ0 hδ (abs_nonneg d) hs)
  have e1 : ∀ a b c : ℝ, |-a + c| ≤ |a - b| + |b - c| := fun a b c => by
    rw [show -a + c = -((a - b) + (b - c)) by ring, abs_neg]
    exact abs_add_le _ _
  refine (e1 _ (d * normCdf z + sigma.val * normPdf z) _).trans ?_
  have e2 : (2 : ℝ) * 1e-9 = 2e-9 := by norm_num
  rw [e2] at hreg
  linarith

/-- **C183 (probability of improvement).**  The value computed by `PI.eval` is minus the probability of an outcome of at most the smallest response, for the standard deviation plus `1e-9`, up to the error of `norm.cdf` and ten
roundings. -/
theorem C183_probability_of_improvement (hp : 10 ≤ p) (he : emin + p ≤ -29) {cdf : NormalFn R} {δ : ℝ} (hcdf : CdfAccurate cdf δ) (fmin yhat : Fl R) {sigma : Fl R} (hs : 0 ≤ sigma.val) :
    |(piFl cdf fmin yhat sigma).val + probAtMost fmin.val yhat.val (sigma.val + 1e-9)| ≤ δ + 10 * 2 ^ (-(p : ℤ)) := by
  have hu0 : (0 : ℝ) < 2 ^ (-(p : ℤ)) := two_zpow_pos _
  have hu1 : (2 : ℝ) ^ (-(p : ℤ)) ≤ 1 / 1000 := (zpow_le_zpow_right₀ (by norm_num) (by omega : -(p : ℤ) ≤ -10)).trans (by norm_num)
  have hz := zFl_near hp he fmin yhat hs
  rw [probAtMost_eq _ _ (by positivity : 0 < sigma.val + 1e-9)]
  unfold piFl
  rw [neg_val]
  have h1 := normCdf_rel hz (by positivity) (by linarith) (by positivity) (by linarith)
  have h2 := hcdf (zFl fmin yhat sigma)
  rw [show -(cdf (zFl fmin yhat sigma)).val + normCdf ((fmin.val - yhat.val) / (sigma.val + 1e-9)) =
    -(((cdf (zFl fmin yhat sigma)).val - normCdf (zFl fmin yhat sigma).val) + (normCdf (zFl fmin yhat sigma).val - normCdf ((fmin.val - yhat.val) / (sigma.val + 1e-9)))) by ring, abs_neg]
  exact (abs_add_le _ _).trans (by linarith)

/-- **C183 (confidence bound).**  The value computed by `LCB.eval` is `kappa[0] * mean - kappa[1] * std` up to three roundings. -/
theorem C183_lower_confidence_bound (hp : 10 ≤ p) (kappa : Fl R × Fl R) (yhat sigma : Fl R) :
    |(lcbFl kappa yhat sigma).val - (kappa.1.val * yhat.val - kappa.2.val * sigma.val)| ≤
      3 * 2 ^ (-(p : ℤ)) * (|kappa.1.val * yhat.val| + |kappa.2.val * sigma.val|) + 4 * (2 ^ (-(p : ℤ)) * 2 ^ (emin + p - 1)) := by
  have hu0 : (0 : ℝ) < 2 ^ (-(p : ℤ)) := two_zpow_pos _
  have ht0 : (0 : ℝ) < 2 ^ (emin + (p : ℤ) - 1) := two_zpow_pos _
  have hu1 : (2 : ℝ) ^ (-(p : ℤ)) ≤ 1 / 1000 := (zpow_le_zpow_right₀ (by norm_num) (by omega : -(p : ℤ) ≤ -10)).trans (by norm_num)
  have hf := fl_error (by omega : 1 ≤ p) R
  have e1 : (lcbFl kappa yhat sigma).val = R.fl (R.fl (kappa.1.val * yhat.val) + -R.fl (kappa.2.val * sigma.val)) := by
    change R.fl (R.fl (kappa.1.val * yhat.val) - R.fl (kappa.2.val * sigma.val)) = _
    rw [sub_eq_add_neg]
  rw [e1, sub_eq_add_neg (kappa.1.val * yhat.val)]
  generalize (2 : ℝ) ^ (-(p : ℤ)) = u at *
  generalize (2 : ℝ) ^ (emin + (p : ℤ) - 1) = t at *
  have h2 : |-R.fl (kappa.2.val * sigma.val) - -(kappa.2.val * sigma.val)| ≤ u * (|kappa.2.val * sigma.val| + t) := by
    rw [show -R.fl (kappa.2.val * sigma.val) - -(kappa.2.val * sigma.val) = -(R.fl (kappa.2.val * sigma.val) - kappa.2.val * sigma.val) by ring, abs_neg]
    exact hf _
  refine (near_sum hf hu0.le (hf _) h2 le_rfl (abs_neg _).le).trans ?_
  have h3 : 0 ≤ |kappa.1.val * yhat.val| := abs_nonneg _
  have h4 : 0 ≤ |kappa.2.val * sigma.val| := abs_nonneg _
  generalize |kappa.1.val * yhat.val| = A at *
  generalize |kappa.2.val * sigma.val| = B at *
  have h5 : u * (u * A) ≤ 1 / 1000 * (u * A) := mul_le_mul_of_nonneg_right hu1 (by positivity)
  have h6 : u * (u * B) ≤ 1 / 1000 * (u * B) := mul_le_mul_of_nonneg_right hu1 (by positivity)
  have h7 : u * (u * t) ≤ 1 / 1000 * (u * t) := mul_le_mul_of_nonneg_right hu1 (by positivity)
  have h8 : 0 ≤ u * A := by positivity
  have h9 : 0 ≤ u * B := by positivity
  have h10 : 0 ≤ u * t := by positivity
  nlinarith

/-- **C183 (what is chosen).**  Among any points, one with the smallest computed value of `EI.eval` has an expected improvement that is nearly the largest. -/
theorem C183_choice (hp : 10 ≤ p) (he : emin + p ≤ -29) {cdf pdf : NormalFn R} {δ : ℝ} (hcdf : CdfAccurate cdf δ) (hpdf : PdfAccurate pdf δ) (hδ : δ ≤ 1 / 10) (fmin : Fl R) {ι : Type} (yhat sigma : ι → Fl R)
    (hs : ∀ i, 0 ≤ (sigma i).val) {B : ℝ} (hB : ∀ i, |fmin.val - (yhat i).val| + (sigma i).val ≤ B) (best : ι)
    (hbest : ∀ i, eiFl cdf pdf fmin (yhat best) (sigma best) ≤ eiFl cdf pdf fmin (yhat i) (sigma i)) (i : ι) :
    expectedImprovement fmin.val (yhat i).val (sigma i).val ≤
      expectedImprovement fmin.val (yhat best).val (sigma best).val + 2 * (2e-9 + B * (δ + 14 * 2 ^ (-(p : ℤ))) + 5 * (2 ^ (-(p : ℤ)) * 2 ^ (emin + p - 1))) := by
  have hu0 : (0 : ℝ) < 2 ^ (-(p : ℤ)) := two_zpow_pos _
  have hδ0 : 0 ≤ δ := (abs_nonneg _).trans (hcdf 0)
  have h1 := (abs_le.mp (C183_expected_improvement hp he hcdf hpdf hδ fmin (yhat i) (hs i))).2
  have h2 := (abs_le.mp (C183_expected_improvement hp he hcdf hpdf hδ fmin (yhat best) (hs best))).1
  have h3 : (eiFl cdf pdf fmin (yhat best) (sigma best)).val ≤ (eiFl cdf pdf fmin (yhat i) (sigma i)).val := hbest i
  have h4 := mul_le_mul_of_nonneg_right (hB i) (by positivity : 0 ≤ δ + 14 * (2 : ℝ) ^ (-(p : ℤ)))
  have h5 := mul_le_mul_of_nonneg_right (hB best) (by positivity : 0 ≤ δ + 14 * (2 : ℝ) ^ (-(p : ℤ)))
  linarith

/-! ### constraints -/

theorem prodOf_nil {l : List (Fl R)} {q : Fl R} (h : ProdOf R l q) (hl : l = []) (hone : (1 : Fl R).val = 1) : q.val = 1 := by
  induction h with
  | nil => exact hone
  | single a => cases hl
  | mul _ _ h1 h2 =>
    rw [List.append_eq_nil_iff] at hl
    change R.fl (_ * _) = 1
    rw [h1 hl.1, h2 hl.2, mul_one, ← hone, R.fl_of_isFloat (Fl.isFloat _)]
  | perm hp _ ih => exact ih (by rw [hl] at hp; exact hp.eq_nil)

/-- The error of a product in any order. -/
theorem prodOf_error (hp : 1 ≤ p) (he : emin ≤ 0) (ht : (2 : ℝ) ^ (emin + p - 1) ≤ 1) {b : ℝ} (hb : 0 ≤ b) {l : List (Fl R)} {q : Fl R} (h : ProdOf R l q) (hl : ∀ a ∈ l, |a.val| ≤ 1 + b) :
    |(l.map Fl.val).prod| ≤ (1 + b) ^ l.length ∧ |q.val - (l.map Fl.val).prod| ≤ ((1 + 2 * 2 ^ (-(p : ℤ))) ^ (l.length - 1) - 1) * (1 + b) ^ l.length := by
  have hone : (1 : Fl R).val = 1 := R.fl_of_isFloat (isFloat_one hp he)
  have hu0 : (0 : ℝ) < 2 ^ (-(p : ℤ)) := two_zpow_pos _
  have ht0 : (0 : ℝ) < 2 ^ (emin + (p : ℤ) - 1) := two_zpow_pos _
  have hf := fl_error hp R
  generalize (2 : ℝ) ^ (-(p : ℤ)) = u at *
  generalize (2 : ℝ) ^ (emin + (p : ℤ) - 1) = t at *
  induction h with
  | nil => simp [hone]
  | single a => simpa using hl a (by simp)
  | @mul l l' x y hx hy h1 h2 =>
    obtain ⟨a1, a2⟩ := h1 fun a ha => hl a (by simp [ha])
    obtain ⟨b1, b2⟩ := h2 fun a ha => hl a (by simp [ha])
    rw [List.map_append, List.prod_append, List.length_append]
    change |_| ≤ _ ∧ |R.fl (x.val * y.val) - _| ≤ _
    constructor
    · rw [abs_mul, pow_add]
      exact mul_le_mul a1 b1 (abs_nonneg _) (by positivity)
    · rcases eq_or_ne l [] with rfl | hl1
      · rw [prodOf_nil hx rfl hone, one_mul, R.fl_of_isFloat (Fl.isFloat _)]
        simpa using b2
      rcases eq_or_ne l' [] with rfl | hl2
      · rw [prodOf_nil hy rfl hone, mul_one, R.fl_of_isFloat (Fl.isFloat _)]
        simpa using a2
      have k1 : 1 ≤ l.length := List.length_pos_iff.mpr hl1
      have k2 : 1 ≤ l'.length := List.length_pos_iff.mpr hl2
      have hk : l.length + l'.length - 1 = (l.length - 1) + (l'.length - 1) + 1 := by omega
      rw [hk, pow_succ, pow_add, pow_add]
      have hM1 : 1 ≤ (1 + b) ^ l.length := one_le_pow₀ (by linarith)
      have hM2 : 1 ≤ (1 + b) ^ l'.length := one_le_pow₀ (by linarith)
      have hU1 : 1 ≤ (1 + 2 * u) ^ (l.length - 1) := one_le_pow₀ (by linarith)
      have hU2 : 1 ≤ (1 + 2 * u) ^ (l'.length - 1) := one_le_pow₀ (by linarith)
      generalize (1 + b) ^ l.length = M1 at *
      generalize (1 + b) ^ l'.length = M2 at *
      generalize (1 + 2 * u) ^ (l.length - 1) = U1 at *
      generalize (1 + 2 * u) ^ (l'.length - 1) = U2 at *
      generalize (l.map Fl.val).prod = A at *
      generalize (l'.map Fl.val).prod = B at *
      have hx1 : |x.val| ≤ U1 * M1 := (near_size a2 a1).trans (by linarith)
      have hy1 : |y.val| ≤ U2 * M2 := (near_size b2 b1).trans (by linarith)
      have hxy : |x.val * y.val| ≤ U1 * U2 * (M1 * M2) := by
        rw [abs_mul]
        exact (mul_le_mul hx1 hy1 (abs_nonneg _) (by positivity)).trans (le_of_eq (by ring))
      have hd : |x.val * y.val - A * B| ≤ (U1 * U2 - 1) * (M1 * M2) := by
        rw [show x.val * y.val - A * B = (x.val - A) * y.val + A * (y.val - B) by ring]
        refine (abs_add_le _ _).trans ?_
        rw [abs_mul, abs_mul]
        have h3 := mul_le_mul a2 hy1 (abs_nonneg _) (mul_nonneg (by linarith) (by linarith))
        have h4 := mul_le_mul a1 b2 (abs_nonneg _) (by linarith)
        linarith
      refine (near_round hf hd hxy hu0.le).trans ?_
      have h5 : 1 ≤ U1 * U2 * (M1 * M2) := one_le_mul_of_one_le_of_one_le (one_le_mul_of_one_le_of_one_le hU1 hU2) (one_le_mul_of_one_le_of_one_le hM1 hM2)
      have h6 : u * (U1 * U2 * (M1 * M2) + t) ≤ u * (2 * (U1 * U2 * (M1 * M2))) := mul_le_mul_of_nonneg_left (by linarith) hu0.le
      linarith
  | perm hpm _ ih =>
    obtain ⟨h1, h2⟩ := ih fun a ha => hl a (hpm.subset ha)
    rw [← (hpm.map Fl.val).prod_eq, ← hpm.length_eq]
    exact ⟨h1, h2⟩

/-- Products of nearby factors. -/
theorem prod_near {b : ℝ} (hb : 0 ≤ b) : ∀ {k : ℕ} {x x' : Fin k → ℝ}, (∀ i, |x' i - x i| ≤ b) → (∀ i, |x i| ≤ 1) → |∏ i, x i| ≤ 1 ∧ |∏ i, x' i - ∏ i, x i| ≤ (1 + b) ^ k - 1
  | 0, x, x', _, _ => by simp
  | k + 1, x, x', h, hx => by
    obtain ⟨h1, h2⟩ := prod_near hb (x := fun i : Fin k => x i.succ) (x' := fun i => x' i.succ) (fun i => h i.succ) fun i => hx i.succ
    rw [Fin.prod_univ_succ, Fin.prod_univ_succ]
    generalize ∏ i : Fin k, x i.succ = P at *
    generalize ∏ i : Fin k, x' i.succ = P' at *
    constructor
    · rw [abs_mul]
      exact mul_le_one₀ (hx 0) (abs_nonneg _) h1
    · rw [show x' 0 * P' - x 0 * P = (x' 0 - x 0) * P' + x 0 * (P' - P) by ring, pow_succ]
      refine (abs_add_le _ _).trans ?_
      rw [abs_mul, abs_mul]
      have h3 := near_size h2 h1
      have h4 := mul_le_mul (h 0) h3 (abs_nonneg _) hb
      have h5 := mul_le_mul (hx 0) h2 (abs_nonneg _) zero_le_one
      linarith

/-- **C183 (feasibility).**  The value computed by `CEI.pof` for one point is the product of the probabilities that the constraints are at most zero (for the standard deviations plus `1e-9`), up to the error of `norm.cdf` and
13 roundings for each constraint. -/
theorem C183_probability_of_feasibility (hp : 10 ≤ p) (he : emin + p ≤ -29) {cdf : NormalFn R} {δ : ℝ} (hcdf : CdfAccurate cdf δ) (hδ : δ ≤ 1 / 10) {k : ℕ} (u : Fin k → Fl R) {s : Fin k → Fl R}
    (hs : ∀ i, 0 ≤ (s i).val) {q : Fl R} (hq : IsPof cdf u s q) :
    |q.val - ∏ i, probAtMost 0 (u i).val ((s i).val + 1e-9)| ≤ (1 + (δ + 13 * 2 ^ (-(p : ℤ)))) ^ k - 1 := by
  have hp1 : 1 ≤ p := by omega
  have hu0 : (0 : ℝ) < 2 ^ (-(p : ℤ)) := two_zpow_pos _
  have ht : (2 : ℝ) ^ (emin + p - 1) ≤ 2 ^ (-30 : ℤ) := zpow_le_zpow_right₀ (by norm_num) (by omega)
  have hu1 : (2 : ℝ) ^ (-(p : ℤ)) ≤ 1 / 1000 := (zpow_le_zpow_right₀ (by norm_num) (by omega : -(p : ℤ) ≤ -10)).trans (by norm_num)
  have hδ0 : 0 ≤ δ := (abs_nonneg _).trans (hcdf 0)
  have hfac : ∀ i, |(cdf (zConsFl (u i) (s i))).val - normCdf ((0 - (u i).val) / ((s i).val + 1e-9))| ≤ δ + 10 * 2 ^ (-(p : ℤ)) := fun i => by
    have hz := near_z (f := R.fl) (fl_error hp1 R) hu0.le hu1 (two_zpow_pos _).le (ht.trans (by norm_num)) (by norm_num : (0 : ℝ) < 1e-9) (ht.trans (by norm_num)) (d := (u i).val) (hs i)
    rw [R.fl_of_isFloat (Fl.isFloat (u i))] at hz
    have e1 : (zConsFl (u i) (s i)).val = -R.fl ((u i).val / R.fl ((s i).val + R.fl 1e-9)) := by
      change R.fl (0 - R.fl ((u i).val / R.fl ((s i).val + R.fl 1e-9))) = _
      rw [zero_sub, R.fl_of_isFloat (R.isFloat _).neg]
    have hz' : |(zConsFl (u i) (s i)).val - (0 - (u i).val) / ((s i).val + 1e-9)| ≤ 7 * 2 ^ (-(p : ℤ)) * |(0 - (u i).val) / ((s i).val + 1e-9)| + 3 * 2 ^ (-(p : ℤ)) := by
      rw [e1, zero_sub, neg_div, abs_neg, ← neg_sub', abs_neg]
      exact hz
    have h1 := normCdf_rel hz' (by positivity) (by linarith) (by positivity) (by linarith)
    have h2 := hcdf (zConsFl (u i) (s i))
    rw [show (cdf (zConsFl (u i) (s i))).val - normCdf ((0 - (u i).val) / ((s i).val + 1e-9)) = ((cdf (zConsFl (u i) (s i))).val - normCdf (zConsFl (u i) (s i)).val) +
      (normCdf (zConsFl (u i) (s i)).val - normCdf ((0 - (u i).val) / ((s i).val + 1e-9))) by ring]
    exact (abs_add_le _ _).trans (by linarith)
  have hone : ∀ i, |normCdf ((0 - (u i).val) / ((s i).val + 1e-9))| ≤ 1 := fun i => by rw [abs_of_nonneg (normCdf_nonneg _)]; exact normCdf_le_one _
  have hprob : ∀ i, probAtMost 0 (u i).val ((s i).val + 1e-9) = normCdf ((0 - (u i).val) / ((s i).val + 1e-9)) := fun i => probAtMost_eq _ _ (by have := hs i; positivity)
  simp only [hprob]
  have hb0 : 0 ≤ δ + 10 * (2 : ℝ) ^ (-(p : ℤ)) := by positivity
  obtain ⟨-, h2⟩ := prod_near hb0 hfac hone
  obtain ⟨-, h3⟩ := prodOf_error hp1 (by omega) (ht.trans (by norm_num)) hb0 hq fun a ha => by
    obtain ⟨i, rfl⟩ := (List.mem_ofFn' _ _).mp ha
    exact (near_size (hfac i) (hone i))
  rw [List.map_ofFn, List.prod_ofFn, List.length_ofFn] at h3
  simp only [Function.comp] at h3
  generalize ∏ i, normCdf ((0 - (u i).val) / ((s i).val + 1e-9)) = P at *
  generalize ∏ i, (cdf (zConsFl (u i) (s i))).val = P' at *
  generalize (2 : ℝ) ^ (-(p : ℤ)) = v at *
  have h4 : |q.val - P| ≤ |q.val - P'| + |P' - P| := by
    rw [show q.val - P = (q.val - P') + (P' - P) by ring]
    exact abs_add_le _ _
  have h5 : (1 + 2 * v) ^ (k - 1) ≤ (1 + 2 * v) ^ k := pow_le_pow_right₀ (by linarith) (by omega)
  have h6 : (0 : ℝ) ≤ (1 + (δ + 10 * v)) ^ k := by positivity
  have h7 : ((1 + 2 * v) * (1 + (δ + 10 * v))) ^ k ≤ (1 + (δ + 13 * v)) ^ k := by
    refine pow_le_pow_left₀ (by positivity) ?_ k
    nlinarith
  rw [mul_pow] at h7
  nlinarith [mul_le_mul_of_nonneg_right h5 h6]

theorem ei_le_size (a μ : ℝ) {σ : ℝ} (hσ : 0 ≤ σ) : expectedImprovement a μ σ ≤ |a - μ| + σ := by
  refine le_of_forall_pos_le_add fun ε hε => ?_
  have h1 := (abs_le.mp (regularised_ei_near a μ hσ (half_pos hε))).1
  generalize (a - μ) / (σ + ε / 2) = z at h1
  have h2 : (a - μ) * normCdf z ≤ |a - μ| := by
    have h3 := mul_le_mul (le_abs_self (a - μ)) (normCdf_le_one z) (normCdf_nonneg z) (abs_nonneg _)
    linarith
  have h4 : σ * normPdf z ≤ σ := mul_le_of_le_one_right hσ ((normPdf_le_half z).trans (by norm_num))
  linarith

/-- **C183 (constraints).**  The value computed by `CEI.eval` for one point is minus the expected improvement times the probability of feasibility, up to `3e-9` and errors of `norm.cdf` and `norm.pdf` and roundings relative
to the distance of the prediction from the smallest response plus the standard deviation. -/
theorem C183_constrained_expected_improvement (hp : 10 ≤ p) (he : emin + p ≤ -29) {cdf pdf : NormalFn R} {δ : ℝ} (hcdf : CdfAccurate cdf δ) (hpdf : PdfAccurate pdf δ) (hδ : δ ≤ 1 / 10) (fmin yhat : Fl R) {sigma : Fl R}
    (hs : 0 ≤ sigma.val) {k : ℕ} (u : Fin k → Fl R) {s : Fin k → Fl R} (hsc : ∀ i, 0 ≤ (s i).val) (hk : k * (δ + 13 * (2 : ℝ) ^ (-(p : ℤ))) ≤ 1 / 100) {v : Fl R} (hv : IsCei cdf pdf fmin yhat sigma u s v) :
    |v.val + expectedImprovement fmin.val yhat.val sigma.val * ∏ i, probAtMost 0 (u i).val ((s i).val + 1e-9)| ≤
      3e-9 + (|fmin.val - yhat.val| + sigma.val) * (1.3 * δ + 20 * 2 ^ (-(p : ℤ)) + 1.1 * (k * (δ + 13 * 2 ^ (-(p : ℤ))))) + 8 * (2 ^ (-(p : ℤ)) * 2 ^ (emin + p - 1)) := by
  obtain ⟨q, hq, rfl⟩ := hv
  have hp1 : 1 ≤ p := by omega
  have hu0 : (0 : ℝ) < 2 ^ (-(p : ℤ)) := two_zpow_pos _
  have ht0 : (0 : ℝ) < 2 ^ (emin + (p : ℤ) - 1) := two_zpow_pos _
  have hu1 : (2 : ℝ) ^ (-(p : ℤ)) ≤ 1 / 1000 := (zpow_le_zpow_right₀ (by norm_num) (by omega : -(p : ℤ) ≤ -10)).trans (by norm_num)
  have hδ0 : 0 ≤ δ := (abs_nonneg _).trans (hcdf 0)
  have hf := fl_error hp1 R
  have h1 := C183_expected_improvement hp he hcdf hpdf hδ fmin yhat hs
  have h2 := C183_probability_of_feasibility hp he hcdf hδ u hsc hq
  have h3 := one_add_pow_le (by positivity) k hk
  have hP : |∏ i, probAtMost 0 (u i).val ((s i).val + 1e-9)| ≤ 1 := by
    refine (prod_near le_rfl (x := fun i => probAtMost 0 (u i).val ((s i).val + 1e-9)) (x' := fun i => probAtMost 0 (u i).val ((s i).val + 1e-9)) (fun i => by simp) fun i => ?_).1
    have hpos : 0 < (s i).val + 1e-9 := by have := hsc i; positivity
    rw [probAtMost_eq _ _ hpos, abs_of_nonneg (normCdf_nonneg _)]
    exact normCdf_le_one _
  have hE0 := expectedImprovement_nonneg fmin.val yhat.val sigma.val
  have hE1 := ei_le_size fmin.val yhat.val hs
  change |R.fl ((eiFl cdf pdf fmin yhat sigma).val * q.val) + _| ≤ _
  have hS0 : 0 ≤ |fmin.val - yhat.val| + sigma.val := add_nonneg (abs_nonneg _) hs
  generalize expectedImprovement fmin.val yhat.val sigma.val = E at *
  generalize ∏ i, probAtMost 0 (u i).val ((s i).val + 1e-9) = P at *
  generalize |fmin.val - yhat.val| + sigma.val = S at *
  generalize (eiFl cdf pdf fmin yhat sigma).val = x at *
  generalize (2 : ℝ) ^ (-(p : ℤ)) = w at *
  generalize (2 : ℝ) ^ (emin + (p : ℤ) - 1) = t at *
  have h1' : |x - -E| ≤ 2e-9 + S * (δ + 14 * w) + 5 * (w * t) := by rwa [sub_neg_eq_add]
  have h4 := near_times hf hu0.le (x := -E) (x' := x) (X := S) h1' (by rw [abs_neg, abs_of_nonneg hE0]; exact hE1) (h2.trans h3) hP (by linarith)
  rw [neg_mul, sub_neg_eq_add] at h4
  refine h4.trans ?_
  have hwt : 0 ≤ w * t := by positivity
  have hwS : 0 ≤ w * S := by positivity
  have hkd : 0 ≤ k * (δ + 13 * w) := by positivity
  have a1 : w * (S * δ) ≤ w * (S * (1 / 10)) := mul_le_mul_of_nonneg_left (mul_le_mul_of_nonneg_left hδ hS0) hu0.le
  have a2 : w * (w * S) ≤ 1 / 1000 * (w * S) := mul_le_mul_of_nonneg_right hu1 hwS
  have a3 : w * (w * t) ≤ 1 / 1000 * (w * t) := mul_le_mul_of_nonneg_right hu1 hwt
  have a4 : S * (1.02 * (k * (δ + 13 * w))) ≤ S * (1.1 * (k * (δ + 13 * w))) := mul_le_mul_of_nonneg_left (by linarith) hS0
  have a5 : w * 2e-9 ≤ 1 / 1000 * 2e-9 := mul_le_mul_of_nonneg_right hu1 (by norm_num)
  have a6 : 0 ≤ S * δ := by positivity
  have e1 : 1.2 * (2e-9 + S * (δ + 14 * w) + 5 * (w * t)) + S * (1.02 * (k * (δ + 13 * w))) + w * (1.2 * S + 1.2 * (2e-9 + S * (δ + 14 * w) + 5 * (w * t)) + t) =
    1.2 * 2e-9 + 1.2 * (w * 2e-9) + 1.2 * (S * δ) + 16.8 * (w * S) + 6 * (w * t) + S * (1.02 * (k * (δ + 13 * w))) + 1.2 * (w * S) + 1.2 * (w * (S * δ)) + 16.8 * (w * (w * S)) + 6 * (w * (w * t)) + w * t := by ring
  have e2 : S * (1.3 * δ + 20 * w + 1.1 * (k * (δ + 13 * w))) = 1.3 * (S * δ) + 20 * (w * S) + S * (1.1 * (k * (δ + 13 * w))) := by ring
  rw [e1, e2]
  norm_num at a5 ⊢
  linarith

/-! ### The hypotheses can be met -/

/-- The distribution function and the density, correctly rounded, are accurate. -/
theorem normal_accurate (hp : 1 ≤ p) (he : emin + p ≤ 1) : CdfAccurate (R := R) (fun a => Fl.ofReal R (normCdf a.val)) (2 ^ (1 - (p : ℤ))) ∧ PdfAccurate (R := R) (fun a => Fl.ofReal R (normPdf a.val)) (2 ^ (1 - (p : ℤ))) := by
  have ht : (2 : ℝ) ^ (emin + p - 1) ≤ 1 := zpow_le_one_of_nonpos₀ (by norm_num) (by omega)
  have hu : (0 : ℝ) < 2 ^ (-(p : ℤ)) := two_zpow_pos _
  have e1 : (2 : ℝ) ^ (1 - (p : ℤ)) = 2 ^ (-(p : ℤ)) * 2 := by rw [show 1 - (p : ℤ) = -(p : ℤ) + 1 by ring, zpow_add_one₀ two_ne_zero]
  constructor
  · intro a
    rw [e1]
    refine (fl_error hp R (normCdf a.val)).trans (mul_le_mul_of_nonneg_left ?_ hu.le)
    rw [abs_of_nonneg (normCdf_nonneg _)]
    linarith [normCdf_le_one a.val]
  · intro a
    rw [e1]
    refine (fl_error hp R (normPdf a.val)).trans (mul_le_mul_of_nonneg_left ?_ hu.le)
    rw [abs_of_pos (normPdf_pos _)]
    linarith [normPdf_le_half a.val]

/-- In double precision, with distribution function and density correctly rounded: predictions within ten of the smallest response, standard deviations up to ten. -/
example (fmin yhat sigma : Double) (hs : 0 ≤ sigma.val) (hs1 : sigma.val ≤ 10) (hy : |fmin.val - yhat.val| ≤ 10) :
    |(eiFl (fun a => Fl.ofReal _ (normCdf a.val)) (fun a => Fl.ofReal _ (normPdf a.val)) fmin yhat sigma).val + expectedImprovement fmin.val yhat.val sigma.val| ≤ 2.1e-9 := by
  obtain ⟨h1, h2⟩ := normal_accurate (R := nearestRounding 53 (-1074) (by norm_num)) (by norm_num) (by norm_num)
  refine (C183_expected_improvement (by norm_num) (by norm_num) h1 h2 (by norm_num) fmin yhat hs).trans ?_
  have h3 : (|fmin.val - yhat.val| + sigma.val) * ((2 : ℝ) ^ (1 - ((53 : ℕ) : ℤ)) + 14 * 2 ^ (-((53 : ℕ) : ℤ))) ≤ 20 * (2 ^ (1 - ((53 : ℕ) : ℤ)) + 14 * 2 ^ (-((53 : ℕ) : ℤ))) :=
    mul_le_mul_of_nonneg_right (by linarith) (by norm_num)
  have h4 : (2 : ℝ) ^ (-1074 + ((53 : ℕ) : ℤ) - 1) ≤ 2 ^ (-30 : ℤ) := zpow_le_zpow_right₀ (by norm_num) (by norm_num)
  have h5 : (2 : ℝ) ^ (-((53 : ℕ) : ℤ)) * 2 ^ (-1074 + ((53 : ℕ) : ℤ) - 1) ≤ 2 ^ (-((53 : ℕ) : ℤ)) * 2 ^ (-30 : ℤ) := mul_le_mul_of_nonneg_left h4 (by norm_num)
  generalize (2 : ℝ) ^ (-((53 : ℕ) : ℤ)) * 2 ^ (-1074 + ((53 : ℕ) : ℤ) - 1) = c at *
  norm_num at h3 h5 ⊢
  linarith

/-- Products can be computed for all lists. -/
theorem prodOf_exists : ∀ l : List (Fl R), ∃ q, ProdOf R l q
  | [] => ⟨_, .nil⟩
  | a :: l => by
    obtain ⟨q, hq⟩ := prodOf_exists l
    exact ⟨_, .mul (.single a) hq⟩

/-- A constrained acquisition value can be computed for every prediction. -/
example {k : ℕ} (cdf pdf : NormalFn R) (fmin yhat sigma : Fl R) (u s : Fin k → Fl R) : ∃ v, IsCei cdf pdf fmin yhat sigma u s v := by
  obtain ⟨q, hq⟩ := prodOf_exists (R := R) (List.ofFn fun i => cdf (zConsFl (u i) (s i)))
  exact ⟨_, q, hq, rfl⟩

end Mfpml.Props
