import Verif.Model.RoundedMFPredict
import Verif.Spec.RoundedMFPredict
import Verif.Props.RoundedPredict

/-!
# Predicted means of hierarchical and scaled Kriging in floating-point arithmetic (C187)

`R` ranges over all roundings to nearest with `p` significant bits (`float64`: `p = 53`, `emin = -1074`).
-/

open scoped BigOperators

set_option linter.unusedSectionVars false

namespace Mfpml.Props

open Mfpml.Rounded Mfpml.GP Mfpml.Spec

variable {p : ℕ} {emin : ℤ} {R : Rounding p emin} {n r d : ℕ}

/-- The rounding error of the low-fidelity part. -/
theorem lf_part_near {f : ℝ → ℝ} {u t : ℝ} (hf : ∀ x, |f x - x| ≤ u * (|x| + t)) (hu : 0 < u) (hu1 : u ≤ 1 / 100) (ht : 0 < t) {l m s β : ℝ} (hs : s ≠ 0) :
    |f (f (f (l - m) / s) * β) - (l - m) / s * β| ≤ (2 * u + 1.3 * (1 * u)) * (|β| * (|(l - m) / s| + t / |s| + t)) + 1.1 * ((1 * u) * (1 * t)) := by
  generalize l - m = D
  have hs0 : 0 < |s| := abs_pos.mpr hs
  have hβ := abs_nonneg β
  have h1 : |f D / s - D / s| ≤ u * (|D / s| + t / |s|) := by
    rw [← sub_div, abs_div, abs_div, ← add_div, ← mul_div_assoc]
    exact div_le_div_of_nonneg_right (hf D) hs0.le
  have h2 := near_round hf h1 (near_size h1 le_rfl) hu.le
  have hq : 0 ≤ |D / s| := abs_nonneg _
  have hτ : 0 ≤ t / |s| := by positivity
  generalize D / s = q at *
  generalize t / |s| = τ at *
  have h3 : |f (f D / s) - q| ≤ 2.01 * (u * |q|) + 1.01 * (u * τ) + u * t := by
    refine h2.trans ?_
    have b1 : u * (u * |q|) ≤ 1 / 100 * (u * |q|) := mul_le_mul_of_nonneg_right hu1 (by positivity)
    have b2 : u * (u * τ) ≤ 1 / 100 * (u * τ) := mul_le_mul_of_nonneg_right hu1 (by positivity)
    have e : u * (|q| + τ) + u * (|q| + u * (|q| + τ) + t) = 2 * (u * |q|) + u * τ + u * (u * |q|) + u * (u * τ) + u * t := by ring
    rw [e]
    linarith
  have h4 : |f (f D / s) * β - q * β| ≤ (2.01 * (u * |q|) + 1.01 * (u * τ) + u * t) * |β| := by
    rw [← sub_mul, abs_mul]
    exact mul_le_mul_of_nonneg_right h3 hβ
  have h5 := near_round hf h4 (near_size h4 (abs_mul q β).le) hu.le
  refine h5.trans ?_
  generalize |q| = Q at *
  generalize |β| = b at *
  have c1 : 0 ≤ u * Q * b := by positivity
  have c2 : 0 ≤ u * τ * b := by positivity
  have c3 : 0 ≤ u * t * b := by positivity
  have c4 : 0 ≤ u * t := by positivity
  have b1 : u * (u * Q * b) ≤ 1 / 100 * (u * Q * b) := mul_le_mul_of_nonneg_right hu1 c1
  have b2 : u * (u * τ * b) ≤ 1 / 100 * (u * τ * b) := mul_le_mul_of_nonneg_right hu1 c2
  have b3 : u * (u * t * b) ≤ 1 / 100 * (u * t * b) := mul_le_mul_of_nonneg_right hu1 c3
  have e1 : (2.01 * (u * Q) + 1.01 * (u * τ) + u * t) * b + u * (Q * b + (2.01 * (u * Q) + 1.01 * (u * τ) + u * t) * b + t) =
    3.01 * (u * Q * b) + 1.01 * (u * τ * b) + u * t * b + 2.01 * (u * (u * Q * b)) + 1.01 * (u * (u * τ * b)) + u * (u * t * b) + u * t := by ring
  have e2 : (2 * u + 1.3 * (1 * u)) * (b * (Q + τ + t)) + 1.1 * ((1 * u) * (1 * t)) = 3.3 * (u * Q * b) + 3.3 * (u * τ * b) + 3.3 * (u * t * b) + 1.1 * (u * t) := by ring
  rw [e1, e2]
  linarith

/-- **C187 (hierarchical Kriging).**  The mean that `HierarchicalKriging.predict` computes for a point of the design space is the value of the textbook formula with the trained coefficients at the scaled point, for any value `L` of the
low-fidelity mean that the low-fidelity model predicts with error at most `ε`: up to `ε` times the coefficient `beta`, and `meanAccuracy` relative to the size of the parts. -/
theorem C187_hierarchical (hp : 1 ≤ p) (he : emin + 2 * p ≤ 1) {ex : ExpFn R} {δ : ℝ} (hex : ExpAccurate ex δ) (hδ : δ ≤ 1 / 20) {param : Fin d → Fl R} (hparam : ∀ k, 0 ≤ (param k).val)
    {low high : Fin d → Fl R} {X : Fin n → Fin d → Fl R} (hX : ∀ i k, low k ≤ X i k ∧ X i k ≤ high k) {Z : Fin r → Fin d → Fl R} (hZ : ∀ j k, low k ≤ Z j k ∧ Z j k ≤ high k)
    (hsize : 5 * (d + 6) * (1 + ∑ k, (param k).val) * (2 : ℝ) ^ (-(p : ℤ)) ≤ 1 / 20) (hn : (n + 2) * (2 : ℝ) ^ (-(p : ℤ)) ≤ 1 / 100) {beta : Fl R} {gamma : Fin n → Fl R} {m s : Fl R} (hs : s.val ≠ 0) {lf F : Fin r → Fl R}
    (hF : IsHKMeanPrediction ex low high param X beta gamma m s lf Z F) (j : Fin r) {L ε : ℝ} (hL : |(lf j).val - L| ≤ ε) :
    |(F j).val - hierarchicalMean (fun k => (param k).val) (vals (normalizeFl low high X)) beta.val (fun i => (gamma i).val) m.val s.val L (vals (normalizeFl low high Z) j)| ≤
      |beta.val| * ε + meanAccuracy n 1 param δ * hierarchicalSize beta gamma m s (lf j) + 2 ^ (-(p : ℤ)) * (|m.val| + 3 * 2 ^ (emin + p - 1)) := by
  obtain ⟨K, kg, hK, hkg, hFe⟩ := hF
  have he0 : emin ≤ 0 := by omega
  have hu : (0 : ℝ) < 2 ^ (-(p : ℤ)) := two_zpow_pos _
  have ht : (0 : ℝ) < 2 ^ (emin + (p : ℤ) - 1) := two_zpow_pos _
  have hn0 : (0 : ℝ) ≤ n := Nat.cast_nonneg n
  have hnu : 0 ≤ n * (2 : ℝ) ^ (-(p : ℤ)) := by positivity
  have hn' : n * (2 : ℝ) ^ (-(p : ℤ)) + 2 * 2 ^ (-(p : ℤ)) ≤ 1 / 100 := by linarith
  have habs : ∀ {k' : ℕ} {Y : Fin k' → Fin d → Fl R}, (∀ i k, low k ≤ Y i k ∧ Y i k ≤ high k) → ∀ i k, |(normalizeFl low high Y i k).val| ≤ 1 := fun hY i k => by
    have := normalizeFl_unit hp he0 hY i k
    rw [abs_of_nonneg this.1]; exact this.2
  have hacc := C176_accuracy_partial hp he hex hδ hparam (habs hX) (habs hZ) hsize hK
  obtain ⟨hk0, hk1⟩ := kernelAccuracy_bounds hex hδ hparam hsize
  have hcor := fun i => correlation_near hparam (hacc i j)
  have hg := dot_near hp (hkg j) (fun i => (hcor i).1) (fun i => (hcor i).2) (by linarith) (by linarith)
  have hs0 : 0 < |s.val| := abs_pos.mpr hs
  have ha := lf_part_near (f := R.fl) (fl_error hp R) hu (by linarith) ht (l := (lf j).val) (m := m.val) (β := beta.val) hs
  have hα : |((lf j).val - m.val) / s.val * beta.val| ≤ |beta.val| * (|((lf j).val - m.val) / s.val| + 2 ^ (emin + (p : ℤ) - 1) / |s.val| + 2 ^ (emin + (p : ℤ) - 1)) := by
    rw [abs_mul, mul_comm]
    refine mul_le_mul_of_nonneg_left ?_ (abs_nonneg _)
    have : 0 ≤ 2 ^ (emin + (p : ℤ) - 1) / |s.val| := by positivity
    linarith
  have h1 := near_mean (f := R.fl) (fl_error hp R) hu ht (by linarith) hn0 (Q := 1) (by norm_num) (by linarith) (add_nonneg hk0 (by norm_num)) (by linarith) (by positivity) (Finset.sum_nonneg fun i _ => abs_nonneg (gamma i).val)
    ha hg hα (abs_dot_le fun i => (hcor i).2) (s := s.val) (m := m.val)
  have h2 : (F j).val = R.fl (R.fl (R.fl (R.fl (R.fl (R.fl ((lf j).val - m.val) / s.val) * beta.val) + (kg j).val) * s.val) + m.val) := by
    rw [hFe]; rfl
  rw [← h2] at h1
  unfold hierarchicalMean meanAccuracy hierarchicalSize
  have h3 : |(F j).val - (s.val * (((lf j).val - m.val) / s.val * beta.val + ∑ i, Real.exp (-∑ k, (param k).val * (vals (normalizeFl low high X) i k - vals (normalizeFl low high Z) j k) ^ 2) * (gamma i).val) + m.val)| +
      |beta.val * ((lf j).val - L)| ≥ |(F j).val - (beta.val * (L - m.val) + s.val * ∑ i, Real.exp (-∑ k, (param k).val * (vals (normalizeFl low high X) i k - vals (normalizeFl low high Z) j k) ^ 2) * (gamma i).val + m.val)| := by
    have e : (F j).val - (beta.val * (L - m.val) + s.val * ∑ i, Real.exp (-∑ k, (param k).val * (vals (normalizeFl low high X) i k - vals (normalizeFl low high Z) j k) ^ 2) * (gamma i).val + m.val) =
      ((F j).val - (s.val * (((lf j).val - m.val) / s.val * beta.val + ∑ i, Real.exp (-∑ k, (param k).val * (vals (normalizeFl low high X) i k - vals (normalizeFl low high Z) j k) ^ 2) * (gamma i).val) + m.val)) +
        beta.val * ((lf j).val - L) := by field_simp; ring
    rw [e]
    exact abs_add_le _ _
  refine (ge_iff_le.mp h3).trans ?_
  have h4 : |beta.val * ((lf j).val - L)| ≤ |beta.val| * ε := by
    rw [abs_mul]
    exact mul_le_mul_of_nonneg_left hL (abs_nonneg _)
  have e2 : (|beta.val| * (|((lf j).val - m.val) / s.val| + 2 ^ (emin + (p : ℤ) - 1) / |s.val| + 2 ^ (emin + (p : ℤ) - 1)) + ∑ i, |(gamma i).val| + (n + 1 + 1) * 2 ^ (emin + (p : ℤ) - 1)) * |s.val| =
      |beta.val| * (|(lf j).val - m.val| + (|s.val| + 1) * 2 ^ (emin + (p : ℤ) - 1)) + |s.val| * (∑ i, |(gamma i).val| + (n + 2) * 2 ^ (emin + (p : ℤ) - 1)) := by
    rw [abs_div]
    field_simp
    ring
  rw [mul_assoc _ _ |s.val|, e2] at h1
  push_cast
  linarith

/-- **C187 (both levels).**  With the low-fidelity means that the low-fidelity Gaussian process predicts for the same points: the computed mean is the value of the textbook formula with the textbook mean of the low fidelity, up to
`beta` times the error of C184 and the error of the high-fidelity part. -/
theorem C187_both_levels (hp : 1 ≤ p) (he : emin + 2 * p ≤ 1) {ex : ExpFn R} {δ : ℝ} (hex : ExpAccurate ex δ) (hδ : δ ≤ 1 / 20) {low high : Fin d → Fl R} {Z : Fin r → Fin d → Fl R} (hZ : ∀ j k, low k ≤ Z j k ∧ Z j k ≤ high k)
    -- the low fidelity
    {nl q : ℕ} {b : Basis d q} (hb : UnitBasis b) {paramLf : Fin d → Fl R} (hparamLf : ∀ k, 0 ≤ (paramLf k).val) {Xl : Fin nl → Fin d → Fl R} (hXl : ∀ i k, low k ≤ Xl i k ∧ Xl i k ≤ high k)
    (hsizeLf : 5 * (d + 6) * (1 + ∑ k, (paramLf k).val) * (2 : ℝ) ^ (-(p : ℤ)) ≤ 1 / 20) (hnq : (nl + q + 1) * (2 : ℝ) ^ (-(p : ℤ)) ≤ 1 / 100) {betaLf : Fin q → Fl R} {gammaLf : Fin nl → Fl R} {mLf sLf : Fl R} {lf : Fin r → Fl R}
    (hlf : IsMeanPrediction ex b low high paramLf Xl betaLf gammaLf mLf sLf Z lf)
    -- the high fidelity
    {param : Fin d → Fl R} (hparam : ∀ k, 0 ≤ (param k).val) {X : Fin n → Fin d → Fl R} (hX : ∀ i k, low k ≤ X i k ∧ X i k ≤ high k) (hsize : 5 * (d + 6) * (1 + ∑ k, (param k).val) * (2 : ℝ) ^ (-(p : ℤ)) ≤ 1 / 20)
    (hn : (n + 2) * (2 : ℝ) ^ (-(p : ℤ)) ≤ 1 / 100) {beta : Fl R} {gamma : Fin n → Fl R} {m s : Fl R} (hs : s.val ≠ 0) {F : Fin r → Fl R} (hF : IsHKMeanPrediction ex low high param X beta gamma m s lf Z F) (j : Fin r) :
    |(F j).val - hierarchicalMean (fun k => (param k).val) (vals (normalizeFl low high X)) beta.val (fun i => (gamma i).val) m.val s.val
        (textbookMean b (fun k => (paramLf k).val) (vals (normalizeFl low high Xl)) (fun c => (betaLf c).val) (fun i => (gammaLf i).val) mLf.val sLf.val (vals (normalizeFl low high Z) j)) (vals (normalizeFl low high Z) j)| ≤
      |beta.val| * (meanAccuracy nl q paramLf δ * coefficientSize betaLf gammaLf * |sLf.val| + 2 ^ (-(p : ℤ)) * (|mLf.val| + 3 * 2 ^ (emin + p - 1))) +
        meanAccuracy n 1 param δ * hierarchicalSize beta gamma m s (lf j) + 2 ^ (-(p : ℤ)) * (|m.val| + 3 * 2 ^ (emin + p - 1)) :=
  C187_hierarchical hp he hex hδ hparam hX hZ hsize hn hs hF j (C184_mean hp he hex hδ hb hparamLf hXl hZ hsizeLf hnq hlf j)

/-- A rounded product plus a number. -/
theorem near_mul_add {f : ℝ → ℝ} {u t : ℝ} (hf : ∀ x, |f x - x| ≤ u * (|x| + t)) (hu : 0 < u) (hu1 : u ≤ 1 / 100) (ht : 0 < t) {a x y A B εA εB : ℝ} (hA : |x - A| ≤ εA) (hB : |y - B| ≤ εB) :
    |f (f (a * x) + y) - (a * A + B)| ≤ |a| * εA + εB + 3 * u * (|a * x| + |y| + t) := by
  have h1 : |f (a * x) + y - (a * x + y)| ≤ u * (|a * x| + t) := by
    rw [add_sub_add_right_eq_sub]
    exact hf _
  have h2 : |a * x + y| ≤ |a * x| + |y| := abs_add_le _ _
  have h3 := near_round hf h1 (near_size h1 h2) hu.le
  have h4 : |a * x + y - (a * A + B)| ≤ |a| * εA + εB := by
    rw [show a * x + y - (a * A + B) = a * (x - A) + (y - B) by ring]
    refine (abs_add_le _ _).trans (add_le_add ?_ hB)
    rw [abs_mul]
    exact mul_le_mul_of_nonneg_left hA (abs_nonneg _)
  have h5 := abs_sub_le (f (f (a * x) + y)) (a * x + y) (a * A + B)
  have c1 : 0 ≤ u * |a * x| := by positivity
  have c2 : 0 ≤ u * |y| := by positivity
  have c3 : 0 ≤ u * t := by positivity
  have b1 : u * (u * |a * x|) ≤ 1 / 100 * (u * |a * x|) := mul_le_mul_of_nonneg_right hu1 c1
  have b2 : u * (u * t) ≤ 1 / 100 * (u * t) := mul_le_mul_of_nonneg_right hu1 c3
  have e1 : u * (|a * x| + t) + u * (|a * x| + |y| + u * (|a * x| + t) + t) = 2 * (u * |a * x|) + 2 * (u * t) + u * |y| + u * (u * |a * x|) + u * (u * t) := by ring
  have e2 : 3 * u * (|a * x| + |y| + t) = 3 * (u * |a * x|) + 3 * (u * |y|) + 3 * (u * t) := by ring
  rw [e1] at h3
  rw [e2]
  linarith

/-- **C187 (scaled Kriging).**  The mean that `ScaledKriging.predict` computes with `return_std=True` is `rho` times the low-fidelity mean plus the mean of the discrepancy, up to the errors of both and three roundings. -/
theorem C187_scaled (hp : 7 ≤ p) (rho lf disc : Fl R) {L D εL εD : ℝ} (hL : |lf.val - L| ≤ εL) (hD : |disc.val - D| ≤ εD) :
    |(skMeanFl rho lf disc).val - (rho.val * L + D)| ≤ |rho.val| * εL + εD + 3 * 2 ^ (-(p : ℤ)) * (|rho.val * lf.val| + |disc.val| + 2 ^ (emin + p - 1)) :=
  near_mul_add (f := R.fl) (fl_error (by omega) R) (two_zpow_pos _) ((zpow_le_zpow_right₀ (by norm_num) (by omega : -(p : ℤ) ≤ -7)).trans (by norm_num)) (two_zpow_pos _) hL hD

/-- **C187 (scaled Kriging, without standard deviation).**  With `return_std=False` the factor is on the discrepancy instead (see C37 and C43): the computed mean is the low-fidelity mean plus `rho` times the mean of the discrepancy, up to the
errors of both and three roundings. -/
theorem C187_scaled_plain (hp : 7 ≤ p) (rho lf disc : Fl R) {L D εL εD : ℝ} (hL : |lf.val - L| ≤ εL) (hD : |disc.val - D| ≤ εD) :
    |(skMeanPlainFl rho lf disc).val - (rho.val * D + L)| ≤ |rho.val| * εD + εL + 3 * 2 ^ (-(p : ℤ)) * (|rho.val * disc.val| + |lf.val| + 2 ^ (emin + p - 1)) := by
  have h := near_mul_add (f := R.fl) (fl_error (by omega : 1 ≤ p) R) (two_zpow_pos _) ((zpow_le_zpow_right₀ (by norm_num) (by omega : -(p : ℤ) ≤ -7)).trans (by norm_num)) (two_zpow_pos _) (a := rho.val) hD hL
  have e : (skMeanPlainFl rho lf disc).val = R.fl (R.fl (rho.val * disc.val) + lf.val) := by
    change R.fl (R.fl (disc.val * rho.val) + lf.val) = _
    rw [mul_comm]
  rw [e]
  exact h

/-- A mean can be computed for all inputs. -/
theorem hkMeanPrediction_exists (ex : ExpFn R) (low high param : Fin d → Fl R) (X : Fin n → Fin d → Fl R) (beta : Fl R) (gamma : Fin n → Fl R) (m s : Fl R) (lf : Fin r → Fl R) (Z : Fin r → Fin d → Fl R) :
    ∃ F, IsHKMeanPrediction ex low high param X beta gamma m s lf Z F := by
  obtain ⟨K, hK⟩ := kernelMatrix_exists ex param (normalizeFl low high X) (normalizeFl low high Z)
  choose kg hkg using fun j => Props.dotOf_exists (R := R) (List.ofFn fun i => (K i j, gamma i))
  exact ⟨_, K, kg, hK, hkg, fun j => rfl⟩

/-- In double precision: 30 high-fidelity samples of two variables, kernel parameters adding up to at most 20, the exponential correctly rounded, weights adding up to at most 1000 in absolute value, a coefficient `beta` of at most 10,
responses between -100 and 100: for the computed low-fidelity mean, the high-fidelity mean is accurate to `1.3e-5`. -/
example (X : Fin 30 → Fin 2 → Double) (Z : Fin r → Fin 2 → Double) (low high param : Fin 2 → Double) (hX : ∀ i k, low k ≤ X i k ∧ X i k ≤ high k) (hZ : ∀ j k, low k ≤ Z j k ∧ Z j k ≤ high k) (hparam : ∀ k, 0 ≤ (param k).val)
    (hpar : ∑ k, (param k).val ≤ 20) (beta : Double) (hbeta : |beta.val| ≤ 10) (gamma : Fin 30 → Double) (hsum : ∑ i, |(gamma i).val| ≤ 1000) (m s : Double) (hm : |m.val| ≤ 100) (hs0 : s.val ≠ 0) (hs : |s.val| ≤ 100)
    (lf F : Fin r → Double) (hlf : ∀ j, |(lf j).val - m.val| ≤ 200) (hF : IsHKMeanPrediction (fun a => Fl.ofReal _ (Real.exp a.val)) low high param X beta gamma m s lf Z F) (j : Fin r) :
    |(F j).val - hierarchicalMean (fun k => (param k).val) (vals (normalizeFl low high X)) beta.val (fun i => (gamma i).val) m.val s.val (lf j).val (vals (normalizeFl low high Z) j)| ≤ 1.3e-5 := by
  have hS : (0 : ℝ) ≤ ∑ k, (param k).val := Finset.sum_nonneg fun k _ => hparam k
  have hu : (2 : ℝ) ^ (-((53 : ℕ) : ℤ)) ≤ 1.2e-16 := by norm_num
  have hu0 : (0 : ℝ) < 2 ^ (-((53 : ℕ) : ℤ)) := two_zpow_pos _
  have hsz : (2 + 6) * (1 + ∑ k, (param k).val) * (2 : ℝ) ^ (-((53 : ℕ) : ℤ)) ≤ 168 * 1.2e-16 := mul_le_mul (by linarith) hu hu0.le (by norm_num)
  have ht : (2 : ℝ) ^ (-1074 + ((53 : ℕ) : ℤ) - 1) ≤ 2 ^ (-60 : ℤ) := zpow_le_zpow_right₀ (by norm_num) (by norm_num)
  have ht0 : (0 : ℝ) < 2 ^ (-1074 + ((53 : ℕ) : ℤ) - 1) := two_zpow_pos _
  have h := C187_hierarchical (by norm_num) (by norm_num) (expAccurate_rounded (R := nearestRounding 53 (-1074) (by norm_num)) (by norm_num) (by norm_num)) (by norm_num) hparam hX hZ (by push_cast; linarith) (by norm_num) hs0 hF j
    (L := (lf j).val) (ε := 0) (by simp)
  refine h.trans ?_
  have hA : meanAccuracy 30 1 param (2 ^ (1 - ((53 : ℕ) : ℤ))) ≤ 1.2e-10 := by
    unfold meanAccuracy kernelAccuracy
    have e1 : (2 : ℝ) ^ (1 - ((53 : ℕ) : ℤ)) ≤ 2.4e-16 := by norm_num
    push_cast at *
    linarith
  have hW : hierarchicalSize beta gamma m s (lf j) ≤ 102100 ∧ 0 ≤ hierarchicalSize beta gamma m s (lf j) := by
    unfold hierarchicalSize
    have hl := hlf j
    have a0 := abs_nonneg beta.val
    have a1 := abs_nonneg s.val
    have a2 := abs_nonneg ((lf j).val - m.val)
    have a3 : 0 ≤ ∑ i, |(gamma i).val| := Finset.sum_nonneg fun i _ => abs_nonneg _
    generalize (2 : ℝ) ^ (-1074 + ((53 : ℕ) : ℤ) - 1) = t at *
    have ht' : t ≤ 1e-6 := ht.trans (by norm_num)
    refine ⟨?_, by positivity⟩
    have g1 : (|s.val| + 1) * t ≤ 101 * 1e-6 := mul_le_mul (by linarith) ht' ht0.le (by norm_num)
    have g2 : |beta.val| * (|(lf j).val - m.val| + (|s.val| + 1) * t) ≤ 10 * (200 + 101 * 1e-6) := mul_le_mul hbeta (by linarith) (by positivity) (by norm_num)
    have g3 : |s.val| * (∑ i, |(gamma i).val| + (((30 : ℕ) : ℝ) + 2) * t) ≤ 100 * (1000 + 32 * 1e-6) := mul_le_mul hs (by push_cast; linarith) (by positivity) (by norm_num)
    exact (add_le_add g2 g3).trans (by norm_num)
  have h1 : meanAccuracy 30 1 param (2 ^ (1 - ((53 : ℕ) : ℤ))) * hierarchicalSize beta gamma m s (lf j) ≤ 1.2e-10 * 102100 := mul_le_mul hA hW.1 hW.2 (by norm_num)
  have h2 : (2 : ℝ) ^ (-((53 : ℕ) : ℤ)) * (|m.val| + 3 * 2 ^ (-1074 + ((53 : ℕ) : ℤ) - 1)) ≤ 1.2e-16 * 103 := by
    generalize (2 : ℝ) ^ (-1074 + ((53 : ℕ) : ℤ) - 1) = t at *
    have ht' : t ≤ 1 := ht.trans (by norm_num)
    exact mul_le_mul hu (by linarith) (by have := abs_nonneg m.val; positivity) (by norm_num)
  generalize meanAccuracy 30 1 param (2 ^ (1 - ((53 : ℕ) : ℤ))) * hierarchicalSize beta gamma m s (lf j) = A at *
  generalize (2 : ℝ) ^ (-((53 : ℕ) : ℤ)) * (|m.val| + 3 * 2 ^ (-1074 + ((53 : ℕ) : ℤ) - 1)) = B at *
  norm_num at h1 h2 ⊢
  linarith

end Mfpml.Props
