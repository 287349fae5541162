import Verif.Lemmas.RoundedStd
import Verif.Props.Rounded

/-!
# Predicted standard deviations in floating-point arithmetic (C192)

`R` ranges over all roundings to nearest with `p` significant bits (`float64`: `p = 53`, `emin = -1074`).  Numbers whose square is below `2 ^ (emin + 2 p + 1)` (`float64`: `2 ^ (-967)`), where squares underflow, are excluded where this matters.
-/

set_option linter.unusedSectionVars false

namespace Mfpml.Props

open Mfpml.Rounded

variable {p : ℕ} {emin : ℤ} {R : Rounding p emin}

theorem sqrtNaN_eq {x σ : Fl R} (h : x.sqrtNaN = some σ) : 0 ≤ x.val ∧ σ = x.sqrt := by
  unfold Fl.sqrtNaN at h
  split_ifs at h with h0
  exact ⟨not_lt.mp h0, (Option.some.inj h).symm⟩

theorem sqrtNaN_some {x : Fl R} (h : 0 ≤ x.val) : x.sqrtNaN = some x.sqrt := if_neg (not_lt.mpr h)

/-- C192.  Whatever number comes out of the linear solves as mean squared error, also a negative one, every model returns a non-negative number as standard deviation, never `nan`. -/
theorem C192_nonneg (mse ys noise e rho sl sd : Fl R) (hys : 0 ≤ ys.val) :
    (∃ σ, gpStdFl mse ys noise = some σ ∧ 0 ≤ σ.val) ∧ (∃ σ, epistemicFl mse ys = some σ ∧ 0 ≤ σ.val) ∧ (∃ σ, totalStdFl e noise = some σ ∧ 0 ≤ σ.val) ∧ (∃ σ, lfStdFl mse noise = some σ ∧ 0 ≤ σ.val) ∧
    (∃ σ, skStdFl rho sl sd = some σ ∧ 0 ≤ σ.val) := by
  have hsq : ∀ x : Fl R, 0 ≤ x.square.val := fun x => R.le_fl isFloat_zero (mul_self_nonneg _)
  have hrt : ∀ x : Fl R, 0 ≤ x.sqrt.val := fun x => R.le_fl isFloat_zero (Real.sqrt_nonneg _)
  have hmax : ∀ a : Fl R, 0 ≤ (max a 0).val := fun a => le_max_right a (0 : Fl R)
  refine ⟨⟨_, sqrtNaN_some (hmax _), hrt _⟩, ⟨_, by unfold epistemicFl; rw [sqrtNaN_some (hmax _)]; rfl, R.le_fl isFloat_zero (mul_nonneg (hrt _) hys)⟩, ⟨_, sqrtNaN_some (R.le_fl isFloat_zero (add_nonneg (hsq _) (hsq _))), hrt _⟩,
    ⟨_, sqrtNaN_some (R.le_fl isFloat_zero (add_nonneg (hmax _) (hsq _))), hrt _⟩, ⟨_, sqrtNaN_some (R.le_fl isFloat_zero (add_nonneg (R.le_fl isFloat_zero (mul_nonneg (hsq _) (hsq _))) (hsq _))), hrt _⟩⟩

/-- The square root of something that is at least the rounded square of `x` is, rounded, at least `|x|`. -/
theorem abs_le_fl_sqrt (hp : 1 ≤ p) (x : Fl R) {c : ℝ} (hx : (2 : ℝ) ^ (emin + 2 * p + 1) ≤ x.val ^ 2) (hc : x.square.val ≤ c) : |x.val| ≤ R.fl (Real.sqrt c) := by
  have hpos : 0 < |x.val| := by
    refine abs_pos.mpr fun h => ?_
    rw [h] at hx
    have := two_zpow_pos (emin + 2 * p + 1)
    linarith [zero_pow (M₀ := ℝ) two_ne_zero]
  have hfl : IsFloat p emin |x.val| := by
    rcases abs_choice x.val with h | h <;> rw [h]
    · exact x.isFloat
    · exact x.isFloat.neg
  have h1 := fl_sqrt_sq hp R hfl hpos (by rwa [sq_abs])
  rw [abs_mul_abs_self] at h1
  rw [← h1]
  exact R.fl_mono (Real.sqrt_le_sqrt hc)

/-- C192.  The total standard deviation of hierarchical and co-Kriging is neither below the epistemic one nor below the noise level, exactly, not only up to rounding errors; without noise it is the epistemic one, exactly. -/
theorem C192_total (hp : 1 ≤ p) {e noise σ : Fl R} (hσ : totalStdFl e noise = some σ) : ((2 : ℝ) ^ (emin + 2 * p + 1) ≤ e.val ^ 2 → |e.val| ≤ σ.val) ∧ ((2 : ℝ) ^ (emin + 2 * p + 1) ≤ noise.val ^ 2 → |noise.val| ≤ σ.val) ∧
    ((2 : ℝ) ^ (emin + 2 * p + 1) ≤ e.val ^ 2 → noise.val = 0 → σ.val = |e.val|) := by
  have hsq : ∀ x : Fl R, 0 ≤ x.square.val := fun x => R.le_fl isFloat_zero (mul_self_nonneg _)
  obtain ⟨_, rfl⟩ := sqrtNaN_eq hσ
  refine ⟨fun h => abs_le_fl_sqrt hp e h (R.le_fl e.square.isFloat ?_), fun h => abs_le_fl_sqrt hp noise h (R.le_fl noise.square.isFloat ?_), fun h hn => ?_⟩
  · linarith [hsq noise]
  · linarith [hsq e]
  · have hn2 : noise.square.val = 0 := by
      change R.fl (noise.val * noise.val) = 0
      rw [hn, mul_zero, R.fl_of_isFloat isFloat_zero]
    have hpos : 0 < |e.val| := by
      refine abs_pos.mpr fun h0 => ?_
      rw [h0] at h
      have := two_zpow_pos (emin + 2 * p + 1)
      linarith [zero_pow (M₀ := ℝ) two_ne_zero]
    have hfl : IsFloat p emin |e.val| := by
      rcases abs_choice e.val with h' | h' <;> rw [h']
      · exact e.isFloat
      · exact e.isFloat.neg
    have h1 := fl_sqrt_sq hp R hfl hpos (by rwa [sq_abs])
    rw [abs_mul_abs_self] at h1
    change R.fl (Real.sqrt (R.fl (e.square.val + noise.square.val))) = |e.val|
    rw [hn2, add_zero, R.fl_of_isFloat e.square.isFloat]
    exact h1

/-- C192.  The standard deviations of Kriging (where the computed mean squared error is not negative) and of the low-fidelity model of co-Kriging are not below the noise level, that of scaled Kriging is not below that of the discrepancy model. -/
theorem C192_noise (hp : 1 ≤ p) {mse ys noise rho sl sd σg σl σs : Fl R} (hg : gpStdFl mse ys noise = some σg) (hl : lfStdFl mse noise = some σl) (hs : skStdFl rho sl sd = some σs) : (0 ≤ mse.val → (2 : ℝ) ^ (emin + 2 * p + 1) ≤ noise.val ^ 2 → |noise.val| ≤ σg.val) ∧
    ((2 : ℝ) ^ (emin + 2 * p + 1) ≤ noise.val ^ 2 → |noise.val| ≤ σl.val) ∧ ((2 : ℝ) ^ (emin + 2 * p + 1) ≤ sd.val ^ 2 → |sd.val| ≤ σs.val) := by
  have hsq : ∀ x : Fl R, 0 ≤ x.square.val := fun x => R.le_fl isFloat_zero (mul_self_nonneg _)
  have hmax : 0 ≤ (max mse 0).val := le_max_right mse (0 : Fl R)
  obtain ⟨_, rfl⟩ := sqrtNaN_eq hg
  obtain ⟨_, rfl⟩ := sqrtNaN_eq hl
  obtain ⟨_, rfl⟩ := sqrtNaN_eq hs
  refine ⟨fun h0 h => abs_le_fl_sqrt hp noise h ?_, fun h => abs_le_fl_sqrt hp noise h (R.le_fl noise.square.isFloat ?_), fun h => abs_le_fl_sqrt hp sd h (R.le_fl sd.square.isFloat ?_)⟩
  · have h1 : noise.square ≤ max (mse * ys.square + noise.square) 0 := by
      refine le_trans ?_ (le_max_left _ _)
      refine R.le_fl noise.square.isFloat ?_
      have : 0 ≤ (mse * ys.square).val := R.le_fl isFloat_zero (mul_nonneg h0 (hsq _))
      linarith
    exact h1
  · linarith
  · have : 0 ≤ (rho.square * sl.square).val := R.le_fl isFloat_zero (mul_nonneg (hsq _) (hsq _))
    linarith

/-- What the constants are for, in one place. -/
theorem std_consts (hp : 7 ≤ p) (he : emin + p ≤ 1) : (0 : ℝ) < 2 ^ (-(p : ℤ)) ∧ (2 : ℝ) ^ (-(p : ℤ)) ≤ 1 / 100 ∧ (0 : ℝ) < 2 ^ (emin + p - 1) ∧ (2 : ℝ) ^ (emin + p - 1) ≤ 1 ∧
    ∀ W : ℝ, (2 : ℝ) ^ (emin + 2 * p + 1) ≤ W → 0 < W ∧ (2 : ℝ) ^ (emin + p - 1) ≤ 2 ^ (-(p : ℤ)) * W := by
  refine ⟨two_zpow_pos _, ?_, two_zpow_pos _, ?_, fun W hW => ⟨(two_zpow_pos _).trans_le hW, ?_⟩⟩
  · calc (2 : ℝ) ^ (-(p : ℤ)) ≤ 2 ^ (-7 : ℤ) := zpow_le_zpow_right₀ (by norm_num) (by omega)
      _ ≤ 1 / 100 := by norm_num
  · calc (2 : ℝ) ^ (emin + p - 1) ≤ 2 ^ (0 : ℤ) := zpow_le_zpow_right₀ (by norm_num) (by omega)
      _ = 1 := by norm_num
  · refine le_trans ?_ (mul_le_mul_of_nonneg_left hW (two_zpow_pos _).le)
    rw [← zpow_add₀ (by norm_num : (2 : ℝ) ≠ 0)]
    exact zpow_le_zpow_right₀ (by norm_num) (by omega)

/-- The rounding error of `a + b²` for an approximate `a`. -/
theorem add_square_near {f : ℝ → ℝ} {u t : ℝ} (hf : ∀ x, |f x - x| ≤ u * (|x| + t)) (hu : 0 < u) (hu1 : u ≤ 1 / 100) {a' a b W k : ℝ} (hk0 : 0 ≤ k) (hk : k ≤ 10) (hW : 0 < W) (htW : t ≤ u * W) (hab : |a| + b ^ 2 ≤ W) (ha : |a' - a| ≤ k * u * |a| + u * u * W) :
    |f (a' + f (b * b)) - (a + b ^ 2)| ≤ (max k 1 + 1.2) * u * W := by
  have hb := hf (b * b)
  rw [← pow_two, abs_of_nonneg (sq_nonneg b)] at hb
  rw [← pow_two]
  have hb2 := sq_nonneg b
  have ha2 := abs_nonneg a
  generalize b ^ 2 = B at *
  have hkm : k ≤ max k 1 := le_max_left _ _
  have hk1 : 1 ≤ max k 1 := le_max_right _ _
  have hkm10 : max k 1 ≤ 10 := max_le hk (by norm_num)
  generalize max k 1 = K at *
  have huW : 0 < u * W := by positivity
  have h1 : |a' + f B - (a + B)| ≤ K * u * W + 2 * u * (u * W) := by
    have e : a' + f B - (a + B) = (a' - a) + (f B - B) := by ring
    rw [e]
    refine (abs_add_le _ _).trans ?_
    have e1 : k * u * |a| ≤ K * u * |a| := mul_le_mul_of_nonneg_right (mul_le_mul_of_nonneg_right hkm hu.le) ha2
    have e2 : u * B ≤ K * u * B := mul_le_mul_of_nonneg_right (by nlinarith) hb2
    have e3 : K * u * (|a| + B) ≤ K * u * W := mul_le_mul_of_nonneg_left hab (by positivity)
    have e4 : u * t ≤ u * (u * W) := mul_le_mul_of_nonneg_left htW hu.le
    nlinarith
  have hsz : |a + B| ≤ W := (abs_add_le _ _).trans (by rw [abs_of_nonneg hb2]; exact hab)
  have h2 := near_round hf h1 (near_size h1 hsz) hu.le
  refine h2.trans ?_
  have e4 : u * t ≤ u * (u * W) := mul_le_mul_of_nonneg_left htW hu.le
  have e5 : u * (u * W) ≤ 1 / 100 * (u * W) := mul_le_mul_of_nonneg_right hu1 huW.le
  have e6 : u * (K * u * W) ≤ 10 * (u * (u * W)) := by
    have : 0 < u * (u * W) := by positivity
    nlinarith
  have e7 : u * (2 * u * (u * W)) ≤ 0.02 * (u * (u * W)) := by
    have : 0 < u * (u * W) := by positivity
    nlinarith
  have e8 : K * u * W + 2 * u * (u * W) + u * (W + (K * u * W + 2 * u * (u * W)) + t) = K * u * W + u * W + 2 * (u * (u * W)) + u * (K * u * W) + u * (2 * u * (u * W)) + u * t := by ring
  rw [e8]
  nlinarith

/-- C192.  The total standard deviation of hierarchical and co-Kriging is the root of the sum of the squares, to a relative accuracy of four units of rounding. -/
theorem C192_total_accurate (hp : 7 ≤ p) (he : emin + p ≤ 1) {e noise σ : Fl R} (hσ : totalStdFl e noise = some σ) (hbig : (2 : ℝ) ^ (emin + 2 * p + 1) ≤ e.val ^ 2 + noise.val ^ 2) :
    |σ.val - Real.sqrt (e.val ^ 2 + noise.val ^ 2)| ≤ 4 * 2 ^ (-(p : ℤ)) * Real.sqrt (e.val ^ 2 + noise.val ^ 2) := by
  obtain ⟨hnn, rfl⟩ := sqrtNaN_eq hσ
  obtain ⟨hu, hu1, ht, ht1, hW⟩ := std_consts hp he
  obtain ⟨hW0, htW⟩ := hW _ hbig
  have hf := fl_error (by omega : 1 ≤ p) R
  have h1 : |R.fl (e.val * e.val) - e.val ^ 2| ≤ 1 * 2 ^ (-(p : ℤ)) * |e.val ^ 2| + 2 ^ (-(p : ℤ)) * 2 ^ (-(p : ℤ)) * (e.val ^ 2 + noise.val ^ 2) := by
    rw [← pow_two]
    refine (hf _).trans ?_
    have := mul_le_mul_of_nonneg_left htW hu.le
    linarith
  have h2 := add_square_near hf hu hu1 zero_le_one (by norm_num) hW0 htW (by rw [abs_of_nonneg (sq_nonneg _)]) h1
  rw [max_self] at h2
  have h3 := fl_sqrt_near hf hu hu1 ht ht1 hW0 hnn htW (by linarith) h2
  refine h3.trans (mul_le_mul_of_nonneg_right (by linarith) (Real.sqrt_nonneg _))

/-- C192.  The standard deviation of the low-fidelity model of co-Kriging is the root of the clamped mean squared error plus the squared noise, to a relative accuracy of four units of rounding. -/
theorem C192_lf_accurate (hp : 7 ≤ p) (he : emin + p ≤ 1) {mse noise σ : Fl R} (hσ : lfStdFl mse noise = some σ) (hbig : (2 : ℝ) ^ (emin + 2 * p + 1) ≤ max mse.val 0 + noise.val ^ 2) :
    |σ.val - Real.sqrt (max mse.val 0 + noise.val ^ 2)| ≤ 4 * 2 ^ (-(p : ℤ)) * Real.sqrt (max mse.val 0 + noise.val ^ 2) := by
  obtain ⟨hnn, rfl⟩ := sqrtNaN_eq hσ
  obtain ⟨hu, hu1, ht, ht1, hW⟩ := std_consts hp he
  obtain ⟨hW0, htW⟩ := hW _ hbig
  have hf := fl_error (by omega : 1 ≤ p) R
  have hm : (max mse 0).val = max mse.val 0 := by
    rcases le_total mse 0 with h | h
    · rw [max_eq_right h]; exact (max_eq_right (show mse.val ≤ 0 from h)).symm
    · rw [max_eq_left h]; exact (max_eq_left (show 0 ≤ mse.val from h)).symm
  have hm0 : 0 ≤ max mse.val 0 := le_max_right _ _
  change |R.fl (Real.sqrt (R.fl ((max mse 0).val + R.fl (noise.val * noise.val)))) - _| ≤ _
  rw [hm]
  have h1 : |max mse.val 0 - max mse.val 0| ≤ 0 * 2 ^ (-(p : ℤ)) * |max mse.val 0| + 2 ^ (-(p : ℤ)) * 2 ^ (-(p : ℤ)) * (max mse.val 0 + noise.val ^ 2) := by
    rw [sub_self, abs_zero]
    positivity
  have h2 := add_square_near hf hu hu1 le_rfl (by norm_num) hW0 htW (by rw [abs_of_nonneg hm0]) h1
  rw [max_eq_right zero_le_one] at h2
  have h3 := fl_sqrt_near hf hu hu1 ht ht1 hW0 (hm ▸ hnn) htW (by linarith) h2
  refine h3.trans (mul_le_mul_of_nonneg_right (by linarith) (Real.sqrt_nonneg _))

/-- C192.  The standard deviation of scaled Kriging is the root of `rho² stdLf² + stdDisc²`, to a relative accuracy of six units of rounding. -/
theorem C192_scaled_accurate (hp : 7 ≤ p) (he : emin + p ≤ 1) {rho sl sd σ : Fl R} (hσ : skStdFl rho sl sd = some σ) (hrho : (2 : ℝ) ^ (emin + 2 * p + 1) ≤ rho.val ^ 2) (hsl : (2 : ℝ) ^ (emin + 2 * p + 1) ≤ sl.val ^ 2)
    (hbig : (2 : ℝ) ^ (emin + 2 * p + 1) ≤ rho.val ^ 2 * sl.val ^ 2 + sd.val ^ 2) :
    |σ.val - Real.sqrt (rho.val ^ 2 * sl.val ^ 2 + sd.val ^ 2)| ≤ 6 * 2 ^ (-(p : ℤ)) * Real.sqrt (rho.val ^ 2 * sl.val ^ 2 + sd.val ^ 2) := by
  obtain ⟨hnn, rfl⟩ := sqrtNaN_eq hσ
  obtain ⟨hu, hu1, ht, ht1, hW⟩ := std_consts hp he
  obtain ⟨hW0, htW⟩ := hW _ hbig
  obtain ⟨hr0, htr⟩ := hW _ hrho
  obtain ⟨hs0, hts⟩ := hW _ hsl
  have hf := fl_error (by omega : 1 ≤ p) R
  replace hnn : 0 ≤ R.fl (R.fl (R.fl (rho.val * rho.val) * R.fl (sl.val * sl.val)) + R.fl (sd.val * sd.val)) := hnn
  have hq1 := hf (rho.val ^ 2)
  have hq2 := hf (sl.val ^ 2)
  change |R.fl (Real.sqrt (R.fl (R.fl (R.fl (rho.val * rho.val) * R.fl (sl.val * sl.val)) + R.fl (sd.val * sd.val)))) - _| ≤ _
  rw [← pow_two rho.val, ← pow_two sl.val] at *
  have hA0 := mul_pos hr0 hs0
  rw [abs_of_pos hr0] at hq1
  rw [abs_of_pos hs0] at hq2
  set u : ℝ := 2 ^ (-(p : ℤ)) with hud
  set t : ℝ := 2 ^ (emin + p - 1) with htd
  have hprod : |R.fl (rho.val ^ 2) * R.fl (sl.val ^ 2) - rho.val ^ 2 * sl.val ^ 2| ≤ 2.1 * u * (rho.val ^ 2 * sl.val ^ 2) := by
    generalize rho.val ^ 2 = r at *
    generalize sl.val ^ 2 = s at *
    generalize R.fl r = r' at *
    generalize R.fl s = s' at *
    have e : r' * s' - r * s = (r' - r) * s + r' * (s' - s) := by ring
    have b1 : |r' - r| ≤ 1.01 * u * r := hq1.trans (by nlinarith)
    have b2 : |s' - s| ≤ 1.01 * u * s := hq2.trans (by nlinarith)
    have b3 : |r'| ≤ 1.02 * r := (near_size b1 (abs_of_pos hr0).le).trans (by nlinarith)
    rw [e]
    refine (abs_add_le _ _).trans ?_
    rw [abs_mul, abs_mul, abs_of_pos hs0]
    have c1 : |r' - r| * s ≤ 1.01 * u * r * s := mul_le_mul_of_nonneg_right b1 hs0.le
    have c2 : |r'| * |s' - s| ≤ 1.02 * r * (1.01 * u * s) := mul_le_mul b3 b2 (abs_nonneg _) (by positivity)
    have : 0 < u * (r * s) := by positivity
    nlinarith
  have h1 : |R.fl (R.fl (rho.val ^ 2) * R.fl (sl.val ^ 2)) - rho.val ^ 2 * sl.val ^ 2| ≤ 3.2 * u * |rho.val ^ 2 * sl.val ^ 2| + u * u * (rho.val ^ 2 * sl.val ^ 2 + sd.val ^ 2) := by
    rw [abs_of_pos hA0]
    have h0 := near_round hf hprod (near_size hprod (abs_of_pos hA0).le) hu.le
    refine h0.trans ?_
    have := mul_le_mul_of_nonneg_left htW hu.le
    generalize rho.val ^ 2 * sl.val ^ 2 = A at *
    have e1 : u * (2.1 * u * A) ≤ 0.021 * (u * A) := by
      have : 0 < u * A := by positivity
      nlinarith
    have : 0 < u * A := by positivity
    nlinarith
  have h2 := add_square_near hf hu hu1 (by norm_num) (by norm_num) hW0 htW (by rw [abs_of_pos hA0]) h1
  rw [max_eq_left (by norm_num : (1 : ℝ) ≤ 3.2)] at h2
  have h3 := fl_sqrt_near hf hu hu1 ht ht1 hW0 hnn htW (by linarith) h2
  refine h3.trans (mul_le_mul_of_nonneg_right (by linarith) (Real.sqrt_nonneg _))

/-- Squaring a rounded square root. -/
theorem root_square_near {u t W r σ : ℝ} (hu : 0 < u) (hu1 : u ≤ 1 / 100) (ht : 0 < t) (ht1 : t ≤ 1) (hW : 0 < W) (htW : t ≤ u * W) (hr0 : 0 ≤ r) (hrW : r ^ 2 ≤ 1.04 * W) (hr : |σ - r| ≤ u * (r + t)) : |σ ^ 2 - r ^ 2| ≤ 6 * u * W := by
  have h1 : t ^ 2 ≤ 0.01 * W := by
    have e1 : t * t ≤ 1 * t := mul_le_mul_of_nonneg_right ht1 ht.le
    have e2 : u * W ≤ 1 / 100 * W := mul_le_mul_of_nonneg_right hu1 hW.le
    rw [pow_two]
    linarith
  have h2 : 2 * (r * t) ≤ 0.1 * r ^ 2 + 10 * t ^ 2 := by
    have := sq_nonneg (r - 10 * t)
    nlinarith
  have h3 : (r + t) ^ 2 ≤ 1.3 * W := by
    have e : (r + t) ^ 2 = r ^ 2 + 2 * (r * t) + t ^ 2 := by ring
    rw [e]
    linarith
  have e : σ ^ 2 - r ^ 2 = (σ - r) * (2 * r + (σ - r)) := by ring
  rw [e, abs_mul]
  have hrt : 0 ≤ r + t := by linarith
  have c0 : u * (r + t) ≤ 1 / 100 * (r + t) := mul_le_mul_of_nonneg_right hu1 hrt
  have c1 : |2 * r + (σ - r)| ≤ 2.1 * (r + t) := (abs_add_le _ _).trans (by rw [abs_of_nonneg (by linarith)]; linarith)
  have c2 : |σ - r| * |2 * r + (σ - r)| ≤ u * (r + t) * (2.1 * (r + t)) := mul_le_mul hr c1 (abs_nonneg _) (by positivity)
  have c3 : u * (r + t) * (2.1 * (r + t)) = 2.1 * (u * (r + t) ^ 2) := by ring
  have c4 : u * (r + t) ^ 2 ≤ u * (1.3 * W) := mul_le_mul_of_nonneg_left h3 hu.le
  have c5 : 0 < u * W := by positivity
  linarith

/-- C192.  The square of the standard deviation of Kriging is the mean squared error on the scale of the responses plus the squared noise, clamped at zero, up to ten units of rounding relative to the sizes of the two terms (which can cancel where the
computed mean squared error is negative). -/
theorem C192_gp_accurate (hp : 7 ≤ p) (he : emin + p ≤ 1) {mse ys noise σ : Fl R} (hσ : gpStdFl mse ys noise = some σ) (hys : (2 : ℝ) ^ (emin + 2 * p + 1) ≤ ys.val ^ 2) (hbig : (2 : ℝ) ^ (emin + 2 * p + 1) ≤ |mse.val| * ys.val ^ 2 + noise.val ^ 2) :
    |σ.val ^ 2 - max (mse.val * ys.val ^ 2 + noise.val ^ 2) 0| ≤ 10 * 2 ^ (-(p : ℤ)) * (|mse.val| * ys.val ^ 2 + noise.val ^ 2) := by
  obtain ⟨hnn, rfl⟩ := sqrtNaN_eq hσ
  obtain ⟨hu, hu1, ht, ht1, hW⟩ := std_consts hp he
  obtain ⟨hW0, htW⟩ := hW _ hbig
  obtain ⟨hs0, hts⟩ := hW _ hys
  have hf := fl_error (by omega : 1 ≤ p) R
  have hq := hf (ys.val ^ 2)
  rw [abs_of_pos hs0] at hq
  have hval : (max (mse * ys.square + noise.square) 0).sqrt.val = R.fl (Real.sqrt (max (R.fl (R.fl (mse.val * R.fl (ys.val ^ 2)) + R.fl (noise.val * noise.val))) 0)) := by
    have hm : ∀ a : Fl R, (max a 0).val = max a.val 0 := fun a => by
      rcases le_total a 0 with h | h
      · rw [max_eq_right h]; exact (max_eq_right (show a.val ≤ 0 from h)).symm
      · rw [max_eq_left h]; exact (max_eq_left (show 0 ≤ a.val from h)).symm
    rw [pow_two ys.val]
    change R.fl (Real.sqrt (max (mse * ys.square + noise.square) 0).val) = _
    rw [hm]
    rfl
  rw [hval]
  set u : ℝ := 2 ^ (-(p : ℤ)) with hud
  set t : ℝ := 2 ^ (emin + p - 1) with htd
  set W := |mse.val| * ys.val ^ 2 + noise.val ^ 2 with hWd
  have hA : |mse.val * ys.val ^ 2| = |mse.val| * ys.val ^ 2 := by rw [abs_mul, abs_of_pos hs0]
  have hprod : |mse.val * R.fl (ys.val ^ 2) - mse.val * ys.val ^ 2| ≤ 1.01 * u * |mse.val * ys.val ^ 2| := by
    rw [← mul_sub, abs_mul, hA]
    have b1 : |R.fl (ys.val ^ 2) - ys.val ^ 2| ≤ 1.01 * u * ys.val ^ 2 := hq.trans (by nlinarith)
    have := mul_le_mul_of_nonneg_left b1 (abs_nonneg mse.val)
    linarith
  have h1 : |R.fl (mse.val * R.fl (ys.val ^ 2)) - mse.val * ys.val ^ 2| ≤ 2.1 * u * |mse.val * ys.val ^ 2| + u * u * W := by
    have h0 := near_round hf hprod (near_size hprod le_rfl) hu.le
    refine h0.trans ?_
    have := mul_le_mul_of_nonneg_left htW hu.le
    have hAA := abs_nonneg (mse.val * ys.val ^ 2)
    generalize |mse.val * ys.val ^ 2| = A at *
    have huA : 0 ≤ u * A := by positivity
    have e1 : u * (1.01 * u * A) ≤ 0.0101 * (u * A) := by nlinarith
    nlinarith
  have h2 := add_square_near hf hu hu1 (by norm_num) (by norm_num) hW0 htW (by rw [hA]) h1
  rw [max_eq_left (by norm_num : (1 : ℝ) ≤ 2.1)] at h2
  have h3 : |max (R.fl (R.fl (mse.val * R.fl (ys.val ^ 2)) + R.fl (noise.val * noise.val))) 0 - max (mse.val * ys.val ^ 2 + noise.val ^ 2) 0| ≤ (2.1 + 1.2) * u * W := (abs_max_sub_max_le_abs _ _ _).trans h2
  have hT0 : 0 ≤ max (mse.val * ys.val ^ 2 + noise.val ^ 2) 0 := le_max_right _ _
  have hTW : max (mse.val * ys.val ^ 2 + noise.val ^ 2) 0 ≤ W := by
    refine max_le ?_ hW0.le
    have := le_abs_self (mse.val * ys.val ^ 2)
    rw [hA] at this
    linarith
  have hv0 : 0 ≤ max (R.fl (R.fl (mse.val * R.fl (ys.val ^ 2)) + R.fl (noise.val * noise.val))) 0 := le_max_right _ _
  generalize max (R.fl (R.fl (mse.val * R.fl (ys.val ^ 2)) + R.fl (noise.val * noise.val))) 0 = v at *
  generalize max (mse.val * ys.val ^ 2 + noise.val ^ 2) 0 = T at *
  have hvW : v ≤ 1.04 * W := by
    have := (abs_le.mp h3).2
    nlinarith
  have hr := hf (Real.sqrt v)
  have hr0 := Real.sqrt_nonneg v
  have hr2 := Real.sq_sqrt hv0
  rw [abs_of_nonneg hr0] at hr
  generalize Real.sqrt v = r at *
  generalize R.fl r = σ at *
  have h6 : |σ ^ 2 - r ^ 2| ≤ 6 * u * W := root_square_near hu hu1 ht ht1 hW0 htW hr0 (by rw [hr2]; exact hvW) hr
  have e : σ ^ 2 - T = (σ ^ 2 - r ^ 2) + (v - T) := by rw [hr2]; ring
  rw [e]
  refine (abs_add_le _ _).trans ?_
  linarith

/-- C192.  The epistemic standard deviation of hierarchical and co-Kriging is the root of the clamped mean squared error, times the standard deviation of the responses, up to three units of rounding (and underflow). -/
theorem C192_epistemic_accurate (hp : 7 ≤ p) (he : emin + p ≤ 1) {mse ys σ : Fl R} (hσ : epistemicFl mse ys = some σ) :
    |σ.val - Real.sqrt (max mse.val 0) * ys.val| ≤ 3 * 2 ^ (-(p : ℤ)) * ((Real.sqrt (max mse.val 0) + 2 ^ (emin + p - 1)) * |ys.val| + 2 ^ (emin + p - 1)) := by
  unfold epistemicFl at hσ
  obtain ⟨r0, hr0', rfl⟩ := Option.map_eq_some_iff.mp hσ
  obtain ⟨_, rfl⟩ := sqrtNaN_eq hr0'
  obtain ⟨hu, hu1, ht, ht1, _⟩ := std_consts hp he
  have hf := fl_error (by omega : 1 ≤ p) R
  have hm : (max mse 0).val = max mse.val 0 := by
    rcases le_total mse 0 with h | h
    · rw [max_eq_right h]; exact (max_eq_right (show mse.val ≤ 0 from h)).symm
    · rw [max_eq_left h]; exact (max_eq_left (show 0 ≤ mse.val from h)).symm
  change |R.fl (R.fl (Real.sqrt (max mse 0).val) * ys.val) - _| ≤ _
  rw [hm]
  have hr := hf (Real.sqrt (max mse.val 0))
  have hr0 := Real.sqrt_nonneg (max mse.val 0)
  rw [abs_of_nonneg hr0] at hr
  generalize Real.sqrt (max mse.val 0) = r at *
  have hy := abs_nonneg ys.val
  have h1 : |R.fl r * ys.val - r * ys.val| ≤ 2 ^ (-(p : ℤ)) * (r + 2 ^ (emin + p - 1)) * |ys.val| := by
    rw [← sub_mul, abs_mul]
    exact mul_le_mul_of_nonneg_right hr hy
  have h2 := near_round hf h1 (near_size h1 (by rw [abs_mul, abs_of_nonneg hr0])) hu.le
  refine h2.trans ?_
  generalize (2 : ℝ) ^ (-(p : ℤ)) = u at *
  generalize (2 : ℝ) ^ (emin + p - 1) = t at *
  generalize |ys.val| = b at *
  have c1 : 0 ≤ u * (r * b) := by positivity
  have c2 : 0 ≤ u * (t * b) := by positivity
  have c3 : 0 ≤ u * t := by positivity
  have c4 : u * (u * (r * b)) ≤ 1 / 100 * (u * (r * b)) := mul_le_mul_of_nonneg_right hu1 c1
  have c5 : u * (u * (t * b)) ≤ 1 / 100 * (u * (t * b)) := mul_le_mul_of_nonneg_right hu1 c2
  have e1 : u * (r + t) * b + u * (r * b + u * (r + t) * b + t) = 2 * (u * (r * b)) + u * (t * b) + u * (u * (r * b)) + u * (u * (t * b)) + u * t := by ring
  have e2 : 3 * u * ((r + t) * b + t) = 3 * (u * (r * b)) + 3 * (u * (t * b)) + 3 * (u * t) := by ring
  rw [e1, e2]
  linarith

/-- The hypotheses are met in double precision: an epistemic standard deviation of at least `1e-20`, noise `1`. -/
example (e : Double) (he : 1e-20 ≤ e.val) : ∃ σ σ0, totalStdFl e oneD = some σ ∧ totalStdFl e 0 = some σ0 ∧ e.val ≤ σ.val ∧ 1 ≤ σ.val ∧ σ0.val = e.val ∧ |σ.val - Real.sqrt (e.val ^ 2 + 1)| ≤ 5e-16 * Real.sqrt (e.val ^ 2 + 1) := by
  have ho : oneD.val = 1 := rfl
  have ht : (2 : ℝ) ^ (-1074 + 2 * ((53 : ℕ) : ℤ) + 1) ≤ 1e-40 := (zpow_le_zpow_right₀ (by norm_num) (by norm_num : -1074 + 2 * ((53 : ℕ) : ℤ) + 1 ≤ -140)).trans (by norm_num)
  have h1 : (2 : ℝ) ^ (-1074 + 2 * ((53 : ℕ) : ℤ) + 1) ≤ e.val ^ 2 := ht.trans (by nlinarith)
  have h2 : (2 : ℝ) ^ (-1074 + 2 * ((53 : ℕ) : ℤ) + 1) ≤ oneD.val ^ 2 := ht.trans (by rw [ho]; norm_num)
  have he0 : 0 < e.val := lt_of_lt_of_le (by norm_num) he
  obtain ⟨-, -, ⟨σ, hσ, -⟩, -⟩ := C192_nonneg 0 0 oneD e 0 0 0 le_rfl
  obtain ⟨-, -, ⟨σ0, hσ0, -⟩, -⟩ := C192_nonneg 0 0 0 e 0 0 0 le_rfl
  obtain ⟨t1, t2, -⟩ := C192_total (by norm_num) hσ
  obtain ⟨-, -, t3⟩ := C192_total (by norm_num) hσ0
  have t4 := C192_total_accurate (by norm_num) (by norm_num) hσ (h1.trans (by rw [ho]; linarith))
  have hu : 4 * (2 : ℝ) ^ (-((53 : ℕ) : ℤ)) ≤ 5e-16 := by norm_num
  rw [ho] at t4
  refine ⟨σ, σ0, hσ, hσ0, abs_of_pos he0 ▸ t1 h1, by simpa [ho] using t2 h2, (t3 h1 rfl).trans (abs_of_pos he0), ?_⟩
  rw [one_pow] at t4
  exact t4.trans (mul_le_mul_of_nonneg_right hu (Real.sqrt_nonneg _))

/-- The hypotheses of the theorems on Kriging and scaled Kriging are met in double precision, with a mean squared error that cancels against the noise. -/
example (mse ys sl : Double) (hmse : mse.val = -1e-10) (hys : 1 ≤ ys.val) (hsl : 1 ≤ sl.val) : ∃ σ σs, gpStdFl mse ys oneD = some σ ∧ skStdFl oneD sl ys = some σs ∧
    |σ.val ^ 2 - max (mse.val * ys.val ^ 2 + oneD.val ^ 2) 0| ≤ 1.2e-15 * (1e-10 * ys.val ^ 2 + 1) ∧ |σs.val - Real.sqrt (sl.val ^ 2 + ys.val ^ 2)| ≤ 7e-16 * Real.sqrt (sl.val ^ 2 + ys.val ^ 2) := by
  have ho : oneD.val = 1 := rfl
  have ht : (2 : ℝ) ^ (-1074 + 2 * ((53 : ℕ) : ℤ) + 1) ≤ 1 := (zpow_le_zpow_right₀ (by norm_num) (by norm_num : -1074 + 2 * ((53 : ℕ) : ℤ) + 1 ≤ 0)).trans (by norm_num)
  have h1 : (1 : ℝ) ≤ ys.val ^ 2 := one_le_pow₀ hys
  have h2 : (1 : ℝ) ≤ sl.val ^ 2 := one_le_pow₀ hsl
  have hm : |mse.val| = 1e-10 := by rw [hmse]; norm_num
  obtain ⟨⟨σ, hσ, -⟩, -, -, -, σs, hσs, -⟩ := C192_nonneg mse ys oneD 0 oneD sl ys (by linarith)
  refine ⟨σ, σs, hσ, hσs, ?_, ?_⟩
  · have h := C192_gp_accurate (by norm_num) (by norm_num) hσ (ht.trans h1) (ht.trans (by rw [ho, hm]; nlinarith))
    refine h.trans ?_
    rw [hm, ho, one_pow]
    exact mul_le_mul_of_nonneg_right (by norm_num) (by positivity)
  · have h := C192_scaled_accurate (by norm_num) (by norm_num) hσs (ht.trans (by rw [ho]; norm_num)) (ht.trans h2) (ht.trans (by rw [ho]; nlinarith))
    rw [ho, one_pow, one_mul] at h
    exact h.trans (mul_le_mul_of_nonneg_right (by norm_num) (Real.sqrt_nonneg _))

end Mfpml.Props
