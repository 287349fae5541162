import Verif.Lemmas.RoundedAcquisition
import Verif.Model.RoundedMFAcquisition

/-!
# Lemmas on the multi-fidelity acquisition functions in floating-point arithmetic
-/

namespace Mfpml.Rounded

variable {f : ℝ → ℝ} {u t : ℝ}

/-- A rounded quotient by a standard deviation that is not tiny. -/
theorem near_quotient (hf : ∀ x, |f x - x| ≤ u * (|x| + t)) (hu : 0 ≤ u) (hu1 : u ≤ 1 / 1000) (ht1 : t ≤ 1) {d σ : ℝ} (hσ : 0 < σ) (hts : t ≤ σ) :
    |f (f d / σ) - d / σ| ≤ 7 * u * |d / σ| + 3 * u := by
  have h1 : |f d / σ - d / σ| ≤ u * |d / σ| + u := by
    rw [← sub_div, abs_div, abs_of_pos hσ, div_le_iff₀ hσ, abs_div, abs_of_pos hσ]
    have h2 : (u * (|d| / σ) + u) * σ = u * (|d| + σ) := by field_simp
    rw [h2]
    exact (hf d).trans (mul_le_mul_of_nonneg_left (by linarith) hu)
  refine (near_round hf h1 (near_size h1 le_rfl) hu).trans ?_
  have h0 : 0 ≤ u * |d / σ| := by positivity
  have h2 : u * (u * |d / σ|) ≤ 1 / 1000 * (u * |d / σ|) := mul_le_mul_of_nonneg_right hu1 h0
  have h3 : u * u ≤ 1 / 1000 * u := mul_le_mul_of_nonneg_right hu1 hu
  have h4 : u * t ≤ u * 1 := mul_le_mul_of_nonneg_left ht1 hu
  have h5 : u * (|d / σ| + (u * |d / σ| + u) + t) = u * |d / σ| + u * (u * |d / σ|) + u * u + u * t := by ring
  rw [h5]
  linarith

/-- The rounded correlation of the fidelities. -/
theorem near_corr (hf : ∀ x, |f x - x| ≤ u * (|x| + t)) (hu : 0 ≤ u) (hu1 : u ≤ 1 / 1000) (ht : 0 ≤ t) {D s L : ℝ} (hs : 0 < s) (hts : t ≤ s) (hL : 0 ≤ L) :
    |f (L / f (|f D| + s)) - L / (|D| + s)| ≤ 6 * u * (L / (|D| + s)) + u * t := by
  have hD := abs_nonneg D
  have hw0 : 0 < |D| + s := by linarith
  have h1 : |(|f D|) + s - (|D| + s)| ≤ u * (|D| + t) := by
    rw [add_sub_add_right_eq_sub]
    exact (abs_abs_sub_abs_le _ _).trans (hf D)
  have h2 := near_round hf h1 (near_size h1 (abs_of_pos hw0).le) hu
  have h3 : |f (|f D| + s) - (|D| + s)| ≤ 3.1 * (u * (|D| + s)) := by
    refine h2.trans ?_
    have h4 : u * (|D| + t) ≤ u * (|D| + s) := mul_le_mul_of_nonneg_left (by linarith) hu
    have h5 : u * (u * (|D| + t)) ≤ 1 / 1000 * (u * (|D| + s)) := mul_le_mul hu1 h4 (by positivity) (by norm_num)
    have h6 : u * t ≤ u * (|D| + s) := mul_le_mul_of_nonneg_left (by linarith) hu
    have h7 : 0 ≤ u * (|D| + s) := by positivity
    have h8 : u * (|D| + s + u * (|D| + t) + t) = u * (|D| + s) + u * (u * (|D| + t)) + u * t := by ring
    rw [h8]
    linarith
  generalize |D| + s = w at *
  generalize f (|f D| + s) = w' at *
  have huw : u * w ≤ 1 / 1000 * w := mul_le_mul_of_nonneg_right hu1 hw0.le
  have hwl : 0.99 * w ≤ w' := by have := (abs_le.mp h3).1; linarith
  have hw'0 : 0 < w' := by linarith
  have hc0 : 0 ≤ L / w := by positivity
  have hq : |L / w' - L / w| ≤ 3.2 * u * (L / w) := by
    have e1 : L / w' - L / w = L / w * ((w - w') / w') := by field_simp
    rw [e1, abs_mul, abs_of_nonneg hc0, abs_div, abs_of_pos hw'0, mul_comm]
    refine mul_le_mul_of_nonneg_right ?_ hc0
    rw [div_le_iff₀ hw'0, abs_sub_comm]
    have := mul_le_mul_of_nonneg_left hwl (by positivity : 0 ≤ 3.2 * u)
    have h6 : 0 ≤ u * w := by positivity
    nlinarith
  refine (near_round hf hq (near_size hq (abs_of_nonneg hc0).le) hu).trans ?_
  have h6 : 0 ≤ u * (L / w) := by positivity
  have h7 : u * (u * (L / w)) ≤ 1 / 1000 * (u * (L / w)) := mul_le_mul_of_nonneg_right hu1 h6
  have h8 : u * (L / w + 3.2 * u * (L / w) + t) = u * (L / w) + 3.2 * (u * (u * (L / w))) + u * t := by ring
  rw [h8]
  linarith

/-- A rounded product with an exact factor. -/
theorem near_factor (hf : ∀ x, |f x - x| ≤ u * (|x| + t)) (hu : 0 ≤ u) (hu1 : u ≤ 1 / 1000) {x x' X e T y : ℝ} (hx : |x' - x| ≤ X * e + T) (hX : |x| ≤ X) (he : e ≤ 1 / 4) (hT : 0 ≤ T) :
    |f (x' * y) - x * y| ≤ X * |y| * (e + 1.3 * u) + 1.001 * (T * |y|) + u * t := by
  have hX0 : 0 ≤ X := (abs_nonneg _).trans hX
  have hy := abs_nonneg y
  have h1 : |x' * y - x * y| ≤ (X * e + T) * |y| := by
    rw [← sub_mul, abs_mul]
    exact mul_le_mul_of_nonneg_right hx hy
  have h2 : |x * y| ≤ X * |y| := by
    rw [abs_mul]
    exact mul_le_mul_of_nonneg_right hX hy
  refine (near_round hf h1 (near_size h1 h2) hu).trans ?_
  have hXy : 0 ≤ X * |y| := by positivity
  have hTy : 0 ≤ T * |y| := by positivity
  have h3 : u * (X * |y|) * e ≤ u * (X * |y|) * (1 / 4) := mul_le_mul_of_nonneg_left he (by positivity)
  have h4 : u * (T * |y|) ≤ 1 / 1000 * (T * |y|) := mul_le_mul_of_nonneg_right hu1 hTy
  have h5 : (X * e + T) * |y| + u * (X * |y| + (X * e + T) * |y| + t) = X * |y| * e + T * |y| + u * (X * |y|) + u * (X * |y|) * e + u * (T * |y|) + u * t := by ring
  have h6 : X * |y| * (e + 1.3 * u) = X * |y| * e + 1.3 * (u * (X * |y|)) := by ring
  have h7 : 0 ≤ u * (X * |y|) := by positivity
  rw [h5, h6]
  linarith

/-- A rounded product with a correlation. -/
theorem near_correlated (hf : ∀ x, |f x - x| ≤ u * (|x| + t)) (hu : 0 ≤ u) (hu1 : u ≤ 1 / 1000) (ht : 0 ≤ t) (ht1 : t ≤ 1) {x x' X e c c' : ℝ} (hx : |x' - x| ≤ X * e + 5 * (u * t)) (hX : |x| ≤ X) (he1 : e ≤ 1 / 8)
    (hc0 : 0 ≤ c) (hc : |c' - c| ≤ 6 * u * c + u * t) :
    |f (x' * c') - x * c| ≤ X * c * (e + 8 * u) + 5.1 * (u * t * (X + c + 1)) := by
  have hX0 : 0 ≤ X := (abs_nonneg _).trans hX
  have hτ0 : 0 ≤ u * t := by positivity
  have hτ1 : u * t ≤ 1 / 1000 := (mul_le_mul hu1 ht1 ht (by norm_num)).trans (by norm_num)
  have h1 : |x' * c' - x * c| ≤ (X * e + 5 * (u * t)) * c + X * (6 * u * c + u * t) + (X * e + 5 * (u * t)) * (6 * u * c + u * t) := by
    have h3 : x' * c' - x * c = (x' - x) * c + x * (c' - c) + (x' - x) * (c' - c) := by ring
    rw [h3]
    refine (abs_add_le _ _).trans (add_le_add ((abs_add_le _ _).trans (add_le_add ?_ ?_)) ?_)
    · rw [abs_mul, abs_of_nonneg hc0]; exact mul_le_mul_of_nonneg_right hx hc0
    · rw [abs_mul]; exact mul_le_mul hX hc (abs_nonneg _) hX0
    · rw [abs_mul]; exact mul_le_mul hx hc (abs_nonneg _) ((abs_nonneg _).trans hx)
  have h2 : |x * c| ≤ X * c := by
    rw [abs_mul, abs_of_nonneg hc0]
    exact mul_le_mul_of_nonneg_right hX hc0
  have hround := near_round hf h1 (near_size h1 h2) hu
  generalize hτ : u * t = τ at *
  have hXc : 0 ≤ X * c := by positivity
  have huXc : 0 ≤ u * (X * c) := by positivity
  have hS : (X * e + 5 * τ) * c + X * (6 * u * c + τ) + (X * e + 5 * τ) * (6 * u * c + τ) ≤ X * c * e + 6.75 * (u * (X * c)) + 1.125 * (τ * X) + 5.03 * (τ * c) + 0.005 * τ := by
    have b1 : u * (X * c) * e ≤ u * (X * c) * (1 / 8) := mul_le_mul_of_nonneg_left he1 huXc
    have b2 : X * τ * e ≤ X * τ * (1 / 8) := mul_le_mul_of_nonneg_left he1 (by positivity)
    have b3 : τ * c * u ≤ τ * c * (1 / 1000) := mul_le_mul_of_nonneg_left hu1 (by positivity)
    have b4 : τ * τ ≤ 1 / 1000 * τ := mul_le_mul_of_nonneg_right hτ1 hτ0
    have e1 : (X * e + 5 * τ) * c + X * (6 * u * c + τ) + (X * e + 5 * τ) * (6 * u * c + τ) =
      X * c * e + 5 * (τ * c) + 6 * (u * (X * c)) + τ * X + 6 * (u * (X * c) * e) + X * τ * e + 30 * (τ * c * u) + 5 * (τ * τ) := by ring
    rw [e1]
    linarith
  refine hround.trans ?_
  generalize (X * e + 5 * τ) * c + X * (6 * u * c + τ) + (X * e + 5 * τ) * (6 * u * c + τ) = S at *
  have huS : u * S ≤ u * (X * c * e + 6.75 * (u * (X * c)) + 1.125 * (τ * X) + 5.03 * (τ * c) + 0.005 * τ) := mul_le_mul_of_nonneg_left hS hu
  have b1 : u * (X * c) * e ≤ u * (X * c) * (1 / 8) := mul_le_mul_of_nonneg_left he1 huXc
  have b2 : u * (u * (X * c)) ≤ 1 / 1000 * (u * (X * c)) := mul_le_mul_of_nonneg_right hu1 huXc
  have b3 : u * (τ * X) ≤ 1 / 1000 * (τ * X) := mul_le_mul_of_nonneg_right hu1 (by positivity)
  have b4 : u * (τ * c) ≤ 1 / 1000 * (τ * c) := mul_le_mul_of_nonneg_right hu1 (by positivity)
  have b5 : u * τ ≤ 1 / 1000 * τ := mul_le_mul_of_nonneg_right hu1 hτ0
  have e1 : u * (X * c * e + 6.75 * (u * (X * c)) + 1.125 * (τ * X) + 5.03 * (τ * c) + 0.005 * τ) =
    u * (X * c) * e + 6.75 * (u * (u * (X * c))) + 1.125 * (u * (τ * X)) + 5.03 * (u * (τ * c)) + 0.005 * (u * τ) := by ring
  have e2 : u * (X * c + S + t) = u * (X * c) + u * S + τ := by rw [← hτ]; ring
  have e3 : X * c * (e + 8 * u) + 5.1 * (τ * (X + c + 1)) = X * c * e + 8 * (u * (X * c)) + 5.1 * (τ * X) + 5.1 * (τ * c) + 5.1 * τ := by ring
  have b6 : 0 ≤ τ * X := by positivity
  have b7 : 0 ≤ τ * c := by positivity
  rw [e2, e3]
  rw [e1] at huS
  linarith

end Mfpml.Rounded
