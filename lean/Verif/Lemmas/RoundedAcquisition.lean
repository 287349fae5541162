import Mathlib.Analysis.Calculus.MeanValue
import Verif.Lemmas.Normal
import Verif.Lemmas.RoundedCoKriging

/-!
# Lemmas on the acquisition functions in floating-point arithmetic

How much the normal distribution changes when its argument has a relative error.
-/

namespace Mfpml.Acq

open Set

theorem sq_mul_normPdf_le (x : ℝ) : x ^ 2 * normPdf x ≤ 1 := by
  have h1 : normPdf x ≤ 1 / 2 * (1 / (1 + x ^ 2 / 2)) := by
    have h0 := normPdf_le_half 0
    rw [normPdf_eq] at h0 ⊢
    norm_num at h0
    have h2 : Real.exp (-x ^ 2 / 2) ≤ 1 / (1 + x ^ 2 / 2) := by
      rw [show -x ^ 2 / 2 = -(x ^ 2 / 2) by ring, Real.exp_neg, ← one_div]
      exact one_div_le_one_div_of_le (by positivity) (by linarith [Real.add_one_le_exp (x ^ 2 / 2)])
    refine mul_le_mul ?_ h2 (Real.exp_pos _).le (by norm_num)
    simpa using h0
  have h3 : x ^ 2 * (1 / 2 * (1 / (1 + x ^ 2 / 2))) ≤ 1 := by
    rw [mul_one_div, ← mul_div_assoc, div_le_one (by positivity)]
    nlinarith [sq_nonneg x]
  exact (mul_le_mul_of_nonneg_left h1 (sq_nonneg x)).trans h3

theorem abs_mul_normPdf_le (x : ℝ) : |x| * normPdf x ≤ 3 / 4 := by
  have h1 := sq_mul_normPdf_le x
  have h2 := normPdf_le_half x
  have h3 := normPdf_pos x
  have h4 : |x| ≤ (x ^ 2 + 1) / 2 := by nlinarith [sq_abs x, sq_nonneg (|x| - 1)]
  nlinarith [mul_le_mul_of_nonneg_right h4 h3.le]

/-- A point between `z` and `z'` is not much smaller than `z`. -/
theorem between_bound {z z' e τ ξ : ℝ} (h : |z' - z| ≤ e * |z| + τ) (hξ : ξ ∈ uIcc z z') (he1 : e ≤ 1 / 100) : |z| ≤ 1.02 * (|ξ| + τ) ∨ 1.02 * (|ξ| + τ) < 0 := by
  left
  have h1 : |ξ - z| ≤ |z' - z| := abs_sub_left_of_mem_uIcc hξ
  have h2 : |z| ≤ |ξ| + |ξ - z| := by
    have := abs_sub_abs_le_abs_sub z ξ
    rw [abs_sub_comm] at this
    linarith
  have h3 : e * |z| ≤ 1 / 100 * |z| := mul_le_mul_of_nonneg_right he1 (abs_nonneg _)
  have h4 : 0.99 * |z| ≤ |ξ| + τ := by linarith
  have h5 := abs_nonneg z
  nlinarith

/-- The distribution function at an argument with a relative error. -/
theorem normCdf_rel {z z' e τ : ℝ} (h : |z' - z| ≤ e * |z| + τ) (he : 0 ≤ e) (he1 : e ≤ 1 / 100) (hτ : 0 ≤ τ) (hτ1 : τ ≤ 1 / 100) : |normCdf z' - normCdf z| ≤ e + τ := by
  have key : ∀ ξ ∈ uIcc z z', ‖normPdf ξ‖ * |z' - z| ≤ e + τ := fun ξ hξ => by
    rw [Real.norm_of_nonneg (normPdf_pos ξ).le]
    have h1 := (between_bound h hξ he1).resolve_right (by have := abs_nonneg ξ; intro h'; linarith)
    have h2 := abs_mul_normPdf_le ξ
    have h3 := normPdf_le_half ξ
    have h4 := normPdf_pos ξ
    have h5 : normPdf ξ * |z| ≤ 1 := by nlinarith [mul_le_mul_of_nonneg_left h1 h4.le]
    have h6 := mul_le_mul_of_nonneg_left h h4.le
    nlinarith [mul_le_mul_of_nonneg_left h5 he, mul_le_mul_of_nonneg_right h3 hτ]
  rcases eq_or_ne z z' with rfl | hne
  · simp; linarith
  have hpos : 0 < |z' - z| := abs_pos.mpr (sub_ne_zero.mpr (Ne.symm hne))
  have := (convex_uIcc z z').norm_image_sub_le_of_norm_hasDerivWithin_le (f := normCdf) (f' := normPdf) (C := (e + τ) / |z' - z|) (fun ξ _ => (normCdf_hasDerivAt ξ).hasDerivWithinAt)
    (fun ξ hξ => by rw [le_div_iff₀ hpos]; exact key ξ hξ) left_mem_uIcc right_mem_uIcc
  rwa [Real.norm_eq_abs, Real.norm_eq_abs, div_mul_cancel₀ _ hpos.ne'] at this

/-- The density at an argument with a relative error. -/
theorem normPdf_rel {z z' e τ : ℝ} (h : |z' - z| ≤ e * |z| + τ) (he : 0 ≤ e) (he1 : e ≤ 1 / 100) (hτ : 0 ≤ τ) (hτ1 : τ ≤ 1 / 100) : |normPdf z' - normPdf z| ≤ 1.1 * e + τ := by
  have key : ∀ ξ ∈ uIcc z z', ‖-(ξ * normPdf ξ)‖ * |z' - z| ≤ 1.1 * e + τ := fun ξ hξ => by
    rw [norm_neg, norm_mul, Real.norm_eq_abs, Real.norm_of_nonneg (normPdf_pos ξ).le]
    have h1 := (between_bound h hξ he1).resolve_right (by have := abs_nonneg ξ; intro h'; linarith)
    have h2 := abs_mul_normPdf_le ξ
    have h3 := sq_mul_normPdf_le ξ
    have h4 := normPdf_pos ξ
    have h0 : 0 ≤ |ξ| * normPdf ξ := by positivity
    have h5 : |ξ| * normPdf ξ * |z| ≤ 1.1 := by
      have := mul_le_mul_of_nonneg_left h1 h0
      have e1 : |ξ| * normPdf ξ * (1.02 * (|ξ| + τ)) = 1.02 * (|ξ| ^ 2 * normPdf ξ) + 1.02 * (τ * (|ξ| * normPdf ξ)) := by ring
      rw [sq_abs] at e1
      have h7 : τ * (|ξ| * normPdf ξ) ≤ 1 / 100 * (3 / 4) := mul_le_mul hτ1 h2 h0 (by norm_num)
      linarith
    have h6 := mul_le_mul_of_nonneg_left h h0
    nlinarith [mul_le_mul_of_nonneg_left h5 he, mul_le_mul_of_nonneg_right h2 hτ]
  rcases eq_or_ne z z' with rfl | hne
  · simp; positivity
  have hpos : 0 < |z' - z| := abs_pos.mpr (sub_ne_zero.mpr (Ne.symm hne))
  have := (convex_uIcc z z').norm_image_sub_le_of_norm_hasDerivWithin_le (f := normPdf) (f' := fun ξ => -(ξ * normPdf ξ)) (C := (1.1 * e + τ) / |z' - z|) (fun ξ _ => (normPdf_hasDerivAt ξ).hasDerivWithinAt)
    (fun ξ hξ => by rw [le_div_iff₀ hpos]; exact key ξ hξ) left_mem_uIcc right_mem_uIcc
  rwa [Real.norm_eq_abs, Real.norm_eq_abs, div_mul_cancel₀ _ hpos.ne'] at this

end Mfpml.Acq

namespace Mfpml.Rounded

variable {f : ℝ → ℝ} {u t : ℝ}

/-- The rounded quotient `d / (σ + c)`. -/
theorem near_z (hf : ∀ x, |f x - x| ≤ u * (|x| + t)) (hu : 0 ≤ u) (hu1 : u ≤ 1 / 1000) (ht : 0 ≤ t) {c : ℝ} (ht1 : t ≤ c) (hc0 : 0 < c) (hc1 : t ≤ 1) {d σ : ℝ} (hσ : 0 ≤ σ) :
    |f (f d / f (σ + f c)) - d / (σ + c)| ≤ 7 * u * |d / (σ + c)| + 3 * u := by
  have hd := hf d
  have hcc := hf c
  rw [abs_of_pos hc0] at hcc
  have hw0 : 0 < σ + c := by linarith
  have hw' : |f (σ + f c) - (σ + c)| ≤ 4.1 * (u * (σ + c)) := by
    have h1 : |σ + f c - (σ + c)| ≤ u * (c + t) := by rw [show σ + f c - (σ + c) = f c - c by ring]; exact hcc
    have h2 := near_round hf h1 (near_size h1 (abs_of_pos hw0).le) hu
    have h3 : u * (c + t) ≤ u * (2 * (σ + c)) := mul_le_mul_of_nonneg_left (by linarith) hu
    have h4 : u * (u * (c + t)) ≤ 1 / 1000 * (u * (2 * (σ + c))) := mul_le_mul hu1 h3 (by positivity) (by norm_num)
    have h5 : u * t ≤ u * (σ + c) := mul_le_mul_of_nonneg_left (by linarith) hu
    have h6 : 0 ≤ u * (σ + c) := by positivity
    have h7 : u * (σ + c + u * (c + t) + t) = u * (σ + c) + u * (u * (c + t)) + u * t := by ring
    rw [h7] at h2
    linarith
  have hcw : t ≤ σ + c := by linarith
  generalize σ + c = w at *
  generalize f (σ + f c) = w' at *
  have huw : u * w ≤ 1 / 1000 * w := mul_le_mul_of_nonneg_right hu1 hw0.le
  have hwl : 0.99 * w ≤ w' := by have := (abs_le.mp hw').1; linarith
  have hw'0 : 0 < w' := by linarith
  have hz : 0 ≤ u * |d / w| := by positivity
  have hq : |f d / w' - d / w| ≤ 5.3 * (u * |d / w|) + 1.1 * u := by
    have e1 : f d / w' - d / w = (f d - d) / w' + d / w * ((w - w') / w') := by field_simp; ring
    rw [e1]
    refine (abs_add_le _ _).trans ?_
    rw [abs_div, abs_mul, abs_div (w - w'), abs_of_pos hw'0]
    have h1 : |f d - d| / w' ≤ 1.1 * (u * |d / w|) + 1.1 * u := by
      rw [div_le_iff₀ hw'0, abs_div, abs_of_pos hw0]
      have h2 : 1.1 * (u * (|d| / w)) + 1.1 * u = u * (|d| + w) / w * 1.1 := by field_simp
      rw [h2]
      have h3 : u * (|d| + w) / w * 1.1 * (0.99 * w) ≤ u * (|d| + w) / w * 1.1 * w' := mul_le_mul_of_nonneg_left hwl (by positivity)
      have h4 : u * (|d| + w) / w * 1.1 * (0.99 * w) = 1.089 * (u * (|d| + w)) := by field_simp; ring
      rw [h4] at h3
      have h5 : u * (|d| + t) ≤ u * (|d| + w) := mul_le_mul_of_nonneg_left (by linarith) hu
      have h6 : 0 ≤ u * (|d| + w) := by positivity
      linarith
    have h2 : |w - w'| / w' ≤ 4.2 * u := by
      rw [div_le_iff₀ hw'0, abs_sub_comm]
      have := mul_le_mul_of_nonneg_left hwl (by positivity : 0 ≤ 4.2 * u)
      have h6 : 0 ≤ u * w := by positivity
      nlinarith
    have h3 := mul_le_mul_of_nonneg_left h2 (abs_nonneg (d / w))
    nlinarith
  refine (near_round hf hq (near_size hq le_rfl) hu).trans ?_
  have h1 : u * (u * |d / w|) ≤ 1 / 1000 * (u * |d / w|) := mul_le_mul_of_nonneg_right hu1 hz
  have h2 : u * u ≤ 1 / 1000 * u := mul_le_mul_of_nonneg_right hu1 hu
  have h3 : u * t ≤ u * 1 := mul_le_mul_of_nonneg_left hc1 hu
  have h4 : u * (|d / w| + (5.3 * (u * |d / w|) + 1.1 * u) + t) = u * |d / w| + 5.3 * (u * (u * |d / w|)) + 1.1 * (u * u) + u * t := by ring
  rw [h4]
  linarith

/-- A rounded product with a bounded factor. -/
theorem near_times (hf : ∀ x, |f x - x| ≤ u * (|x| + t)) (hu : 0 ≤ u) {x x' y y' a b X : ℝ} (hx : |x' - x| ≤ a) (hX : |x| ≤ X) (hy : |y' - y| ≤ b) (hy1 : |y| ≤ 1) (hb : b ≤ 1 / 5) :
    |f (x' * y') - x * y| ≤ 1.2 * a + X * b + u * (1.2 * X + 1.2 * a + t) := by
  have ha : 0 ≤ a := (abs_nonneg _).trans hx
  have hX0 : 0 ≤ X := (abs_nonneg _).trans hX
  have hy' : |y'| ≤ 1.2 := (near_size hy hy1).trans (by linarith)
  have h1 : |x' * y' - x * y| ≤ 1.2 * a + X * b := by
    have h3 : x' * y' - x * y = (x' - x) * y' + x * (y' - y) := by ring
    rw [h3]
    refine (abs_add_le _ _).trans ?_
    rw [abs_mul, abs_mul]
    have h4 := mul_le_mul hx hy' (abs_nonneg _) ha
    have h5 := mul_le_mul hX hy (abs_nonneg _) hX0
    linarith
  have h2 : |x' * y'| ≤ 1.2 * X + 1.2 * a := by
    rw [abs_mul]
    have h4 := mul_le_mul (near_size hx hX) hy' (abs_nonneg _) (by positivity)
    linarith
  exact near_round hf h1 h2 hu

end Mfpml.Rounded
