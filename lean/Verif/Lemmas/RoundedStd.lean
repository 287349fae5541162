import Verif.Model.RoundedStd
import Verif.Lemmas.RoundedKernel
import Verif.Lemmas.RoundedCoKriging

/-!
# Lemmas for standard deviations in floating-point arithmetic
-/

namespace Mfpml.Rounded

variable {p : ℕ} {emin : ℤ} {R : Rounding p emin}

/-- A floating-point number of size at least `2 ^ k` is a multiple of the unit in the last place of `2 ^ k`. -/
theorem IsFloat.multiple_of_ge {x : ℝ} (h : IsFloat p emin x) {k : ℤ} (hx : (2 : ℝ) ^ k ≤ |x|) : ∃ j : ℤ, x = j * 2 ^ (k + 1 - p) := by
  obtain ⟨m, e, hm, _, rfl⟩ := h
  by_cases he : k + 1 - p ≤ e
  · exact refine_exp m he
  · exfalso
    have h1 : e ≤ k - p := by omega
    have h2 : (|m| : ℝ) < 2 ^ p := by exact_mod_cast hm
    have h3 : |(m : ℝ) * 2 ^ e| < 2 ^ k := by
      rw [abs_mul, abs_of_pos (two_zpow_pos e)]
      calc |(m : ℝ)| * 2 ^ e < 2 ^ p * 2 ^ e := mul_lt_mul_of_pos_right h2 (two_zpow_pos e)
        _ ≤ 2 ^ p * 2 ^ (k - p) := mul_le_mul_of_nonneg_left (zpow_le_zpow_right₀ (by norm_num) h1) (by positivity)
        _ = 2 ^ k := by
          rw [← zpow_natCast, ← zpow_add₀ (by norm_num : (2 : ℝ) ≠ 0)]
          congr 1
          omega
    exact absurd hx (not_le.mpr h3)

/-- Two multiples of `g`, one below the other, are at least `g` apart. -/
theorem multiple_gap {a b g : ℝ} (hg : 0 < g) {i j : ℤ} (ha : a = i * g) (hb : b = j * g) (h : a < b) : a + g ≤ b := by
  subst ha hb
  have h1 : (i : ℝ) < j := lt_of_mul_lt_mul_right h hg.le
  have h2 : i + 1 ≤ j := by exact_mod_cast h1
  have h3 : (i : ℝ) + 1 ≤ j := by exact_mod_cast h2
  nlinarith

/-- Arithmetic behind `fl_sqrt_sq`. -/
theorem sqrt_sq_arith {x z K u t g : ℝ} (hK : 0 < K) (hu : 0 < u) (hg : g = 2 * u * K) (hx : K ≤ x) (hx2 : x + g ≤ 2 * K) (ht : t < u * K ^ 2) (hz : |z - x ^ 2| ≤ u * (x ^ 2 + t)) :
    (x - g / 2) ^ 2 < z ∧ z < (x + g / 2) ^ 2 := by
  obtain ⟨h1, h2⟩ := abs_le.mp hz
  have h3 : u * t < u * (u * K ^ 2) := mul_lt_mul_of_pos_left ht hu
  have h4 : 0 ≤ u * ((x - K) * (2 * K - x - g)) := mul_nonneg hu.le (mul_nonneg (by linarith) (by linarith))
  have h5 : 0 ≤ u * (g * (x - K)) := by
    have : 0 < g := by rw [hg]; positivity
    exact mul_nonneg hu.le (mul_nonneg this.le (by linarith))
  have h6 : 0 ≤ u * (K * (2 * K - x - g)) := mul_nonneg hu.le (mul_nonneg hK.le (by linarith))
  subst hg
  constructor <;> nlinarith

/-- **The square root of a rounded square is the number itself**, if the square does not underflow. -/
theorem fl_sqrt_sq (hp : 1 ≤ p) (R : Rounding p emin) {x : ℝ} (hx : IsFloat p emin x) (hx0 : 0 < x) (hbig : (2 : ℝ) ^ (emin + 2 * p + 1) ≤ x ^ 2) : R.fl (Real.sqrt (R.fl (x * x))) = x := by
  obtain ⟨k, hk1, hk2⟩ : ∃ k : ℤ, (2 : ℝ) ^ k ≤ x ∧ x < 2 ^ (k + 1) := exists_mem_Ico_zpow hx0 (by norm_num)
  have hK := two_zpow_pos k
  have hkk : (2 : ℝ) ^ (k + 1) = 2 * 2 ^ k := two_zpow_succ k
  have hx2 : x ^ 2 < 2 ^ (2 * k + 2) := by
    have : (2 : ℝ) ^ (2 * k + 2) = (2 ^ (k + 1)) ^ 2 := by
      rw [← zpow_natCast, ← zpow_mul]; congr 1; push_cast; ring
    rw [this]
    exact pow_lt_pow_left₀ hk2 hx0.le (by norm_num)
  have hexp : emin + 2 * p + 1 < 2 * k + 2 := (zpow_lt_zpow_iff_right₀ (by norm_num : (1 : ℝ) < 2)).mp (hbig.trans_lt hx2)
  rw [← pow_two]
  rcases hk1.eq_or_lt with heq | hlt
  · -- a power of two: nothing is rounded
    have : x ^ 2 = 2 ^ (2 * k) := by rw [← heq, ← zpow_natCast, ← zpow_mul]; congr 1; push_cast; ring
    have hf : IsFloat p emin (x ^ 2) := by
      rw [this]
      exact isFloat_two_zpow hp (by omega)
    rw [R.fl_of_isFloat hf, Real.sqrt_sq hx0.le, R.fl_of_isFloat hx]
  · set u : ℝ := 2 ^ (-(p : ℤ)) with hu
    have hu0 : 0 < u := two_zpow_pos _
    set g : ℝ := 2 ^ (k + 1 - p) with hgd
    have hg0 : 0 < g := two_zpow_pos _
    have hg : g = 2 * u * 2 ^ k := by
      rw [hgd, hu, mul_assoc, ← zpow_add₀ (by norm_num : (2 : ℝ) ≠ 0), ← two_zpow_succ]
      congr 1; ring
    have hKm : ∃ j : ℤ, (2 : ℝ) ^ k = j * g := by
      refine ⟨2 ^ (p - 1), ?_⟩
      push_cast
      rw [hgd, ← zpow_natCast, ← zpow_add₀ (by norm_num : (2 : ℝ) ≠ 0)]
      congr 1; omega
    have hKm2 : ∃ j : ℤ, (2 : ℝ) ^ (k + 1) = j * g := by
      refine ⟨2 ^ p, ?_⟩
      push_cast
      rw [hgd, ← zpow_natCast, ← zpow_add₀ (by norm_num : (2 : ℝ) ≠ 0)]
      congr 1; omega
    obtain ⟨jK, hjK⟩ := hKm
    obtain ⟨jK2, hjK2⟩ := hKm2
    obtain ⟨jx, hjx⟩ := hx.multiple_of_ge (k := k) (by rw [abs_of_pos hx0]; exact hk1)
    have hup : x + g ≤ 2 * 2 ^ k := by
      rw [← hkk]
      exact multiple_gap hg0 hjx hjK2 hk2
    have hlo : 2 ^ k + g ≤ x := multiple_gap hg0 hjK hjx hlt
    have hz := fl_error hp R (x ^ 2)
    rw [abs_of_nonneg (sq_nonneg x), ← hu] at hz
    have ht : (2 : ℝ) ^ (emin + p - 1) < u * (2 ^ k) ^ 2 := by
      have : u * (2 ^ k) ^ 2 = (2 : ℝ) ^ (2 * k - p) := by
        rw [hu, ← zpow_natCast, ← zpow_mul, ← zpow_add₀ (by norm_num : (2 : ℝ) ≠ 0)]
        congr 1; push_cast; ring
      rw [this]
      exact zpow_lt_zpow_right₀ (by norm_num) (by omega)
    obtain ⟨h1, h2⟩ := sqrt_sq_arith hK hu0 hg hk1 hup ht hz
    have hgx : g < x := by linarith
    have s1 : x - g / 2 < Real.sqrt (R.fl (x ^ 2)) := Real.lt_sqrt_of_sq_lt h1
    have s2 : Real.sqrt (R.fl (x ^ 2)) < x + g / 2 := (Real.sqrt_lt' (by linarith)).mpr h2
    set s := Real.sqrt (R.fl (x ^ 2)) with hs
    have hn := R.nearest s x hx
    have hsx : |s - x| < g / 2 := abs_lt.mpr ⟨by linarith, by linarith⟩
    have hff := R.isFloat s
    set f := R.fl s with hfd
    by_contra hne
    have hfar : g ≤ |f - x| := by
      by_cases hfK : f ≤ 2 ^ k
      · rw [abs_sub_comm, abs_of_nonneg (by linarith)]
        linarith
      · have hf0 : 2 ^ k < f := not_le.mp hfK
        obtain ⟨jf, hjf⟩ := hff.multiple_of_ge (k := k) (by rw [abs_of_pos (hK.trans hf0)]; exact hf0.le)
        rcases lt_or_gt_of_ne hne with h | h
        · have := multiple_gap hg0 hjf hjx h
          rw [abs_sub_comm, abs_of_nonneg (by linarith)]
          linarith
        · have := multiple_gap hg0 hjx hjf h
          rw [abs_of_nonneg (by linarith)]
          linarith
    have htri : |f - x| ≤ |s - f| + |s - x| := by
      have := abs_sub_le f s x
      rwa [abs_sub_comm f s] at this
    linarith

/-- Square roots of numbers that agree to a relative error agree to it too. -/
theorem sqrt_near {c S k : ℝ} (hS : 0 < S) (hc : 0 ≤ c) (h : |c - S| ≤ k * S) : |Real.sqrt c - Real.sqrt S| ≤ k * Real.sqrt S := by
  have h1 := Real.sqrt_nonneg c
  have h2 := Real.sqrt_pos.mpr hS
  have e1 := Real.sq_sqrt hc
  have e2 := Real.sq_sqrt hS.le
  generalize Real.sqrt c = a at *
  generalize Real.sqrt S = b at *
  subst e1 e2
  have e : a ^ 2 - b ^ 2 = (a - b) * (a + b) := by ring
  rw [e, abs_mul, abs_of_nonneg (by linarith : 0 ≤ a + b)] at h
  have h3 : |a - b| * b ≤ |a - b| * (a + b) := mul_le_mul_of_nonneg_left (by linarith) (abs_nonneg _)
  have h4 : |a - b| * b ≤ k * b * b := by nlinarith
  exact le_of_mul_le_mul_right h4 h2

/-- Rounding a square root. -/
theorem fl_sqrt_near {f : ℝ → ℝ} {u t : ℝ} (hf : ∀ x, |f x - x| ≤ u * (|x| + t)) (hu : 0 < u) (hu1 : u ≤ 1 / 100) (ht : 0 < t) (ht1 : t ≤ 1) {c S k : ℝ} (hS : 0 < S) (hc : 0 ≤ c) (htS : t ≤ u * S) (hk : k ≤ 1 / 10) (h : |c - S| ≤ k * S) :
    |f (Real.sqrt c) - Real.sqrt S| ≤ (k + 1.2 * u) * Real.sqrt S := by
  have h1 := sqrt_near hS hc h
  have h2 := Real.sqrt_pos.mpr hS
  have h3 : t ≤ 0.1 * Real.sqrt S := by
    have : t ^ 2 ≤ (0.1 * Real.sqrt S) ^ 2 := by
      rw [mul_pow, Real.sq_sqrt hS.le]
      nlinarith
    exact le_of_sq_le_sq this (by positivity)
  have h4 := near_round hf h1 (near_size h1 (abs_of_pos h2).le) hu.le
  refine h4.trans ?_
  generalize Real.sqrt S = b at *
  have h5 : u * (b + k * b + t) ≤ u * (b + 1 / 10 * b + 0.1 * b) := mul_le_mul_of_nonneg_left (by nlinarith) hu.le
  linarith

end Mfpml.Rounded
