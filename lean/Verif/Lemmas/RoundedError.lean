import Mathlib.Tactic.Linarith
import Verif.Lemmas.Rounded

/-!
# Floating-point numbers that differ are apart
-/

namespace Mfpml.Rounded

variable {p : ℕ} {emin : ℤ}

/-- Two multiples of `2 ^ f` that differ do so by at least `2 ^ f`. -/
theorem multiples_apart {k l f : ℤ} (h : (k : ℝ) * 2 ^ f ≠ l * 2 ^ f) : (2 : ℝ) ^ f ≤ |(k : ℝ) * 2 ^ f - l * 2 ^ f| := by
  have hkl : k - l ≠ 0 := fun e => h (by rw [sub_eq_zero.mp e])
  have h1 : (1 : ℝ) ≤ |((k - l : ℤ) : ℝ)| := by
    have := Int.one_le_abs hkl
    exact_mod_cast this
  rw [← sub_mul, abs_mul, abs_of_pos (two_zpow_pos f)]
  push_cast at h1
  nlinarith [two_zpow_pos f]

/-- Different floats differ by a power of two that is not small compared with either of them. -/
theorem floats_apart_pos (hp : 1 ≤ p) {x y : ℝ} (hx : IsFloat p emin x) (hy : IsFloat p emin y) (hne : x ≠ y) (hpos : 0 < y) :
    ∃ f, emin ≤ f ∧ (2 : ℝ) ^ f ≤ |x - y| ∧ y ≤ 2 ^ (p + 1) * 2 ^ f := by
  have hp2 : (2 : ℝ) ≤ 2 ^ p := by
    calc (2 : ℝ) = 2 ^ 1 := by norm_num
      _ ≤ 2 ^ p := pow_le_pow_right₀ (by norm_num) hp
  obtain ⟨m, e, hm0, hm, he, rfl, hn⟩ := hy.normal hpos
  have hmR : (m : ℝ) < 2 ^ p := by exact_mod_cast hm
  by_cases hee : e = emin
  · obtain ⟨k, hk⟩ := hx.multiple
    subst hee
    refine ⟨e, le_refl _, ?_, ?_⟩
    · rw [hk] at hne ⊢
      exact multiples_apart hne
    · rw [pow_succ]
      nlinarith [two_zpow_pos e]
  · have hn : 2 ^ p ≤ 2 * m := by omega
    have hnR : (2 : ℝ) ^ p ≤ 2 * m := by exact_mod_cast hn
    have e1 : (2 : ℝ) ^ e = 2 * 2 ^ (e - 1) := by rw [← two_zpow_succ]; congr 1; ring
    have e2 : (2 : ℝ) ^ (e - 1) = 2 * 2 ^ (e - 2) := by rw [← two_zpow_succ]; congr 1; ring
    refine ⟨e - 1, by omega, ?_, ?_⟩
    · obtain ⟨k, g, hk, hg, rfl⟩ := hx
      rcases le_or_gt (e - 1) g with h | h
      · obtain ⟨k', hk'⟩ := refine_exp k h
        obtain ⟨m', hm'⟩ := refine_exp m (show e - 1 ≤ e by omega)
        rw [hk', hm'] at hne ⊢
        exact multiples_apart hne
      · have hkR : |(k : ℝ)| < 2 ^ p := by exact_mod_cast hk
        have hge : (2 : ℝ) ^ g ≤ 2 ^ (e - 2) := zpow_le_zpow_right₀ (by norm_num) (by omega)
        have hkx : (k : ℝ) * 2 ^ g ≤ 2 ^ p * 2 ^ (e - 2) :=
          calc (k : ℝ) * 2 ^ g ≤ |(k : ℝ)| * 2 ^ g := mul_le_mul_of_nonneg_right (le_abs_self _) (two_zpow_pos g).le
            _ ≤ 2 ^ p * 2 ^ (e - 2) := mul_le_mul hkR.le hge (two_zpow_pos g).le (by positivity)
        have hq := two_zpow_pos (e - 2)
        rw [abs_sub_comm]
        refine le_trans ?_ (le_abs_self _)
        rw [e1, e2]
        nlinarith
    · rw [e1, pow_succ]
      nlinarith [two_zpow_pos (e - 1)]

/-- The same for a number of either sign. -/
theorem floats_apart (hp : 1 ≤ p) {x y : ℝ} (hx : IsFloat p emin x) (hy : IsFloat p emin y) (hne : x ≠ y) (h0 : y ≠ 0) :
    ∃ f, emin ≤ f ∧ (2 : ℝ) ^ f ≤ |x - y| ∧ |y| ≤ 2 ^ (p + 1) * 2 ^ f := by
  rcases lt_or_gt_of_ne h0 with h | h
  · obtain ⟨f, h1, h2, h3⟩ := floats_apart_pos hp hx.neg hy.neg (fun e => hne (neg_injective e)) (by linarith)
    refine ⟨f, h1, ?_, by rwa [abs_of_neg h]⟩
    rwa [show -x - -y = -(x - y) by ring, abs_neg] at h2
  · obtain ⟨f, h1, h2, h3⟩ := floats_apart_pos hp hx hy hne h
    exact ⟨f, h1, h2, by rwa [abs_of_pos h]⟩

theorem isFloat_two_zpow (hp : 1 ≤ p) {f : ℤ} (hf : emin ≤ f) : IsFloat p emin ((2 : ℝ) ^ f) := by
  have := isFloat_of_le (p := p) (emin := emin) hp (m := 1) (e := f) (by simpa using one_le_pow₀ (by norm_num : (1 : ℤ) ≤ 2)) hf
  simpa using this

/-- Rounding keeps a number at least as far from zero as any power of two that is a float. -/
theorem two_zpow_le_abs_fl (R : Rounding p emin) (hp : 1 ≤ p) {f : ℤ} (hf : emin ≤ f) {x : ℝ} (h : (2 : ℝ) ^ f ≤ |x|) : (2 : ℝ) ^ f ≤ |R.fl x| := by
  rcases le_abs.mp h with h | h
  · exact le_trans (R.le_fl (isFloat_two_zpow hp hf) h) (le_abs_self _)
  · have := R.fl_le (x := x) (isFloat_two_zpow hp hf).neg (by linarith)
    exact le_trans (by linarith) (neg_le_abs _)

end Mfpml.Rounded
