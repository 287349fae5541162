import Verif.Model.LinAlg

/-! # Mean and standard deviation under affine maps -/

open scoped BigOperators

namespace Mfpml.GP

variable {n : ℕ}

theorem mean_affine (hn : 0 < n) (a b : ℝ) (y : Fin n → ℝ) : mean (fun i => a * y i + b) = a * mean y + b := by
  have : (n : ℝ) ≠ 0 := by exact_mod_cast hn.ne'
  unfold mean
  rw [Finset.sum_add_distrib, ← Finset.mul_sum]
  simp only [Finset.sum_const, Finset.card_univ, Fintype.card_fin, nsmul_eq_mul]
  field_simp

theorem std_affine (a b : ℝ) (y : Fin n → ℝ) : std (fun i => a * y i + b) = |a| * std y := by
  rcases Nat.eq_zero_or_pos n with h | h
  · subst h; simp [std]
  unfold std
  rw [mean_affine h, ← Real.sqrt_sq_eq_abs, ← Real.sqrt_mul (sq_nonneg a)]
  congr 1
  rw [← mul_div_assoc, Finset.mul_sum]
  congr 1
  apply Finset.sum_congr rfl
  intro i _
  ring

theorem std_nonneg (y : Fin n → ℝ) : 0 ≤ std y := Real.sqrt_nonneg _

theorem std_eq_zero_iff (y : Fin n → ℝ) : std y = 0 ↔ ∀ i j, y i = y j := by
  rcases Nat.eq_zero_or_pos n with h0 | h0
  · subst h0
    refine ⟨fun _ i => i.elim0, fun _ => by simp [std]⟩
  have hn : (0 : ℝ) < n := by exact_mod_cast h0
  unfold std
  rw [Real.sqrt_eq_zero (div_nonneg (Finset.sum_nonneg (fun i _ => sq_nonneg _)) hn.le), div_eq_zero_iff]
  constructor
  · rintro (h | h)
    · rw [Finset.sum_eq_zero_iff_of_nonneg (fun i _ => sq_nonneg _)] at h
      have h' : ∀ i, y i = mean y := fun i => by
        have := h i (Finset.mem_univ i)
        have := pow_eq_zero_iff (two_ne_zero) |>.mp this
        linarith
      intro i j; rw [h' i, h' j]
    · exact absurd h hn.ne'
  · intro h
    left
    apply Finset.sum_eq_zero
    intro i _
    have : mean y = y i := by
      unfold mean
      rw [Finset.sum_congr rfl (fun j _ => h j i)]
      simp
      field_simp
    rw [this]; ring

end Mfpml.GP
