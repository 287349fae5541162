import Verif.Model.Kernels
import Mathlib.Tactic.FinCases

/-!
# `kronDelta` (C168)
-/

open scoped BigOperators

namespace Mfpml.Props

open Mfpml.GP

variable {n m d : ℕ}

theorem epsF32_pos : 0 < epsF32 := by unfold epsF32; positivity

/-- C168 (partial). `kronDelta(X, Y)` is true for equal rows; it is false if some entry of the rows differs by `2^-23` or more; it does not depend on which array comes first, nor on a shift of all rows by the same vector, and its
entry at `(i, j)` depends on rows `i` and `j` only.  Missing: rows that differ by less are reported as equal, see `C168_counterexample`. -/
theorem C168_kron_partial (X : Samples n d) (Y : Samples m d) (i : Fin n) (j : Fin m) :
    (X i = Y j → kronDelta X Y i j) ∧ (∀ k, (2 : ℝ) ^ (-23 : ℤ) ≤ |X i k - Y j k| → ¬ kronDelta X Y i j) ∧ (kronDelta X Y i j ↔ kronDelta Y X j i) ∧
      (∀ c : Fin d → ℝ, kronDelta (fun a k => X a k + c k) (fun a k => Y a k + c k) i j ↔ kronDelta X Y i j) ∧
      ∀ (n' m' : ℕ) (X' : Samples n' d) (Y' : Samples m' d) (i' : Fin n') (j' : Fin m'), X' i' = X i → Y' j' = Y j → (kronDelta X' Y' i' j' ↔ kronDelta X Y i j) := by
  refine ⟨fun h => ?_, fun k hk h => ?_, ?_, fun c => ?_, fun n' m' X' Y' i' j' h1 h2 => ?_⟩
  · unfold kronDelta
    simp only [h, sub_self, ne_eq, OfNat.ofNat_ne_zero, not_false_eq_true, zero_pow, Finset.sum_const_zero, Real.sqrt_zero]
    exact epsF32_pos
  · unfold kronDelta at h
    have h1 : |X i k - Y j k| ≤ Real.sqrt (∑ k, (X i k - Y j k) ^ 2) := by
      rw [← Real.sqrt_sq_eq_abs]
      exact Real.sqrt_le_sqrt (Finset.single_le_sum (f := fun k => (X i k - Y j k) ^ 2) (fun _ _ => sq_nonneg _) (Finset.mem_univ k))
    exact absurd (lt_of_le_of_lt (hk.trans h1) h) (lt_irrefl _)
  · unfold kronDelta
    rw [show (∑ k, (X i k - Y j k) ^ 2) = ∑ k, (Y j k - X i k) ^ 2 from Finset.sum_congr rfl fun k _ => by ring]
  · unfold kronDelta
    simp only [add_sub_add_right_eq_sub]
  · unfold kronDelta
    rw [h1, h2]

/-- C168 is false for rows closer than `2^-23`: different rows are reported as equal, and "equal" is not transitive, so it is not a Kronecker delta of anything. -/
theorem C168_counterexample : ∃ X : Samples 3 1, X 0 ≠ X 1 ∧ kronDelta X X 0 1 ∧ kronDelta X X 1 2 ∧ ¬ kronDelta X X 0 2 := by
  have h1 : epsF32 = 1 / 8388608 := by norm_num [epsF32]
  refine ⟨fun i _ => i * (1 / 16777216 : ℝ), fun h => ?_, ?_, ?_, ?_⟩
  · have := congrFun h 0
    norm_num at this
  · unfold kronDelta
    rw [h1, Fin.sum_univ_one, Real.sqrt_sq_eq_abs]
    norm_num [abs_of_neg]
  · unfold kronDelta
    rw [h1, Fin.sum_univ_one, Real.sqrt_sq_eq_abs]
    norm_num [abs_of_neg]
  · unfold kronDelta
    rw [h1, Fin.sum_univ_one, Real.sqrt_sq_eq_abs]
    norm_num [abs_of_neg]

end Mfpml.Props
