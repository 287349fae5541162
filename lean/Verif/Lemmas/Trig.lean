import Mathlib.Analysis.SpecialFunctions.Trigonometric.Deriv
import Mathlib.Analysis.Calculus.Deriv.MeanValue
import Mathlib.Analysis.Calculus.Deriv.Pow
import Mathlib.Analysis.Real.Pi.Bounds
import Mathlib.Tactic.Ring
import Mathlib.Tactic.FieldSimp
import Mathlib.Tactic.Linarith

/-!
# Taylor bounds for sine and cosine
The partial sums of the sine and cosine series are alternately above and below the function, on the whole half line.
-/

namespace Mfpml

open Real

/-- The first `n` terms of the sine series. -/
noncomputable def sinT (n : ℕ) (x : ℝ) : ℝ := ∑ k ∈ Finset.range n, (-1) ^ k * x ^ (2 * k + 1) / (2 * k + 1).factorial

/-- The first `n` terms of the cosine series. -/
noncomputable def cosT (n : ℕ) (x : ℝ) : ℝ := ∑ k ∈ Finset.range n, (-1) ^ k * x ^ (2 * k) / (2 * k).factorial

theorem hasDerivAt_sinT (n : ℕ) (x : ℝ) : HasDerivAt (sinT n) (cosT n x) x := by
  unfold cosT
  have : sinT n = fun x : ℝ => ∑ k ∈ Finset.range n, (-1) ^ k * x ^ (2 * k + 1) / (2 * k + 1).factorial := rfl
  rw [this]
  refine HasDerivAt.fun_sum fun k _ => ?_
  have h := ((hasDerivAt_pow (2 * k + 1) x).const_mul ((-1) ^ k : ℝ)).div_const ((2 * k + 1).factorial : ℝ)
  refine h.congr_deriv ?_
  rw [Nat.factorial_succ]
  have h1 : ((2 * k).factorial : ℝ) ≠ 0 := by positivity
  push_cast
  field_simp

theorem hasDerivAt_cosT (n : ℕ) (x : ℝ) : HasDerivAt (cosT (n + 1)) (-sinT n x) x := by
  have : cosT (n + 1) = fun x : ℝ => (∑ k ∈ Finset.range n, (-1) ^ (k + 1) * x ^ (2 * k + 2) / (2 * k + 2).factorial) + 1 := by
    funext x
    unfold cosT
    rw [Finset.sum_range_succ']
    simp only [Nat.mul_zero, pow_zero, Nat.factorial_zero, Nat.cast_one, mul_one, div_one]
    rfl
  rw [this]
  unfold sinT
  rw [← Finset.sum_neg_distrib]
  refine HasDerivAt.add_const 1 (HasDerivAt.fun_sum fun k _ => ?_)
  have h := ((hasDerivAt_pow (2 * k + 2) x).const_mul ((-1) ^ (k + 1) : ℝ)).div_const ((2 * k + 2).factorial : ℝ)
  refine h.congr_deriv ?_
  rw [Nat.factorial_succ (2 * k + 1)]
  have h1 : ((2 * k + 1).factorial : ℝ) ≠ 0 := by positivity
  push_cast
  field_simp
  ring

theorem nonneg_of_deriv {f f' : ℝ → ℝ} (h0 : f 0 = 0) (hf : ∀ x, HasDerivAt f (f' x) x) (h : ∀ x, 0 ≤ x → 0 ≤ f' x) {x : ℝ} (hx : 0 ≤ x) : 0 ≤ f x := by
  have hm : MonotoneOn f (Set.Ici 0) := by
    refine monotoneOn_of_deriv_nonneg (convex_Ici 0) (fun y _ => (hf y).continuousAt.continuousWithinAt)
      (fun y _ => (hf y).differentiableAt.differentiableWithinAt) fun y hy => ?_
    rw [(hf y).deriv]
    rw [interior_Ici] at hy
    exact h y (le_of_lt hy)
  calc (0 : ℝ) = f 0 := h0.symm
    _ ≤ f x := hm (Set.mem_Ici.mpr le_rfl) (Set.mem_Ici.mpr hx) hx

theorem sinT_zero (n : ℕ) : sinT n 0 = 0 := Finset.sum_eq_zero fun k _ => by simp

theorem cosT_zero (n : ℕ) : cosT (n + 1) 0 = 1 := by
  unfold cosT
  rw [Finset.sum_range_succ', Finset.sum_eq_zero fun k _ => by simp]
  simp

/-- The sine and cosine series alternate around the function on `x ≥ 0`. -/
theorem taylor_alternates (n : ℕ) : (∀ x, 0 ≤ x → 0 ≤ (-1) ^ (n + 1) * (cos x - cosT (n + 1) x)) ∧ ∀ x, 0 ≤ x → 0 ≤ (-1) ^ (n + 1) * (sin x - sinT (n + 1) x) := by
  have step : ∀ n, (∀ x, 0 ≤ x → 0 ≤ (-1) ^ (n + 1) * (cos x - cosT (n + 1) x)) → ∀ x, 0 ≤ x → 0 ≤ (-1) ^ (n + 1) * (sin x - sinT (n + 1) x) := by
    intro n hc x hx
    refine nonneg_of_deriv (f := fun x => (-1) ^ (n + 1) * (sin x - sinT (n + 1) x)) (f' := fun x => (-1) ^ (n + 1) * (cos x - cosT (n + 1) x)) ?_ (fun y => ?_) hc hx
    · simp [sinT_zero]
    · exact ((hasDerivAt_sin y).sub (hasDerivAt_sinT (n + 1) y)).const_mul _
  have base : ∀ x : ℝ, 0 ≤ x → 0 ≤ (-1) ^ (0 + 1) * (cos x - cosT (0 + 1) x) := by
    intro x _
    have : cosT (0 + 1) x = 1 := by simp [cosT]
    rw [this]
    have := cos_le_one x
    simp only [zero_add, pow_one]
    linarith
  induction n with
  | zero => exact ⟨base, step 0 base⟩
  | succ n ih =>
    have hc : ∀ x, 0 ≤ x → 0 ≤ (-1) ^ (n + 1 + 1) * (cos x - cosT (n + 1 + 1) x) := by
      intro x hx
      refine nonneg_of_deriv (f := fun x => (-1) ^ (n + 1 + 1) * (cos x - cosT (n + 1 + 1) x)) (f' := fun x => (-1) ^ (n + 1) * (sin x - sinT (n + 1) x)) ?_ (fun y => ?_) ih.2 hx
      · simp [cosT_zero]
      · have h := ((hasDerivAt_cos y).sub (hasDerivAt_cosT (n + 1) y)).const_mul ((-1 : ℝ) ^ (n + 1 + 1))
        refine h.congr_deriv ?_
        rw [pow_succ]
        ring
    exact ⟨hc, step (n + 1) hc⟩

end Mfpml
