import Mathlib.Analysis.InnerProductSpace.Basic
import Mathlib.Tactic.Ring

/-!
# Specification vocabulary for best linear unbiased prediction

Independent of the model.  A response with unknown mean `f(x)ᵀ b` and a random part of known covariance (relative to its variance) is observed `n` times; a linear
predictor of its value at another point is a weighted sum of the observations.
-/

open scoped BigOperators

namespace Mfpml.Spec

/-- The weights `w` give an unbiased predictor: whatever the coefficients `b` of the basis, the weighted means of the observations add up to the mean at the target.
`F i` is the basis at the `i`-th observation, `f` at the target. -/
def UnbiasedWeights {n q : ℕ} (F : Fin n → Fin q → ℝ) (f : Fin q → ℝ) (w : Fin n → ℝ) : Prop :=
  ∀ b : Fin q → ℝ, ∑ i, w i * ∑ k, F i k * b k = ∑ k, f k * b k

/-- The mean squared error of the predictor with weights `w`: `v` is the variance of the target, `C` the covariance of the observations, `c` their covariance with the target.  (With
correlations and `v = 1` it is the error relative to the process variance.) -/
def predErr {n : ℕ} (v : ℝ) (C : Fin n → Fin n → ℝ) (c w : Fin n → ℝ) : ℝ :=
  v - 2 * ∑ i, w i * c i + ∑ i, ∑ j, w i * w j * C i j

/-- `w` are the weights of the best linear unbiased predictor: unbiased, and with a smaller mean squared error than all others. -/
structure BestLinearUnbiased {n q : ℕ} (C : Fin n → Fin n → ℝ) (c : Fin n → ℝ) (F : Fin n → Fin q → ℝ) (f : Fin q → ℝ) (w : Fin n → ℝ) : Prop where
  unbiased : UnbiasedWeights F f w
  best : ∀ w', UnbiasedWeights F f w' → w' ≠ w → ∀ v, predErr v C c w < predErr v C c w'

open scoped InnerProductSpace in
/-- `predErr` is what its name says.  `H` is any real inner-product space, such as the square-integrable random variables of a probability space with `⟪U, V⟫ = E[UV]`; `one` is
the constant 1.  The observations are `(∑ F i k b k) • one + Z i`, the target is `(∑ f k b k) • one + T`, with second moments of the random parts `C`, `c` and `v`.  The
mean squared error of every unbiased linear predictor is `predErr v C c w`. -/
theorem predErr_meaning {H : Type*} [NormedAddCommGroup H] [InnerProductSpace ℝ H] {n q : ℕ} (one : H) (Z : Fin n → H) (T : H) (v : ℝ)
    (C : Fin n → Fin n → ℝ) (c : Fin n → ℝ) (hZ : ∀ i j, ⟪Z i, Z j⟫_ℝ = C i j) (hT : ∀ i, ⟪Z i, T⟫_ℝ = c i) (hTT : ⟪T, T⟫_ℝ = v)
    (F : Fin n → Fin q → ℝ) (f : Fin q → ℝ) (b : Fin q → ℝ) (w : Fin n → ℝ) (hw : UnbiasedWeights F f w) :
    ‖(∑ i, w i • ((∑ k, F i k * b k) • one + Z i)) - ((∑ k, f k * b k) • one + T)‖ ^ 2 = predErr v C c w := by
  have h1 : (∑ i, w i • ((∑ k, F i k * b k) • one + Z i)) - ((∑ k, f k * b k) • one + T) = (∑ i, w i • Z i) - T := by
    simp only [smul_add, Finset.sum_add_distrib, smul_smul]
    rw [← Finset.sum_smul, hw b]
    abel
  rw [h1, ← real_inner_self_eq_norm_sq, inner_sub_left, inner_sub_right, inner_sub_right, hTT, real_inner_comm (∑ i, w i • Z i) T]
  have h2 : ⟪∑ i, w i • Z i, T⟫_ℝ = ∑ i, w i * c i := by
    rw [sum_inner]
    exact Finset.sum_congr rfl (fun i _ => by rw [real_inner_smul_left, hT])
  have h3 : ⟪∑ i, w i • Z i, ∑ i, w i • Z i⟫_ℝ = ∑ i, ∑ j, w i * w j * C i j := by
    rw [sum_inner]
    refine Finset.sum_congr rfl (fun i _ => ?_)
    rw [inner_sum]
    refine Finset.sum_congr rfl (fun j _ => ?_)
    rw [real_inner_smul_left, real_inner_smul_right, hZ]; ring
  rw [h2, h3, predErr]
  ring

end Mfpml.Spec
