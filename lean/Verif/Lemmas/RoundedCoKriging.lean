import Verif.Lemmas.RoundedKernel
import Mathlib.Tactic.Linarith
import Mathlib.Tactic.Positivity
import Mathlib.Tactic.NormNum

/-!
# Lemmas on the joint covariance matrix in floating-point arithmetic

Rounding errors of the expressions from which the entries are computed.  `f` rounds with an error of at most `u * (|x| + t)`.
-/

namespace Mfpml.Rounded

variable {f : ℝ → ℝ} {u t : ℝ}

/-- Rounding an approximate value. -/
theorem near_round (hf : ∀ x, |f x - x| ≤ u * (|x| + t)) {x x' e w : ℝ} (hx : |x' - x| ≤ e) (hw : |x'| ≤ w) (hu : 0 ≤ u) : |f x' - x| ≤ e + u * (w + t) := by
  have h1 := hf x'
  have h2 : u * (|x'| + t) ≤ u * (w + t) := mul_le_mul_of_nonneg_left (by linarith) hu
  have h3 : f x' - x = (f x' - x') + (x' - x) := by ring
  rw [h3]
  exact (abs_add_le _ _).trans (by linarith)

/-- The size of an approximate value. -/
theorem near_size {x x' e w : ℝ} (hx : |x' - x| ≤ e) (hw : |x| ≤ w) : |x'| ≤ w + e := by
  have h3 : x' = x + (x' - x) := by ring
  rw [h3]
  exact (abs_add_le _ _).trans (by linarith)

/-- An entry of a covariance matrix of samples with noise. -/
theorem near_cov (hf : ∀ x, |f x - x| ≤ u * (|x| + t)) (hu : 0 ≤ u) (hu1 : u ≤ 1 / 1000) (ht : 0 ≤ t) (ht1 : t ≤ 1 / 1000) {K K' ε σ : ℝ} (hε1 : ε ≤ 1 / 1000) (hK : |K' - K| ≤ ε)
    (hK1 : |K| ≤ 1.01) (h1 : f (1 * f (σ * σ)) = f (σ * σ)) : |f (K' + f (1 * f (σ * σ))) - (K + σ ^ 2)| ≤ ε + 2.2 * u * (1 + σ ^ 2) := by
  rw [h1]
  have hσ : 0 ≤ σ ^ 2 := sq_nonneg _
  have hut : u * t ≤ u * (1 / 1000) := mul_le_mul_of_nonneg_left ht1 hu
  have hq : |f (σ * σ) - σ ^ 2| ≤ u * (σ ^ 2 + t) := by
    have := hf (σ * σ)
    rw [abs_of_nonneg (mul_self_nonneg σ)] at this
    rwa [pow_two]
  have hus : u * σ ^ 2 ≤ 1 / 1000 * σ ^ 2 := mul_le_mul_of_nonneg_right hu1 hσ
  have hsum : |K' + f (σ * σ) - (K + σ ^ 2)| ≤ ε + u * (σ ^ 2 + t) := by
    have h3 : K' + f (σ * σ) - (K + σ ^ 2) = (K' - K) + (f (σ * σ) - σ ^ 2) := by ring
    rw [h3]
    exact (abs_add_le _ _).trans (by linarith)
  have hsz : |K' + f (σ * σ)| ≤ 1.02 + 1.01 * σ ^ 2 := by
    have := near_size hsum (w := 1.01 + σ ^ 2) ((abs_add_le _ _).trans (by rw [abs_of_nonneg hσ]; linarith))
    nlinarith
  refine (near_round hf hsum hsz hu).trans ?_
  nlinarith [mul_nonneg hu hσ]

/-- An entry of a block that is a multiple of a covariance matrix. -/
theorem near_scaled (hf : ∀ x, |f x - x| ≤ u * (|x| + t)) (hu : 0 ≤ u) (hu1 : u ≤ 1 / 1000) {s K K' ε w : ℝ} (hs : 0 ≤ s) (hε : 0 ≤ ε) (hε1 : ε ≤ 1 / 1000) (hw : 1 ≤ w)
    (hK : |K' - K| ≤ ε + 2.2 * u * w) (hK1 : |K| ≤ 1.01 * w) : |f (s * K') - s * K| ≤ s * w * (ε + 3.3 * u) + u * t := by
  have h1 : |s * K' - s * K| ≤ s * w * (ε + 2.2 * u) := by
    rw [← mul_sub, abs_mul, abs_of_nonneg hs, mul_assoc]
    refine mul_le_mul_of_nonneg_left (hK.trans ?_) hs
    nlinarith
  have h2 : |s * K'| ≤ 1.02 * (s * w) := by
    have := near_size h1 (w := 1.01 * (s * w)) (by rw [abs_mul, abs_of_nonneg hs]; nlinarith [mul_le_mul_of_nonneg_left hK1 hs])
    have hsw : 0 ≤ s * w := by positivity
    nlinarith
  refine (near_round hf h1 h2 hu).trans ?_
  have hsw : 0 ≤ u * (s * w) := by positivity
  nlinarith

/-- A computed factor times a computed correlation. -/
theorem near_product (hf : ∀ x, |f x - x| ≤ u * (|x| + t)) (hu : 0 ≤ u) (hu1 : u ≤ 1 / 1000) {x x' K K' ε α β X : ℝ} (hε1 : ε ≤ 1 / 1000) (hα : 0 ≤ α)
    (hα1 : α ≤ 1 / 100) (hβ : 0 ≤ β) (hx : |x' - x| ≤ α * X + β) (hX : |x| ≤ X) (hK : |K' - K| ≤ ε) (hK1 : |K| ≤ 1.01) :
    |f (x' * K') - x * K| ≤ X * (ε + 1.1 * α + 1.1 * u) + 1.1 * β + u * t := by
  have hX0 : 0 ≤ X := (abs_nonneg _).trans hX
  have hK' : |K'| ≤ 1.02 := (near_size hK hK1).trans (by linarith)
  have h1 : |x' * K' - x * K| ≤ 1.02 * (α * X + β) + X * ε := by
    have h3 : x' * K' - x * K = (x' - x) * K' + x * (K' - K) := by ring
    rw [h3]
    refine (abs_add_le _ _).trans ?_
    rw [abs_mul, abs_mul]
    have h4 := mul_le_mul hx hK' (abs_nonneg _) ((abs_nonneg _).trans hx)
    have h5 := mul_le_mul hX hK (abs_nonneg _) hX0
    linarith
  have h2 : |x' * K'| ≤ 1.05 * X + 1.02 * β := by
    rw [abs_mul]
    have h4 := mul_le_mul (near_size hx hX) hK' (abs_nonneg _) (by positivity)
    nlinarith
  refine (near_round hf h1 h2 hu).trans ?_
  have h6 : 0 ≤ α * X := by positivity
  have h7 : 0 ≤ u * X := by positivity
  have h8 : u * β ≤ 1 / 1000 * β := mul_le_mul_of_nonneg_right hu1 hβ
  nlinarith

/-- An entry of an off-diagonal block. -/
theorem near_cross (hf : ∀ x, |f x - x| ≤ u * (|x| + t)) (hu : 0 ≤ u) (hu1 : u ≤ 1 / 1000) (ht : 0 ≤ t) {ρ s K K' ε : ℝ} (hs : 0 ≤ s) (hε : 0 ≤ ε) (hε1 : ε ≤ 1 / 1000)
    (hK : |K' - K| ≤ ε) (hK1 : |K| ≤ 1.01) : |f (f (ρ * s) * K') - ρ * s * K| ≤ |ρ| * s * (ε + 2.2 * u) + 2.1 * (u * t) := by
  have hX : |ρ * s| ≤ |ρ| * s := by rw [abs_mul, abs_of_nonneg hs]
  have hx : |f (ρ * s) - ρ * s| ≤ u * (|ρ| * s) + u * t := (hf _).trans (by rw [abs_mul, abs_of_nonneg hs]; linarith)
  refine (near_product hf hu hu1 hε1 hu (by linarith) (by positivity) hx hX hK hK1).trans (le_of_eq (by ring))

/-- The first term of an entry of the block of high-fidelity samples. -/
theorem near_corner (hf : ∀ x, |f x - x| ≤ u * (|x| + t)) (hu : 0 ≤ u) (hu1 : u ≤ 1 / 1000) (ht : 0 ≤ t) {ρ s K K' ε : ℝ} (hs : 0 ≤ s) (hε : 0 ≤ ε) (hε1 : ε ≤ 1 / 1000)
    (hK : |K' - K| ≤ ε) (hK1 : |K| ≤ 1.01) : |f (f (f (ρ * ρ) * s) * K') - ρ ^ 2 * s * K| ≤ ρ ^ 2 * s * (ε + 3.5 * u) + 1.3 * (u * t) * s + 2.1 * (u * t) := by
  have hr : 0 ≤ ρ ^ 2 := sq_nonneg _
  have hq : |f (ρ * ρ) - ρ ^ 2| ≤ u * (ρ ^ 2 + t) := by
    have := hf (ρ * ρ)
    rw [abs_of_nonneg (mul_self_nonneg ρ)] at this
    rwa [pow_two]
  have h1 : |f (ρ * ρ) * s - ρ ^ 2 * s| ≤ u * (ρ ^ 2 + t) * s := by
    rw [← sub_mul, abs_mul, abs_of_nonneg hs]
    exact mul_le_mul_of_nonneg_right hq hs
  have hX : |ρ ^ 2 * s| ≤ ρ ^ 2 * s := by rw [abs_of_nonneg (by positivity)]
  have hts : 0 ≤ u * t * s := by positivity
  have hrs : 0 ≤ ρ ^ 2 * s := by positivity
  have hx : |f (f (ρ * ρ) * s) - ρ ^ 2 * s| ≤ (2.1 * u) * (ρ ^ 2 * s) + (1.1 * (u * t * s) + u * t) := by
    refine (near_round hf h1 (near_size h1 hX) hu).trans ?_
    have h3 : u * (u * (ρ ^ 2 * s)) ≤ 1 / 1000 * (u * (ρ ^ 2 * s)) := mul_le_mul_of_nonneg_right hu1 (by positivity)
    have h4 : u * (u * t * s) ≤ 1 / 1000 * (u * t * s) := mul_le_mul_of_nonneg_right hu1 (by positivity)
    have h5 : 0 ≤ u * (ρ ^ 2 * s) := by positivity
    have : u * (ρ ^ 2 + t) * s + u * (ρ ^ 2 * s + u * (ρ ^ 2 + t) * s + t) = 2 * (u * (ρ ^ 2 * s)) + u * t * s + u * (u * (ρ ^ 2 * s)) + u * (u * t * s) + u * t := by ring
    rw [this]
    linarith
  refine (near_product hf hu hu1 hε1 (by positivity) (by linarith) (by positivity) hx hX hK hK1).trans ?_
  have h5 : 0 ≤ u * (ρ ^ 2 * s) := by positivity
  have h6 : 0 ≤ u * t := by positivity
  nlinarith

/-- An entry of the block of high-fidelity samples: the sum of its two terms. -/
theorem near_sum (hf : ∀ x, |f x - x| ≤ u * (|x| + t)) (hu : 0 ≤ u) {a a' b b' ea eb wa wb : ℝ} (ha : |a' - a| ≤ ea) (hb : |b' - b| ≤ eb) (hwa : |a| ≤ wa) (hwb : |b| ≤ wb) :
    |f (a' + b') - (a + b)| ≤ ea + eb + u * (wa + wb + (ea + eb) + t) := by
  have h1 : |a' + b' - (a + b)| ≤ ea + eb := by
    have h3 : a' + b' - (a + b) = (a' - a) + (b' - b) := by ring
    rw [h3]
    exact (abs_add_le _ _).trans (by linarith)
  exact near_round hf h1 (near_size h1 ((abs_add_le _ _).trans (by linarith))) hu

end Mfpml.Rounded
