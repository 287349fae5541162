import Verif.Spec.NativeSpace
import Verif.Props.Evaluated
import Verif.Props.TrendReproduction

/-!
# Prediction errors are bounded by the predicted uncertainty (C165)
-/

set_option linter.unusedSectionVars false

open scoped BigOperators Matrix

namespace Mfpml.Props

open Mfpml.GP Mfpml.Spec
open Mfpml.EA (Box)

variable {nh nl n m d q p : ℕ}

theorem gaussCorr_comm (θ x y : Fin d → ℝ) : gaussCorr θ x y = gaussCorr θ y x := by
  unfold gaussCorr; congr 2; exact Finset.sum_congr rfl (fun k _ => by ring)

theorem bumpSize_nonneg (θ : Fin d → ℝ) (hθ : ∀ k, 0 ≤ θ k) (z : Fin p → Fin d → ℝ) (a : Fin p → ℝ) : 0 ≤ bumpSize θ z a := gauss_quad_nonneg θ hθ z a

/-- Cauchy-Schwarz for bumps plus measurement errors. -/
theorem bumps_cauchy (θ : Fin d → ℝ) (hθ : ∀ k, 0 ≤ θ k) (z : Fin p → Fin d → ℝ) (a : Fin p → ℝ) (xs : Fin m → Fin d → ℝ) (v : Fin m → ℝ) (u e : Fin n → ℝ) (l : ℝ) (hl : 0 < l) :
    (∑ i, v i * bumps θ z a (xs i) + ∑ i, u i * e i) ^ 2 ≤ (bumpSize θ z a + (∑ i, e i ^ 2) / l) * (bumpSize θ xs v + l * ∑ i, u i ^ 2) := by
  have key : ∀ r : ℝ, 0 ≤ (bumpSize θ xs v + l * ∑ i, u i ^ 2) * (r * r) + (2 * (∑ i, v i * bumps θ z a (xs i) + ∑ i, u i * e i)) * r + (bumpSize θ z a + (∑ i, e i ^ 2) / l) := by
    intro r
    have h1 := gauss_quad_nonneg θ hθ (Fin.append z xs) (Fin.append a fun i => r * v i)
    have h2 : 0 ≤ ∑ i, (e i + r * l * u i) ^ 2 / l := Finset.sum_nonneg fun i _ => div_nonneg (sq_nonneg _) hl.le
    have e1 : ∑ i, (e i + r * l * u i) ^ 2 / l = (∑ i, e i ^ 2) / l + 2 * r * ∑ i, u i * e i + r * r * (l * ∑ i, u i ^ 2) := by
      simp only [Finset.sum_div, Finset.mul_sum, ← Finset.sum_add_distrib]
      refine Finset.sum_congr rfl fun i _ => ?_
      field_simp
      ring
    have e2 : (∑ i, ∑ k, Fin.append a (fun i => r * v i) i * Fin.append a (fun i => r * v i) k * gaussCorr θ (Fin.append z xs i) (Fin.append z xs k)) =
        bumpSize θ z a + 2 * r * (∑ i, v i * bumps θ z a (xs i)) + r * r * bumpSize θ xs v := by
      simp only [Fin.sum_univ_add, Fin.append_left, Fin.append_right, Finset.sum_add_distrib]
      have c1 : ∑ k : Fin p, ∑ i : Fin m, a k * (r * v i) * gaussCorr θ (z k) (xs i) = r * ∑ i, v i * bumps θ z a (xs i) := by
        rw [Finset.sum_comm]
        simp only [bumps, Finset.mul_sum]
        exact Finset.sum_congr rfl fun i _ => Finset.sum_congr rfl fun k _ => by ring
      have c2 : ∑ i : Fin m, ∑ k : Fin p, r * v i * a k * gaussCorr θ (xs i) (z k) = r * ∑ i, v i * bumps θ z a (xs i) := by
        simp only [bumps, Finset.mul_sum]
        exact Finset.sum_congr rfl fun i _ => Finset.sum_congr rfl fun k _ => by rw [gaussCorr_comm]; ring
      have c3 : ∑ i : Fin m, ∑ k : Fin m, r * v i * (r * v k) * gaussCorr θ (xs i) (xs k) = r * r * bumpSize θ xs v := by
        simp only [bumpSize, Finset.mul_sum]
        exact Finset.sum_congr rfl fun i _ => Finset.sum_congr rfl fun k _ => by ring
      rw [c1, c2, c3]
      unfold bumpSize
      ring
    rw [e2] at h1
    rw [e1] at h2
    nlinarith
  have := discrim_le_zero key
  unfold discrim at this
  nlinarith

/-- The mean squared error as a size. -/
theorem predErr_bumpSize (θ : Fin d → ℝ) (xs : Fin n → Fin d → ℝ) (x : Fin d → ℝ) (wt : Fin n → ℝ) (l : ℝ) :
    bumpSize θ (Fin.cons x xs : Fin (n + 1) → Fin d → ℝ) (Fin.cons (-1) wt : Fin (n + 1) → ℝ) + l * ∑ i, wt i ^ 2 =
    predErr 1 (fun i k => gaussCorr θ (xs i) (xs k) + if i = k then l else 0) (fun i => gaussCorr θ (xs i) x) wt := by
  unfold bumpSize predErr
  simp only [Fin.sum_univ_succ, Fin.cons_zero, Fin.cons_succ, gaussCorr_self, mul_add, Finset.sum_add_distrib, mul_ite, mul_zero, Finset.sum_ite_eq, Finset.mem_univ, if_true]
  have c1 : ∑ k, -1 * wt k * gaussCorr θ x (xs k) = -∑ i, wt i * gaussCorr θ (xs i) x := by
    rw [← Finset.sum_neg_distrib]
    exact Finset.sum_congr rfl fun k _ => by rw [gaussCorr_comm]; ring
  have c2 : ∑ k, wt k * -1 * gaussCorr θ (xs k) x = -∑ i, wt i * gaussCorr θ (xs i) x := by
    rw [← Finset.sum_neg_distrib]
    exact Finset.sum_congr rfl fun k _ => by ring
  have c3 : ∑ i, wt i * wt i * l = l * ∑ i, wt i ^ 2 := by
    rw [Finset.mul_sum]
    exact Finset.sum_congr rfl fun k _ => by ring
  rw [c1, c2, c3]
  ring

/-- The error of any linear predictor. -/
theorem bumps_error (θ : Fin d → ℝ) (hθ : ∀ k, 0 ≤ θ k) (z : Fin p → Fin d → ℝ) (a : Fin p → ℝ) (xs : Fin n → Fin d → ℝ) (x : Fin d → ℝ) (wt e : Fin n → ℝ) (l : ℝ) (hl : 0 < l) :
    (∑ i, wt i * (bumps θ z a (xs i) + e i) - bumps θ z a x) ^ 2 ≤
      (bumpSize θ z a + (∑ i, e i ^ 2) / l) * predErr 1 (fun i k => gaussCorr θ (xs i) (xs k) + if i = k then l else 0) (fun i => gaussCorr θ (xs i) x) wt := by
  have h := bumps_cauchy θ hθ z a (Fin.cons x xs) (Fin.cons (-1) wt) wt e l hl
  have e1 : ∑ i, (Fin.cons (-1) wt : Fin (n + 1) → ℝ) i * bumps θ z a ((Fin.cons x xs : Fin (n + 1) → Fin d → ℝ) i) + ∑ i, wt i * e i = ∑ i, wt i * (bumps θ z a (xs i) + e i) - bumps θ z a x := by
    rw [Fin.sum_univ_succ]
    simp only [Fin.cons_zero, Fin.cons_succ, mul_add, Finset.sum_add_distrib]
    ring
  rw [e1, predErr_bumpSize] at h
  exact h

/-- The mean squared error is at least the part of the noise. -/
theorem predErr_ge (θ : Fin d → ℝ) (hθ : ∀ k, 0 ≤ θ k) (xs : Fin n → Fin d → ℝ) (x : Fin d → ℝ) (wt : Fin n → ℝ) (l : ℝ) :
    l * ∑ i, wt i ^ 2 ≤ predErr 1 (fun i k => gaussCorr θ (xs i) (xs k) + if i = k then l else 0) (fun i => gaussCorr θ (xs i) x) wt := by
  have h := bumpSize_nonneg θ hθ (Fin.cons x xs : Fin (n + 1) → Fin d → ℝ) (Fin.cons (-1) wt : Fin (n + 1) → ℝ)
  have := predErr_bumpSize θ xs x wt l
  linarith

/-- The nugget in the row of a batch changes the mean squared error little. -/
theorem predErr_row (θ : Fin d → ℝ) (hθ : ∀ k, 0 ≤ θ k) (xs : Fin n → Fin d → ℝ) (x : Fin d → ℝ) (wt : Fin n → ℝ) (l : ℝ) (hl : 1e-10 ≤ l) (j : ℕ) :
    predErr 1 (fun i k => gaussCorr θ (xs i) (xs k) + if i = k then l else 0) (fun i => gaussCorr θ (xs i) x) wt ≤
      (Real.sqrt (max (predErr 1 (fun i k => gaussCorr θ (xs i) (xs k) + if i = k then l else 0) (fun i => gaussCorr θ (xs i) x + if i.val = j then 1e-10 else 0) wt) 0) + 2e-5) ^ 2 := by
  have hge := predErr_ge θ hθ xs x wt l
  set C : Fin n → Fin n → ℝ := fun i k => gaussCorr θ (xs i) (xs k) + if i = k then l else 0
  by_cases hj : j < n
  · have hdiff : predErr 1 C (fun i => gaussCorr θ (xs i) x + if i.val = j then 1e-10 else 0) wt = predErr 1 C (fun i => gaussCorr θ (xs i) x) wt - 2 * 1e-10 * wt ⟨j, hj⟩ := by
      unfold predErr
      have : ∑ i, wt i * (gaussCorr θ (xs i) x + if i.val = j then (1e-10 : ℝ) else 0) = ∑ i, wt i * gaussCorr θ (xs i) x + 1e-10 * wt ⟨j, hj⟩ := by
        simp only [mul_add, Finset.sum_add_distrib]
        congr 1
        rw [Finset.sum_eq_single ⟨j, hj⟩]
        · simp [mul_comm]
        · intro b _ hb
          rw [if_neg (fun hbj => hb (Fin.ext hbj)), mul_zero]
        · intro hh; exact absurd (Finset.mem_univ _) hh
      rw [this]
      ring
    have hq : wt ⟨j, hj⟩ ^ 2 ≤ ∑ i, wt i ^ 2 := Finset.single_le_sum (f := fun i => wt i ^ 2) (fun i _ => sq_nonneg _) (Finset.mem_univ _)
    have h0 : (0 : ℝ) ≤ ∑ i, wt i ^ 2 := Finset.sum_nonneg fun i _ => sq_nonneg _
    rw [hdiff]
    set P := predErr 1 C (fun i => gaussCorr θ (xs i) x) wt
    set v := wt ⟨j, hj⟩
    set M := max (P - 2 * 1e-10 * v) 0
    have hM0 : 0 ≤ M := le_max_right _ _
    have hM1 : P - 2 * 1e-10 * v ≤ M := le_max_left _ _
    have hP : 1e-10 * v ^ 2 ≤ P := by nlinarith
    have hs := Real.sq_sqrt hM0
    have hs0 := Real.sqrt_nonneg M
    set r := Real.sqrt M
    -- `1e-10 (v - 1)² ≤ M + 1e-10`, hence `v - 1 ≤ 1e5 r + 1`
    have hv : v ≤ 1e5 * r + 2 := by
      by_contra hcon
      push Not at hcon
      nlinarith
    nlinarith
  · have : (fun i : Fin n => gaussCorr θ (xs i) x + if i.val = j then (1e-10 : ℝ) else 0) = fun i => gaussCorr θ (xs i) x := by
      funext i
      have := i.isLt
      rw [if_neg (by omega), add_zero]
    rw [this]
    set P := predErr 1 C (fun i => gaussCorr θ (xs i) x) wt
    have hs := Real.sq_sqrt (le_max_right P 0)
    have hs0 := Real.sqrt_nonneg (max P 0)
    have := le_max_left P 0
    nlinarith

/-- The error of the predictor with unbiased weights. -/
theorem weights_error (low high : Fin d → ℝ) (θ : Fin d → ℝ) (hθ : ∀ k, 0 ≤ θ k) (X : Samples n d) (y : Fin n → ℝ) (regr : (Fin d → ℝ) → Fin q → ℝ) (k₁ : Fin q) (hk : ∀ x, regr x k₁ = 1) (b : Fin q → ℝ)
    (z : Fin p → Fin d → ℝ) (a : Fin p → ℝ) (e : Fin n → ℝ) (f : (Fin d → ℝ) → ℝ) (hf : ∀ x, f x = ∑ k, regr (toUnit low high x) k * b k + bumps θ z a (toUnit low high x)) (hy : ∀ i, y i = f (X i) + e i)
    (l : ℝ) (hl : 0 < l) (x : Fin d → ℝ) (C : Fin n → Fin n → ℝ) (hC : C = fun i k => gaussCorr θ (toUnit low high (X i)) (toUnit low high (X k)) + if i = k then l else 0) (c wt : Fin n → ℝ)
    (hb : BestLinearUnbiased C c (fun i => regr (toUnit low high (X i))) (regr (toUnit low high x)) wt) :
    (mean y + ∑ i, wt i * (y i - mean y) - f x) ^ 2 ≤ (bumpSize θ z a + (∑ i, e i ^ 2) / l) * predErr 1 C (fun i => gaussCorr θ (toUnit low high (X i)) (toUnit low high x)) wt := by
  have herr := bumps_error θ hθ z a (fun i => toUnit low high (X i)) (toUnit low high x) wt e l hl
  rw [← hC] at herr
  have hmean : mean y + ∑ i, wt i * (y i - mean y) - f x = ∑ i, wt i * (bumps θ z a (toUnit low high (X i)) + e i) - bumps θ z a (toUnit low high x) := by
    rw [(C100_weighted_sum _ _ _ _ _ hb k₁ (fun i => hk _) (hk _) y (mean y)).2, hf]
    have hu := hb.unbiased b
    simp only [hy, hf]
    rw [← hu, ← Finset.sum_congr rfl fun i _ => (by ring : wt i * (∑ k, regr (toUnit low high (X i)) k * b k) + wt i * (bumps θ z a (toUnit low high (X i)) + e i) =
      wt i * (∑ k, regr (toUnit low high (X i)) k * b k + bumps θ z a (toUnit low high (X i)) + e i)), Finset.sum_add_distrib]
    ring
  rw [hmean]
  exact herr

/-- From the mean squared error to the reported deviation, in any row of a batch. -/
theorem error_row (θ : Fin d → ℝ) (hθ : ∀ k, 0 ≤ θ k) (xs : Fin n → Fin d → ℝ) (x : Fin d → ℝ) (wt : Fin n → ℝ) (l : ℝ) (hl : 1e-10 ≤ l) (j : ℕ) {E S τ V : ℝ} (hS : 0 ≤ S) (hτ : 0 ≤ τ)
    (hE : E ^ 2 ≤ S * predErr 1 (fun i k => gaussCorr θ (xs i) (xs k) + if i = k then l else 0) (fun i => gaussCorr θ (xs i) x) wt)
    (hV : τ ^ 2 * predErr 1 (fun i k => gaussCorr θ (xs i) (xs k) + if i = k then l else 0) (fun i => gaussCorr θ (xs i) x + if i.val = j then 1e-10 else 0) wt ≤ V) :
    |E| * τ ≤ Real.sqrt S * (Real.sqrt V + 2e-5 * τ) ∧ (n ≤ j → |E| * τ ≤ Real.sqrt S * Real.sqrt V) := by
  have hrow := predErr_row θ hθ xs x wt l hl j
  constructor
  · set P' := predErr 1 (fun i k => gaussCorr θ (xs i) (xs k) + if i = k then l else 0) (fun i => gaussCorr θ (xs i) x + if i.val = j then 1e-10 else 0) wt
    have h1 : |E| ≤ Real.sqrt S * (Real.sqrt (max P' 0) + 2e-5) := by
      have h2 := Real.abs_le_sqrt (hE.trans (mul_le_mul_of_nonneg_left hrow hS))
      rwa [Real.sqrt_mul hS, Real.sqrt_sq (by positivity)] at h2
    have h3 : Real.sqrt (max P' 0) * τ ≤ Real.sqrt V := by
      rcases le_or_gt P' 0 with h0 | h0
      · rw [max_eq_right h0, Real.sqrt_zero, zero_mul]
        exact Real.sqrt_nonneg _
      · rw [max_eq_left h0.le]
        refine Real.le_sqrt_of_sq_le ?_
        rw [mul_pow, Real.sq_sqrt h0.le]
        linarith
    have h4 := mul_le_mul_of_nonneg_right h1 hτ
    have h5 := mul_le_mul_of_nonneg_left h3 (Real.sqrt_nonneg S)
    nlinarith
  · intro hj
    have hc : (fun i : Fin n => gaussCorr θ (xs i) x + if i.val = j then (1e-10 : ℝ) else 0) = fun i => gaussCorr θ (xs i) x := by
      funext i
      have := i.isLt
      rw [if_neg (by omega), add_zero]
    rw [hc] at hV
    rw [← Real.sqrt_mul hS]
    refine Real.le_sqrt_of_sq_le ?_
    rw [mul_pow, sq_abs]
    have h1 := mul_le_mul_of_nonneg_right hE (sq_nonneg τ)
    have h2 := mul_le_mul_of_nonneg_left hV hS
    nlinarith

/-- **C165 (error bound).** A Gaussian process whose basis has a constant column is trained on measurements `y = f + e` of a response function `f`: any trend in the span of the basis plus any finite sum of Gaussian bumps with the
trained widths, in coordinates scaled to the unit box; `e` are any measurement errors.  With `B = sqrt (size² + ∑ e² / λ)`, where `λ` is `1e-10` plus the relative noise variance, and the fitted process deviation `τ`, the error of the mean
predicted at any point, in any row of any batch, satisfies `|error| / τ ≤ B * (epistemic deviation / τ + 2e-5)`; in rows beyond the training size without the `2e-5`.  Stated without division by `τ`, which may be 0. -/
theorem C165_error_bound (gp : GPObj d q) (w : World d) (X : Samples n d) (y : Fin n → ℝ) (gp' : GPObj d q) (t : GPFit n d q) (h : gp.train w X y = .ok (gp', t)) (k₁ : Fin q) (hk : ∀ x, gp.regr x k₁ = 1)
    (b : Fin q → ℝ) (z : Fin p → Fin d → ℝ) (a : Fin p → ℝ) (e : Fin n → ℝ) (f : (Fin d → ℝ) → ℝ)
    (hf : ∀ x, f x = ∑ k, gp.regr (toUnit gp.box.low gp.box.high x) k * b k + bumps gp'.kernel.param z a (toUnit gp.box.low gp.box.high x)) (hy : ∀ i, y i = f (X i) + e i) (Xnew : Samples m d) :
    ∃ μ σ, predictStd gp' t Xnew = .ok (μ, σ) ∧ ∀ j : Fin m,
      let B := Real.sqrt (bumpSize gp'.kernel.param z a + (∑ i, e i ^ 2) / (1e-10 + (t.noise / std y) ^ 2))
      let τ := Real.sqrt t.gls.sigma2 * std y
      |μ j - f (Xnew j)| * τ ≤ B * (Real.sqrt (σ j ^ 2 - t.noise ^ 2) + 2e-5 * τ) ∧ (n ≤ j.val → |μ j - f (Xnew j)| * τ ≤ B * Real.sqrt (σ j ^ 2 - t.noise ^ 2)) := by
  obtain ⟨μ, σ, hμ, hpred, hs2, hrow⟩ := C100_best_linear_unbiased gp w X y gp' t h Xnew
  refine ⟨μ, σ, hpred, fun j => ?_⟩
  intro B τ
  obtain ⟨wt, hb, hm, hv, -⟩ := hrow j
  have hp : ∀ k, 0 ≤ gp'.kernel.param k := fun k => ((trained_of_train h).1.param k).le
  have hl : (1e-10 : ℝ) ≤ 1e-10 + (t.noise / std y) ^ 2 := by nlinarith [sq_nonneg (t.noise / std y)]
  have herr := weights_error gp.box.low gp.box.high gp'.kernel.param hp X y gp.regr k₁ hk b z a e f hf hy _ (lt_of_lt_of_le (by norm_num) hl) (Xnew j) _ rfl _ wt hb
  rw [← hm] at herr
  have hS : 0 ≤ bumpSize gp'.kernel.param z a + (∑ i, e i ^ 2) / (1e-10 + (t.noise / std y) ^ 2) :=
    add_nonneg (bumpSize_nonneg _ hp _ _) (div_nonneg (Finset.sum_nonneg fun i _ => sq_nonneg _) (by positivity))
  refine error_row gp'.kernel.param hp (fun i => toUnit gp.box.low gp.box.high (X i)) (toUnit gp.box.low gp.box.high (Xnew j)) wt _ hl j.val hS (mul_nonneg (Real.sqrt_nonneg _) (std_nonneg y)) herr ?_
  rw [hv, mul_pow, Real.sq_sqrt hs2, le_sub_iff_add_le]
  exact le_max_left _ _

/-- The fitted process variance is bounded by the size of the response function. -/
theorem process_variance_le {gp : GPObj d q} {w : World d} {X : Samples n d} {y : Fin n → ℝ} {gp' : GPObj d q} {t : GPFit n d q} (h : gp.train w X y = .ok (gp', t)) {k₁ : Fin q} (hk : ∀ x, gp.regr x k₁ = 1)
    {b : Fin q → ℝ} {z : Fin p → Fin d → ℝ} {a : Fin p → ℝ} {e : Fin n → ℝ} {f : (Fin d → ℝ) → ℝ}
    (hf : ∀ x, f x = ∑ k, gp.regr (toUnit gp.box.low gp.box.high x) k * b k + bumps gp'.kernel.param z a (toUnit gp.box.low gp.box.high x)) (hy : ∀ i, y i = f (X i) + e i) :
    n * t.gls.sigma2 * std y ^ 2 ≤ bumpSize gp'.kernel.param z a + (∑ i, e i ^ 2) / (1e-10 + (t.noise / std y) ^ 2) := by
  obtain ⟨hT, hX, hy', hbox, hregr, hno, hmn, hstd, hys⟩ := trained_of_train h
  have hp := fun k => (hT.param k).le
  have hsp : 0 < std y := hstd ▸ hT.stdpos
  have hl : (0 : ℝ) < 1e-10 + (t.noise / std y) ^ 2 := by positivity
  have hXs : t.Xs = fun i => toUnit gp.box.low gp.box.high (X i) := by rw [hT.Xs, hX, hbox]; rfl
  have hFg : ∀ v : Fin q → ℝ, ∑ i, t.gls.gamma i * (∑ k, gp.regr (t.Xs i) k * v k) = 0 := by
    intro v
    have h1 : t.gls.gamma ⬝ᵥ (t.F *ᵥ v) = 0 := by rw [Matrix.dotProduct_mulVec, ← Matrix.mulVec_transpose, hT.gls.normal, zero_dotProduct]
    rw [hT.F, hregr] at h1
    exact h1
  have hN : (n : ℝ) * t.gls.sigma2 = ∑ i, t.gls.gamma i * t.ys i := by
    have hn : (n : ℝ) ≠ 0 := by exact_mod_cast hT.gls.pos.ne'
    have h1 : t.gls.gamma ⬝ᵥ (t.F *ᵥ t.gls.beta) = 0 := by rw [Matrix.dotProduct_mulVec, ← Matrix.mulVec_transpose, hT.gls.normal, zero_dotProduct]
    rw [hT.gls.sigma2, mul_div_cancel₀ _ hn, dotProduct_comm, dotProduct_sub, h1, sub_zero]
    rfl
  have hc := bumps_cauchy gp'.kernel.param hp z a t.Xs t.gls.gamma t.gls.gamma e _ hl
  have hsize := weights_size hT
  rw [hstd] at hsize
  have hB : bumpSize gp'.kernel.param t.Xs t.gls.gamma + (1e-10 + (t.noise / std y) ^ 2) * ∑ i, t.gls.gamma i ^ 2 = n * t.gls.sigma2 := hsize
  rw [hB] at hc
  have hsum : ∑ i, t.gls.gamma i * bumps gp'.kernel.param z a (t.Xs i) + ∑ i, t.gls.gamma i * e i = n * t.gls.sigma2 * std y := by
    have h1 : ∑ i, t.gls.gamma i = 0 := by
      have := hFg (fun k => if k = k₁ then 1 else 0)
      simpa [hk] using this
    have h2 : ∀ i, bumps gp'.kernel.param z a (t.Xs i) + e i = t.ys i * std y + mean y - ∑ k, gp.regr (t.Xs i) k * b k := by
      intro i
      have h3 := hT.ys i
      rw [hstd, hmn, hy', hy, hf] at h3
      rw [h3, hXs]
      ring
    rw [← Finset.sum_add_distrib, hN, Finset.sum_mul]
    have h4 : ∑ i, (t.gls.gamma i * bumps gp'.kernel.param z a (t.Xs i) + t.gls.gamma i * e i) =
        ∑ i, (t.gls.gamma i * t.ys i * std y + mean y * t.gls.gamma i - t.gls.gamma i * ∑ k, gp.regr (t.Xs i) k * b k) :=
      Finset.sum_congr rfl fun i _ => by rw [← mul_add, h2]; ring
    rw [h4, Finset.sum_sub_distrib, Finset.sum_add_distrib, ← Finset.mul_sum, h1, hFg]
    ring
  rw [hsum] at hc
  have hnn : 0 ≤ (n : ℝ) * t.gls.sigma2 := mul_nonneg (Nat.cast_nonneg n) hT.gls.sigma2_nonneg
  rcases hnn.eq_or_lt with h0 | h0
  · rw [← h0, zero_mul]
    exact add_nonneg (bumpSize_nonneg _ hp _ _) (div_nonneg (Finset.sum_nonneg fun i _ => sq_nonneg _) hl.le)
  · refine le_of_mul_le_mul_right ?_ h0
    refine le_trans (le_of_eq ?_) hc
    ring

/-- **C165 (dense samples).** With a constant basis (the default) and measurements `y = f + e` as above, the error of the mean predicted at any point in any row of any batch is at most
`sqrt (size² + ∑ e² / λ) * (sqrt (2 D + λ) + 1e-5)`, where `D = ∑ θ_k (u_k - u'_k)²` is the squared distance, weighted with the trained parameters, to any one of the samples.  In the absence of noise, predictions become exact up to `2e-5`
times the size of `f` where the samples become dense. -/
theorem C165_dense (gp : GPObj d q) (w : World d) (X : Samples n d) (y : Fin n → ℝ) (gp' : GPObj d q) (t : GPFit n d q) (h : gp.train w X y = .ok (gp', t)) (k₁ : Fin q) (hk : ∀ x, gp.regr x k₁ = 1)
    (hconst : ∀ x x', gp.regr x = gp.regr x') (b : Fin q → ℝ) (z : Fin p → Fin d → ℝ) (a : Fin p → ℝ) (e : Fin n → ℝ) (f : (Fin d → ℝ) → ℝ)
    (hf : ∀ x, f x = ∑ k, gp.regr (toUnit gp.box.low gp.box.high x) k * b k + bumps gp'.kernel.param z a (toUnit gp.box.low gp.box.high x)) (hy : ∀ i, y i = f (X i) + e i) (Xnew : Samples m d) :
    ∃ μ, predictMean gp' t Xnew = .ok μ ∧ ∀ (j : Fin m) (i : Fin n),
      |μ j - f (Xnew j)| ≤ Real.sqrt (bumpSize gp'.kernel.param z a + (∑ i, e i ^ 2) / (1e-10 + (t.noise / std y) ^ 2)) *
        (Real.sqrt (2 * (∑ k, gp'.kernel.param k * (toUnit gp.box.low gp.box.high (X i) k - toUnit gp.box.low gp.box.high (Xnew j) k) ^ 2) + (1e-10 + (t.noise / std y) ^ 2)) + 1e-5) := by
  obtain ⟨hT, hX, hy', hbox, hregr, hno, hmn, hstd, hys⟩ := trained_of_train h
  have hp := fun k => (hT.param k).le
  have hl : (0 : ℝ) < 1e-10 + (t.noise / std y) ^ 2 := by positivity
  refine ⟨_, mean_row hT Xnew, fun j i => ?_⟩
  -- the same point in a row beyond the training size
  obtain ⟨μ, σ, hμ, -, hs2, hrow⟩ := C100_best_linear_unbiased gp w X y gp' t h (fun _ : Fin (n + 1) => Xnew j)
  obtain ⟨wt, hb, hm, -, -⟩ := hrow (Fin.last n)
  have herr := weights_error gp.box.low gp.box.high gp'.kernel.param hp X y gp.regr k₁ hk b z a e f hf hy _ hl (Xnew j) _ rfl _ wt hb
  rw [← hm] at herr
  have hc : (fun i : Fin n => gaussCorr gp'.kernel.param (toUnit gp.box.low gp.box.high (X i)) (toUnit gp.box.low gp.box.high (Xnew j))) =
      fun i : Fin n => gaussCorr gp'.kernel.param (toUnit gp.box.low gp.box.high (X i)) (toUnit gp.box.low gp.box.high (Xnew j)) + if i.val = (Fin.last n).val then 1e-10 else 0 := by
    funext i
    have := i.isLt
    rw [if_neg (by simp only [Fin.val_last]; omega), add_zero]
  rw [hc] at herr
  have hS : 0 ≤ bumpSize gp'.kernel.param z a + (∑ i, e i ^ 2) / (1e-10 + (t.noise / std y) ^ 2) := add_nonneg (bumpSize_nonneg _ hp _ _) (div_nonneg (Finset.sum_nonneg fun i _ => sq_nonneg _) hl.le)
  have hV := process_variance_le h hk hf hy
  set S := bumpSize gp'.kernel.param z a + (∑ i, e i ^ 2) / (1e-10 + (t.noise / std y) ^ 2) with hSdef
  have hD : predErr 1 (fun i k => gaussCorr gp'.kernel.param (toUnit gp.box.low gp.box.high (X i)) (toUnit gp.box.low gp.box.high (X k)) + if i = k then 1e-10 + (t.noise / std y) ^ 2 else 0)
      (fun i : Fin n => gaussCorr gp'.kernel.param (toUnit gp.box.low gp.box.high (X i)) (toUnit gp.box.low gp.box.high (Xnew j)) + if i.val = (Fin.last n).val then 1e-10 else 0) wt ≤
      2 * (∑ k, gp'.kernel.param k * (toUnit gp.box.low gp.box.high (X i) k - toUnit gp.box.low gp.box.high (Xnew j) k) ^ 2) + (1e-10 + (t.noise / std y) ^ 2) := by
    refine (best_le hb (unbiased_pick _ _ i (hconst _ _))).trans ?_
    rw [predErr_pick]
    dsimp only
    have hg := gaussCorr_ge gp'.kernel.param (toUnit gp.box.low gp.box.high (X i)) (toUnit gp.box.low gp.box.high (Xnew j))
    rw [gaussCorr_self, if_pos rfl, if_neg (by have := i.isLt; simp only [Fin.val_last]; omega)]
    linarith
  set D := 2 * (∑ k, gp'.kernel.param k * (toUnit gp.box.low gp.box.high (X i) k - toUnit gp.box.low gp.box.high (Xnew j) k) ^ 2) + (1e-10 + (t.noise / std y) ^ 2)
  have h1 : |μ (Fin.last n) - f (Xnew j)| ≤ Real.sqrt S * Real.sqrt D := by
    rw [← Real.sqrt_mul hS]
    exact Real.abs_le_sqrt (herr.trans (mul_le_mul_of_nonneg_left hD hS))
  rw [mean_row hT] at hμ
  have hμ := congrFun (Except.ok.inj hμ) (Fin.last n)
  obtain ⟨e1, he1, he1'⟩ := nugget_row hT j.val (normPt gp'.box (Xnew j))
  obtain ⟨e2, he2, he2'⟩ := nugget_row hT (Fin.last n).val (normPt gp'.box (Xnew j))
  have he20 : e2 = 0 := by
    have : ∑ i : Fin n, (gaussCorr gp'.kernel.param (t.Xs i) (normPt gp'.box (Xnew j)) + if i.val = (Fin.last n).val then (1e-10 : ℝ) else 0) * t.gls.gamma i =
        ∑ i, gaussCorr gp'.kernel.param (t.Xs i) (normPt gp'.box (Xnew j)) * t.gls.gamma i :=
      Finset.sum_congr rfl fun i _ => by
        have := i.isLt
        rw [if_neg (by simp only [Fin.val_last]; omega), add_zero]
    linarith
  rw [he2', he20] at hμ
  rw [he1']
  have hsp : 0 < std y := hstd ▸ hT.stdpos
  have h2 : |e1 * std y| ≤ Real.sqrt S * 1e-5 := by
    rw [abs_mul, abs_of_pos hsp]
    have h3 : Real.sqrt (n * t.gls.sigma2) * std y ≤ Real.sqrt S := by
      refine Real.le_sqrt_of_sq_le ?_
      rw [mul_pow, Real.sq_sqrt (mul_nonneg (Nat.cast_nonneg n) hT.gls.sigma2_nonneg)]
      exact hV
    have h4 := mul_le_mul_of_nonneg_right he1 hsp.le
    nlinarith
  have h5 : ∀ A : ℝ, (A + (∑ i, gaussCorr gp'.kernel.param (t.Xs i) (normPt gp'.box (Xnew j)) * t.gls.gamma i + e1)) * t.yStd + t.yMean - f (Xnew j) =
      ((A + (∑ i, gaussCorr gp'.kernel.param (t.Xs i) (normPt gp'.box (Xnew j)) * t.gls.gamma i + 0)) * t.yStd + t.yMean - f (Xnew j)) + e1 * std y := by
    intro A
    rw [hstd]
    ring
  rw [h5, hμ, mul_add]
  exact (abs_add_le _ _).trans (add_le_add h1 h2)

/-- The example process on measurements of a bump: `θ = 10^-2` whatever the responses, so that a bump of that width is a response function of the kind considered; without and with measurement errors.  (Measurement
errors may be anything, so that every response vector is covered.) -/
example : ∃ (f : (Fin 1 → ℝ) → ℝ) (gp' : GPObj 1 1) (t : GPFit 3 1 1), (exGP (some 0)).train exWorld (fun i _ => ![0, 2, 4] i : Samples 3 1) (fun i => f fun _ => ![0, 2, 4] i) = .ok (gp', t) ∧
    (∀ x, f x = ∑ k, (exGP (some 0)).regr (toUnit (exGP (some 0)).box.low (exGP (some 0)).box.high x) k * ![7] k +
      bumps gp'.kernel.param ![fun _ => 0] ![1] (toUnit (exGP (some 0)).box.low (exGP (some 0)).box.high x)) ∧ f (fun _ => 0) ≠ f (fun _ => 2) := by
  let f : (Fin 1 → ℝ) → ℝ := fun x => ∑ k, (exGP (some 0)).regr (toUnit (exGP (some 0)).box.low (exGP (some 0)).box.high x) k * ![7] k +
    bumps (pow10 fun _ => -2) ![fun _ => 0] ![1] (toUnit (exGP (some 0)).box.low (exGP (some 0)).box.high x)
  have hne : f (fun _ => 0) ≠ f (fun _ => 2) := by
    have h0 : f (fun _ => 0) = 7 + 1 := by simp [f, bumps, gaussCorr, exGP, ordinary]
    have h2 : f (fun _ => 2) = 7 + Real.exp (-((pow10 (fun _ : Fin 1 => (-2 : ℝ)) 0) * (2 / 4) ^ 2)) := by simp [f, bumps, gaussCorr, exGP, ordinary, toUnit]
    rw [h0, h2]
    have : Real.exp (-((pow10 (fun _ : Fin 1 => (-2 : ℝ)) 0) * (2 / 4) ^ 2)) < 1 := by
      rw [Real.exp_lt_one_iff, neg_lt_zero]
      exact mul_pos (pow10_pos _ _) (by norm_num)
    intro h
    linarith
  obtain ⟨gp', t, h⟩ := exGP_trains (some 0) (fun i _ => ![0, 2, 4] i : Samples 3 1) (fun i => f fun _ => ![0, 2, 4] i) 0 1 hne
  exact ⟨f, gp', t, h, fun x => by rw [exGP_param 0 _ _ _ _ h], hne⟩

/-- **C165 (hierarchical Kriging).** The same for hierarchical Kriging.  The trend is `b` times the low-fidelity prediction, both relative to the average of the high-fidelity responses. -/
theorem C165_hk_error_bound (hk : HKObj d q) (w : MFWorld d) (Xh : Samples nh d) (yh : Fin nh → ℝ) (Xl : Samples nl d) (yl : Fin nl → ℝ) (hk' : HKObj d q) (t : HKFit nh nl d q) (h : hk.train w Xh yh Xl yl = .ok (hk', t))
    (Xnew : Samples m d) : ∃ lfh lfn μ σ, hk'.predictLf t Xh = .ok lfh ∧ hk'.predictLf t Xnew = .ok lfn ∧ hk'.predictStd t Xnew = .ok (μ, σ) ∧
      ∀ (p : ℕ) (b : ℝ) (z : Fin p → Fin d → ℝ) (a : Fin p → ℝ) (e : Fin nh → ℝ),
        (∀ i, yh i = mean yh + b * (lfh i - mean yh) + bumps hk'.kernel.param z a (toUnit hk.box.low hk.box.high (Xh i)) + e i) → ∀ j : Fin m,
        let f := mean yh + b * (lfn j - mean yh) + bumps hk'.kernel.param z a (toUnit hk.box.low hk.box.high (Xnew j))
        let B := Real.sqrt (bumpSize hk'.kernel.param z a + (∑ i, e i ^ 2) / (1e-10 + (t.noise / std yh) ^ 2))
        let τ := Real.sqrt t.gls.sigma2 * std yh
        |μ j - f| * τ ≤ B * (Real.sqrt (σ j ^ 2 - t.noise ^ 2) + 2e-5 * τ) ∧ (nh ≤ j.val → |μ j - f| * τ ≤ B * Real.sqrt (σ j ^ 2 - t.noise ^ 2)) := by
  obtain ⟨lfh, lfn, μ, σ, h1, h2, h3, h4, hs2, hrow⟩ := C100_hk_best_linear_unbiased hk w Xh yh Xl yl hk' t h Xnew
  refine ⟨lfh, lfn, μ, σ, h1, h2, h4, fun p b z a e hy j => ?_⟩
  intro f B τ
  obtain ⟨hT, -, -, -, -, -, -, hstd, -⟩ := hkTrained_of_train h
  have hp := fun k => (hT.param k).le
  have hsp : 0 < std yh := hstd ▸ hT.stdpos
  obtain ⟨wt, hb, hm, hv, -⟩ := hrow j
  have herr := bumps_error hk'.kernel.param hp z a (fun i => toUnit hk.box.low hk.box.high (Xh i)) (toUnit hk.box.low hk.box.high (Xnew j)) wt e (1e-10 + (t.noise / std yh) ^ 2) (by positivity)
  have hu := hb.unbiased (fun _ => b * std yh)
  have hsc : ∀ r : ℝ, r / std yh * (b * std yh) = b * r := fun r => by field_simp
  simp only [Fin.sum_univ_one, hsc] at hu
  have hmean : μ j - (mean yh + b * (lfn j - mean yh) + bumps hk'.kernel.param z a (toUnit hk.box.low hk.box.high (Xnew j))) =
      ∑ i, wt i * (bumps hk'.kernel.param z a (toUnit hk.box.low hk.box.high (Xh i)) + e i) - bumps hk'.kernel.param z a (toUnit hk.box.low hk.box.high (Xnew j)) := by
    have hdev : ∀ i, yh i - mean yh = b * (lfh i - mean yh) + (bumps hk'.kernel.param z a (toUnit hk.box.low hk.box.high (Xh i)) + e i) := fun i => by linarith [hy i]
    rw [hm, ← hu]
    simp only [hdev]
    simp only [mul_add, Finset.sum_add_distrib]
    ring
  rw [← hmean] at herr
  have hl : (1e-10 : ℝ) ≤ 1e-10 + (t.noise / std yh) ^ 2 := by nlinarith [sq_nonneg (t.noise / std yh)]
  have hS : 0 ≤ bumpSize hk'.kernel.param z a + (∑ i, e i ^ 2) / (1e-10 + (t.noise / std yh) ^ 2) :=
    add_nonneg (bumpSize_nonneg _ hp _ _) (div_nonneg (Finset.sum_nonneg fun i _ => sq_nonneg _) (by positivity))
  refine error_row hk'.kernel.param hp (fun i => toUnit hk.box.low hk.box.high (Xh i)) (toUnit hk.box.low hk.box.high (Xnew j)) wt _ hl j.val hS (mul_nonneg (Real.sqrt_nonneg _) (std_nonneg yh)) herr ?_
  rw [hv, add_sub_cancel_right, mul_pow, Real.sq_sqrt hs2]
  exact mul_le_mul_of_nonneg_left (le_max_left _ _) (mul_nonneg hs2 (sq_nonneg _))

/-- The hypotheses are met, for any factor and any bumps with the errors that remain. -/
example : ∃ hk' t, (exHK (some 0)).train ⟨exWorld, exWorld⟩ (fun i _ => ![0, 1, 2] i : Samples 3 1) ![0, 1, 5] (fun i _ => ![0, 1, 2] i : Samples 3 1) ![0, 1, 2] = .ok (hk', t) ∧ ∃ lfh, hk'.predictLf t (fun i _ => ![0, 1, 2] i : Samples 3 1) = .ok lfh ∧
    ∃ e : Fin 3 → ℝ, ∀ i, (![0, 1, 5] : Fin 3 → ℝ) i = mean ![0, 1, 5] + 2 * (lfh i - mean ![0, 1, 5]) + bumps hk'.kernel.param ![fun _ => 1] ![3] (toUnit (exHK (some 0)).box.low (exHK (some 0)).box.high fun _ => ![0, 1, 2] i) + e i := by
  obtain ⟨hk', t, h⟩ := exHK_trains
  obtain ⟨lfh, _, _, _, h1, _⟩ := C100_hk_best_linear_unbiased _ _ _ _ _ _ hk' t h (fun _ _ => 2 : Samples 1 1)
  exact ⟨hk', t, h, lfh, h1, fun i => (![0, 1, 5] : Fin 3 → ℝ) i - (mean ![0, 1, 5] + 2 * (lfh i - mean ![0, 1, 5]) +
    bumps hk'.kernel.param ![fun _ => 1] ![3] (toUnit (exHK (some 0)).box.low (exHK (some 0)).box.high fun _ => ![0, 1, 2] i)), fun i => by ring⟩

end Mfpml.Props
