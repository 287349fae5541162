import Verif.Lemmas.GP
import Verif.Spec.BestPrediction

/-! # Kriging weights -/

set_option linter.unusedSectionVars false

open scoped BigOperators Matrix

namespace Mfpml.GP

open Mfpml.Spec

variable {n q m d : ℕ}

theorem unbiased_iff (F : Matrix (Fin n) (Fin q) ℝ) (f : Fin q → ℝ) (w : Fin n → ℝ) : UnbiasedWeights F f w ↔ Fᵀ *ᵥ w = f := by
  have key : ∀ b : Fin q → ℝ, ∑ i, w i * ∑ k, F i k * b k = (Fᵀ *ᵥ w) ⬝ᵥ b := by
    intro b
    rw [Matrix.mulVec_transpose, ← Matrix.dotProduct_mulVec]
    rfl
  constructor
  · intro h
    refine dotProduct_eq _ _ (fun b => ?_)
    rw [← key, h b]; rfl
  · intro h b
    rw [key, h]; rfl

theorem predErr_eq (v : ℝ) (C : Matrix (Fin n) (Fin n) ℝ) (c w : Fin n → ℝ) : predErr v C c w = v - 2 * (w ⬝ᵥ c) + w ⬝ᵥ (C *ᵥ w) := by
  unfold predErr
  congr 1
  simp only [dotProduct, Matrix.mulVec, Finset.mul_sum]
  exact Finset.sum_congr rfl (fun i _ => Finset.sum_congr rfl (fun j _ => by ring))

/-- The weights of universal Kriging. -/
noncomputable def krigingWeights (K : Matrix (Fin n) (Fin n) ℝ) (F : Matrix (Fin n) (Fin q) ℝ) (c : Fin n → ℝ) (f : Fin q → ℝ) : Fin n → ℝ :=
  K⁻¹ *ᵥ (c + F *ᵥ ((Fᵀ * (K⁻¹ * F))⁻¹ *ᵥ (f - Fᵀ *ᵥ (K⁻¹ *ᵥ c))))

section
variable {K : Matrix (Fin n) (Fin n) ℝ} {F : Matrix (Fin n) (Fin q) ℝ} {y : Fin n → ℝ} {g : GLS n q}

theorem K_krigingWeights (h : IsGLS K F y g) (c : Fin n → ℝ) (f : Fin q → ℝ) :
    K *ᵥ krigingWeights K F c f = c + F *ᵥ ((Fᵀ * (K⁻¹ * F))⁻¹ *ᵥ (f - Fᵀ *ᵥ (K⁻¹ *ᵥ c))) := by
  rw [krigingWeights, Matrix.mulVec_mulVec, Matrix.mul_nonsing_inv _ h.cholK.isUnitA, Matrix.one_mulVec]

theorem krigingWeights_unbiased (h : IsGLS K F y g) (c : Fin n → ℝ) (f : Fin q → ℝ) : Fᵀ *ᵥ krigingWeights K F c f = f := by
  rw [krigingWeights, Matrix.mulVec_add, Matrix.mulVec_add]
  have : Fᵀ *ᵥ (K⁻¹ *ᵥ (F *ᵥ ((Fᵀ * (K⁻¹ * F))⁻¹ *ᵥ (f - Fᵀ *ᵥ (K⁻¹ *ᵥ c))))) = ((Fᵀ * (K⁻¹ * F)) * (Fᵀ * (K⁻¹ * F))⁻¹) *ᵥ (f - Fᵀ *ᵥ (K⁻¹ *ᵥ c)) := by
    simp only [Matrix.mulVec_mulVec, Matrix.mul_assoc]
  rw [this, Matrix.mul_nonsing_inv _ h.cholM.isUnitA, Matrix.one_mulVec]
  abel

theorem krigingWeights_mean (h : IsGLS K F y g) (c : Fin n → ℝ) (f : Fin q → ℝ) :
    f ⬝ᵥ g.beta + c ⬝ᵥ g.gamma = krigingWeights K F c f ⬝ᵥ y := by
  have hy : y = K *ᵥ g.gamma + F *ᵥ g.beta := by rw [h.K_gamma]; abel
  conv_rhs => rw [hy]
  rw [dotProduct_add, Matrix.dotProduct_mulVec, Matrix.dotProduct_mulVec, ← Matrix.mulVec_transpose, h.symmK, K_krigingWeights h,
    ← Matrix.mulVec_transpose, krigingWeights_unbiased h, add_dotProduct, ← Matrix.vecMul_transpose, ← Matrix.dotProduct_mulVec, h.normal]
  simp [add_comm]

/-- The error of any unbiased weights is that of the Kriging weights plus the squared distance. -/
theorem predErr_krigingWeights (h : IsGLS K F y g) (v : ℝ) (c : Fin n → ℝ) (f : Fin q → ℝ) (w : Fin n → ℝ) (hw : Fᵀ *ᵥ w = f) :
    predErr v K c w = predErr v K c (krigingWeights K F c f) + (w - krigingWeights K F c f) ⬝ᵥ (K *ᵥ (w - krigingWeights K F c f)) := by
  set u := krigingWeights K F c f with hu
  have h1 : Fᵀ *ᵥ (w - u) = 0 := by rw [Matrix.mulVec_sub, hw, hu, krigingWeights_unbiased h, sub_self]
  have h2 : (w - u) ⬝ᵥ (K *ᵥ u) = (w - u) ⬝ᵥ c := by
    rw [hu, K_krigingWeights h, dotProduct_add, ← hu, Matrix.dotProduct_mulVec _ F, ← Matrix.mulVec_transpose, h1, zero_dotProduct, add_zero]
  have h3 : u ⬝ᵥ (K *ᵥ (w - u)) = (w - u) ⬝ᵥ c := by
    rw [← h2, Matrix.dotProduct_mulVec, ← Matrix.mulVec_transpose, h.symmK, dotProduct_comm]
  have hwu : w = (w - u) + u := by abel
  rw [predErr_eq, predErr_eq]
  generalize hD : w - u = D at *
  rw [hwu, add_dotProduct, add_dotProduct, Matrix.mulVec_add, dotProduct_add, dotProduct_add, h2, h3]
  ring

/-- The value of the error at the Kriging weights, as `predict` computes it. -/
theorem predErr_krigingWeights_value (h : IsGLS K F y g) (v : ℝ) (c : Fin n → ℝ) (f : Fin q → ℝ) :
    predErr v K c (krigingWeights K F c f) =
      v - c ⬝ᵥ (K⁻¹ *ᵥ c) + (f - Fᵀ *ᵥ (K⁻¹ *ᵥ c)) ⬝ᵥ ((Fᵀ * (K⁻¹ * F))⁻¹ *ᵥ (f - Fᵀ *ᵥ (K⁻¹ *ᵥ c))) := by
  rw [predErr_eq, K_krigingWeights h]
  set r := f - Fᵀ *ᵥ (K⁻¹ *ᵥ c) with hr
  set μ := (Fᵀ * (K⁻¹ * F))⁻¹ *ᵥ r with hμ
  have h1 : krigingWeights K F c f ⬝ᵥ (F *ᵥ μ) = f ⬝ᵥ μ := by
    rw [Matrix.dotProduct_mulVec, ← Matrix.mulVec_transpose, krigingWeights_unbiased h]
  have h2 : krigingWeights K F c f ⬝ᵥ c = c ⬝ᵥ (K⁻¹ *ᵥ c) + (Fᵀ *ᵥ (K⁻¹ *ᵥ c)) ⬝ᵥ μ := by
    rw [krigingWeights, ← hr, ← hμ, Matrix.mulVec_add, add_dotProduct]
    congr 1
    · exact dotProduct_comm _ _
    · rw [dotProduct_comm, Matrix.dotProduct_mulVec, ← Matrix.mulVec_transpose, h.symmKinv, Matrix.dotProduct_mulVec, ← Matrix.mulVec_transpose]
  have h3 : f ⬝ᵥ μ = r ⬝ᵥ μ + (Fᵀ *ᵥ (K⁻¹ *ᵥ c)) ⬝ᵥ μ := by
    rw [← add_dotProduct, hr]; congr 1; abel
  rw [dotProduct_add, h1, h2, h3]
  ring

end

/-- With the correlations of a Gaussian kernel the error is at least the nugget and noise carried by the weights. -/
theorem predErr_nonneg (param : Fin d → ℝ) (hp : ∀ k, 0 ≤ param k) (Xs : Samples n d) (x : Fin d → ℝ) (sigma : ℝ) (w : Fin n → ℝ) :
    0 ≤ predErr 1 (covTrain param Xs sigma) (fun i => Real.exp (-rbfDist param (Xs i) x)) w := by
  rw [predErr_eq, covTrain, rbfMatrix_self]
  have hps := posSemidef_gauss param (fun o : Option (Fin n) => o.elim x Xs)
  have h0 := hps.dotProduct_mulVec_nonneg (fun o : Option (Fin n) => o.elim (-1) w)
  have hxx : rbfDist param x x = 0 := by rw [rbfDist_eq param hp]; simp
  have hsym : ∀ a b, rbfDist param a b = rbfDist param b a := by
    intro a b; rw [rbfDist_eq param hp, rbfDist_eq param hp]; exact Finset.sum_congr rfl (fun k _ => by ring)
  have h1 : (star fun o : Option (Fin n) => o.elim (-1) w) ⬝ᵥ
      ((Matrix.of fun i j : Option (Fin n) => Real.exp (-(rbfDist param (i.elim x Xs) (j.elim x Xs)))) *ᵥ fun o : Option (Fin n) => o.elim (-1) w) =
      1 - 2 * (w ⬝ᵥ fun i => Real.exp (-rbfDist param (Xs i) x)) + w ⬝ᵥ ((Matrix.of fun i j => Real.exp (-(rbfDist param (Xs i) (Xs j)))) *ᵥ w) := by
    simp only [dotProduct, Matrix.mulVec, Fintype.sum_option, Pi.star_apply, star_trivial, Matrix.of_apply, Option.elim_none, Option.elim_some, hxx, mul_add,
      Finset.sum_add_distrib, hsym x]
    have : ∀ i, Real.exp (-rbfDist param (Xs i) x) * w i = w i * Real.exp (-rbfDist param (Xs i) x) := fun i => mul_comm _ _
    simp only [this]
    simp
    ring
  rw [h1] at h0
  rw [Matrix.add_mulVec, Matrix.add_mulVec, dotProduct_add, dotProduct_add, Matrix.smul_mulVec, Matrix.smul_mulVec, Matrix.one_mulVec, dotProduct_smul, dotProduct_smul]
  have h2 : 0 ≤ w ⬝ᵥ w := Finset.sum_nonneg (fun i _ => mul_self_nonneg _)
  have h3 := mul_nonneg nugget_pos.le h2
  have h4 := mul_nonneg (sq_nonneg sigma) h2
  simp only [smul_eq_mul]
  linarith

end Mfpml.GP
