import Verif.Model.GP
import Mathlib.Analysis.Matrix.Order
import Mathlib.Analysis.SpecialFunctions.Exponential
import Mathlib.Algebra.Order.Star.Real
import Mathlib.LinearAlgebra.Matrix.Hadamard
import Mathlib.Tactic.Linarith
import Mathlib.Tactic.Ring

/-! # Positive (semi)definiteness of the Gaussian kernel -/

set_option linter.unusedSectionVars false

open scoped BigOperators Matrix

namespace Mfpml.GP

variable {n m d : ℕ}

theorem pow10_pos (theta : Fin d → ℝ) (j : Fin d) : 0 < pow10 theta j := Real.rpow_pos_of_pos (by norm_num) _

theorem nugget_pos : 0 < nugget := by unfold nugget; positivity

theorem rbfDist_eq (param : Fin d → ℝ) (hp : ∀ k, 0 ≤ param k) (x y : Fin d → ℝ) :
    rbfDist param x y = ∑ k, param k * (x k - y k) ^ 2 := by
  unfold rbfDist
  simp only
  rw [Finset.mul_sum, ← Finset.sum_add_distrib, ← Finset.sum_sub_distrib]
  apply Finset.sum_congr rfl
  intro k _
  have h : Real.sqrt (param k) * Real.sqrt (param k) = param k := Real.mul_self_sqrt (hp k)
  calc x k ^ 2 * param k + y k ^ 2 * param k - 2 * (Real.sqrt (param k) * x k * (Real.sqrt (param k) * y k))
      = x k ^ 2 * param k + y k ^ 2 * param k - 2 * ((Real.sqrt (param k) * Real.sqrt (param k)) * (x k * y k)) := by ring
    _ = param k * (x k - y k) ^ 2 := by rw [h]; ring

theorem rbfDist_nonneg (param : Fin d → ℝ) (hp : ∀ k, 0 ≤ param k) (x y : Fin d → ℝ) : 0 ≤ rbfDist param x y := by
  rw [rbfDist_eq param hp]
  exact Finset.sum_nonneg (fun k _ => mul_nonneg (hp k) (sq_nonneg _))

/-- All entries one: positive semidefinite. -/
theorem posSemidef_ones {ι : Type*} [Fintype ι] : (Matrix.of (fun _ _ : ι => (1 : ℝ))).PosSemidef := by
  have := Matrix.posSemidef_vecMulVec_self_star (fun _ : ι => (1 : ℝ))
  convert this using 1
  ext i j
  simp [Matrix.vecMulVec]

theorem posSemidef_hadamard_pow {ι : Type*} [Fintype ι] {A : Matrix ι ι ℝ} (hA : A.PosSemidef) (k : ℕ) :
    (Matrix.of (fun i j => A i j ^ k)).PosSemidef := by
  induction k with
  | zero =>
    have := posSemidef_ones (ι := ι)
    convert this using 3
    simp
  | succ k ih =>
    have h : Matrix.of (fun i j => A i j ^ (k + 1)) = (Matrix.of (fun i j => A i j ^ k)) ⊙ A := by
      ext i j
      simp [Matrix.hadamard_apply, pow_succ]
    rw [h]
    exact ih.hadamard hA

/-- Entrywise limits of positive semidefinite matrices are positive semidefinite. -/
theorem posSemidef_of_tendsto {ι : Type*} [Fintype ι] {A : Matrix ι ι ℝ} {B : ℕ → Matrix ι ι ℝ} (hB : ∀ k, (B k).PosSemidef)
    (h : ∀ i j, Filter.Tendsto (fun k => B k i j) Filter.atTop (nhds (A i j))) : A.PosSemidef := by
  refine Matrix.PosSemidef.of_dotProduct_mulVec_nonneg ?_ ?_
  · ext i j
    rw [Matrix.conjTranspose_apply, star_trivial]
    have h1 := h j i
    have h2 : (fun k => B k j i) = fun k => B k i j := by
      funext k
      have := (hB k).isHermitian
      have h3 := congrFun (congrFun this i) j
      rw [Matrix.conjTranspose_apply, star_trivial] at h3
      exact h3
    rw [h2] at h1
    exact tendsto_nhds_unique h1 (h i j)
  · intro x
    have key : Filter.Tendsto (fun k => star x ⬝ᵥ (B k *ᵥ x)) Filter.atTop (nhds (star x ⬝ᵥ (A *ᵥ x))) := by
      simp only [dotProduct, Matrix.mulVec]
      apply tendsto_finsetSum
      intro i _
      apply Filter.Tendsto.const_mul
      apply tendsto_finsetSum
      intro j _
      exact (h i j).mul_const _
    exact ge_of_tendsto' key (fun k => (hB k).dotProduct_mulVec_nonneg x)

theorem posSemidef_exp {ι : Type*} [Fintype ι] {A : Matrix ι ι ℝ} (hA : A.PosSemidef) :
    (Matrix.of (fun i j => Real.exp (A i j))).PosSemidef := by
  refine posSemidef_of_tendsto (B := fun N => ∑ k ∈ Finset.range N, ((k.factorial : ℝ)⁻¹) • Matrix.of (fun i j => A i j ^ k)) ?_ ?_
  · intro N
    apply Matrix.posSemidef_sum
    intro k _
    exact (posSemidef_hadamard_pow hA k).smul (by positivity)
  · intro i j
    have h := (NormedSpace.expSeries_div_hasSum_exp (A i j)).tendsto_sum_nat
    rw [← Real.exp_eq_exp_ℝ] at h
    simp only [Matrix.sum_apply, Matrix.smul_apply, Matrix.of_apply, smul_eq_mul]
    convert h using 3
    rw [div_eq_inv_mul]

/-- The Gaussian kernel on any finite family of points is positive semidefinite. -/
theorem posSemidef_gauss {ι : Type*} [Fintype ι] (param : Fin d → ℝ) (X : ι → Fin d → ℝ) :
    (Matrix.of (fun i j => Real.exp (-(rbfDist param (X i) (X j))))).PosSemidef := by
  classical
  let Z : Matrix ι (Fin d) ℝ := fun i k => Real.sqrt (param k) * X i k
  have hG : ((2 : ℝ) • (Z * Zᴴ)).PosSemidef := (Matrix.posSemidef_self_mul_conjTranspose Z).smul (by norm_num)
  have hE := posSemidef_exp hG
  let D : Matrix ι ι ℝ := Matrix.diagonal (fun i => Real.exp (-(∑ k, X i k ^ 2 * param k)))
  have hC := hE.mul_mul_conjTranspose_same D
  convert hC using 1
  ext i j
  rw [Matrix.of_apply, Matrix.diagonal_conjTranspose, Matrix.mul_diagonal, Matrix.diagonal_mul, Matrix.of_apply]
  simp only [Pi.star_apply, star_trivial]
  rw [← Real.exp_add, ← Real.exp_add]
  congr 1
  have hz : (Z * Zᴴ) i j = ∑ k, Real.sqrt (param k) * X i k * (Real.sqrt (param k) * X j k) := by
    rw [Matrix.mul_apply]
    apply Finset.sum_congr rfl
    intro k _
    rw [Matrix.conjTranspose_apply, star_trivial]
  rw [Matrix.smul_apply, smul_eq_mul, hz]
  simp only [rbfDist]
  ring

/-- The training covariance. -/
theorem rbfMatrix_self (param : Fin d → ℝ) (X : Samples n d) :
    rbfMatrix param X X = Matrix.of (fun i j => Real.exp (-(rbfDist param (X i) (X j)))) + nugget • (1 : Matrix (Fin n) (Fin n) ℝ) := by
  ext i j
  simp only [rbfMatrix, Matrix.add_apply, Matrix.of_apply, Matrix.smul_apply, Matrix.one_apply, smul_eq_mul, Fin.val_inj]
  rw [mul_comm]

theorem posDef_smul_one {ι : Type*} [Fintype ι] [DecidableEq ι] {c : ℝ} (hc : 0 < c) : (c • (1 : Matrix ι ι ℝ)).PosDef :=
  Matrix.PosDef.one.smul hc

theorem posDef_rbfMatrix (param : Fin d → ℝ) (X : Samples n d) : (rbfMatrix param X X).PosDef := by
  rw [rbfMatrix_self]
  exact (posDef_smul_one nugget_pos).posSemidef_add (posSemidef_gauss param X)

theorem posDef_covTrain (param : Fin d → ℝ) (X : Samples n d) (sigma : ℝ) : (covTrain param X sigma).PosDef := by
  unfold covTrain
  exact (posDef_rbfMatrix param X).add_posSemidef (Matrix.PosSemidef.one.smul (sq_nonneg sigma))

end Mfpml.GP
