import Verif.Model.GP
import Verif.Lemmas.Py
import Mathlib.Analysis.Matrix.LDL
import Mathlib.Algebra.Order.Star.Real
import Mathlib.Analysis.Matrix.PosDef
import Mathlib.LinearAlgebra.Matrix.Block
import Mathlib.LinearAlgebra.Matrix.SchurComplement
import Mathlib.Tactic.Linarith
import Mathlib.Tactic.FieldSimp
import Mathlib.Tactic.NoncommRing

/-! # Cholesky factors, solves, generalised least squares -/

set_option linter.unusedSectionVars false

open scoped BigOperators Matrix

namespace Mfpml.GP

variable {n q m : ℕ}

/-! ### Cholesky -/

theorem IsCholesky.det {A L : Matrix (Fin n) (Fin n) ℝ} (h : IsCholesky A L) : L.det = ∏ i, L i i := by
  rw [Matrix.det_of_isLowerTriangular]
  intro i j hij
  exact h.lower i j (by simpa using hij)

theorem IsCholesky.det_pos {A L : Matrix (Fin n) (Fin n) ℝ} (h : IsCholesky A L) : 0 < L.det := by
  rw [h.det]
  exact Finset.prod_pos (fun i _ => h.diag i)

theorem IsCholesky.isUnit {A L : Matrix (Fin n) (Fin n) ℝ} (h : IsCholesky A L) : IsUnit L.det :=
  h.det_pos.ne'.isUnit

theorem IsCholesky.isUnitT {A L : Matrix (Fin n) (Fin n) ℝ} (h : IsCholesky A L) : IsUnit Lᵀ.det := by
  rw [Matrix.det_transpose]; exact h.isUnit

theorem IsCholesky.posDef {A L : Matrix (Fin n) (Fin n) ℝ} (h : IsCholesky A L) : A.PosDef := by
  rw [← h.mul]
  have : Lᵀ = Lᴴ := (Matrix.conjTranspose_eq_transpose_of_trivial L).symm
  rw [this]
  apply Matrix.PosDef.mul_conjTranspose_self
  have hu : IsUnit L := (Matrix.isUnit_iff_isUnit_det L).mpr h.isUnit
  exact Matrix.vecMul_injective_of_isUnit hu

theorem IsCholesky.isUnitA {A L : Matrix (Fin n) (Fin n) ℝ} (h : IsCholesky A L) : IsUnit A.det := by
  rw [← h.mul, Matrix.det_mul]
  exact h.isUnit.mul h.isUnitT

theorem IsCholesky.inv {A L : Matrix (Fin n) (Fin n) ℝ} (h : IsCholesky A L) : A⁻¹ = (Lᵀ)⁻¹ * L⁻¹ := by
  rw [← h.mul, Matrix.mul_inv_rev]

theorem exists_cholesky {A : Matrix (Fin n) (Fin n) ℝ} (hA : A.PosDef) : ∃ L, IsCholesky A L := by
  let Li := LDL.lowerInv hA
  have hLi : ∀ i j, i < j → Li i j = 0 := fun i j hij => LDL.lowerInv_triangular hA hij
  have hD : LDL.diag hA = Li * A * Liᴴ := LDL.diag_eq_lowerInv_conj hA
  have hInv : Invertible Li := LDL.invertibleLowerInv hA
  have hUnit : IsUnit Li.det := (Matrix.isUnit_iff_isUnit_det Li).mp (isUnit_of_invertible Li)
  let M := Li⁻¹
  have hM : ∀ i j, i < j → M i j = 0 := by
    intro i j hij
    have hb : Li.BlockTriangular (OrderDual.toDual : Fin n → (Fin n)ᵒᵈ) := by
      intro a b hab
      exact hLi a b hab
    have := Matrix.blockTriangular_inv_of_blockTriangular hb
    exact this hij
  have hMul : M * LDL.diag hA * Mᴴ = A := LDL.lower_conj_diag hA
  have hpos : ∀ i, 0 < LDL.diagEntries hA i := by
    have hPD : (LDL.diag hA).PosDef := by
      rw [hD]
      apply hA.mul_mul_conjTranspose_same
      exact Matrix.vecMul_injective_of_isUnit (isUnit_of_invertible Li)
    intro i
    have := hPD.diag_pos (i := i)
    simpa [LDL.diag] using this
  have hMdiag : ∀ i, M i i ≠ 0 := by
    have hdet : M.det = ∏ i, M i i := by
      rw [Matrix.det_of_isLowerTriangular]
      intro i j hij
      exact hM i j (by simpa using hij)
    have : M.det ≠ 0 := by
      have : IsUnit M.det := by
        have := Matrix.isUnit_nonsing_inv_det Li hUnit
        exact this
      exact this.ne_zero
    rw [hdet, Finset.prod_ne_zero_iff] at this
    exact fun i => this i (Finset.mem_univ i)
  -- scale the columns
  let s : Fin n → ℝ := fun j => SignType.sign (M j j) * Real.sqrt (LDL.diagEntries hA j)
  refine ⟨M * Matrix.diagonal s, ?_, ?_, ?_⟩
  · intro i j hij
    rw [Matrix.mul_diagonal, hM i j hij, zero_mul]
  · intro i
    rw [Matrix.mul_diagonal]
    have h1 : M i i * (SignType.sign (M i i) : ℝ) = |M i i| := by
      rw [mul_comm]; exact sign_mul_self _
    have : M i i * s i = |M i i| * Real.sqrt (LDL.diagEntries hA i) := by
      simp only [s]; rw [← mul_assoc, h1]
    rw [this]
    exact mul_pos (abs_pos.mpr (hMdiag i)) (Real.sqrt_pos.mpr (hpos i))
  · rw [Matrix.transpose_mul, Matrix.diagonal_transpose]
    have hss : Matrix.diagonal s * Matrix.diagonal s = LDL.diag hA := by
      rw [Matrix.diagonal_mul_diagonal, LDL.diag]
      congr 1
      funext j
      simp only [s]
      have h2 : (SignType.sign (M j j) : ℝ) * (SignType.sign (M j j) : ℝ) = 1 := by
        rcases lt_trichotomy (M j j) 0 with h | h | h
        · rw [sign_neg h]; norm_num
        · exact absurd h (hMdiag j)
        · rw [sign_pos h]; norm_num
      calc _ = ((SignType.sign (M j j) : ℝ) * (SignType.sign (M j j) : ℝ)) * (Real.sqrt (LDL.diagEntries hA j) * Real.sqrt (LDL.diagEntries hA j)) := by ring
        _ = _ := by rw [h2, one_mul, Real.mul_self_sqrt (hpos j).le]
    calc M * Matrix.diagonal s * (Matrix.diagonal s * Mᵀ) = M * (Matrix.diagonal s * Matrix.diagonal s) * Mᵀ := by
          simp only [Matrix.mul_assoc]
      _ = M * LDL.diag hA * Mᴴ := by rw [hss, Matrix.conjTranspose_eq_transpose_of_trivial]
      _ = A := hMul

theorem cholesky_of_posDef {A : Matrix (Fin n) (Fin n) ℝ} (hA : A.PosDef) : ∃ L, cholesky A = .ok L ∧ IsCholesky A L := by
  have h := exists_cholesky hA
  unfold cholesky
  rw [dif_pos h]
  exact ⟨_, rfl, h.choose_spec⟩

theorem cholesky_ok {A L : Matrix (Fin n) (Fin n) ℝ} (h : cholesky A = .ok L) : IsCholesky A L := by
  unfold cholesky at h
  split at h
  · rename_i he
    simp only [Except.ok.injEq] at h
    rw [← h]; exact he.choose_spec
  · cases h

theorem cholesky_error {A : Matrix (Fin n) (Fin n) ℝ} (hA : ¬ A.PosDef) : cholesky A = .error .linAlgError := by
  unfold cholesky
  rw [dif_neg]
  rintro ⟨L, hL⟩
  exact hA hL.posDef

/-! ### solves -/

theorem solve_ok_iff {A : Matrix (Fin n) (Fin n) ℝ} {B X : Matrix (Fin n) (Fin m) ℝ} :
    solve A B = .ok X ↔ IsUnit A.det ∧ X = A⁻¹ * B := by
  unfold solve
  split
  · rename_i h
    rw [Except.ok.injEq]
    exact ⟨fun e => ⟨h, e.symm⟩, fun e => e.2.symm⟩
  · rename_i h
    exact ⟨fun e => (by cases e), fun e => absurd e.1 h⟩

theorem cholSolve_eq {A L : Matrix (Fin n) (Fin n) ℝ} (h : IsCholesky A L) (B : Matrix (Fin n) (Fin m) ℝ) :
    cholSolve L B = .ok (A⁻¹ * B) := by
  refine Py.bind_ok.mpr ⟨_, solve_ok_iff.mpr ⟨h.isUnit, rfl⟩, ?_⟩
  refine solve_ok_iff.mpr ⟨h.isUnitT, ?_⟩
  rw [h.inv, Matrix.mul_assoc]

theorem cholSolveV_eq {A L : Matrix (Fin n) (Fin n) ℝ} (h : IsCholesky A L) (b : Fin n → ℝ) :
    cholSolveV L b = .ok (A⁻¹ *ᵥ b) := by
  have h1 : solveV L b = .ok (L⁻¹ *ᵥ b) := by unfold solveV; rw [if_pos h.isUnit]
  refine Py.bind_ok.mpr ⟨_, h1, ?_⟩
  unfold solveV
  rw [if_pos h.isUnitT, h.inv, Matrix.mulVec_mulVec]

theorem logDiag_eq {A L : Matrix (Fin n) (Fin n) ℝ} (h : IsCholesky A L) : logDiag L = 1 / 2 * Real.log A.det := by
  rw [← h.mul, Matrix.det_mul, Matrix.det_transpose, Real.log_mul h.det_pos.ne' h.det_pos.ne', h.det,
    Real.log_prod (fun i _ => (h.diag i).ne')]
  unfold logDiag
  ring

/-! ### generalised least squares -/

/-- What `glsFit` returns, in closed form. -/
structure IsGLS (K : Matrix (Fin n) (Fin n) ℝ) (F : Matrix (Fin n) (Fin q) ℝ) (y : Fin n → ℝ) (g : GLS n q) : Prop where
  cholK : IsCholesky K g.L
  cholM : IsCholesky (Fᵀ * (K⁻¹ * F)) g.ld
  alpha : g.alpha = K⁻¹ *ᵥ y
  beta : g.beta = (Fᵀ * (K⁻¹ * F))⁻¹ *ᵥ (Fᵀ *ᵥ (K⁻¹ *ᵥ y))
  gamma : g.gamma = K⁻¹ *ᵥ (y - F *ᵥ g.beta)
  sigma2 : g.sigma2 = ((y - F *ᵥ g.beta) ⬝ᵥ g.gamma) / n
  pos : 0 < n

theorem glsFit_ok {K : Matrix (Fin n) (Fin n) ℝ} {F : Matrix (Fin n) (Fin q) ℝ} {y : Fin n → ℝ} {g : GLS n q}
    (h : glsFit K F y = .ok g) : IsGLS K F y g := by
  unfold glsFit at h
  obtain ⟨L, hL, h⟩ := Py.bind_ok.mp h
  have hc := cholesky_ok hL
  obtain ⟨alpha, ha, h⟩ := Py.bind_ok.mp h
  rw [cholSolveV_eq hc, Except.ok.injEq] at ha
  obtain ⟨KF, hKF, h⟩ := Py.bind_ok.mp h
  rw [cholSolve_eq hc, Except.ok.injEq] at hKF
  obtain ⟨ld, hld, h⟩ := Py.bind_ok.mp h
  rw [← hKF] at hld
  have hm := cholesky_ok hld
  obtain ⟨beta, hb, h⟩ := Py.bind_ok.mp h
  rw [cholSolveV_eq hm, Except.ok.injEq] at hb
  obtain ⟨gamma, hg, h⟩ := Py.bind_ok.mp h
  rw [cholSolveV_eq hc, Except.ok.injEq] at hg
  obtain ⟨s2, hs, h⟩ := Py.bind_ok.mp h
  unfold npDiv at hs
  split at hs
  · cases hs
  · rename_i hn
    simp only [Except.ok.injEq] at hs h
    subst h
    refine ⟨hc, hm, ha.symm, ?_, ?_, hs.symm, ?_⟩
    · simp only; rw [← hb, ← ha]
    · exact hg.symm
    · rcases Nat.eq_zero_or_pos n with h0 | h0
      · exact absurd (by rw [h0]; simp) hn
      · exact h0

/-- `Fᵀ K⁻¹ F` is positive definite when `K` is and the columns of `F` are independent. -/
theorem posDef_conj {K : Matrix (Fin n) (Fin n) ℝ} {F : Matrix (Fin n) (Fin q) ℝ} (hK : K.PosDef) (hF : Function.Injective F.mulVec) :
    (Fᵀ * (K⁻¹ * F)).PosDef := by
  have h := hK.inv.conjTranspose_mul_mul_same (B := F) hF
  rwa [Matrix.conjTranspose_eq_transpose_of_trivial, Matrix.mul_assoc] at h

theorem glsFit_succeeds {K : Matrix (Fin n) (Fin n) ℝ} {F : Matrix (Fin n) (Fin q) ℝ} (y : Fin n → ℝ) (hK : K.PosDef)
    (hF : Function.Injective F.mulVec) (hn : 0 < n) : ∃ g, glsFit K F y = .ok g ∧ IsGLS K F y g := by
  obtain ⟨L, hL, hc⟩ := cholesky_of_posDef hK
  obtain ⟨ld, hld, hm⟩ := cholesky_of_posDef (posDef_conj hK hF)
  have hn' : ((n : ℕ) : ℝ) ≠ 0 := by exact_mod_cast hn.ne'
  have : ∃ g, glsFit K F y = .ok g := by
    have hdiv : ∀ a : ℝ, npDiv a (n : ℝ) = .ok (a / n) := fun a => by unfold npDiv; rw [if_neg hn']
    exact ⟨_, Py.bind_ok.mpr ⟨_, hL, Py.bind_ok.mpr ⟨_, cholSolveV_eq hc _, Py.bind_ok.mpr ⟨_, cholSolve_eq hc _,
      Py.bind_ok.mpr ⟨_, hld, Py.bind_ok.mpr ⟨_, cholSolveV_eq hm _, Py.bind_ok.mpr ⟨_, cholSolveV_eq hc _,
        Py.bind_ok.mpr ⟨_, hdiv _, rfl⟩⟩⟩⟩⟩⟩⟩⟩
  obtain ⟨g, hg⟩ := this
  exact ⟨g, hg, glsFit_ok hg⟩

theorem mulVec_injective_of_posDef_conj {K : Matrix (Fin n) (Fin n) ℝ} {F : Matrix (Fin n) (Fin q) ℝ} (h : (Fᵀ * (K⁻¹ * F)).PosDef) :
    Function.Injective F.mulVec := by
  intro a b hab
  have hz : F *ᵥ (a - b) = 0 := by rw [Matrix.mulVec_sub]; exact sub_eq_zero.mpr hab
  by_contra hne
  have h1 := h.dotProduct_mulVec_pos (x := a - b) (sub_ne_zero.mpr hne)
  rw [← Matrix.mulVec_mulVec, ← Matrix.mulVec_mulVec, hz] at h1
  simp at h1

namespace IsGLS

variable {K : Matrix (Fin n) (Fin n) ℝ} {F : Matrix (Fin n) (Fin q) ℝ} {y : Fin n → ℝ} {g : GLS n q}

theorem posDef (h : IsGLS K F y g) : K.PosDef := h.cholK.posDef

theorem inj (h : IsGLS K F y g) : Function.Injective F.mulVec := mulVec_injective_of_posDef_conj h.cholM.posDef

/-- `K γ = y - F β`. -/
theorem K_gamma (h : IsGLS K F y g) : K *ᵥ g.gamma = y - F *ᵥ g.beta := by
  rw [h.gamma, Matrix.mulVec_mulVec, Matrix.mul_nonsing_inv _ h.cholK.isUnitA, Matrix.one_mulVec]

/-- Normal equations `Fᵀ γ = 0`. -/
theorem normal (h : IsGLS K F y g) : Fᵀ *ᵥ g.gamma = 0 := by
  rw [h.gamma, Matrix.mulVec_sub, Matrix.mulVec_sub, h.beta]
  have : Fᵀ *ᵥ (K⁻¹ *ᵥ (F *ᵥ ((Fᵀ * (K⁻¹ * F))⁻¹ *ᵥ (Fᵀ *ᵥ (K⁻¹ *ᵥ y))))) =
      ((Fᵀ * (K⁻¹ * F)) * (Fᵀ * (K⁻¹ * F))⁻¹) *ᵥ (Fᵀ *ᵥ (K⁻¹ *ᵥ y)) := by
    simp only [Matrix.mulVec_mulVec, Matrix.mul_assoc]
  rw [this, Matrix.mul_nonsing_inv _ h.cholM.isUnitA, Matrix.one_mulVec, sub_self]

theorem symmK (h : IsGLS K F y g) : Kᵀ = K := by
  have := h.posDef.isHermitian
  rwa [Matrix.IsHermitian, Matrix.conjTranspose_eq_transpose_of_trivial] at this

theorem symmKinv (h : IsGLS K F y g) : (K⁻¹)ᵀ = K⁻¹ := by
  rw [Matrix.transpose_nonsing_inv, h.symmK]

theorem sigma2_nonneg (h : IsGLS K F y g) : 0 ≤ g.sigma2 := by
  rw [h.sigma2]
  apply div_nonneg _ (Nat.cast_nonneg n)
  rw [h.gamma]
  have := h.posDef.inv.posSemidef.dotProduct_mulVec_nonneg (y - F *ᵥ g.beta)
  simpa using this

theorem sigma2_pos (h : IsGLS K F y g) (hy : y ≠ F *ᵥ g.beta) : 0 < g.sigma2 := by
  rw [h.sigma2]
  apply div_pos _ (by exact_mod_cast h.pos)
  rw [h.gamma]
  have := h.posDef.inv.dotProduct_mulVec_pos (x := y - F *ᵥ g.beta) (sub_ne_zero.mpr hy)
  simpa using this

end IsGLS

end Mfpml.GP
