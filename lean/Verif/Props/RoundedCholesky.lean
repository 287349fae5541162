import Verif.Lemmas.RoundedCholesky
import Verif.Props.RoundedKernel

/-!
# The Cholesky factorisation in floating-point arithmetic (C179)

`R` ranges over all roundings to nearest with `p` significant bits (`float64`: `p = 53`, `emin = -1074`).
-/

set_option linter.unusedSectionVars false

open scoped BigOperators Matrix

namespace Mfpml.Props

open Mfpml.Rounded Mfpml.GP Mfpml.Spec

variable {p : ℕ} {emin : ℤ} {R : Rounding p emin} {n d : ℕ}

/-- The subtractions can be made for all entries. -/
theorem subDot_exists (a : Fl R) : ∀ l : List (Fl R × Fl R), ∃ s, SubDot R a l s
  | [] => ⟨_, .start⟩
  | (x, y) :: l => by
    obtain ⟨s, hs⟩ := subDot_exists a l
    exact ⟨_, .fnma x y hs⟩

/-- If no computation meets a bad pivot, there is a factor. -/
theorem cholCols_exists {A : Fin n → Fin n → Fl R} (hA : ¬ CholFails A) : ∀ m, m ≤ n → ∃ L S, CholCols A L S m n
  | 0, _ => ⟨A, A, fun _ j hj => absurd hj (by omega)⟩
  | m + 1, hm => by
    obtain ⟨L, S, h⟩ := cholCols_exists hA m (by omega)
    set c : Fin n := ⟨m, by omega⟩ with hc
    choose T hT using fun i : Fin n => subDot_exists (R := R) (A i c) (rowPairs L i c)
    have hpos : 0 < (T c).val := by
      by_contra hneg
      refine hA ⟨L, fun i j => if j = c then T i else S i j, c, fun i j hj hi hji => ?_, ?_, ?_⟩
      · have hjc : j ≠ c := fun e => by rw [e] at hj; exact absurd hj (lt_irrefl _)
        simp only [if_neg hjc]
        exact h i j hj i.isLt hji
      · simpa only [if_true] using hT c
      · simpa only [if_true] using not_lt.mp hneg
    set L' : Fin n → Fin n → Fl R := fun i j => if j = c then (if i = c then (T c).sqrt else T i / (T c).sqrt) else L i j with hL'
    have hrow : ∀ i j : Fin n, j.val ≤ m → rowPairs L' i j = rowPairs L i j := fun i j hj => by
      unfold rowPairs
      congr 1
      funext k
      have hk : Fin.castLE j.isLt.le k ≠ c := fun e => by
        have := congrArg Fin.val e
        have := k.isLt
        simp only [Fin.val_castLE, hc] at *
        omega
      simp only [hL', if_neg hk]
    refine ⟨L', fun i j => if j = c then T i else S i j, fun i j hj hi hji => ?_⟩
    rw [hrow i j (by omega)]
    by_cases hjc : j = c
    · subst hjc
      simp only [if_true, hL']
      refine ⟨hT i, hpos, fun e => by rw [if_pos e, e], fun e => .inl ?_⟩
      rw [if_neg (ne_of_gt e)]
    · have hjm : j.val < m := by
        have : j.val ≠ m := fun e => hjc (Fin.ext e)
        omega
      simp only [if_neg hjc, hL']
      exact h i j hjm i.isLt hji

/-- **C179 (all matrices).** A symmetric matrix of floats with entries up to `M` whose quadratic form is bounded below by `lam > n * cholAccuracy` is factorised in floating-point arithmetic: no computation of the
factor, in whatever order, meets a bad pivot, one can be carried through, and whatever factor is returned reproduces the matrix to within `cholAccuracy`. -/
theorem C179_cholesky (hp : 1 ≤ p) (he : emin + 2 * p ≤ 1) {A : Fin n → Fin n → Fl R} {M lam : ℝ} (hM : 1 ≤ M) (hMt : M * 2 ^ (emin + (p : ℤ) - 1) ≤ 1) (hA : ∀ i j, |lowerOf A i j| ≤ M)
    (hlam : ∀ v : Fin n → ℝ, lam * ∑ i, v i ^ 2 ≤ v ⬝ᵥ (lowerOf A *ᵥ v)) (hu : (n + 4) * (2 : ℝ) ^ (-(p : ℤ)) ≤ 1 / 100) (hn : n * cholAccuracy p n M < lam) :
    ¬ CholFails A ∧ (∃ L, CholReturns A L) ∧ ∀ L, CholReturns A L → (∀ i, 0 < lowerTri L i i) ∧ ∀ i j, |(lowerTri L * (lowerTri L)ᵀ) i j - lowerOf A i j| ≤ cholAccuracy p n M := by
  have hlam' : ∀ v : Fin n → ℝ, lam * ∑ i, v i ^ 2 ≤ ∑ i, ∑ j, v i * lowerOf A i j * v j := fun v => by
    refine (hlam v).trans (le_of_eq ?_)
    simp only [dotProduct, Matrix.mulVec, Finset.mul_sum, mul_assoc]
  have hfail : ¬ CholFails A := fun ⟨L, S, j, hcols, hsub, hneg⟩ => by
    have hN := (hcols.error hp he hM hMt hA hlam' hu hn j.val le_rfl).2 j le_rfl (by omega)
    have hjj : lowerOf A j j = (A j j).val := by unfold lowerOf; rw [if_pos le_rfl]
    have hAj := hA j j
    rw [hjj] at hN hAj
    have hε0 : 0 ≤ cholAccuracy p n M := by unfold cholAccuracy; positivity
    have hNM : ∑ k ∈ Finset.range j.val, lowEntry L j k ^ 2 ≤ M := by have := (abs_le.mp hAj).2; linarith
    have h1 := (abs_le.mp (entry_step hp he (le_refl j) hM hu hAj hNM hNM hsub).1).1
    have e1 : ∑ k ∈ Finset.range j.val, lowEntry L j k * lowEntry L j k = ∑ k ∈ Finset.range j.val, lowEntry L j k ^ 2 := Finset.sum_congr rfl fun k _ => (sq _).symm
    rw [e1] at h1
    unfold cholAccuracy at hN
    have h2 : 0 ≤ n * 2 ^ (-(p : ℤ)) * M := by positivity
    have h3 : 0 ≤ 2 ^ (-(p : ℤ)) * M := by positivity
    linarith
  refine ⟨hfail, ?_, fun L ⟨S, hcols⟩ => ⟨fun i => ?_, fun i j => ?_⟩⟩
  · obtain ⟨L, S, h⟩ := cholCols_exists hfail n le_rfl
    exact ⟨L, S, h⟩
  · obtain ⟨_, h2, h3, _⟩ := hcols i i i.isLt i.isLt le_rfl
    unfold lowerTri
    rw [if_pos le_rfl, h3 rfl]
    change 0 < R.fl (Real.sqrt (S i i).val)
    rcases le_total (S i i).val 1 with h1 | h1
    · exact h2.trans_le (R.le_fl (Fl.isFloat _) (Real.le_sqrt_of_sq_le (by nlinarith)))
    · exact zero_lt_one.trans_le (R.le_fl (isFloat_one hp (by omega)) (Real.one_le_sqrt.mpr h1))
  · have hE := (hcols.error hp he hM hMt hA hlam' hu hn n le_rfl).1
    have hlow : ∀ i k : Fin n, lowerTri L i k = lowEntry L i k.val := fun i k => by
      unfold lowerTri
      by_cases h : k ≤ i
      · rw [if_pos h, lowEntry_of_le L h]
      · rw [if_neg h]
        unfold lowEntry
        rw [dif_neg (fun h' => h (Fin.le_def.mpr h'))]
    have hprod : ∀ i j : Fin n, j ≤ i → (lowerTri L * (lowerTri L)ᵀ) i j = ∑ k ∈ Finset.range (j.val + 1), lowEntry L i k * lowEntry L j k := fun i j hij => by
      rw [Matrix.mul_apply]
      simp only [Matrix.transpose_apply, hlow]
      rw [Fin.sum_univ_eq_sum_range (fun k => lowEntry L i k * lowEntry L j k) n]
      symm
      refine Finset.sum_subset (Finset.range_mono j.isLt) fun k _ hk => ?_
      rw [Finset.mem_range] at hk
      have : lowEntry L j k = 0 := by unfold lowEntry; rw [dif_neg (by omega)]
      rw [this, mul_zero]
    have hsymm : ∀ i j, lowerOf A i j = lowerOf A j i := fun i j => by
      unfold lowerOf
      rcases lt_trichotomy i j with h | h | h
      · rw [if_pos h.le, if_neg (not_le.mpr h)]
      · rw [h]
      · rw [if_pos h.le, if_neg (not_le.mpr h)]
    rcases le_total j i with h | h
    · rw [hprod i j h]
      exact hE i j j.isLt i.isLt h
    · have : (lowerTri L * (lowerTri L)ᵀ) i j = (lowerTri L * (lowerTri L)ᵀ) j i := by
        rw [Matrix.mul_apply, Matrix.mul_apply]
        exact Finset.sum_congr rfl fun k _ => mul_comm _ _
      rw [this, hprod j i h, hsymm]
      exact hE j i i.isLt j.isLt h

/-- **C179.** For samples in the design space, kernel parameters of moderate size and every noise, the Cholesky factorisation of the covariance matrix computed in floating-point arithmetic succeeds in
floating-point arithmetic, as long as `n * kernelAccuracy + 4 (n + 4)^2 2^(-p) < 1e-10`, and whatever factor is returned reproduces the covariance matrix to within `cholAccuracy`. -/
theorem C179_covariance (hp : 1 ≤ p) (he : emin + 2 * p ≤ 1) {ex : ExpFn R} {δ : ℝ} (hex : ExpAccurate ex δ) (hδ : δ ≤ 1 / 20) {param : Fin d → Fl R} (hparam : ∀ k, 0 ≤ (param k).val)
    {low high : Fin d → Fl R} (hb : ∀ k, low k < high k) {X : Fin n → Fin d → Fl R} (hX : ∀ i k, low k ≤ X i k ∧ X i k ≤ high k)
    (hsize : 5 * (d + 6) * (1 + ∑ k, (param k).val) * (2 : ℝ) ^ (-(p : ℤ)) ≤ 1 / 20) {sigma : Fl R} (hsigma : sigma.val ^ 2 * 2 ^ (emin + (p : ℤ) - 1) ≤ 1 / 4)
    (hn : n * kernelAccuracy param δ + 4 * (n + 4) ^ 2 * (2 : ℝ) ^ (-(p : ℤ)) < 1e-10) {C : Fin n → Fin n → Fl R} (hC : IsCovTrain ex param (normalizeFl low high X) sigma C) :
    ¬ CholFails C ∧ (∃ L, CholReturns C L) ∧
      ∀ L, CholReturns C L → (∀ i, 0 < lowerTri L i i) ∧ ∀ i j, |(lowerTri L * (lowerTri L)ᵀ) i j - lowerOf C i j| ≤ cholAccuracy p n (1.2 + 1.1 * (sigma * sigma).val) := by
  obtain ⟨K, hK, hCe⟩ := hC
  have he0 : emin ≤ 0 := by omega
  have hu0 : (0 : ℝ) < 2 ^ (-(p : ℤ)) := two_zpow_pos _
  have ht0 : (0 : ℝ) < 2 ^ (emin + (p : ℤ) - 1) := two_zpow_pos _
  have htu : (2 : ℝ) ^ (emin + (p : ℤ) - 1) ≤ 2 ^ (-(p : ℤ)) := zpow_le_zpow_right₀ (by norm_num) (by omega)
  have hunit : ∀ i k, |(normalizeFl low high X i k).val| ≤ 1 := fun i k => by
    have := normalizeFl_unit hp he0 hX i k
    rw [abs_of_nonneg this.1]; exact this.2
  have hacc := C176_accuracy_partial hp he hex hδ hparam hunit hunit hsize hK
  have hone : (1 : Fl R).val = 1 := R.fl_of_isFloat (isFloat_one hp he0)
  have hoff : ∀ i j, i ≠ j → (C i j).val = (K i j).val := fun i j hij => by
    rw [hCe, if_neg hij]
    change R.fl ((K i j).val + R.fl (0 * R.fl (sigma.val * sigma.val))) = _
    rw [zero_mul, R.fl_of_isFloat isFloat_zero, add_zero, R.fl_of_isFloat (Fl.isFloat _)]
  set s := (sigma * sigma).val with hs
  have hs0 : 0 ≤ s := R.le_fl isFloat_zero (mul_self_nonneg _)
  have hdiag : ∀ i, (C i i).val = R.fl ((K i i).val + s) := fun i => by
    rw [hCe, if_pos rfl]
    change R.fl ((K i i).val + R.fl ((1 : Fl R).val * (sigma * sigma).val)) = _
    rw [hone, one_mul, R.fl_of_isFloat (Fl.isFloat _)]
  -- without noise the covariance matrix is the kernel matrix
  have h0 : IsCovTrain ex param (normalizeFl low high X) 0 fun i j => K i j + (if i = j then 1 else 0) * (0 * 0) := ⟨K, hK, fun _ _ => rfl⟩
  have hK0 : lowerOf (fun i j => K i j + (if i = j then 1 else 0) * (0 * 0)) = lowerOf K := by
    have : (fun i j => K i j + (if i = j then 1 else 0) * (0 * 0)) = K := by
      funext i j
      apply Fl.val_injective
      change R.fl ((K i j).val + R.fl ((if i = j then (1 : Fl R) else 0).val * R.fl (0 * 0))) = _
      rw [mul_zero, R.fl_of_isFloat isFloat_zero, mul_zero, R.fl_of_isFloat isFloat_zero, add_zero, R.fl_of_isFloat (Fl.isFloat _)]
    rw [this]
  have hpd := (C177_positive_definite hp he hex hδ hparam hb hX hsize h0).1
  rw [hK0] at hpd
  set ε := kernelAccuracy param δ with hε
  have hn0 : (0 : ℝ) ≤ n := Nat.cast_nonneg n
  have hserr : s * 2 ^ (emin + (p : ℤ) - 1) ≤ 1 / 2 := by
    have h1 : s ≤ sigma.val ^ 2 + 2 ^ (-(p : ℤ)) * (|sigma.val ^ 2| + 2 ^ (emin + (p : ℤ) - 1)) := by
      have := (abs_le.mp (fl_error hp R (sigma.val * sigma.val))).2
      rw [← sq] at this
      have e : s = R.fl (sigma.val ^ 2) := by rw [hs, sq]; rfl
      rw [e]
      linarith
    rw [abs_of_nonneg (sq_nonneg _)] at h1
    have hu2 : (2 : ℝ) ^ (-(p : ℤ)) ≤ 1 / 2 := by
      rw [show (1 : ℝ) / 2 = 2 ^ (-1 : ℤ) by norm_num]
      exact zpow_le_zpow_right₀ (by norm_num) (by omega)
    generalize (2 : ℝ) ^ (-(p : ℤ)) = u at *
    generalize (2 : ℝ) ^ (emin + (p : ℤ) - 1) = t at *
    have h2 := mul_le_mul_of_nonneg_right h1 ht0.le
    have h3 : u * (sigma.val ^ 2 * t) ≤ 1 / 2 * (1 / 4) := mul_le_mul hu2 hsigma (by positivity) (by norm_num)
    have h4 : u * t * t ≤ 1 / 2 * (1 / 2) * (1 / 2) := mul_le_mul (mul_le_mul hu2 (htu.trans hu2) ht0.le (by norm_num)) (htu.trans hu2) ht0.le (by norm_num)
    nlinarith
  have hKle : ∀ i j, |(K i j).val| ≤ 1.1 + ε - 0.09 := fun i j => by
    have h1 := hacc i j
    have h2 : |rbfMatrix (fun k => (param k).val) (vals (normalizeFl low high X)) (vals (normalizeFl low high X)) i j| ≤ 1.01 := by
      unfold rbfMatrix
      have h3 := Real.exp_pos (-(rbfDist (fun k => (param k).val) (vals (normalizeFl low high X) i) (vals (normalizeFl low high X) j)))
      have h4 : Real.exp (-(rbfDist (fun k => (param k).val) (vals (normalizeFl low high X) i) (vals (normalizeFl low high X) j))) ≤ 1 :=
        Real.exp_le_one_iff.mpr (neg_nonpos.mpr (rbfDist_nonneg _ hparam _ _))
      have h5 : nugget = 1e-10 := by unfold nugget; norm_num
      rw [h5, abs_of_nonneg (by split <;> norm_num <;> linarith)]
      split
      · norm_num
        linarith
      · rw [zero_mul, add_zero]
        linarith
    have h3 := abs_add_le ((K i j).val - rbfMatrix (fun k => (param k).val) (vals (normalizeFl low high X)) (vals (normalizeFl low high X)) i j)
      (rbfMatrix (fun k => (param k).val) (vals (normalizeFl low high X)) (vals (normalizeFl low high X)) i j)
    rw [sub_add_cancel] at h3
    linarith
  have hnε : 0 ≤ n * ε := by
    rcases Nat.eq_zero_or_pos n with h | h
    · rw [h]; simp
    · exact mul_nonneg hn0 ((abs_nonneg _).trans (hacc ⟨0, h⟩ ⟨0, h⟩))
  have hε1 : ∀ _ : Fin n, ε ≤ 0.01 := fun i => by
    have h1 : (1 : ℝ) ≤ n := by exact_mod_cast (Nat.zero_le _).trans_lt i.isLt
    have h2 := (abs_nonneg _).trans (hacc i i)
    have h3 : 0 ≤ (n + 4) ^ 2 * (2 : ℝ) ^ (-(p : ℤ)) := by positivity
    have h4 : ε ≤ n * ε := le_mul_of_one_le_left h2 h1
    linarith
  have hflerr : ∀ i, |(C i i).val - ((K i i).val + s)| ≤ 2 ^ (-(p : ℤ)) * (1.2 + s) := fun i => by
    rw [hdiag i]
    refine (fl_error hp R _).trans (mul_le_mul_of_nonneg_left ?_ hu0.le)
    have h1 := hKle i i
    have h2 := hε1 i
    have h3 := abs_add_le (K i i).val s
    rw [abs_of_nonneg hs0] at h3
    have h4 : (n + 4) ^ 2 * (2 : ℝ) ^ (-(p : ℤ)) < 1e-10 := by
      have : 0 ≤ (n + 4) ^ 2 * (2 : ℝ) ^ (-(p : ℤ)) := by positivity
      linarith
    have h5 : (2 : ℝ) ^ (-(p : ℤ)) ≤ (n + 4) ^ 2 * (2 : ℝ) ^ (-(p : ℤ)) := le_mul_of_one_le_left hu0.le (by nlinarith)
    linarith
  have hlowdiag : ∀ (B : Fin n → Fin n → Fl R) i, lowerOf B i i = (B i i).val := fun B i => by unfold lowerOf; rw [if_pos le_rfl]
  have hlowoff : ∀ i j, i ≠ j → lowerOf C i j = lowerOf K i j := fun i j hij => by unfold lowerOf; rw [hoff i j hij, hoff j i (Ne.symm hij)]
  have hKlow : ∀ i j, |lowerOf K i j| ≤ 1.1 + ε - 0.09 := fun i j => by unfold lowerOf; split <;> exact hKle _ _
  have hlam : ∀ v : Fin n → ℝ, (1e-10 - n * ε + (s - 2 ^ (-(p : ℤ)) * (1.2 + s))) * ∑ i, v i ^ 2 ≤ v ⬝ᵥ (lowerOf C *ᵥ v) := fun v => by
    have h1 := hpd v
    have h2 : ∀ B : Fin n → Fin n → Fl R, v ⬝ᵥ (lowerOf B *ᵥ v) = ∑ i, ∑ j, v i * lowerOf B i j * v j := fun B => by
      simp only [dotProduct, Matrix.mulVec, Finset.mul_sum, mul_assoc]
    have h3 : ∑ i, ∑ j, v i * lowerOf C i j * v j = ∑ i, ∑ j, v i * lowerOf K i j * v j + ∑ i, ((C i i).val - (K i i).val) * v i ^ 2 := by
      rw [← Finset.sum_add_distrib]
      refine Finset.sum_congr rfl fun i _ => ?_
      have h4 : ∑ j, v i * lowerOf C i j * v j - ∑ j, v i * lowerOf K i j * v j = ((C i i).val - (K i i).val) * v i ^ 2 := by
        rw [← Finset.sum_sub_distrib, Finset.sum_eq_single i]
        · rw [hlowdiag, hlowdiag]; ring
        · intro j _ hji
          rw [hlowoff i j (Ne.symm hji), sub_self]
        · intro h; exact absurd (Finset.mem_univ i) h
      linarith
    have h4 : (s - 2 ^ (-(p : ℤ)) * (1.2 + s)) * ∑ i, v i ^ 2 ≤ ∑ i, ((C i i).val - (K i i).val) * v i ^ 2 := by
      rw [Finset.mul_sum]
      refine Finset.sum_le_sum fun i _ => mul_le_mul_of_nonneg_right ?_ (sq_nonneg _)
      have := (abs_le.mp (hflerr i)).1
      linarith
    rw [h2] at h1 ⊢
    rw [h3, add_mul]
    linarith
  have hq : 4 * ((n + 4) ^ 2 * (2 : ℝ) ^ (-(p : ℤ))) < 1e-10 - n * ε := by linarith
  have hu1 : (n + 4) * (2 : ℝ) ^ (-(p : ℤ)) ≤ (n + 4) ^ 2 * (2 : ℝ) ^ (-(p : ℤ)) := mul_le_mul_of_nonneg_right (by nlinarith) hu0.le
  have hu2 : 4 * (2 : ℝ) ^ (-(p : ℤ)) ≤ (n + 4) * (2 : ℝ) ^ (-(p : ℤ)) := mul_le_mul_of_nonneg_right (by linarith) hu0.le
  refine C179_cholesky hp he (by linarith) ?_ (fun i j => ?_) hlam (by linarith) ?_
  · have : (2 : ℝ) ^ (emin + (p : ℤ) - 1) ≤ 0.1 := by linarith
    linarith
  · by_cases hij : i = j
    · subst hij
      rw [hlowdiag]
      have h1 := hKle i i
      have h2 := hε1 i
      have h3 := abs_add_le ((C i i).val - ((K i i).val + s)) ((K i i).val + s)
      rw [sub_add_cancel] at h3
      have h4 := abs_add_le (K i i).val s
      rw [abs_of_nonneg hs0] at h4
      have h5 := hflerr i
      have h6 : 2 ^ (-(p : ℤ)) * (1.2 + s) ≤ 0.01 * (1.2 + s) := mul_le_mul_of_nonneg_right (by linarith) (by linarith)
      linarith
    · rw [hlowoff i j hij]
      have h1 := hKlow i j
      have h2 := hε1 i
      linarith
  · unfold cholAccuracy
    have e1 : (n : ℝ) * (3 * (n + 4) * 2 ^ (-(p : ℤ)) * (1.2 + 1.1 * s)) = 3.6 * ((n + 4) ^ 2 * 2 ^ (-(p : ℤ))) - 14.4 * ((n + 4) * 2 ^ (-(p : ℤ))) + 3.3 * (n * (n + 4) * 2 ^ (-(p : ℤ))) * s := by ring
    have h1 : n * (n + 4) * (2 : ℝ) ^ (-(p : ℤ)) ≤ (n + 4) ^ 2 * (2 : ℝ) ^ (-(p : ℤ)) := mul_le_mul_of_nonneg_right (by nlinarith) hu0.le
    have h2 : 3.3 * (n * (n + 4) * 2 ^ (-(p : ℤ))) * s ≤ 0.5 * s := mul_le_mul_of_nonneg_right (by linarith) hs0
    have h3 : 2 ^ (-(p : ℤ)) * s ≤ 0.5 * s := mul_le_mul_of_nonneg_right (by linarith) hs0
    have h4 : 0 ≤ (n + 4) ^ 2 * (2 : ℝ) ^ (-(p : ℤ)) := by positivity
    rw [e1]
    linarith

/-! ### The hypotheses can be met -/

/-- A hundred samples of two variables in double precision, wherever they lie in the unit square (also if some of them coincide), with both kernel parameters `10` and noise `0`: the factorisation succeeds, and
the factor is accurate to `5e-14`. -/
example (X : Fin 100 → Fin 2 → Double) (hX : ∀ i k, 0 ≤ X i k ∧ X i k ≤ oneD) (ten : Double) (hten : ten.val = 10) :
    let ex : ExpFn (nearestRounding 53 (-1074) (by norm_num)) := fun a => Fl.ofReal _ (Real.exp a.val)
    ∃ C, IsCovTrain ex (fun _ => ten) (normalizeFl (fun _ => 0) (fun _ => oneD) X) 0 C ∧ ¬ CholFails C ∧ ∃ L, CholReturns C L ∧ ∀ i j, |(lowerTri L * (lowerTri L)ᵀ) i j - lowerOf C i j| ≤ 5e-14 := by
  intro ex
  obtain ⟨K, hK⟩ := kernelMatrix_exists ex (fun _ : Fin 2 => ten) (normalizeFl (fun _ => 0) (fun _ => oneD) X) (normalizeFl (fun _ => 0) (fun _ => oneD) X)
  have hC : IsCovTrain ex (fun _ => ten) (normalizeFl (fun _ => 0) (fun _ => oneD) X) 0 _ := ⟨K, hK, fun _ _ => rfl⟩
  have hz : (0 : Double).val = 0 := rfl
  have hzz : ((0 : Double) * 0).val = 0 := by
    change (nearestRounding 53 (-1074) (by norm_num)).fl (0 * 0) = 0
    rw [mul_zero, Rounding.fl_of_isFloat _ isFloat_zero]
  obtain ⟨h1, ⟨L, hL⟩, h3⟩ := C179_covariance (by norm_num) (by norm_num) (expAccurate_rounded (by norm_num) (by norm_num)) (by norm_num) (fun _ => by rw [hten]; norm_num) (fun _ => (zero_lt_one : (0 : ℝ) < 1)) hX
    (by simp only [hten, Finset.sum_const, Finset.card_univ, Fintype.card_fin]; norm_num) (by rw [hz]; norm_num)
    (by simp only [kernelAccuracy, hten, Finset.sum_const, Finset.card_univ, Fintype.card_fin]; norm_num) hC
  refine ⟨_, hC, h1, L, hL, fun i j => ((h3 L hL).2 i j).trans ?_⟩
  rw [hzz]
  unfold cholAccuracy
  norm_num

end Mfpml.Props
