import Verif.Props.BestPrediction
import Verif.Props.CoKriging
import Mathlib.Analysis.SpecialFunctions.Exp

/-!
# What co-Kriging predictions are (C102)
-/

set_option linter.unusedSectionVars false

open scoped BigOperators Matrix

namespace Mfpml.Props

open Mfpml.GP Mfpml.Spec
open Mfpml.EA (Box)

variable {nh nl n m d q : ℕ}

/-! ## Constant trend -/

/-- A column of ones. -/
def onesCol (n : ℕ) : Matrix (Fin n) (Fin 1) ℝ := fun _ _ => 1

theorem onesCol_inj (hn : 0 < n) : Function.Injective (onesCol n).mulVec := by
  intro a b hab
  have := congrFun hab ⟨0, hn⟩
  funext k
  rw [Fin.fin_one_eq_zero k]
  simpa [onesCol, Matrix.mulVec, dotProduct] using this

theorem onesCol_T (v : Fin n → ℝ) (k : Fin 1) : ((onesCol n)ᵀ *ᵥ v) k = (fun _ => 1) ⬝ᵥ v := rfl

theorem onesCol_mul (b : Fin 1 → ℝ) : onesCol n *ᵥ b = fun _ => b 0 := by
  funext i; simp [onesCol, Matrix.mulVec, dotProduct]

/-- The 1 × 1 system with a column of ones. -/
theorem ones_solve {A : Matrix (Fin n) (Fin n) ℝ} (hu : IsUnit ((onesCol n)ᵀ * (A⁻¹ * onesCol n)).det) (r : Fin 1 → ℝ)
    (hq : (fun _ => 1) ⬝ᵥ (A⁻¹ *ᵥ fun _ => 1) ≠ 0) :
    (((onesCol n)ᵀ * (A⁻¹ * onesCol n))⁻¹ *ᵥ r) 0 = r 0 / ((fun _ => 1) ⬝ᵥ (A⁻¹ *ᵥ fun _ => 1)) := by
  set z := ((onesCol n)ᵀ * (A⁻¹ * onesCol n))⁻¹ *ᵥ r with hz
  have h1 : ((onesCol n)ᵀ * (A⁻¹ * onesCol n)) *ᵥ z = r := by
    rw [hz, Matrix.mulVec_mulVec, Matrix.mul_nonsing_inv _ hu, Matrix.one_mulVec]
  have h2 := congrFun h1 0
  rw [← Matrix.mulVec_mulVec, ← Matrix.mulVec_mulVec, onesCol_mul, onesCol_T] at h2
  have h3 : (fun _ : Fin n => z 0) = z 0 • (fun _ => (1 : ℝ)) := by funext i; simp
  rw [h3, Matrix.mulVec_smul, dotProduct_smul, smul_eq_mul] at h2
  rw [eq_div_iff hq, h2]

/-- Best linear unbiased prediction with an unknown constant mean: existence, value and error. -/
theorem ordinary_kriging {A : Matrix (Fin n) (Fin n) ℝ} (hA : A.PosDef) (hn : 0 < n) (y c : Fin n → ℝ) (v : ℝ) :
    ∃ wt, BestLinearUnbiased A c (fun _ (_ : Fin 1) => 1) (fun _ => 1) wt ∧
      (let mu := ((fun _ => 1) ⬝ᵥ (A⁻¹ *ᵥ y)) / ((fun _ => 1) ⬝ᵥ (A⁻¹ *ᵥ fun _ => 1))
       mu + c ⬝ᵥ (A⁻¹ *ᵥ fun i => y i - mu) = ∑ i, wt i * y i) ∧
      predErr v A c wt = v - c ⬝ᵥ (A⁻¹ *ᵥ c) + (1 - (fun _ => 1) ⬝ᵥ (A⁻¹ *ᵥ c)) ^ 2 / ((fun _ => 1) ⬝ᵥ (A⁻¹ *ᵥ fun _ => 1)) := by
  obtain ⟨g, _, hg⟩ := glsFit_succeeds y hA (onesCol_inj hn) hn
  have hq := (ones_quad_pos hA hn).ne'
  refine ⟨krigingWeights A (onesCol n) c (fun _ => 1), best_of_gls hg c _, ?_, ?_⟩
  · have hm := krigingWeights_mean hg c (fun _ => 1)
    have hb : g.beta 0 = ((fun _ => 1) ⬝ᵥ (A⁻¹ *ᵥ y)) / ((fun _ => 1) ⬝ᵥ (A⁻¹ *ᵥ fun _ => 1)) := by
      rw [hg.beta, ones_solve hg.cholM.isUnitA _ hq]; rfl
    intro mu
    have e1 : (fun _ : Fin 1 => (1 : ℝ)) ⬝ᵥ g.beta = mu := by simp [dotProduct, hb, mu]
    have e2 : (fun i => y i - mu) = y - onesCol n *ᵥ g.beta := by rw [onesCol_mul, hb]; rfl
    rw [e2, ← hg.gamma]
    rw [e1] at hm
    rw [hm]; rfl
  · rw [predErr_krigingWeights_value hg]
    congr 1
    rw [dotProduct, Fin.sum_univ_one, ones_solve hg.cholM.isUnitA _ hq]
    have : ((fun _ => 1 : Fin 1 → ℝ) - (onesCol n)ᵀ *ᵥ (A⁻¹ *ᵥ c)) 0 = 1 - (fun _ => 1) ⬝ᵥ (A⁻¹ *ᵥ c) := rfl
    rw [this]
    ring

/-! ## C102 -/

theorem ck_param_pos {ck : CKObj d q} {w : CKWorld d} {Xh : Samples nh d} {yh : Fin nh → ℝ} {Xl : Samples nl d} {yl : Fin nl → ℝ}
    {ck' : CKObj d q} {t : CKFit nh nl d q} (h : ck.train w Xh yh Xl yl = .ok (ck', t)) : ∀ k, 0 < ck'.kernel.param k := by
  unfold CKObj.train at h
  obtain ⟨_, _, h⟩ := Py.bind_ok.mp h
  obtain ⟨_, _, h⟩ := Py.bind_ok.mp h
  obtain ⟨_, _, h⟩ := Py.bind_ok.mp h
  obtain ⟨⟨_, _⟩, _, h⟩ := Py.bind_ok.mp h
  obtain ⟨⟨_, theta, _⟩, _, h⟩ := Py.bind_ok.mp h
  obtain ⟨_, _, h⟩ := Py.bind_ok.mp h
  obtain ⟨_, _, h⟩ := Py.bind_ok.mp h
  obtain ⟨_, _, h⟩ := Py.bind_ok.mp h
  obtain ⟨_, _, h⟩ := Py.bind_ok.mp h
  obtain ⟨_, _, h⟩ := Py.bind_ok.mp h
  simp only [Except.ok.injEq, Prod.mk.injEq] at h
  rw [← h.1]
  exact fun k => pow10_pos theta k

/-- C102 (the covariance). The covariance matrix of a trained co-Kriging model, entry by entry, is that of a low-fidelity process with variance `sl` and a high-fidelity process that is `rho`
times it plus an independent process with variance `sd`, both with Gaussian correlations of the points scaled to the unit box (`u`); `s` is the noise relative to the spread of the high-fidelity
responses.  `1e-10` is added to the correlation of samples with equal row numbers (also across fidelities). -/
theorem C102_ck_covariance (ck : CKObj d q) (w : CKWorld d) (Xh : Samples nh d) (yh : Fin nh → ℝ) (Xl : Samples nl d) (yl : Fin nl → ℝ)
    (ck' : CKObj d q) (t : CKFit nh nl d q) (h : ck.train w Xh yh Xl yl = .ok (ck', t)) :
    let u : (Fin d → ℝ) → Fin d → ℝ := fun x k => (x k - ck.box.low k) / (ck.box.high k - ck.box.low k)
    ∃ s, ck'.noise = some s ∧ 0 ≤ t.lfFit.gls.sigma2 ∧ 0 ≤ t.sigma2 ∧
      (∀ i k, t.C (Fin.castAdd nh i) (Fin.castAdd nh k) =
        t.lfFit.gls.sigma2 * (gaussCorr ck'.lf.kernel.param (u (Xl i)) (u (Xl k)) + if i = k then 1e-10 + t.lfFit.noise ^ 2 else 0)) ∧
      (∀ i k, t.C (Fin.castAdd nh i) (Fin.natAdd nl k) =
        t.rho * t.lfFit.gls.sigma2 * (gaussCorr ck'.lf.kernel.param (u (Xl i)) (u (Xh k)) + if i.val = k.val then 1e-10 else 0)) ∧
      (∀ i k, t.C (Fin.natAdd nl i) (Fin.castAdd nh k) =
        t.rho * t.lfFit.gls.sigma2 * (gaussCorr ck'.lf.kernel.param (u (Xh i)) (u (Xl k)) + if i.val = k.val then 1e-10 else 0)) ∧
      (∀ i k, t.C (Fin.natAdd nl i) (Fin.natAdd nl k) =
        t.rho ^ 2 * t.lfFit.gls.sigma2 * (gaussCorr ck'.lf.kernel.param (u (Xh i)) (u (Xh k)) + if i = k then 1e-10 else 0) +
        t.sigma2 * (gaussCorr ck'.kernel.param (u (Xh i)) (u (Xh k)) + if i = k then 1e-10 + s ^ 2 else 0)) := by
  intro u
  obtain ⟨hT, hyh, hyl, hm, hsd, hbox, hXh, hXl, hno, hlf⟩ := ckTrained_of_train h
  obtain ⟨s, hs, hC⟩ := hT.C
  have hpl := fun k => (hT.lf.param k).le
  have hp := fun k => (ck_param_pos h k).le
  have hK := hT.lf.K
  rw [hT.lfX] at hK
  have hXh' : t.Xhs = fun i => u (Xh i) := hXh
  have hXl' : t.Xls = fun i => u (Xl i) := hXl
  have hcol : ∀ {n m : ℕ} (X : Samples n d) (Y : Samples m d) i j, rbfMatrix ck'.lf.kernel.param X Y i j =
      gaussCorr ck'.lf.kernel.param (X i) (Y j) + if i.val = j.val then 1e-10 else 0 :=
    fun X Y i j => congrFun (rbfMatrix_col ck'.lf.kernel.param hpl X Y j) i
  refine ⟨s, hs, hT.lf.gls.sigma2_nonneg, hT.sigma2, fun i k => ?_, fun i k => ?_, fun i k => ?_, fun i k => ?_⟩
  · rw [hC, hK]
    simp only [flat, ckCov, Matrix.submatrix_apply, finSumFinEquiv_symm_apply_castAdd, Matrix.fromBlocks_apply₁₁, Matrix.smul_apply, smul_eq_mul]
    rw [covTrain_apply _ hpl, hXl']
  · rw [hC]
    simp only [flat, ckCov, Matrix.submatrix_apply, finSumFinEquiv_symm_apply_castAdd, finSumFinEquiv_symm_apply_natAdd, Matrix.fromBlocks_apply₁₂, Matrix.smul_apply, smul_eq_mul]
    rw [hcol, hXl', hXh']
  · rw [hC]
    simp only [flat, ckCov, Matrix.submatrix_apply, finSumFinEquiv_symm_apply_castAdd, finSumFinEquiv_symm_apply_natAdd, Matrix.fromBlocks_apply₂₁, Matrix.smul_apply, smul_eq_mul]
    rw [hcol, hXl', hXh']
  · rw [hC]
    simp only [flat, ckCov, Matrix.submatrix_apply, finSumFinEquiv_symm_apply_natAdd, Matrix.fromBlocks_apply₂₂, Matrix.add_apply, Matrix.smul_apply, smul_eq_mul]
    rw [hcol, covTrain_apply _ hp, hXh']
    simp only [Fin.val_inj]

/-- C102 (what holds). The mean of a co-Kriging prediction is the best linear unbiased prediction, with an unknown constant mean, from all responses (`wt` are the weights of the
low-fidelity responses followed by the high-fidelity ones; covariance as in `C102_ck_covariance` plus the jitter `1e-10`; `c` the covariances with the point).  The squared standard deviation is
the mean squared error *without* the part that comes from estimating the mean, times the squared spread, plus the squared noise.  Missing: that part. -/
theorem C102_ck_prediction_partial (ck : CKObj d q) (w : CKWorld d) (Xh : Samples nh d) (yh : Fin nh → ℝ) (Xl : Samples nl d) (yl : Fin nl → ℝ)
    (ck' : CKObj d q) (t : CKFit nh nl d q) (h : ck.train w Xh yh Xl yl = .ok (ck', t)) (Xnew : Samples m d) :
    ∃ μ σ ck'' s, ck'.predict t Xnew = .ok μ ∧ ck'.predictStd t Xnew = .ok (ck'', μ, σ) ∧ ck'.noise = some s ∧ ∀ j,
      let u : (Fin d → ℝ) → Fin d → ℝ := fun x k => (x k - ck.box.low k) / (ck.box.high k - ck.box.low k)
      let A : Matrix (Fin (nl + nh)) (Fin (nl + nh)) ℝ := fun a b => t.C a b + if a = b then 1e-10 else 0
      let v := t.rho ^ 2 * t.lfFit.gls.sigma2 + t.sigma2
      let c : Fin (nl + nh) → ℝ := Fin.append
        (fun i => t.rho * t.lfFit.gls.sigma2 * (gaussCorr ck'.lf.kernel.param (u (Xl i)) (u (Xnew j)) + if i.val = j.val then 1e-10 else 0))
        (fun i => t.rho ^ 2 * t.lfFit.gls.sigma2 * (gaussCorr ck'.lf.kernel.param (u (Xh i)) (u (Xnew j)) + if i.val = j.val then 1e-10 else 0) +
          t.sigma2 * (gaussCorr ck'.kernel.param (u (Xh i)) (u (Xnew j)) + if i.val = j.val then 1e-10 else 0))
      ∃ wt, BestLinearUnbiased A c (fun _ (_ : Fin 1) => 1) (fun _ => 1) wt ∧
        μ j = ∑ a, wt a * Fin.append yl yh a ∧
        σ j ^ 2 = max (predErr v A c wt - (1 - ∑ a, (A⁻¹ *ᵥ c) a) ^ 2 / ∑ a, (A⁻¹ *ᵥ fun _ => 1) a) 0 * std yh ^ 2 + (s * std yh) ^ 2 ∧
        0 < ∑ a, (A⁻¹ *ᵥ fun _ => 1) a := by
  obtain ⟨hT, hyh, hyl, hm, hsd, hbox, hXh, hXl, hno, hlf⟩ := ckTrained_of_train h
  obtain ⟨s, hs, _⟩ := hT.C
  have hpl := fun k => (hT.lf.param k).le
  have hp := fun k => (ck_param_pos h k).le
  have hmean : ck'.predict t Xnew = .ok (fun j => (t.mu + ((crossCov ck' t (fun i => normPt ck'.box (Xnew i)))ᵀ *ᵥ
      ((t.C + jitter • (1 : Matrix (Fin (nl + nh)) (Fin (nl + nh)) ℝ))⁻¹ *ᵥ fun i => t.y i - t.mu)) j) * t.yhStd + t.yhMean) := Py.bind_ok.mpr ⟨_, normalizeInput_eq Xnew hT.range, Py.bind_ok.mpr ⟨_, cholSolveV_eq hT.LC _, rfl⟩⟩
  have hstd : ck'.predictStd t Xnew = .ok ({ ck' with noise := some (s * t.yhStd) }, (fun j => (t.mu + ((crossCov ck' t (fun i => normPt ck'.box (Xnew i)))ᵀ *ᵥ
      ((t.C + jitter • (1 : Matrix (Fin (nl + nh)) (Fin (nl + nh)) ℝ))⁻¹ *ᵥ fun i => t.y i - t.mu)) j) * t.yhStd + t.yhMean),
      fun j => Real.sqrt ((Real.sqrt (max (t.rho ^ 2 * t.lfFit.gls.sigma2 + t.sigma2 - ((crossCov ck' t (fun i => normPt ck'.box (Xnew i)))ᵀ *
        ((t.C + jitter • (1 : Matrix (Fin (nl + nh)) (Fin (nl + nh)) ℝ))⁻¹ * crossCov ck' t (fun i => normPt ck'.box (Xnew i)))) j j) 0) * t.yhStd) ^ 2 + (s * t.yhStd) ^ 2)) := by
    refine Py.bind_ok.mpr ⟨_, hmean, Py.bind_ok.mpr ⟨_, normalizeInput_eq Xnew hT.range, Py.bind_ok.mpr ⟨_, cholSolve_eq hT.LC _, ?_⟩⟩⟩
    rw [hs]
  refine ⟨_, _, _, s, hmean, hstd, hs, fun j => ?_⟩
  intro u A v c
  have hu : u = normPt ck'.box := by rw [hbox]; rfl
  have hjit : jitter = 1e-10 := by unfold jitter; norm_num
  have hA : t.C + jitter • (1 : Matrix (Fin (nl + nh)) (Fin (nl + nh)) ℝ) = A := by
    ext a b
    simp only [Matrix.add_apply, Matrix.smul_apply, Matrix.one_apply, smul_eq_mul, A, hjit]
    split <;> ring
  have hc : (fun a => crossCov ck' t (fun i => normPt ck'.box (Xnew i)) a j) = c := by
    have hXh' : t.Xhs = fun i => u (Xh i) := hXh
    have hXl' : t.Xls = fun i => u (Xl i) := hXl
    have hcol : ∀ {n : ℕ} (X : Samples n d) i, rbfMatrix ck'.lf.kernel.param X (fun i => u (Xnew i)) i j =
        gaussCorr ck'.lf.kernel.param (X i) (u (Xnew j)) + if i.val = j.val then 1e-10 else 0 :=
      fun X i => congrFun (rbfMatrix_col ck'.lf.kernel.param hpl X (fun i => u (Xnew i)) j) i
    have hcol' : ∀ {n : ℕ} (X : Samples n d) i, rbfMatrix ck'.kernel.param X (fun i => u (Xnew i)) i j =
        gaussCorr ck'.kernel.param (X i) (u (Xnew j)) + if i.val = j.val then 1e-10 else 0 :=
      fun X i => congrFun (rbfMatrix_col ck'.kernel.param hp X (fun i => u (Xnew i)) j) i
    rw [← hu]
    funext a
    refine Fin.addCases (fun i => ?_) (fun i => ?_) a
    · simp only [c, Fin.append_left, crossCov, finSumFinEquiv_symm_apply_castAdd, RBF.getKernelMatrix]
      rw [hcol, hXl']
    · simp only [c, Fin.append_right, crossCov, finSumFinEquiv_symm_apply_natAdd, RBF.getKernelMatrix]
      rw [hcol, hcol', hXh']
  have hAP : A.PosDef := by rw [← hA]; exact hT.LC.posDef
  have hpos : 0 < nl + nh := by have := hT.pos; omega
  have hsum : ∀ x : Fin (nl + nh) → ℝ, ∑ a, x a = (fun _ => 1) ⬝ᵥ x := by intro x; simp [dotProduct]
  obtain ⟨wt, hb, hmu, herr⟩ := ordinary_kriging hAP hpos t.y c v
  refine ⟨wt, hb, ?_, ?_, ?_⟩
  · have h1 := (C100_weighted_sum _ _ _ _ wt hb 0 (fun _ => rfl) rfl (Fin.append yl yh) (mean yh)).2
    rw [← h1]
    have e : ((crossCov ck' t (fun i => normPt ck'.box (Xnew i)))ᵀ *ᵥ ((t.C + jitter • (1 : Matrix (Fin (nl + nh)) (Fin (nl + nh)) ℝ))⁻¹ *ᵥ fun i => t.y i - t.mu)) j =
        c ⬝ᵥ (A⁻¹ *ᵥ fun i => t.y i - t.mu) := by rw [hA, ← hc]; rfl
    have hmuT : t.mu = ((fun _ => 1) ⬝ᵥ (A⁻¹ *ᵥ t.y)) / ((fun _ => 1) ⬝ᵥ (A⁻¹ *ᵥ fun _ => 1)) := by rw [hT.mu, hA]
    simp only [] at hmu
    rw [← hmuT] at hmu
    show (t.mu + _) * t.yhStd + t.yhMean = _
    rw [e, hmu, hsd, hm, add_comm, Finset.sum_mul]
    congr 1
    refine Finset.sum_congr rfl (fun a _ => ?_)
    have hne : std yh ≠ 0 := by rw [← hsd]; exact hT.stdpos.ne'
    rw [hT.y, hyh, hyl, hm, hsd, mul_assoc]
    congr 1
    refine Fin.addCases (fun i => ?_) (fun i => ?_) a
    · rw [Fin.append_left, Fin.append_left, div_mul_cancel₀ _ hne]
    · rw [Fin.append_right, Fin.append_right, div_mul_cancel₀ _ hne]
  · rw [Real.sq_sqrt (by positivity), mul_pow, Real.sq_sqrt (le_max_right _ _), herr, hsum, hsum, hsd]
    congr 3
    have e : ((crossCov ck' t (fun i => normPt ck'.box (Xnew i)))ᵀ * ((t.C + jitter • (1 : Matrix (Fin (nl + nh)) (Fin (nl + nh)) ℝ))⁻¹ *
        crossCov ck' t (fun i => normPt ck'.box (Xnew i)))) j j = c ⬝ᵥ (A⁻¹ *ᵥ c) := by rw [hA, ← hc]; rfl
    rw [e]
    ring
  · rw [hsum]
    exact ones_quad_pos hAP hpos

/-- Correlations vanish far away: along the diagonal of the unit box. -/
theorem gaussCorr_far (hd : 0 < d) (θ a : Fin d → ℝ) (hθ : ∀ k, 0 < θ k) : Filter.Tendsto (fun T : ℝ => gaussCorr θ a (fun _ => T)) Filter.atTop (nhds 0) := by
  unfold gaussCorr
  refine Real.tendsto_exp_atBot.comp ?_
  refine Filter.tendsto_neg_atTop_atBot.comp ?_
  let k0 : Fin d := ⟨0, hd⟩
  have h1 : Filter.Tendsto (fun T : ℝ => θ k0 * (T + (-a k0 - 1 / 4))) Filter.atTop Filter.atTop :=
    (Filter.tendsto_atTop_add_const_right _ _ Filter.tendsto_id).const_mul_atTop (hθ k0)
  refine Filter.tendsto_atTop_mono (fun T => ?_) h1
  have h2 : θ k0 * (T + (-a k0 - 1 / 4)) ≤ θ k0 * (a k0 - T) ^ 2 := by
    apply mul_le_mul_of_nonneg_left _ (hθ k0).le
    nlinarith [sq_nonneg (T - a k0 - 1 / 2)]
  exact h2.trans (Finset.single_le_sum (f := fun k => θ k * (a k - T) ^ 2) (fun k _ => mul_nonneg (hθ k).le (sq_nonneg _)) (Finset.mem_univ k0))

theorem best_unique {C : Fin n → Fin n → ℝ} {c : Fin n → ℝ} {F : Fin n → Fin q → ℝ} {f : Fin q → ℝ} {w w' : Fin n → ℝ} (h : BestLinearUnbiased C c F f w)
    (h' : BestLinearUnbiased C c F f w') : w = w' := by
  by_contra hne
  have h1 := h.best w' h'.unbiased (Ne.symm hne) 0
  have h2 := h'.best w h.unbiased hne 0
  linarith

/-- C102 (what does not hold). For *every* trained co-Kriging model with a non-zero process variance there is a point at which the reported variance is smaller than the mean squared error of the
reported mean plus the noise variance.  (The last row of the prediction set is beyond the row numbers of the samples, so `c` carries no `1e-10`.) -/
theorem C102_ck_std_too_small (ck : CKObj d q) (w : CKWorld d) (Xh : Samples nh d) (yh : Fin nh → ℝ) (Xl : Samples nl d) (yl : Fin nl → ℝ)
    (ck' : CKObj d q) (t : CKFit nh nl d q) (h : ck.train w Xh yh Xl yl = .ok (ck', t)) (hd : 0 < d) (hv : 0 < t.rho ^ 2 * t.lfFit.gls.sigma2 + t.sigma2) :
    ∃ (x : Fin d → ℝ) (ck'' : CKObj d q) (μ σ : Fin (nl + nh + 1) → ℝ) (s : ℝ), ck'.predictStd t (fun _ => x) = .ok (ck'', μ, σ) ∧ ck'.noise = some s ∧
      let u : (Fin d → ℝ) → Fin d → ℝ := fun x k => (x k - ck.box.low k) / (ck.box.high k - ck.box.low k)
      let A : Matrix (Fin (nl + nh)) (Fin (nl + nh)) ℝ := fun a b => t.C a b + if a = b then 1e-10 else 0
      let v := t.rho ^ 2 * t.lfFit.gls.sigma2 + t.sigma2
      let c : Fin (nl + nh) → ℝ := Fin.append
        (fun i => t.rho * t.lfFit.gls.sigma2 * gaussCorr ck'.lf.kernel.param (u (Xl i)) (u x))
        (fun i => t.rho ^ 2 * t.lfFit.gls.sigma2 * gaussCorr ck'.lf.kernel.param (u (Xh i)) (u x) + t.sigma2 * gaussCorr ck'.kernel.param (u (Xh i)) (u x))
      ∀ wt, BestLinearUnbiased A c (fun _ (_ : Fin 1) => 1) (fun _ => 1) wt →
        μ (Fin.last _) = ∑ a, wt a * Fin.append yl yh a ∧ σ (Fin.last _) ^ 2 < predErr v A c wt * std yh ^ 2 + (s * std yh) ^ 2 := by
  obtain ⟨hT, hyh, hyl, hm, hsd, hbox, hXh, hXl, hno, hlf⟩ := ckTrained_of_train h
  have hpl := hT.lf.param
  have hp := ck_param_pos h
  let u : (Fin d → ℝ) → Fin d → ℝ := fun x k => (x k - ck.box.low k) / (ck.box.high k - ck.box.low k)
  let A : Matrix (Fin (nl + nh)) (Fin (nl + nh)) ℝ := fun a b => t.C a b + if a = b then 1e-10 else 0
  let v := t.rho ^ 2 * t.lfFit.gls.sigma2 + t.sigma2
  let c : ℝ → Fin (nl + nh) → ℝ := fun T => Fin.append
        (fun i => t.rho * t.lfFit.gls.sigma2 * gaussCorr ck'.lf.kernel.param (u (Xl i)) (fun _ => T))
        (fun i => t.rho ^ 2 * t.lfFit.gls.sigma2 * gaussCorr ck'.lf.kernel.param (u (Xh i)) (fun _ => T) + t.sigma2 * gaussCorr ck'.kernel.param (u (Xh i)) (fun _ => T))
  have hc0 : ∀ a, Filter.Tendsto (fun T => c T a) Filter.atTop (nhds 0) := by
    intro a
    refine Fin.addCases (fun i => ?_) (fun i => ?_) a
    · simp only [c, Fin.append_left]
      have := (gaussCorr_far hd ck'.lf.kernel.param (u (Xl i)) hpl).const_mul (t.rho * t.lfFit.gls.sigma2)
      simpa using this
    · simp only [c, Fin.append_right]
      have := ((gaussCorr_far hd ck'.lf.kernel.param (u (Xh i)) hpl).const_mul (t.rho ^ 2 * t.lfFit.gls.sigma2)).add
        ((gaussCorr_far hd ck'.kernel.param (u (Xh i)) hp).const_mul t.sigma2)
      simpa using this
  have hAc : ∀ a, Filter.Tendsto (fun T => (A⁻¹ *ᵥ c T) a) Filter.atTop (nhds 0) := by
    intro a
    have := tendsto_finsetSum Finset.univ (fun b _ => (hc0 b).const_mul (A⁻¹ a b))
    simpa [Matrix.mulVec, dotProduct] using this
  have h1 : Filter.Tendsto (fun T => ∑ a, (A⁻¹ *ᵥ c T) a) Filter.atTop (nhds 0) := by
    have := tendsto_finsetSum Finset.univ (fun a _ => hAc a)
    simpa using this
  have h2 : Filter.Tendsto (fun T => c T ⬝ᵥ (A⁻¹ *ᵥ c T)) Filter.atTop (nhds 0) := by
    have := tendsto_finsetSum Finset.univ (fun a _ => (hc0 a).mul (hAc a))
    simpa [dotProduct] using this
  obtain ⟨T, hT1, hT2⟩ := ((h1.eventually (gt_mem_nhds (show (0 : ℝ) < 1 by norm_num))).and (h2.eventually (gt_mem_nhds hv))).exists
  let x : Fin d → ℝ := fun k => ck.box.low k + (ck.box.high k - ck.box.low k) * T
  have hux : u x = fun _ => T := by
    funext k
    have := hT.range k
    rw [hbox] at this
    simp only [u, x]
    field_simp
    ring
  obtain ⟨μ, σ, ck'', s, _, hstd, hs, hall⟩ := C102_ck_prediction_partial ck w Xh yh Xl yl ck' t h (fun _ : Fin (nl + nh + 1) => x)
  refine ⟨x, ck'', μ, σ, s, hstd, hs, ?_⟩
  obtain ⟨wt, hb, hμ, hσ, hq⟩ := hall (Fin.last _)
  have hcc : Fin.append
        (fun i => t.rho * t.lfFit.gls.sigma2 * (gaussCorr ck'.lf.kernel.param (u (Xl i)) (u x) + if i.val = (Fin.last (nl + nh)).val then 1e-10 else 0))
        (fun i => t.rho ^ 2 * t.lfFit.gls.sigma2 * (gaussCorr ck'.lf.kernel.param (u (Xh i)) (u x) + if i.val = (Fin.last (nl + nh)).val then 1e-10 else 0) +
          t.sigma2 * (gaussCorr ck'.kernel.param (u (Xh i)) (u x) + if i.val = (Fin.last (nl + nh)).val then 1e-10 else 0)) = c T := by
    funext a
    refine Fin.addCases (fun i => ?_) (fun i => ?_) a
    · have := i.isLt
      simp only [c, Fin.append_left, Fin.val_last, hux]
      rw [if_neg (by omega), add_zero]
    · have := i.isLt
      simp only [c, Fin.append_right, Fin.val_last, hux]
      rw [if_neg (by omega), add_zero, add_zero]
  have hcc' : Fin.append
        (fun i => t.rho * t.lfFit.gls.sigma2 * gaussCorr ck'.lf.kernel.param (u (Xl i)) (u x))
        (fun i => t.rho ^ 2 * t.lfFit.gls.sigma2 * gaussCorr ck'.lf.kernel.param (u (Xh i)) (u x) + t.sigma2 * gaussCorr ck'.kernel.param (u (Xh i)) (u x)) = c T := by
    rw [hux]
  have hAP : A.PosDef := by
    have hjit : jitter = 1e-10 := by unfold jitter; norm_num
    have hA : t.C + jitter • (1 : Matrix (Fin (nl + nh)) (Fin (nl + nh)) ℝ) = A := by
      ext a b
      simp only [Matrix.add_apply, Matrix.smul_apply, Matrix.one_apply, smul_eq_mul, A, hjit]
      split <;> ring
    rw [← hA]; exact hT.LC.posDef
  intro u' A' v' c' wt' hb'
  change BestLinearUnbiased A (Fin.append _ _) _ _ wt at hb
  have hb1 : BestLinearUnbiased A (c T) (fun _ (_ : Fin 1) => 1) (fun _ => 1) wt := by rw [← hcc]; exact hb
  have hb2 : BestLinearUnbiased A (c T) (fun _ (_ : Fin 1) => 1) (fun _ => 1) wt' := by rw [← hcc']; exact hb'
  have hw := best_unique hb2 hb1
  refine ⟨by rw [hw]; exact hμ, ?_⟩
  have hpos : 0 < nl + nh := by have := hT.pos; omega
  have hsum : ∀ x : Fin (nl + nh) → ℝ, ∑ a, x a = (fun _ => 1) ⬝ᵥ x := by intro x; simp [dotProduct]
  obtain ⟨wt2, hb3, _, herr⟩ := ordinary_kriging hAP hpos t.y (c T) v
  have hw2 := best_unique hb3 hb1
  rw [hw2, ← hsum, ← hsum] at herr
  have hσ' : σ (Fin.last _) ^ 2 = max (predErr v A (c T) wt - (1 - ∑ a, (A⁻¹ *ᵥ c T) a) ^ 2 / ∑ a, (A⁻¹ *ᵥ fun _ => 1) a) 0 * std yh ^ 2 + (s * std yh) ^ 2 := by
    rw [← hcc]; exact hσ
  have hc' : c' = c T := hcc'
  have hgoal : σ (Fin.last _) ^ 2 < predErr v A (c T) wt * std yh ^ 2 + (s * std yh) ^ 2 := by
    have hq' : 0 < ∑ a, (A⁻¹ *ᵥ fun _ => 1) a := hq
    have hstdp : 0 < std yh := by rw [← hsd]; exact hT.stdpos
    have hgap : 0 < (1 - ∑ a, (A⁻¹ *ᵥ c T) a) ^ 2 / ∑ a, (A⁻¹ *ᵥ fun _ => 1) a := div_pos (pow_pos (by linarith) 2) hq'
    have hsimple : 0 < predErr v A (c T) wt - (1 - ∑ a, (A⁻¹ *ᵥ c T) a) ^ 2 / ∑ a, (A⁻¹ *ᵥ fun _ => 1) a := by
      rw [herr]
      have : c T ⬝ᵥ (A⁻¹ *ᵥ c T) < v := hT2
      linarith
    rw [hσ', max_eq_left hsimple.le]
    have : 0 < std yh ^ 2 := by positivity
    nlinarith
  rw [hw, hc']
  exact hgoal

/-- A trained model that meets the hypotheses of `C102_ck_std_too_small`. -/
theorem exCK_variance_pos : ∃ (ck ck' : CKObj 1 1) (t : CKFit 2 2 1 1), ck.train exCKWorld (fun i _ => ![0, 1] i : Samples 2 1) ![0, 4] (fun i _ => ![0, 1] i : Samples 2 1) ![0, 1] = .ok (ck', t) ∧
    0 < t.rho ^ 2 * t.lfFit.gls.sigma2 + t.sigma2 := by
  obtain ⟨ck', t, h⟩ := exCK_trains (some 1) (by simp) (fun i _ => ![0, 1] i : Samples 2 1) ![0, 4] (fun i _ => ![0, 1] i : Samples 2 1) ![0, 1] 0 1 (by norm_num) (by norm_num)
  refine ⟨_, ck', t, h, ?_⟩
  obtain ⟨hT, hyh, hyl, hm, hsd, hbox, hXh, hXl, hno, hlf⟩ := ckTrained_of_train h
  obtain ⟨_, _, hy, hregr, _⟩ := rawTrained_of_train hlf
  have hl : 0 < t.lfFit.gls.sigma2 := by
    refine hT.lf.gls.sigma2_pos (fun he => ?_)
    rw [hT.lf.F, show ck'.lf.regr = ordinary 1 from hregr] at he
    have h0 := congrFun he 0
    have h1 := congrFun he 1
    rw [ordinary_mulVec] at h0 h1
    rw [← h1, hy, exCK_std] at h0
    norm_num at h0
    linarith
  have hr : t.rho = 1 / 100 := by
    unfold CKObj.train at h
    obtain ⟨_, _, h⟩ := Py.bind_ok.mp h
    obtain ⟨_, _, h⟩ := Py.bind_ok.mp h
    obtain ⟨_, _, h⟩ := Py.bind_ok.mp h
    obtain ⟨⟨_, _⟩, _, h⟩ := Py.bind_ok.mp h
    obtain ⟨⟨rho, theta, _⟩, h5, h⟩ := Py.bind_ok.mp h
    obtain ⟨_, _, h⟩ := Py.bind_ok.mp h
    obtain ⟨_, _, h⟩ := Py.bind_ok.mp h
    obtain ⟨_, _, h⟩ := Py.bind_ok.mp h
    obtain ⟨_, _, h⟩ := Py.bind_ok.mp h
    obtain ⟨_, _, h⟩ := Py.bind_ok.mp h
    simp only [Except.ok.injEq, Prod.mk.injEq] at h
    obtain ⟨_, e2⟩ := h
    unfold CKObj.fitHyper at h5
    obtain ⟨x, hx, h5⟩ := Py.bind_ok.mp h5
    simp only [Except.ok.injEq, Prod.mk.injEq] at h5
    have := corner_search (x0 := fun _ => 0) hx
    rw [← e2]
    show rho = _
    rw [← h5.1, this]
    rfl
  rw [hr]
  have := hT.sigma2
  positivity

/-- C102 is false: a trained model and a point at which no weights that make the best linear unbiased prediction have a mean squared error matching the reported variance. -/
theorem C102_counterexample : ∃ (ck ck' ck'' : CKObj 1 1) (t : CKFit 2 2 1 1) (x : Fin 1 → ℝ) (μ σ : Fin 5 → ℝ) (s : ℝ),
    ck.train exCKWorld (fun i _ => ![0, 1] i : Samples 2 1) ![0, 4] (fun i _ => ![0, 1] i : Samples 2 1) ![0, 1] = .ok (ck', t) ∧
    ck'.predictStd t (fun _ => x) = .ok (ck'', μ, σ) ∧ ck'.noise = some s ∧
      let u : (Fin 1 → ℝ) → Fin 1 → ℝ := fun x k => (x k - ck.box.low k) / (ck.box.high k - ck.box.low k)
      let A : Matrix (Fin 4) (Fin 4) ℝ := fun a b => t.C a b + if a = b then 1e-10 else 0
      let v := t.rho ^ 2 * t.lfFit.gls.sigma2 + t.sigma2
      let c : Fin 4 → ℝ := Fin.append
        (fun i : Fin 2 => t.rho * t.lfFit.gls.sigma2 * gaussCorr ck'.lf.kernel.param (u (fun _ => ![0, 1] i)) (u x))
        (fun i : Fin 2 => t.rho ^ 2 * t.lfFit.gls.sigma2 * gaussCorr ck'.lf.kernel.param (u (fun _ => ![0, 1] i)) (u x) +
          t.sigma2 * gaussCorr ck'.kernel.param (u (fun _ => ![0, 1] i)) (u x))
      ∀ wt, BestLinearUnbiased A c (fun _ (_ : Fin 1) => 1) (fun _ => 1) wt → σ 4 ^ 2 < predErr v A c wt * std (![0, 4] : Fin 2 → ℝ) ^ 2 + (s * std (![0, 4] : Fin 2 → ℝ)) ^ 2 := by
  obtain ⟨ck, ck', t, h, hv⟩ := exCK_variance_pos
  obtain ⟨x, ck'', μ, σ, s, h1, h2, h3⟩ := C102_ck_std_too_small ck exCKWorld _ _ _ _ ck' t h (by norm_num) hv
  exact ⟨ck, ck', ck'', t, x, μ, σ, s, h, h1, h2, fun wt hwt => (h3 wt hwt).2⟩

end Mfpml.Props
