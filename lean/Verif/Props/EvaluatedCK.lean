import Verif.Props.EvaluatedMF
import Verif.Props.CoKrigingPrediction

/-!
# Co-Kriging predictions at evaluated points, whatever the batch (C188)
-/

set_option linter.unusedSectionVars false

open scoped BigOperators Matrix

namespace Mfpml.Props

open Mfpml.GP Mfpml.Spec
open Mfpml.EA (Box)

variable {nh nl n m d q : ℕ}

/-- C188 (co-Kriging, standard deviation). In every batch and every row of it, the squared standard deviation at a high-fidelity sample is at most `(1e-10 (v + 1) + σd² s²) std² + (s std)²`, where `v = ρ² σl² + σd²` is the
variance of the fitted high-fidelity process and `s` the noise relative to the spread `std` of the high-fidelity responses. -/
theorem C188_ck_std (ck : CKObj d q) (w : CKWorld d) (Xh : Samples nh d) (yh : Fin nh → ℝ) (Xl : Samples nl d) (yl : Fin nl → ℝ)
    (ck' : CKObj d q) (t : CKFit nh nl d q) (h : ck.train w Xh yh Xl yl = .ok (ck', t)) (Xnew : Samples m d) (j : Fin m) (i : Fin nh) (hx : Xnew j = Xh i) :
    ∃ ck'' μ σ s, ck'.predictStd t Xnew = .ok (ck'', μ, σ) ∧ ck'.noise = some s ∧
      σ j ^ 2 ≤ (1e-10 * (t.rho ^ 2 * t.lfFit.gls.sigma2 + t.sigma2 + 1) + t.sigma2 * s ^ 2) * std yh ^ 2 + (s * std yh) ^ 2 := by
  obtain ⟨s, hs, hl0, hd0, _, _, _, hhh⟩ := C102_ck_covariance ck w Xh yh Xl yl ck' t h
  obtain ⟨μ, σ, ck'', s', _, hpred, hs', hall⟩ := C102_ck_prediction_partial ck w Xh yh Xl yl ck' t h Xnew
  rw [hs] at hs'
  obtain rfl := Option.some.inj hs'
  obtain ⟨wt, hb, _, hσ, hq⟩ := hall j
  refine ⟨ck'', μ, σ, s, hpred, hs, ?_⟩
  rw [hσ]
  refine add_le_add (mul_le_mul_of_nonneg_right (max_le ?_ (by positivity)) (sq_nonneg _)) le_rfl
  refine (sub_le_self _ (div_nonneg (sq_nonneg _) hq.le)).trans ?_
  have hbest : ∀ (v : ℝ) (C : Fin (nl + nh) → Fin (nl + nh) → ℝ) (c : Fin (nl + nh) → ℝ), BestLinearUnbiased C c (fun _ (_ : Fin 1) => 1) (fun _ => 1) wt →
      predErr v C c wt ≤ v - 2 * c (Fin.natAdd nl i) + C (Fin.natAdd nl i) (Fin.natAdd nl i) := by
    intro v C c hb
    have h1 := best_le hb (unbiased_pick (fun _ (_ : Fin 1) => (1 : ℝ)) (fun _ => 1) (Fin.natAdd nl i) rfl)
    rw [predErr_pick] at h1
    simp only [predErr] at h1 ⊢
    linarith
  refine (hbest _ _ _ hb).trans ?_
  rw [Fin.append_right, hhh, if_pos rfl, if_pos rfl, if_pos rfl, hx, gaussCorr_self, gaussCorr_self]
  have h1 : 0 ≤ t.rho ^ 2 * t.lfFit.gls.sigma2 := mul_nonneg (sq_nonneg _) hl0
  split <;> nlinarith

/-- The quadratic form of the covariance matrix of co-Kriging is at least that of the jitter and the noise on its diagonal. -/
theorem ck_quad_ge {ck' : CKObj d q} {t : CKFit nh nl d q} (hT : CKTrained ck' t) (s : ℝ) (hs : ck'.noise = some s) (z : Fin (nl + nh) → ℝ) :
    1e-10 * ∑ i : Fin nl, z (Fin.castAdd nh i) ^ 2 + (1e-10 + t.sigma2 * s ^ 2) * ∑ i : Fin nh, z (Fin.natAdd nl i) ^ 2 ≤
      z ⬝ᵥ ((t.C + jitter • (1 : Matrix (Fin (nl + nh)) (Fin (nl + nh)) ℝ)) *ᵥ z) := by
  obtain ⟨s', hs', hC⟩ := hT.C
  rw [hs] at hs'
  obtain rfl := Option.some.inj hs'
  have hM := posSemidef_flat (posSemidef_ckCov ck'.lf.kernel.param ck'.kernel.param t.Xls t.Xhs t.lfFit.noise 0 t.rho hT.lf.gls.sigma2_nonneg hT.sigma2)
  have h0 := hM.dotProduct_mulVec_nonneg z
  have hK := hT.lf.K
  rw [hT.lfX] at hK
  rw [← hK] at h0
  have hjit : jitter = 1e-10 := by unfold jitter; norm_num
  have hdec : t.C + jitter • (1 : Matrix (Fin (nl + nh)) (Fin (nl + nh)) ℝ) =
      flat (ckCov t.lfFit.K ck'.lf.kernel.param t.lfFit.gls.sigma2 t.rho t.sigma2 (covTrain ck'.kernel.param t.Xhs 0) t.Xls t.Xhs) +
        Matrix.diagonal (Fin.append (fun _ : Fin nl => 1e-10) (fun _ : Fin nh => 1e-10 + t.sigma2 * s ^ 2)) := by
    rw [hC]
    ext a b
    refine Fin.addCases (fun i => ?_) (fun i => ?_) a <;> refine Fin.addCases (fun k => ?_) (fun k => ?_) b
    all_goals
      simp [flat, ckCov, Matrix.diagonal_apply, Matrix.one_apply, hjit, covTrain]
    · rw [if_neg, if_neg]
      all_goals
        intro hik
        have := congrArg Fin.val hik
        simp at this
        have := k.isLt
        omega
    · split <;> ring
  rw [hdec, Matrix.add_mulVec, dotProduct_add]
  have h1 : z ⬝ᵥ (Matrix.diagonal (Fin.append (fun _ : Fin nl => (1e-10 : ℝ)) (fun _ : Fin nh => 1e-10 + t.sigma2 * s ^ 2)) *ᵥ z) =
      1e-10 * ∑ i : Fin nl, z (Fin.castAdd nh i) ^ 2 + (1e-10 + t.sigma2 * s ^ 2) * ∑ i : Fin nh, z (Fin.natAdd nl i) ^ 2 := by
    simp only [dotProduct, Matrix.mulVec_diagonal, Fin.sum_univ_add, Fin.append_left, Fin.append_right, Finset.mul_sum]
    congr 1 <;> exact Finset.sum_congr rfl (fun i _ => by ring)
  rw [h1]
  have h2 : 0 ≤ z ⬝ᵥ (flat (ckCov t.lfFit.K ck'.lf.kernel.param t.lfFit.gls.sigma2 t.rho t.sigma2 (covTrain ck'.kernel.param t.Xhs 0) t.Xls t.Xhs) *ᵥ z) := by simpa using h0
  linarith

/-- C188 (co-Kriging, mean). In every batch and every row of it, the prediction at a high-fidelity sample misses its response by at most `(2e-5 (|ρ| σl² + v) + sqrt (1e-10 + σd² s²)) sqrt Q std`, where
`v = ρ² σl² + σd²` and `Q = ∑ z_a (y_a - mean)` is the squared Mahalanobis length of the scaled responses about the fitted mean: `z` solves `A z = y - mean` for the joint covariance `A` (with the jitter `1e-10`). -/
theorem C188_ck_mean (ck : CKObj d q) (w : CKWorld d) (Xh : Samples nh d) (yh : Fin nh → ℝ) (Xl : Samples nl d) (yl : Fin nl → ℝ)
    (ck' : CKObj d q) (t : CKFit nh nl d q) (h : ck.train w Xh yh Xl yl = .ok (ck', t)) (Xnew : Samples m d) (j : Fin m) (i : Fin nh) (hx : Xnew j = Xh i) :
    ∃ (μ : Fin m → ℝ) (s : ℝ) (z : Fin (nl + nh) → ℝ), ck'.predict t Xnew = .ok μ ∧ ck'.noise = some s ∧
      (∀ a, ∑ b, (t.C a b + if a = b then 1e-10 else 0) * z b = (Fin.append yl yh a - mean yh) / std yh - t.mu) ∧
      |μ j - yh i| ≤ (2e-5 * (|t.rho| * t.lfFit.gls.sigma2 + (t.rho ^ 2 * t.lfFit.gls.sigma2 + t.sigma2)) + Real.sqrt (1e-10 + t.sigma2 * s ^ 2)) *
        Real.sqrt (∑ a, z a * ((Fin.append yl yh a - mean yh) / std yh - t.mu)) * std yh := by
  obtain ⟨s, hs, hl0, hd0, hll, hlh, hhl, hhh⟩ := C102_ck_covariance ck w Xh yh Xl yl ck' t h
  obtain ⟨hT, hyh, hyl, hm, hsd, hbox, hXh, hXl, hno, hlf⟩ := ckTrained_of_train h
  have hpl := fun k => (hT.lf.param k).le
  have hp := fun k => (ck_param_pos h k).le
  have hjit : jitter = 1e-10 := by unfold jitter; norm_num
  set A := t.C + jitter • (1 : Matrix (Fin (nl + nh)) (Fin (nl + nh)) ℝ) with hA
  have hAab : ∀ a b, A a b = t.C a b + if a = b then 1e-10 else 0 := by
    intro a b
    simp only [hA, Matrix.add_apply, Matrix.smul_apply, Matrix.one_apply, smul_eq_mul, hjit]
    split <;> ring
  set r : Fin (nl + nh) → ℝ := fun a => t.y a - t.mu with hr
  set z := A⁻¹ *ᵥ r with hz
  have hAz : A *ᵥ z = r := by
    rw [hz, Matrix.mulVec_mulVec, Matrix.mul_nonsing_inv _ hT.LC.isUnitA, Matrix.one_mulVec]
  have hya : ∀ a, r a = (Fin.append yl yh a - mean yh) / std yh - t.mu := by
    intro a
    simp only [hr, hT.y, hyh, hyl, hm, hsd]
    refine Fin.addCases (fun i => ?_) (fun i => ?_) a
    · rw [Fin.append_left, Fin.append_left]
    · rw [Fin.append_right, Fin.append_right]
  have hmean : ck'.predict t Xnew = .ok (fun j => (t.mu + ((crossCov ck' t (fun i => normPt ck'.box (Xnew i)))ᵀ *ᵥ z) j) * t.yhStd + t.yhMean) :=
    Py.bind_ok.mpr ⟨_, normalizeInput_eq Xnew hT.range, Py.bind_ok.mpr ⟨_, cholSolveV_eq hT.LC _, rfl⟩⟩
  refine ⟨_, s, z, hmean, hs, fun a => ?_, ?_⟩
  · rw [← hya, ← hAz]
    simp only [Matrix.mulVec, dotProduct, hAab]
  have hQ : ∑ a, z a * ((Fin.append yl yh a - mean yh) / std yh - t.mu) = z ⬝ᵥ (A *ᵥ z) := by
    rw [hAz]
    exact Finset.sum_congr rfl (fun a _ => by rw [hya])
  rw [hQ]
  have hge := ck_quad_ge hT s hs z
  set Q := z ⬝ᵥ (A *ᵥ z)
  have hs2 : 0 ≤ t.sigma2 * s ^ 2 := mul_nonneg hd0 (sq_nonneg _)
  have hL : ∀ k : Fin nl, z (Fin.castAdd nh k) ^ 2 ≤ ∑ i : Fin nl, z (Fin.castAdd nh i) ^ 2 := fun k =>
    Finset.single_le_sum (f := fun k => z (Fin.castAdd nh k) ^ 2) (fun a _ => sq_nonneg _) (Finset.mem_univ k)
  have hH : ∀ k : Fin nh, z (Fin.natAdd nl k) ^ 2 ≤ ∑ i : Fin nh, z (Fin.natAdd nl i) ^ 2 := fun k =>
    Finset.single_le_sum (f := fun k => z (Fin.natAdd nl k) ^ 2) (fun a _ => sq_nonneg _) (Finset.mem_univ k)
  have hL0 : 0 ≤ ∑ i : Fin nl, z (Fin.castAdd nh i) ^ 2 := Finset.sum_nonneg fun _ _ => sq_nonneg _
  have hH0 : 0 ≤ ∑ i : Fin nh, z (Fin.natAdd nl i) ^ 2 := Finset.sum_nonneg fun _ _ => sq_nonneg _
  have hQ0 : 0 ≤ Q := le_trans (by positivity) hge
  have hzl : ∀ k : Fin nl, 1e-10 * |z (Fin.castAdd nh k)| ≤ 1e-5 * Real.sqrt Q := by
    intro k
    refine le_trans (le_of_eq ?_) (abs_le_of_sq_le_sq (a := 1e-10 * z (Fin.castAdd nh k)) ?_ (by positivity))
    · rw [abs_mul, abs_of_nonneg (by norm_num : (0:ℝ) ≤ 1e-10)]
    · rw [mul_pow, mul_pow, Real.sq_sqrt hQ0]
      have := hL k
      have := mul_nonneg (by positivity : (0:ℝ) ≤ 1e-10 + t.sigma2 * s ^ 2) hH0
      nlinarith
  have hzh' : ∀ k : Fin nh, (1e-10 + t.sigma2 * s ^ 2) * z (Fin.natAdd nl k) ^ 2 ≤ Q := by
    intro k
    have := mul_le_mul_of_nonneg_left (hH k) (by positivity : (0:ℝ) ≤ 1e-10 + t.sigma2 * s ^ 2)
    have := mul_nonneg (by norm_num : (0:ℝ) ≤ 1e-10) hL0
    linarith
  have hzh : ∀ k : Fin nh, 1e-10 * |z (Fin.natAdd nl k)| ≤ 1e-5 * Real.sqrt Q := by
    intro k
    refine le_trans (le_of_eq ?_) (abs_le_of_sq_le_sq (a := 1e-10 * z (Fin.natAdd nl k)) ?_ (by positivity))
    · rw [abs_mul, abs_of_nonneg (by norm_num : (0:ℝ) ≤ 1e-10)]
    · rw [mul_pow, mul_pow, Real.sq_sqrt hQ0]
      have := hzh' k
      have := mul_nonneg hs2 (sq_nonneg (z (Fin.natAdd nl k)))
      nlinarith
  have hzi : (1e-10 + t.sigma2 * s ^ 2) * |z (Fin.natAdd nl i)| ≤ Real.sqrt (1e-10 + t.sigma2 * s ^ 2) * Real.sqrt Q := by
    rw [← Real.sqrt_mul (by positivity)]
    refine le_trans (le_of_eq ?_) (Real.abs_le_sqrt (x := (1e-10 + t.sigma2 * s ^ 2) * z (Fin.natAdd nl i)) ?_)
    · rw [abs_mul, abs_of_nonneg (by positivity : (0:ℝ) ≤ 1e-10 + t.sigma2 * s ^ 2)]
    · have := mul_le_mul_of_nonneg_left (hzh' i) (by positivity : (0:ℝ) ≤ 1e-10 + t.sigma2 * s ^ 2)
      refine le_trans (le_of_eq ?_) this
      ring
  -- the two rows
  have hpick : ∀ {k : ℕ} (x : Fin k → ℝ) (c : ℝ) (l : ℕ), ∑ b : Fin k, (if b.val = l then c else 0) * x b = if hl : l < k then c * x ⟨l, hl⟩ else 0 := by
    intro k x c l
    split
    · rename_i hl
      rw [Finset.sum_eq_single ⟨l, hl⟩]
      · simp
      · intro b _ hb
        rw [if_neg (fun hbj => hb (Fin.ext hbj)), zero_mul]
      · intro hh; exact absurd (Finset.mem_univ _) hh
    · rename_i hl
      refine Finset.sum_eq_zero (fun b _ => ?_)
      have := b.isLt
      rw [if_neg (by omega), zero_mul]
  have hpickle : ∀ (c : ℝ) (l : ℕ), |∑ b : Fin nl, (if b.val = l then c * 1e-10 else 0) * z (Fin.castAdd nh b)| ≤ |c| * (1e-5 * Real.sqrt Q) := by
    intro c l
    rw [hpick (fun b => z (Fin.castAdd nh b))]
    split
    · rw [mul_assoc, abs_mul, abs_mul, abs_of_nonneg (by norm_num : (0:ℝ) ≤ 1e-10)]
      exact mul_le_mul_of_nonneg_left (hzl _) (abs_nonneg _)
    · rw [abs_zero]; positivity
  have hpickhe : ∀ (c : ℝ) (l : ℕ), |∑ b : Fin nh, (if b.val = l then c * 1e-10 else 0) * z (Fin.natAdd nl b)| ≤ |c| * (1e-5 * Real.sqrt Q) := by
    intro c l
    rw [hpick (fun b => z (Fin.natAdd nl b))]
    split
    · rw [mul_assoc, abs_mul, abs_mul, abs_of_nonneg (by norm_num : (0:ℝ) ≤ 1e-10)]
      exact mul_le_mul_of_nonneg_left (hzh _) (abs_nonneg _)
    · rw [abs_zero]; positivity
  have hcol : ∀ {n : ℕ} (X : Samples n d) (k : Fin n), rbfMatrix ck'.lf.kernel.param X (fun i => normPt ck'.box (Xnew i)) k j =
      gaussCorr ck'.lf.kernel.param (X k) (normPt ck'.box (Xnew j)) + if k.val = j.val then 1e-10 else 0 :=
    fun X k => congrFun (rbfMatrix_col ck'.lf.kernel.param hpl X (fun i => normPt ck'.box (Xnew i)) j) k
  have hcol' : ∀ {n : ℕ} (X : Samples n d) (k : Fin n), rbfMatrix ck'.kernel.param X (fun i => normPt ck'.box (Xnew i)) k j =
      gaussCorr ck'.kernel.param (X k) (normPt ck'.box (Xnew j)) + if k.val = j.val then 1e-10 else 0 :=
    fun X k => congrFun (rbfMatrix_col ck'.kernel.param hp X (fun i => normPt ck'.box (Xnew i)) j) k
  have hxi : normPt ck'.box (Xnew j) = normPt ck.box (Xh i) := by rw [hbox, hx]
  set v := t.rho ^ 2 * t.lfFit.gls.sigma2 + t.sigma2 with hv
  have hv0 : 0 ≤ v := add_nonneg (mul_nonneg (sq_nonneg _) hl0) hd0
  have hcl : ∀ k : Fin nl, crossCov ck' t (fun i => normPt ck'.box (Xnew i)) (Fin.castAdd nh k) j - A (Fin.natAdd nl i) (Fin.castAdd nh k) =
      (if k.val = j.val then t.rho * t.lfFit.gls.sigma2 * 1e-10 else 0) - (if k.val = i.val then t.rho * t.lfFit.gls.sigma2 * 1e-10 else 0) := by
    intro k
    have hne : Fin.natAdd nl i ≠ Fin.castAdd nh k := by
      intro hik
      have := congrArg Fin.val hik
      simp at this
      have := k.isLt
      omega
    rw [hAab, hhl, if_neg hne, add_zero]
    simp only [crossCov, finSumFinEquiv_symm_apply_castAdd, RBF.getKernelMatrix]
    rw [hcol, hXl, hxi, gaussCorr_symm]
    simp only [eq_comm (a := i.val)]
    unfold normPt
    split <;> split <;> ring
  have hch : ∀ k : Fin nh, crossCov ck' t (fun i => normPt ck'.box (Xnew i)) (Fin.natAdd nl k) j - A (Fin.natAdd nl i) (Fin.natAdd nl k) =
      (if k.val = j.val then v * 1e-10 else 0) - (if k.val = i.val then v * 1e-10 else 0) - (if k.val = i.val then 1e-10 + t.sigma2 * s ^ 2 else 0) := by
    intro k
    rw [hAab, hhh]
    simp only [crossCov, finSumFinEquiv_symm_apply_natAdd, RBF.getKernelMatrix]
    rw [hcol, hcol', hXh, hxi, gaussCorr_symm, gaussCorr_symm ck'.kernel.param]
    have e1 : (Fin.natAdd nl i = Fin.natAdd nl k) = (k.val = i.val) := propext ⟨fun e => by have := congrArg Fin.val e; simp at this; omega, fun e => by rw [Fin.ext e]⟩
    have e2 : (i = k) = (k.val = i.val) := propext ⟨fun e => by rw [e], fun e => Fin.ext e.symm⟩
    simp only [e1, e2, hv]
    unfold normPt
    split <;> split <;> ring
  have hri : r (Fin.natAdd nl i) = ∑ b, A (Fin.natAdd nl i) b * z b := by rw [← hAz]; rfl
  have hyi : yh i = (t.mu + r (Fin.natAdd nl i)) * t.yhStd + t.yhMean := by
    have hne : std yh ≠ 0 := by rw [← hsd]; exact hT.stdpos.ne'
    rw [hya, Fin.append_right, hsd, hm]
    field_simp
    ring
  have herr : ((crossCov ck' t (fun i => normPt ck'.box (Xnew i)))ᵀ *ᵥ z) j - r (Fin.natAdd nl i) =
      (∑ b : Fin nl, (if b.val = j.val then t.rho * t.lfFit.gls.sigma2 * 1e-10 else 0) * z (Fin.castAdd nh b) -
        ∑ b : Fin nl, (if b.val = i.val then t.rho * t.lfFit.gls.sigma2 * 1e-10 else 0) * z (Fin.castAdd nh b)) +
      ((∑ b : Fin nh, (if b.val = j.val then v * 1e-10 else 0) * z (Fin.natAdd nl b) - ∑ b : Fin nh, (if b.val = i.val then v * 1e-10 else 0) * z (Fin.natAdd nl b)) -
        (1e-10 + t.sigma2 * s ^ 2) * z (Fin.natAdd nl i)) := by
    have e0 : ((crossCov ck' t (fun i => normPt ck'.box (Xnew i)))ᵀ *ᵥ z) j = ∑ b, crossCov ck' t (fun i => normPt ck'.box (Xnew i)) b j * z b := rfl
    have e3 : (1e-10 + t.sigma2 * s ^ 2) * z (Fin.natAdd nl i) = ∑ b : Fin nh, (if b.val = i.val then 1e-10 + t.sigma2 * s ^ 2 else 0) * z (Fin.natAdd nl b) := by
      rw [hpick (fun b => z (Fin.natAdd nl b)), dif_pos i.isLt]
    rw [e0, hri, ← Finset.sum_sub_distrib, Fin.sum_univ_add, e3]
    simp only [← sub_mul, hcl, hch, ← Finset.sum_sub_distrib]
  rw [hyi, show ∀ a b : ℝ, (t.mu + a) * t.yhStd + t.yhMean - ((t.mu + b) * t.yhStd + t.yhMean) = (a - b) * t.yhStd from fun a b => by ring, abs_mul, abs_of_pos hT.stdpos, ← hsd]
  refine mul_le_mul_of_nonneg_right ?_ hT.stdpos.le
  rw [herr]
  have b1 := hpickle (t.rho * t.lfFit.gls.sigma2) j.val
  have b2 := hpickle (t.rho * t.lfFit.gls.sigma2) i.val
  have b3 := hpickhe v j.val
  have b4 := hpickhe v i.val
  have b5 : |(1e-10 + t.sigma2 * s ^ 2) * z (Fin.natAdd nl i)| ≤ Real.sqrt (1e-10 + t.sigma2 * s ^ 2) * Real.sqrt Q := by
    rw [abs_mul, abs_of_nonneg (by positivity : (0:ℝ) ≤ 1e-10 + t.sigma2 * s ^ 2)]
    exact hzi
  rw [abs_mul, abs_of_nonneg hl0] at b1 b2
  rw [abs_of_nonneg hv0] at b3 b4
  refine (abs_add_le _ _).trans ((add_le_add (abs_sub _ _) ((abs_sub _ _).trans (add_le_add (abs_sub _ _) le_rfl))).trans ?_)
  linarith

/-- The hypotheses of C188 for co-Kriging are met, with known and with estimated noise. -/
example (noise : Option ℝ) (h0 : noise ≠ some 0) : ∃ ck' t, (exCK noise).train exCKWorld exX exY exX exY = .ok (ck', t) ∧ ∃ μ, ck'.predict t (fun _ => exX 1 : Samples 5 1) = .ok μ := by
  obtain ⟨ck', t, h⟩ := exCK_trains noise h0 exX exY exX exY 0 2 exY_ne (by norm_num)
  obtain ⟨μ, _, _, hμ, _⟩ := C188_ck_mean _ _ _ _ _ _ _ _ h (fun _ => exX 1 : Samples 5 1) 0 1 rfl
  exact ⟨ck', t, h, μ, hμ⟩

end Mfpml.Props
