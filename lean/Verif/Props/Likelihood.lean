import Verif.Spec.Likelihood
import Verif.Props.Kernels
import Verif.Props.GP
import Verif.Props.MFKriging
import Verif.Props.CoKriging

/-!
# The likelihood minimised in training (C76)
-/

set_option linter.unusedSectionVars false

open scoped BigOperators Matrix

namespace Mfpml.Props

open Mfpml.GP Mfpml.Spec

variable {n d q : ℕ}

theorem wnorm_smul_cov (K : Matrix (Fin n) (Fin n) ℝ) {s : ℝ} (hs : 0 < s) (hK : K.PosDef) (r : Fin n → ℝ) : wnorm (s • K) r = wnorm K r / s := by
  unfold wnorm
  have hdet : IsUnit K.det := (Matrix.isUnit_iff_isUnit_det K).mp hK.isUnit
  have hinv : (s • K)⁻¹ = s⁻¹ • K⁻¹ := by
    have := Matrix.inv_smul' K (Units.mk0 s hs.ne') hdet
    simpa [Units.smul_def] using this
  rw [hinv, Matrix.smul_mulVec, dotProduct_smul, smul_eq_mul]
  field_simp

theorem gaussNLL_smul (K : Matrix (Fin n) (Fin n) ℝ) {s : ℝ} (hs : 0 < s) (hK : K.PosDef) (r : Fin n → ℝ) :
    gaussNLL (s • K) r = n / 2 * Real.log (2 * Real.pi) + n / 2 * Real.log s + 1 / 2 * Real.log K.det + wnorm K r / (2 * s) := by
  unfold gaussNLL
  rw [wnorm_smul_cov K hs hK, Matrix.det_smul, Fintype.card_fin, Real.log_mul (pow_pos hs n).ne' hK.det_pos.ne', Real.log_pow]
  field_simp
  ring

/-- Minimising over the process variance: the profile likelihood. -/
theorem profile_isLeast {B : Type} (K : Matrix (Fin n) (Fin n) ℝ) (hK : K.PosDef) (hn : 0 < n) (r : B → Fin n → ℝ) (b0 : B) (hmin : ∀ b, wnorm K (r b0) ≤ wnorm K (r b)) (hpos : 0 < wnorm K (r b0) / n) :
    IsLeast {l | ∃ (b : B) (s : ℝ), 0 < s ∧ l = gaussNLL (s • K) (r b)}
      (n / 2 * Real.log (wnorm K (r b0) / n) + 1 / 2 * Real.log K.det + n / 2 * (1 + Real.log (2 * Real.pi))) := by
  have hn' : (0 : ℝ) < n := by exact_mod_cast hn
  constructor
  · refine ⟨b0, wnorm K (r b0) / n, hpos, ?_⟩
    rw [gaussNLL_smul K hpos hK]
    have hw : wnorm K (r b0) ≠ 0 := by
      intro h; rw [h] at hpos; simp at hpos
    have : wnorm K (r b0) / (2 * (wnorm K (r b0) / n)) = n / 2 := by field_simp
    rw [this]; ring
  · rintro l ⟨b, s, hs, rfl⟩
    rw [gaussNLL_smul K hs hK]
    have h1 := Real.log_le_sub_one_of_pos (div_pos hpos hs)
    rw [Real.log_div hpos.ne' hs.ne'] at h1
    have h2 : wnorm K (r b0) / n / s ≤ wnorm K (r b) / n / s := by
      have := hmin b
      gcongr
    have h3 : wnorm K (r b) / (2 * s) = n / 2 * (wnorm K (r b) / n / s) := by field_simp
    rw [h3]
    nlinarith

/-- With a fixed process variance 1. -/
theorem plain_isLeast {B : Type} (K : Matrix (Fin n) (Fin n) ℝ) (r : B → Fin n → ℝ) (b0 : B) (hmin : ∀ b, wnorm K (r b0) ≤ wnorm K (r b)) :
    IsLeast {l | ∃ b, l = gaussNLL K (r b)} (1 / 2 * wnorm K (r b0) + 1 / 2 * Real.log K.det + n / 2 * Real.log (2 * Real.pi)) := by
  constructor
  · exact ⟨b0, by unfold gaussNLL; ring⟩
  · rintro l ⟨b, rfl⟩
    unfold gaussNLL
    have := hmin b
    linarith

theorem isGLS_min {K : Matrix (Fin n) (Fin n) ℝ} {F : Matrix (Fin n) (Fin q) ℝ} {y : Fin n → ℝ} {g : GLS n q} (hG : IsGLS K F y g) (b : Fin q → ℝ) :
    wnorm K (y - F *ᵥ g.beta) ≤ wnorm K (y - F *ᵥ b) := by
  have hsplit : wnorm K (y - F *ᵥ b) = wnorm K (y - F *ᵥ g.beta) + wnorm K (F *ᵥ (g.beta - b)) := by
    rw [← wnorm_add_orth hG.symmKinv]
    · congr 1
      rw [Matrix.mulVec_sub]; abel
    · rw [← hG.gamma, dotProduct_comm, Matrix.dotProduct_mulVec, ← Matrix.mulVec_transpose, hG.normal, zero_dotProduct]
  have hnn : 0 ≤ wnorm K (F *ᵥ (g.beta - b)) := by
    have := hG.posDef.inv.posSemidef.dotProduct_mulVec_nonneg (F *ᵥ (g.beta - b))
    simpa [wnorm] using this
  linarith

open Classical in
/-- The value computed for one correlation matrix. -/
theorem negLogLik_meaning {K : Matrix (Fin n) (Fin n) ℝ} {F : Matrix (Fin n) (Fin q) ℝ} {y : Fin n → ℝ} {z : Prop} {v : ℝ} (h : negLogLik K F y z = .ok v) :
    (z → IsLeast {l | ∃ (b : Fin q → ℝ) (s : ℝ), 0 < s ∧ l = gaussNLL (s • K) (y - F *ᵥ b)} (v + n / 2 * (1 + Real.log (2 * Real.pi)))) ∧
    (¬z → IsLeast {l | ∃ b : Fin q → ℝ, l = gaussNLL K (y - F *ᵥ b)} (v + n / 2 * Real.log (2 * Real.pi))) := by
  unfold negLogLik at h
  obtain ⟨g, hg, h⟩ := Py.bind_ok.mp h
  have hG := glsFit_ok hg
  have hn : (n : ℝ) ≠ 0 := by exact_mod_cast hG.pos.ne'
  have hs : g.sigma2 = wnorm K (y - F *ᵥ g.beta) / n := by rw [hG.sigma2, hG.gamma]; rfl
  constructor
  · intro hz
    simp only [if_pos hz] at h
    obtain ⟨l, hl, h⟩ := Py.bind_ok.mp h
    unfold npLog at hl
    split_ifs at hl with hp
    cases hl; cases h
    rw [logDiag_eq hG.cholK, hs]
    rw [hs] at hp
    convert profile_isLeast K hG.posDef hG.pos (fun b => y - F *ᵥ b) g.beta (isGLS_min hG) hp using 1
    ring
  · intro hz
    simp only [if_neg hz] at h
    cases h
    rw [logDiag_eq hG.cholK, hs]
    convert plain_isLeast K (fun b => y - F *ᵥ b) g.beta (isGLS_min hG) using 1
    field_simp
    ring

theorem covTrain_eq (θ : Fin d → ℝ) (X : Samples n d) (s : ℝ) : covTrain (pow10 θ) X s = trainCov (fun k => (10 : ℝ) ^ θ k) X (s ^ 2) := by
  ext i j
  have h := C26_rbf_values (RBF.mk (pow10 θ) 0 0) (fun k => (pow10_pos θ k).le) X X i j
  unfold covTrain trainCov
  rw [Matrix.add_apply, Matrix.smul_apply, Matrix.one_apply, Matrix.of_apply]
  unfold RBF.getKernelMatrix at h
  simp only at h
  rw [h]
  have hv : (i.val = j.val) = (i = j) := by rw [Fin.val_inj]
  simp only [hv]
  rw [add_assoc]
  congr 1
  split_ifs <;> simp

/-- **C76 (GP).** The number minimised over the kernel parameters `θ` when the noise is 0 is, up to the constant `n/2 (1 + log 2π)`, minus the largest Gaussian log-likelihood of the normalised responses
over all trend coefficients and all process variances; when the noise is known and not 0 it is, up to `n/2 log 2π`, minus the largest Gaussian log-likelihood over all trend coefficients for process
variance 1 and noise variance `(noise / std)²`. -/
theorem C76_gp_known (gp : GPObj d q) (noise yStd : ℝ) (Xs : Samples n d) (ys : Fin n → ℝ) (θ : Fin d → ℝ) (v : ℝ) (h : gp.logLikKnown noise yStd Xs ys θ = .ok v) :
    (noise = 0 → IsLeast {l | ∃ (b : Fin q → ℝ) (s : ℝ), 0 < s ∧ l = gaussNLL (s • trainCov (fun k => (10 : ℝ) ^ θ k) Xs 0) (fun i => ys i - gp.regr (Xs i) ⬝ᵥ b)}
      (v + n / 2 * (1 + Real.log (2 * Real.pi)))) ∧
    (noise ≠ 0 → IsLeast {l | ∃ b : Fin q → ℝ, l = gaussNLL (trainCov (fun k => (10 : ℝ) ^ θ k) Xs ((noise / yStd) ^ 2)) (fun i => ys i - gp.regr (Xs i) ⬝ᵥ b)}
      (v + n / 2 * Real.log (2 * Real.pi))) := by
  unfold GPObj.logLikKnown at h
  obtain ⟨h1, h2⟩ := negLogLik_meaning h
  rw [covTrain_eq] at h1 h2
  constructor
  · intro h0
    have := h1 h0
    rw [h0, zero_div, zero_pow two_ne_zero] at this
    exact this
  · exact fun h0 => h2 h0

/-- **C76 (GP, unknown noise).** The number minimised over `θ` and the relative noise level `σ` is, up to `n/2 log 2π`, minus the largest Gaussian log-likelihood over all trend coefficients, for process
variance 1 and noise variance `σ²`. -/
theorem C76_gp_free (gp : GPObj d q) (Xs : Samples n d) (ys : Fin n → ℝ) (θ : Fin d → ℝ) (σ v : ℝ) (h : gp.logLikFree Xs ys (Fin.snoc θ σ) = .ok v) :
    IsLeast {l | ∃ b : Fin q → ℝ, l = gaussNLL (trainCov (fun k => (10 : ℝ) ^ θ k) Xs (σ ^ 2)) (fun i => ys i - gp.regr (Xs i) ⬝ᵥ b)} (v + n / 2 * Real.log (2 * Real.pi)) := by
  unfold GPObj.logLikFree at h
  have h2 := (negLogLik_meaning h).2 not_false
  rw [covTrain_eq] at h2
  simp only [Fin.snoc_castSucc, Fin.snoc_last] at h2
  exact h2

/-- **C76 (hierarchical Kriging).** The same with the scaled low-fidelity prediction as only trend column. -/
theorem C76_hk (noise yStd : ℝ) (Xs : Samples n d) (f ys : Fin n → ℝ) (θ : Fin d → ℝ) (v : ℝ) (h : hkLogLikKnown noise yStd Xs (fun i _ => f i) ys θ = .ok v) :
    (noise = 0 → IsLeast {l | ∃ b s : ℝ, 0 < s ∧ l = gaussNLL (s • trainCov (fun k => (10 : ℝ) ^ θ k) Xs 0) (fun i => ys i - b * f i)}
      (v + n / 2 * (1 + Real.log (2 * Real.pi)))) ∧
    (noise ≠ 0 → IsLeast {l | ∃ b : ℝ, l = gaussNLL (trainCov (fun k => (10 : ℝ) ^ θ k) Xs ((noise / yStd) ^ 2)) (fun i => ys i - b * f i)} (v + n / 2 * Real.log (2 * Real.pi))) := by
  unfold hkLogLikKnown at h
  obtain ⟨h1, h2⟩ := negLogLik_meaning h
  rw [covTrain_eq] at h1 h2
  have hcol : ∀ b : Fin 1 → ℝ, ys - (Matrix.of (fun (i : Fin n) (_ : Fin 1) => f i)) *ᵥ b = fun i => ys i - b 0 * f i := by
    intro b; ext i; simp [Matrix.mulVec, dotProduct, mul_comm]
  constructor
  · intro h0
    have := h1 h0
    rw [h0, zero_div, zero_pow two_ne_zero] at this
    convert this using 2
    ext l
    constructor
    · rintro ⟨b, s, hs, rfl⟩
      exact ⟨fun _ => b, s, hs, congrArg _ (hcol (fun _ => b)).symm⟩
    · rintro ⟨b, s, hs, rfl⟩
      exact ⟨b 0, s, hs, congrArg _ (hcol _)⟩
  · intro h0
    convert h2 h0 using 2
    ext l
    constructor
    · rintro ⟨b, rfl⟩
      exact ⟨fun _ => b, congrArg _ (hcol (fun _ => b)).symm⟩
    · rintro ⟨b, rfl⟩
      exact ⟨b 0, congrArg _ (hcol _)⟩

/-- **C76 (hierarchical Kriging, unknown noise).** -/
theorem C76_hk_free (Xs : Samples n d) (f ys : Fin n → ℝ) (θ : Fin d → ℝ) (σ v : ℝ) (h : hkLogLikFree Xs (fun i _ => f i) ys (Fin.snoc θ σ) = .ok v) :
    IsLeast {l | ∃ b : ℝ, l = gaussNLL (trainCov (fun k => (10 : ℝ) ^ θ k) Xs (σ ^ 2)) (fun i => ys i - b * f i)} (v + n / 2 * Real.log (2 * Real.pi)) := by
  unfold hkLogLikFree at h
  have h2 := (negLogLik_meaning h).2 not_false
  rw [covTrain_eq] at h2
  simp only [Fin.snoc_castSucc, Fin.snoc_last] at h2
  have hcol : ∀ b : Fin 1 → ℝ, ys - (Matrix.of (fun (i : Fin n) (_ : Fin 1) => f i)) *ᵥ b = fun i => ys i - b 0 * f i := by
    intro b; ext i; simp [Matrix.mulVec, dotProduct, mul_comm]
  convert h2 using 2
  ext l
  constructor
  · rintro ⟨b, rfl⟩
    exact ⟨fun _ => b, congrArg _ (hcol (fun _ => b)).symm⟩
  · rintro ⟨b, rfl⟩
    exact ⟨b 0, congrArg _ (hcol _)⟩

theorem isDiff_min {K : Matrix (Fin n) (Fin n) ℝ} {diff : Fin n → ℝ} {g : DiffFit n} (h : IsDiff K diff g) (m : ℝ) :
    wnorm K (fun i => diff i - g.mu) ≤ wnorm K (fun i => diff i - m) := by
  have hpd := h.chol.posDef
  have hsymm : (K⁻¹)ᵀ = K⁻¹ := by
    have := hpd.inv.isHermitian
    rwa [Matrix.IsHermitian, Matrix.conjTranspose_eq_transpose_of_trivial] at this
  have hq := ones_quad_pos hpd h.pos
  have horth : (fun _ : Fin n => g.mu - m) ⬝ᵥ (K⁻¹ *ᵥ fun i => diff i - g.mu) = 0 := by
    have e1 : (fun _ : Fin n => g.mu - m) = (g.mu - m) • (fun _ : Fin n => (1 : ℝ)) := by ext; simp
    have e2 : (fun i => diff i - g.mu) = diff - g.mu • (fun _ : Fin n => (1 : ℝ)) := by ext; simp
    rw [e1, e2, smul_dotProduct, Matrix.mulVec_sub, Matrix.mulVec_smul, dotProduct_sub, dotProduct_smul, h.mu]
    simp only [smul_eq_mul]
    rw [div_mul_cancel₀ _ hq.ne', sub_self, mul_zero]
  have hsplit := wnorm_add_orth hsymm _ _ horth
  have e : (fun i => diff i - g.mu) + (fun _ : Fin n => g.mu - m) = fun i => diff i - m := by ext; simp
  rw [e] at hsplit
  have hnn : 0 ≤ wnorm K (fun _ : Fin n => g.mu - m) := by
    have := hpd.inv.posSemidef.dotProduct_mulVec_nonneg (fun _ : Fin n => g.mu - m)
    simpa [wnorm] using this
  linarith

open Classical in
/-- **C76 (co-Kriging).** The number minimised over `ρ`, `θ` (and the noise) is, up to a constant, minus the largest Gaussian log-likelihood of the discrepancies `y - ρ f` over all constant means, and,
without noise, over all process variances. -/
theorem C76_ck (Xs : Samples n d) (ys f : Fin n → ℝ) (rho : ℝ) (θ : Fin d → ℝ) (σ : ℝ) (noiseless : Prop) (v : ℝ) (h : ckNegLogLik Xs ys f rho θ σ noiseless = .ok v) :
    (noiseless → IsLeast {l | ∃ m s : ℝ, 0 < s ∧ l = gaussNLL (s • trainCov (fun k => (10 : ℝ) ^ θ k) Xs (σ ^ 2)) (fun i => ys i - rho * f i - m)}
      (v + n / 2 * (1 + Real.log (2 * Real.pi)))) ∧
    (¬noiseless → IsLeast {l | ∃ m : ℝ, l = gaussNLL (trainCov (fun k => (10 : ℝ) ^ θ k) Xs (σ ^ 2)) (fun i => ys i - rho * f i - m)} (v + n / 2 * Real.log (2 * Real.pi))) := by
  unfold ckNegLogLik at h
  obtain ⟨g, hg, h⟩ := Py.bind_ok.mp h
  have hG := diffFit_ok hg
  have hn : (n : ℝ) ≠ 0 := by exact_mod_cast hG.pos.ne'
  have hs : g.sigma2 = wnorm (covTrain (pow10 θ) Xs σ) (fun i => ys i - rho * f i - g.mu) / n := by rw [hG.sigma2, hG.gamma]; rfl
  rw [← covTrain_eq]
  constructor
  · intro hz
    simp only [if_pos hz] at h
    obtain ⟨l, hl, h⟩ := Py.bind_ok.mp h
    unfold npLog at hl
    split_ifs at hl with hp
    cases hl; cases h
    rw [logDiag_eq hG.chol, hs]
    rw [hs] at hp
    convert profile_isLeast _ hG.chol.posDef hG.pos (fun m => fun i => ys i - rho * f i - m) g.mu (isDiff_min hG) hp using 1
    ring
  · intro hz
    simp only [if_neg hz] at h
    cases h
    rw [logDiag_eq hG.chol, hs]
    convert plain_isLeast _ (fun m => fun i => ys i - rho * f i - m) g.mu (isDiff_min hG) using 1
    field_simp
    ring

/-- Non-vacuity: the likelihood of the example GP has a value for every parameter. -/
example (θ : Fin 1 → ℝ) : ∃ v, (exGP (some 0)).logLikKnown 0 (std exY) (fun i => normPt (exGP (some 0)).box (exX i)) (fun i => (exY i - mean exY) / std exY) θ = .ok v := by
  obtain ⟨gp', t, h⟩ := exGP_trains (some 0) exX exY 0 2 exY_ne
  have hs := (train_ok_iff.mp h).stdne
  refine negLogLik_ok _ (posDef_covTrain _ _ _) (ordinary_indep _ (by norm_num)) (by norm_num) ?_
  intro _ b hb
  have h1 := congrFun hb 0
  have h2 := congrFun hb 2
  rw [show (exGP (some 0)).regr = ordinary 1 from rfl, ordinary_mulVec] at h1 h2
  rw [h1] at h2
  rw [div_left_inj' hs] at h2
  exact exY_ne (by linarith)

/-- Non-vacuity: the co-Kriging likelihood has a value for every parameter when the discrepancies are not constant. -/
example (θ : Fin 1 → ℝ) (rho σ : ℝ) : ∃ v, ckNegLogLik (fun i _ => (i : ℝ) : Samples 3 1) ![0, 1, 5] ![0, 0, 0] rho θ σ True = .ok v :=
  ckNegLogLik_ok _ _ _ (by norm_num) (fun _ => ⟨0, 1, by simp⟩)

/-! ## Hyper-parameter search of the multi-fidelity models (C79) -/

variable {nh nl : ℕ}

/-- **C79 (hierarchical Kriging, unknown noise).** After training without a noise prior: the kernel parameters are `10^θ` with `θ` in the kernel's bounds, the noise is `σ` times the standard deviation of
the high-fidelity responses with `1e-5 ≤ σ ≤ 10`, and no restart of the built-in optimiser reports a smaller value than the likelihood at `(θ, σ)`. -/
theorem C79_hk_free (hk : HKObj d q) (w : MFWorld d) (Xh : Samples nh d) (yh : Fin nh → ℝ) (Xl : Samples nl d) (yl : Fin nl → ℝ) (hnoise : hk.noise = none) (hopt : hk.optimizer = none)
    (hmini : GoodMinimizer w.hf.mini) (hkb : hk.kernel.boundLow ≤ hk.kernel.boundHigh) (hstarts : w.hf.startsNoise ≠ [])
    (hk' : HKObj d q) (t : HKFit nh nl d q) (h : hk.train w Xh yh Xl yl = .ok (hk', t)) :
    ∃ (θ : Fin d → ℝ) (σ v : ℝ), (∀ j, hk'.kernel.param j = (10 : ℝ) ^ θ j) ∧ t.noise = σ * std yh ∧ hk'.noise = some (σ * std yh) ∧
      (∀ j, hk.kernel.boundLow ≤ θ j ∧ θ j ≤ hk.kernel.boundHigh) ∧ 1e-5 ≤ σ ∧ σ ≤ 10 ∧
      hkLogLikFree t.Xhs t.F t.yhs (Fin.snoc θ σ) = .ok v ∧
      ∀ x0 ∈ w.hf.startsNoise, ∀ x' f', w.hf.mini (d + 1) (hkLogLikFree t.Xhs t.F t.yhs) x0
        (Fin.snoc (fun _ => hk.kernel.boundLow) 1e-5) (Fin.snoc (fun _ => hk.kernel.boundHigh) 10) = .ok (x', f') → v ≤ f' := by
  unfold HKObj.train at h
  obtain ⟨⟨lf, lfFit⟩, h1, h⟩ := Py.bind_ok.mp h
  obtain ⟨Xhs, h2, h⟩ := Py.bind_ok.mp h
  obtain ⟨yhs, h3, h⟩ := Py.bind_ok.mp h
  obtain ⟨f, h4, h⟩ := Py.bind_ok.mp h
  obtain ⟨⟨theta, noise⟩, h5, h⟩ := Py.bind_ok.mp h
  obtain ⟨g, h6, h⟩ := Py.bind_ok.mp h
  have hG := glsFit_ok h6
  simp only [Except.ok.injEq, Prod.mk.injEq] at h
  obtain ⟨e1, e2⟩ := h
  subst e1 e2
  unfold HKObj.fitHyper at h5
  rw [hnoise] at h5
  obtain ⟨x, hx, h5⟩ := Py.bind_ok.mp h5
  simp only [Except.ok.injEq, Prod.mk.injEq] at h5
  obtain ⟨rfl, rfl⟩ := h5
  rw [hopt] at hx
  have hF : IndepColumns (scaleCol f (mean yh) (std yh)) := (indep_iff _).mpr (mulVec_injective_of_posDef_conj hG.cholM.posDef)
  obtain ⟨x', v, k1, k2, k3, k4⟩ := searchHyper_none (obj := hkLogLikFree Xhs (scaleCol f (mean yh) (std yh)) yhs)
    (lo := Fin.snoc (α := fun _ => ℝ) (fun _ => hk.kernel.boundLow) noiseLow) (hi := Fin.snoc (α := fun _ => ℝ) (fun _ => hk.kernel.boundHigh) noiseHigh)
    hmini (fun j => by
        refine Fin.lastCases ?_ (fun i => ?_) j
        · simp [noiseLow, noiseHigh]; norm_num
        · simpa using hkb)
    (fun x _ => negLogLik_ok _ (posDef_covTrain _ _ _) hF hG.pos (fun hz => hz.elim)) w.hf.startsNoise hstarts
  rw [k1, Except.ok.injEq] at hx
  subst hx
  have hl := k2 (Fin.last d)
  simp only [Fin.snoc_last] at hl
  refine ⟨fun j => x' j.castSucc, x' (Fin.last d), v, fun j => rfl, rfl, rfl, fun j => ?_, hl.1, hl.2, ?_, k4⟩
  · have := k2 j.castSucc
    simpa using this
  · have : (Fin.snoc (fun j => x' j.castSucc) (x' (Fin.last d)) : Fin (d + 1) → ℝ) = x' := Fin.snoc_init_self x'
    rw [this]; exact k3

/-- **C79 (hierarchical Kriging, known noise).** With a noise prior the noise is the given one and the kernel parameters are the best of the restarts, inside the bounds.  For noise 0 the trend must
not fit the responses exactly (else the likelihood is unbounded). -/
theorem C79_hk_known (hk : HKObj d q) (w : MFWorld d) (Xh : Samples nh d) (yh : Fin nh → ℝ) (Xl : Samples nl d) (yl : Fin nl → ℝ) (s : ℝ) (hnoise : hk.noise = some s) (hopt : hk.optimizer = none)
    (hmini : GoodMinimizer w.hf.mini) (hkb : hk.kernel.boundLow ≤ hk.kernel.boundHigh) (hstarts : w.hf.starts ≠ [])
    (hk' : HKObj d q) (t : HKFit nh nl d q) (h : hk.train w Xh yh Xl yl = .ok (hk', t)) (hz : s = 0 → ∀ b, t.F *ᵥ b ≠ t.yhs) :
    ∃ (θ : Fin d → ℝ) (v : ℝ), (∀ j, hk'.kernel.param j = (10 : ℝ) ^ θ j) ∧ t.noise = s ∧ hk'.noise = some s ∧
      (∀ j, hk.kernel.boundLow ≤ θ j ∧ θ j ≤ hk.kernel.boundHigh) ∧ hkLogLikKnown s (std yh) t.Xhs t.F t.yhs θ = .ok v ∧
      ∀ x0 ∈ w.hf.starts, ∀ x' f', w.hf.mini d (hkLogLikKnown s (std yh) t.Xhs t.F t.yhs) x0 (fun _ => hk.kernel.boundLow) (fun _ => hk.kernel.boundHigh) = .ok (x', f') → v ≤ f' := by
  unfold HKObj.train at h
  obtain ⟨⟨lf, lfFit⟩, h1, h⟩ := Py.bind_ok.mp h
  obtain ⟨Xhs, h2, h⟩ := Py.bind_ok.mp h
  obtain ⟨yhs, h3, h⟩ := Py.bind_ok.mp h
  obtain ⟨f, h4, h⟩ := Py.bind_ok.mp h
  obtain ⟨⟨theta, noise⟩, h5, h⟩ := Py.bind_ok.mp h
  obtain ⟨g, h6, h⟩ := Py.bind_ok.mp h
  have hG := glsFit_ok h6
  simp only [Except.ok.injEq, Prod.mk.injEq] at h
  obtain ⟨e1, e2⟩ := h
  subst e1 e2
  unfold HKObj.fitHyper at h5
  rw [hnoise] at h5
  obtain ⟨x, hx, h5⟩ := Py.bind_ok.mp h5
  simp only [Except.ok.injEq, Prod.mk.injEq] at h5
  obtain ⟨rfl, rfl⟩ := h5
  rw [hopt] at hx
  have hF : IndepColumns (scaleCol f (mean yh) (std yh)) := (indep_iff _).mpr (mulVec_injective_of_posDef_conj hG.cholM.posDef)
  obtain ⟨x', v, k1, k2, k3, k4⟩ := searchHyper_none (obj := hkLogLikKnown s (std yh) Xhs (scaleCol f (mean yh) (std yh)) yhs)
    (lo := fun _ => hk.kernel.boundLow) (hi := fun _ => hk.kernel.boundHigh) hmini (fun _ => hkb)
    (fun x _ => negLogLik_ok _ (posDef_covTrain _ _ _) hF hG.pos hz) w.hf.starts hstarts
  rw [k1, Except.ok.injEq] at hx
  subst hx
  exact ⟨x', v, fun j => rfl, rfl, rfl, k2, k3, k4⟩

/-- **C79 (co-Kriging, unknown noise).** After training without a noise prior `ρ` lies in its bounds, the kernel parameters are `10^θ` with `θ` in the kernel's bounds, the noise (relative to the
standard deviation of the high-fidelity responses) is in `[1e-5, 10]`, and no restart of the built-in optimiser reports a smaller value than the likelihood at these parameters.  `f` stands for the
low-fidelity prediction (in normalised units) at the high-fidelity samples. -/
theorem C79_ck_free (ck : CKObj d q) (w : CKWorld d) (Xh : Samples nh d) (yh : Fin nh → ℝ) (Xl : Samples nl d) (yl : Fin nl → ℝ) (hnoise : ck.noise = none) (hopt : ck.optimizer = none)
    (hmini : GoodMinimizer w.mini) (hkb : ck.kernel.boundLow ≤ ck.kernel.boundHigh) (hrb : ck.rhoLow ≤ ck.rhoHigh) (hstarts : w.startsNoise ≠ [])
    (ck' : CKObj d q) (t : CKFit nh nl d q) (h : ck.train w Xh yh Xl yl = .ok (ck', t)) :
    ∃ (θ : Fin d → ℝ) (σ v : ℝ), (∀ j, ck'.kernel.param j = (10 : ℝ) ^ θ j) ∧ ck'.noise = some σ ∧ ck.rhoLow ≤ t.rho ∧ t.rho ≤ ck.rhoHigh ∧
      (∀ j, ck.kernel.boundLow ≤ θ j ∧ θ j ≤ ck.kernel.boundHigh) ∧ 1e-5 ≤ σ ∧ σ ≤ 10 ∧
      ckNegLogLik t.Xhs (fun i => (yh i - mean yh) / std yh) (ck'.lf.predict t.lfFit t.Xhs) t.rho θ σ False = .ok v ∧
      ∀ x0 ∈ w.startsNoise, ∀ x' f', w.mini (d + 2) (fun p => ckNegLogLik t.Xhs (fun i => (yh i - mean yh) / std yh) (ck'.lf.predict t.lfFit t.Xhs) (p 0) (fun j => p j.succ.succ) (p 1) False) x0
        (Fin.cons ck.rhoLow (Fin.cons 1e-5 (fun _ => ck.kernel.boundLow))) (Fin.cons ck.rhoHigh (Fin.cons 10 (fun _ => ck.kernel.boundHigh))) = .ok (x', f') → v ≤ f' := by
  unfold CKObj.train at h
  obtain ⟨Xhs, h1, h⟩ := Py.bind_ok.mp h
  obtain ⟨Xls, h2, h⟩ := Py.bind_ok.mp h
  obtain ⟨yhs, h3, h⟩ := Py.bind_ok.mp h
  obtain ⟨hr, rfl⟩ := normalizeInput_ok h1
  obtain ⟨_, rfl⟩ := normalizeInput_ok h2
  obtain ⟨hs, rfl⟩ := normalizeOutput_ok h3
  obtain ⟨⟨lf, lfFit⟩, h4, h⟩ := Py.bind_ok.mp h
  obtain ⟨⟨rho, theta, noise⟩, h5, h⟩ := Py.bind_ok.mp h
  obtain ⟨g, h6, h⟩ := Py.bind_ok.mp h
  obtain ⟨LC, h7, h⟩ := Py.bind_ok.mp h
  obtain ⟨a, h8, h⟩ := Py.bind_ok.mp h
  obtain ⟨b, h9, h⟩ := Py.bind_ok.mp h
  obtain ⟨mu, h10, h⟩ := Py.bind_ok.mp h
  have hg := diffFit_ok h6
  simp only [Except.ok.injEq, Prod.mk.injEq] at h
  obtain ⟨e1, e2⟩ := h
  subst e1 e2
  rw [hnoise] at h5
  unfold CKObj.fitHyper at h5
  obtain ⟨x, hx, h5⟩ := Py.bind_ok.mp h5
  simp only [Except.ok.injEq, Prod.mk.injEq] at h5
  obtain ⟨rfl, rfl, rfl⟩ := h5
  rw [hopt] at hx
  obtain ⟨x', v, k1, k2, k3, k4⟩ := searchHyper_none
    (obj := fun p : Fin (d + 2) → ℝ => ckNegLogLik (fun i => normPt ck.box (Xh i)) (fun i => (yh i - mean yh) / std yh) (lf.predict lfFit (fun i => normPt ck.box (Xh i))) (p 0) (fun j => p j.succ.succ) (p 1) False)
    (lo := Fin.cons (α := fun _ => ℝ) ck.rhoLow (Fin.cons (α := fun _ => ℝ) noiseLow (fun _ => ck.kernel.boundLow)))
    (hi := Fin.cons (α := fun _ => ℝ) ck.rhoHigh (Fin.cons (α := fun _ => ℝ) noiseHigh (fun _ => ck.kernel.boundHigh)))
    hmini (fun j => by
        refine Fin.cases ?_ (fun i => ?_) j
        · simpa using hrb
        · refine Fin.cases ?_ (fun i => ?_) i
          · simp [noiseLow, noiseHigh]; norm_num
          · simpa using hkb)
    (fun x _ => ckNegLogLik_ok _ _ _ hg.pos (fun hz => hz.elim)) w.startsNoise hstarts
  rw [k1, Except.ok.injEq] at hx
  subst hx
  have b0 := k2 0
  have b1 := k2 (Fin.succ 0)
  refine ⟨fun j => x' j.succ.succ, x' 1, v, fun j => rfl, rfl, b0.1, b0.2, fun j => ?_, b1.1, b1.2, k3, k4⟩
  have := k2 j.succ.succ
  simpa using this

/-- **C79 (CoKriging, known noise).** The scale factor and the kernel parameters are within their bounds, the noise is the given one divided by the spread of the responses, and no restart of the optimiser returned a
smaller objective.  The objective uses the noise divided by the spread once more. -/
theorem C79_ck_known (ck : CKObj d q) (w : CKWorld d) (Xh : Samples nh d) (yh : Fin nh → ℝ) (Xl : Samples nl d) (yl : Fin nl → ℝ) (s : ℝ) (hnoise : ck.noise = some s) (hopt : ck.optimizer = none)
    (hmini : GoodMinimizer w.mini) (hkb : ck.kernel.boundLow ≤ ck.kernel.boundHigh) (hrb : ck.rhoLow ≤ ck.rhoHigh) (hstarts : w.starts ≠ [])
    (ck' : CKObj d q) (t : CKFit nh nl d q) (h : ck.train w Xh yh Xl yl = .ok (ck', t))
    (hz : s = 0 → ∀ rho, ck.rhoLow ≤ rho → rho ≤ ck.rhoHigh → ∃ i j, (yh i - mean yh) / std yh - rho * ck'.lf.predict t.lfFit t.Xhs i ≠ (yh j - mean yh) / std yh - rho * ck'.lf.predict t.lfFit t.Xhs j) :
    ∃ (θ : Fin d → ℝ) (v : ℝ), (∀ j, ck'.kernel.param j = (10 : ℝ) ^ θ j) ∧ ck'.noise = some (s / std yh) ∧ ck.rhoLow ≤ t.rho ∧ t.rho ≤ ck.rhoHigh ∧
      (∀ j, ck.kernel.boundLow ≤ θ j ∧ θ j ≤ ck.kernel.boundHigh) ∧
      ckNegLogLik t.Xhs (fun i => (yh i - mean yh) / std yh) (ck'.lf.predict t.lfFit t.Xhs) t.rho θ (s / std yh / std yh) (s = 0) = .ok v ∧
      ∀ x0 ∈ w.starts, ∀ x' f', w.mini (d + 1) (fun p => ckNegLogLik t.Xhs (fun i => (yh i - mean yh) / std yh) (ck'.lf.predict t.lfFit t.Xhs) (p 0) (fun j => p j.succ) (s / std yh / std yh) (s = 0)) x0
        (Fin.cons ck.rhoLow (fun _ => ck.kernel.boundLow)) (Fin.cons ck.rhoHigh (fun _ => ck.kernel.boundHigh)) = .ok (x', f') → v ≤ f' := by
  unfold CKObj.train at h
  obtain ⟨Xhs, h1, h⟩ := Py.bind_ok.mp h
  obtain ⟨Xls, h2, h⟩ := Py.bind_ok.mp h
  obtain ⟨yhs, h3, h⟩ := Py.bind_ok.mp h
  obtain ⟨hr, rfl⟩ := normalizeInput_ok h1
  obtain ⟨_, rfl⟩ := normalizeInput_ok h2
  obtain ⟨hs, rfl⟩ := normalizeOutput_ok h3
  obtain ⟨⟨lf, lfFit⟩, h4, h⟩ := Py.bind_ok.mp h
  obtain ⟨⟨rho, theta, noise⟩, h5, h⟩ := Py.bind_ok.mp h
  obtain ⟨g, h6, h⟩ := Py.bind_ok.mp h
  obtain ⟨LC, h7, h⟩ := Py.bind_ok.mp h
  obtain ⟨a, h8, h⟩ := Py.bind_ok.mp h
  obtain ⟨b, h9, h⟩ := Py.bind_ok.mp h
  obtain ⟨mu, h10, h⟩ := Py.bind_ok.mp h
  have hg := diffFit_ok h6
  simp only [Except.ok.injEq, Prod.mk.injEq] at h
  obtain ⟨e1, e2⟩ := h
  subst e1 e2
  rw [hnoise, Option.map_some] at h5
  unfold CKObj.fitHyper at h5
  obtain ⟨x, hx, h5⟩ := Py.bind_ok.mp h5
  simp only [Except.ok.injEq, Prod.mk.injEq] at h5
  obtain ⟨rfl, rfl, rfl⟩ := h5
  have hzz : (s / std yh = 0) = (s = 0) := propext (by rw [div_eq_zero_iff]; simp [hs])
  rw [hopt, hzz] at hx
  obtain ⟨x', v, k1, k2, k3, k4⟩ := searchHyper_none
    (obj := fun p : Fin (d + 1) → ℝ => ckNegLogLik (fun i => normPt ck.box (Xh i)) (fun i => (yh i - mean yh) / std yh) (lf.predict lfFit (fun i => normPt ck.box (Xh i))) (p 0) (fun j => p j.succ) (s / std yh / std yh) (s = 0))
    (lo := Fin.cons (α := fun _ => ℝ) ck.rhoLow (fun _ => ck.kernel.boundLow)) (hi := Fin.cons (α := fun _ => ℝ) ck.rhoHigh (fun _ => ck.kernel.boundHigh))
    hmini (fun j => Fin.cases hrb (fun i => hkb) j)
    (fun x hx => ckNegLogLik_ok _ _ _ hg.pos (fun h0 => hz h0 (x 0) (hx 0).1 (hx 0).2)) w.starts hstarts
  rw [k1, Except.ok.injEq] at hx
  subst hx
  have b0 := k2 0
  exact ⟨fun j => x' j.succ, v, fun j => rfl, rfl, b0.1, b0.2, fun j => k2 j.succ, k3, k4⟩

/-- Non-vacuity: the example models train with unknown noise. -/
example : ∃ ck' t, (exCK none).train exCKWorld (fun i _ => ![0, 1, 2] i : Samples 3 1) ![0, 1, 5] (fun i _ => ![0, 1, 2] i : Samples 3 1) ![1, 1, 2] = .ok (ck', t) :=
  exCK_trains none (by simp) _ _ _ _ 0 1 (by norm_num) (by norm_num)

/-- Non-vacuity: a hierarchical model with unknown high-fidelity noise trains. -/
example : ∃ hk' t, ({ exHK (some 0) with noise := none } : HKObj 1 1).train ⟨exWorld, exWorld⟩ (fun i _ => ![0, 1, 2] i : Samples 3 1) ![0, 1, 5]
    (fun i _ => ![0, 1, 2] i : Samples 3 1) ![0, 1, 2] = .ok (hk', t) := by
  obtain ⟨lf', lfFit, hlf⟩ := exGP_trains (some 0) (fun i _ => ![0, 1, 2] i : Samples 3 1) ![0, 1, 2] 0 1 (by norm_num)
  have hf := C34_interpolation _ _ _ _ rfl _ _ hlf
  have hmean : mean (![0, 1, 5] : Fin 3 → ℝ) = 2 := by
    unfold mean; rw [Fin.sum_univ_three]; simp; norm_num
  refine C41_hk_train_succeeds _ ⟨exWorld, exWorld⟩ _ _ _ _ (fun _ => by simp [exHK, exGP]) (by simp [exHK, RBF.mk']; norm_num)
    cornerMinimizer_good (fun run h => by simp [exHK] at h) (by simp [exWorld]) (by simp [exWorld]) 0 1 (by norm_num) lf' lfFit hlf _ hf 0 ?_ (fun h => by simp at h)
  rw [hmean]; simp

end Mfpml.Props
