import Verif.Model.StoredLikelihood
import Verif.Props.MaxLikelihood

/-!
# The log-likelihood that training stores (C126)
-/

set_option linter.unusedSectionVars false

open scoped BigOperators Matrix

namespace Mfpml.Props

open Mfpml.GP Mfpml.Spec Mfpml.BO
open Mfpml.EA (Box)

variable {n d q nh nl : ℕ}

theorem glsLogp_eq {K : Matrix (Fin n) (Fin n) ℝ} {F : Matrix (Fin n) (Fin q) ℝ} {y : Fin n → ℝ} {g : GLS n q} (hg : glsFit K F y = .ok g) :
    glsLogp g = n / 2 * Real.log (2 * Real.pi) - gaussNLL K (y - F *ᵥ g.beta) := by
  have hG := glsFit_ok hg
  have hn : (n : ℝ) ≠ 0 := by exact_mod_cast hG.pos.ne'
  have hs : g.sigma2 = wnorm K (y - F *ᵥ g.beta) / n := by rw [hG.sigma2, hG.gamma]; rfl
  unfold glsLogp gaussNLL
  rw [logDiag_eq hG.cholK, hs]
  field_simp
  ring

/-- The likelihood with the fitted variance, against the stored number. -/
theorem glsLogp_gap {K : Matrix (Fin n) (Fin n) ℝ} {F : Matrix (Fin n) (Fin q) ℝ} {y : Fin n → ℝ} {g : GLS n q} (hg : glsFit K F y = .ok g) (hpos : 0 < g.sigma2) :
    glsLogp g = n / 2 * (1 + Real.log (2 * Real.pi)) - gaussNLL (g.sigma2 • K) (y - F *ᵥ g.beta) - n / 2 * (g.sigma2 - Real.log g.sigma2) := by
  have hG := glsFit_ok hg
  have hn : (n : ℝ) ≠ 0 := by exact_mod_cast hG.pos.ne'
  have hs : g.sigma2 = wnorm K (y - F *ᵥ g.beta) / n := by rw [hG.sigma2, hG.gamma]; rfl
  have hw : wnorm K (y - F *ᵥ g.beta) = n * g.sigma2 := by rw [hs]; field_simp
  unfold glsLogp
  rw [gaussNLL_smul K hpos hG.posDef, hw, logDiag_eq hG.cholK]
  field_simp
  ring

theorem gap_ge {s : ℝ} (hs : 0 < s) : 1 ≤ s - Real.log s := by
  have := Real.log_le_sub_one_of_pos hs
  linarith

/-- **C126 (Gaussian process).** The stored number is the log-likelihood of the standardised responses (without its constant) for the trained kernel parameters, noise and trend, and process variance 1. -/
theorem C126_gp_meaning (gp : GPObj d q) (w : World d) (X : Samples n d) (y : Fin n → ℝ) (gp' : GPObj d q) (t : GPFit n d q) (h : gp.train w X y = .ok (gp', t)) :
    t.logp = n / 2 * Real.log (2 * Real.pi) - gaussNLL (trainCov gp'.kernel.param t.Xs ((t.noise / t.yStd) ^ 2)) (fun i => t.ys i - gp.regr (t.Xs i) ⬝ᵥ t.gls.beta) := by
  obtain ⟨hr, hs, theta, noise, h3, e1, h4, e2⟩ := train_ok_iff.mp h
  have eX : t.Xs = fun i => normPt gp.box (X i) := by rw [e2]
  have ey : t.ys = fun i => (y i - mean y) / std y := by rw [e2]
  have es : t.yStd = std y := by rw [e2]
  have en : t.noise = noise := by rw [e2]
  rw [← eX, ← ey, ← es, ← en] at h4
  have := glsLogp_eq h4
  rw [covTrain_eq] at this
  have hp : gp'.kernel.param = fun k => (10 : ℝ) ^ theta k := by rw [e1]; rfl
  rw [hp]
  exact this

/-- **C126 (Gaussian process, known non-zero noise).** With an optimiser that finds the best parameters, the stored number is the largest log-likelihood (without its constant). -/
theorem C126_gp_known_noise_partial (gp : GPObj d q) (w : World d) (X : Samples n d) (y : Fin n → ℝ) (noise : ℝ) (hnoise : gp.noise = some noise) (hne : noise ≠ 0) (hopt : gp.optimizer = none) (hmini : ExactMinimizer w.mini)
    (hkb : gp.kernel.boundLow ≤ gp.kernel.boundHigh) (hstarts : w.starts ≠ []) (gp' : GPObj d q) (t : GPFit n d q) (h : gp.train w X y = .ok (gp', t)) :
    IsLeast {l | ∃ (θ : Fin d → ℝ) (b : Fin q → ℝ), (∀ j, gp.kernel.boundLow ≤ θ j ∧ θ j ≤ gp.kernel.boundHigh) ∧ l = gaussNLL (trainCov (fun k => (10 : ℝ) ^ θ k) t.Xs ((noise / t.yStd) ^ 2)) (fun i => t.ys i - gp.regr (t.Xs i) ⬝ᵥ b)}
      (n / 2 * Real.log (2 * Real.pi) - t.logp) := by
  have hm := C119_gp_known_noise gp w X y noise hnoise hne hopt hmini hkb hstarts gp' t h
  have ht : t.noise = noise := by
    obtain ⟨_, _, theta, noise', h3, _, _, e2⟩ := train_ok_iff.mp h
    unfold GPObj.fitHyper at h3
    rw [hnoise] at h3
    obtain ⟨x, _, h5⟩ := Py.bind_ok.mp h3
    simp only [Except.ok.injEq, Prod.mk.injEq] at h5
    rw [e2]
    exact h5.2.symm
  rw [C126_gp_meaning gp w X y gp' t h, ht, sub_sub_cancel]
  exact hm

/-- **C126 (Gaussian process, estimated noise).** The same when the noise is estimated. -/
theorem C126_gp_unknown_noise_partial (gp : GPObj d q) (w : World d) (X : Samples n d) (y : Fin n → ℝ) (hnoise : gp.noise = none) (hopt : gp.optimizer = none) (hmini : ExactMinimizer w.mini)
    (hkb : gp.kernel.boundLow ≤ gp.kernel.boundHigh) (hstarts : w.startsNoise ≠ []) (gp' : GPObj d q) (t : GPFit n d q) (h : gp.train w X y = .ok (gp', t)) :
    IsLeast {l | ∃ (θ : Fin d → ℝ) (σ : ℝ) (b : Fin q → ℝ), (∀ j, gp.kernel.boundLow ≤ θ j ∧ θ j ≤ gp.kernel.boundHigh) ∧ 1e-5 ≤ σ ∧ σ ≤ 10 ∧
        l = gaussNLL (trainCov (fun k => (10 : ℝ) ^ θ k) t.Xs (σ ^ 2)) (fun i => t.ys i - gp.regr (t.Xs i) ⬝ᵥ b)}
      (n / 2 * Real.log (2 * Real.pi) - t.logp) := by
  rw [C126_gp_meaning gp w X y gp' t h, sub_sub_cancel]
  exact C119_gp_unknown_noise gp w X y hnoise hopt hmini hkb hstarts gp' t h

/-- **C126 (Gaussian process, noise-free, counterexample).** For noise-free data the stored number is never the maximised log-likelihood: with `v` the process variance it is too small by `n / 2 (v - log v) ≥ n / 2`. -/
theorem C126_gp_counterexample (gp : GPObj d q) (w : World d) (X : Samples n d) (y : Fin n → ℝ) (hnoise : gp.noise = some 0) (hopt : gp.optimizer = none) (hmini : ExactMinimizer w.mini)
    (hkb : gp.kernel.boundLow ≤ gp.kernel.boundHigh) (hstarts : w.starts ≠ []) (gp' : GPObj d q) (t : GPFit n d q) (h : gp.train w X y = .ok (gp', t)) (hfit : ∀ b, ∃ i, gp.regr (t.Xs i) ⬝ᵥ b ≠ t.ys i) :
    ∃ l, IsLeast {l | ∃ (θ : Fin d → ℝ) (b : Fin q → ℝ) (s : ℝ), (∀ j, gp.kernel.boundLow ≤ θ j ∧ θ j ≤ gp.kernel.boundHigh) ∧ 0 < s ∧
        l = gaussNLL (s • trainCov (fun k => (10 : ℝ) ^ θ k) t.Xs 0) (fun i => t.ys i - gp.regr (t.Xs i) ⬝ᵥ b)} l ∧
      t.logp = n / 2 * (1 + Real.log (2 * Real.pi)) - l - n / 2 * (t.gls.sigma2 - Real.log t.gls.sigma2) ∧ t.logp + n / 2 ≤ n / 2 * (1 + Real.log (2 * Real.pi)) - l ∧ t.logp ≠ n / 2 * (1 + Real.log (2 * Real.pi)) - l := by
  obtain ⟨hpos, hl⟩ := C119_gp_noise_free gp w X y hnoise hopt hmini hkb hstarts gp' t h hfit
  obtain ⟨hr, hs, theta, noise, h3, e1, h4, e2⟩ := train_ok_iff.mp h
  have eX : t.Xs = fun i => normPt gp.box (X i) := by rw [e2]
  have ey : t.ys = fun i => (y i - mean y) / std y := by rw [e2]
  unfold GPObj.fitHyper at h3
  rw [hnoise] at h3
  obtain ⟨x, hx, h5⟩ := Py.bind_ok.mp h3
  simp only [Except.ok.injEq, Prod.mk.injEq] at h5
  obtain ⟨rfl, rfl⟩ := h5
  rw [← eX, ← ey] at h4
  have hgap := glsLogp_gap h4 hpos
  rw [covTrain_eq, zero_div, zero_pow two_ne_zero] at hgap
  have hp : gp'.kernel.param = fun k => (10 : ℝ) ^ x k := by rw [e1]; rfl
  rw [hp] at hl
  have hgap' : t.logp = n / 2 * (1 + Real.log (2 * Real.pi)) - gaussNLL (t.gls.sigma2 • trainCov (fun k => (10 : ℝ) ^ x k) t.Xs 0) (fun i => t.ys i - gp.regr (t.Xs i) ⬝ᵥ t.gls.beta) - n / 2 * (t.gls.sigma2 - Real.log t.gls.sigma2) := hgap
  have h1 := gap_ge hpos
  have hn : (0 : ℝ) < n := by exact_mod_cast (glsFit_ok h4).pos
  have h2 : (n : ℝ) / 2 * 1 ≤ n / 2 * (t.gls.sigma2 - Real.log t.gls.sigma2) := mul_le_mul_of_nonneg_left h1 (by positivity)
  exact ⟨_, hl, hgap', by linarith, by intro hc; linarith⟩

/-- **C126 (hierarchical Kriging).** The stored number is the log-likelihood (without its constant) of the trained parameters for process variance 1. -/
theorem C126_hk_meaning (hk : HKObj d q) (w : MFWorld d) (Xh : Samples nh d) (yh : Fin nh → ℝ) (Xl : Samples nl d) (yl : Fin nl → ℝ) (hk' : HKObj d q) (t : HKFit nh nl d q) (h : hk.train w Xh yh Xl yl = .ok (hk', t)) :
    t.logp = nh / 2 * Real.log (2 * Real.pi) - gaussNLL (trainCov hk'.kernel.param t.Xhs ((t.noise / t.yhStd) ^ 2)) (fun i => t.yhs i - t.gls.beta 0 * t.F i 0) := by
  obtain ⟨theta, noise, h3, e1, e2, hs, h4⟩ := hk_train_parts h
  have := glsLogp_eq h4
  rw [covTrain_eq, col_mulVec] at this
  rw [e1, e2]
  exact this

/-- **C126 (hierarchical Kriging, known non-zero noise).** With an optimiser that finds the best parameters, the stored number is the largest log-likelihood. -/
theorem C126_hk_known_noise_partial (hk : HKObj d q) (w : MFWorld d) (Xh : Samples nh d) (yh : Fin nh → ℝ) (Xl : Samples nl d) (yl : Fin nl → ℝ) (noise : ℝ) (hnoise : hk.noise = some noise) (hne : noise ≠ 0) (hopt : hk.optimizer = none)
    (hmini : ExactMinimizer w.hf.mini) (hkb : hk.kernel.boundLow ≤ hk.kernel.boundHigh) (hstarts : w.hf.starts ≠ []) (hk' : HKObj d q) (t : HKFit nh nl d q) (h : hk.train w Xh yh Xl yl = .ok (hk', t)) :
    IsLeast {l | ∃ (θ : Fin d → ℝ) (b : ℝ), (∀ j, hk.kernel.boundLow ≤ θ j ∧ θ j ≤ hk.kernel.boundHigh) ∧ l = gaussNLL (trainCov (fun k => (10 : ℝ) ^ θ k) t.Xhs ((noise / t.yhStd) ^ 2)) (fun i => t.yhs i - b * t.F i 0)}
      (nh / 2 * Real.log (2 * Real.pi) - t.logp) := by
  have hm := C119_hk_known_noise hk w Xh yh Xl yl noise hnoise hne hopt hmini hkb hstarts hk' t h
  have ht : t.noise = noise := by
    obtain ⟨theta, noise', h3, _, e2, _, _⟩ := hk_train_parts h
    unfold HKObj.fitHyper at h3
    rw [hnoise] at h3
    obtain ⟨x, _, h5⟩ := Py.bind_ok.mp h3
    simp only [Except.ok.injEq, Prod.mk.injEq] at h5
    rw [e2]
    exact h5.2.symm
  rw [C126_hk_meaning hk w Xh yh Xl yl hk' t h, ht, sub_sub_cancel]
  exact hm

/-- **C126 (hierarchical Kriging, estimated noise).** The same when the noise is estimated. -/
theorem C126_hk_unknown_noise_partial (hk : HKObj d q) (w : MFWorld d) (Xh : Samples nh d) (yh : Fin nh → ℝ) (Xl : Samples nl d) (yl : Fin nl → ℝ) (hnoise : hk.noise = none) (hopt : hk.optimizer = none)
    (hmini : ExactMinimizer w.hf.mini) (hkb : hk.kernel.boundLow ≤ hk.kernel.boundHigh) (hstarts : w.hf.startsNoise ≠ []) (hk' : HKObj d q) (t : HKFit nh nl d q) (h : hk.train w Xh yh Xl yl = .ok (hk', t)) :
    IsLeast {l | ∃ (θ : Fin d → ℝ) (σ b : ℝ), (∀ j, hk.kernel.boundLow ≤ θ j ∧ θ j ≤ hk.kernel.boundHigh) ∧ 1e-5 ≤ σ ∧ σ ≤ 10 ∧
        l = gaussNLL (trainCov (fun k => (10 : ℝ) ^ θ k) t.Xhs (σ ^ 2)) (fun i => t.yhs i - b * t.F i 0)}
      (nh / 2 * Real.log (2 * Real.pi) - t.logp) := by
  rw [C126_hk_meaning hk w Xh yh Xl yl hk' t h, sub_sub_cancel]
  exact C119_hk_unknown_noise hk w Xh yh Xl yl hnoise hopt hmini hkb hstarts hk' t h

/-- **C126 (hierarchical Kriging, noise-free, counterexample).** As for the Gaussian process: too small by at least `n / 2`. -/
theorem C126_hk_counterexample (hk : HKObj d q) (w : MFWorld d) (Xh : Samples nh d) (yh : Fin nh → ℝ) (Xl : Samples nl d) (yl : Fin nl → ℝ) (hnoise : hk.noise = some 0) (hopt : hk.optimizer = none) (hmini : ExactMinimizer w.hf.mini)
    (hkb : hk.kernel.boundLow ≤ hk.kernel.boundHigh) (hstarts : w.hf.starts ≠ []) (hk' : HKObj d q) (t : HKFit nh nl d q) (h : hk.train w Xh yh Xl yl = .ok (hk', t)) (hfit : ∀ b : ℝ, ∃ i, b * t.F i 0 ≠ t.yhs i) :
    ∃ l, IsLeast {l | ∃ (θ : Fin d → ℝ) (b s : ℝ), (∀ j, hk.kernel.boundLow ≤ θ j ∧ θ j ≤ hk.kernel.boundHigh) ∧ 0 < s ∧ l = gaussNLL (s • trainCov (fun k => (10 : ℝ) ^ θ k) t.Xhs 0) (fun i => t.yhs i - b * t.F i 0)} l ∧
      t.logp = nh / 2 * (1 + Real.log (2 * Real.pi)) - l - nh / 2 * (t.gls.sigma2 - Real.log t.gls.sigma2) ∧ t.logp + nh / 2 ≤ nh / 2 * (1 + Real.log (2 * Real.pi)) - l ∧ t.logp ≠ nh / 2 * (1 + Real.log (2 * Real.pi)) - l := by
  obtain ⟨hpos, hl⟩ := C119_hk_noise_free hk w Xh yh Xl yl hnoise hopt hmini hkb hstarts hk' t h hfit
  obtain ⟨theta, noise, h3, e1, e2, hs, h4⟩ := hk_train_parts h
  unfold HKObj.fitHyper at h3
  rw [hnoise] at h3
  obtain ⟨x, hx, h5⟩ := Py.bind_ok.mp h3
  simp only [Except.ok.injEq, Prod.mk.injEq] at h5
  obtain ⟨rfl, rfl⟩ := h5
  have hgap := glsLogp_gap h4 hpos
  rw [covTrain_eq, zero_div, zero_pow two_ne_zero, col_mulVec] at hgap
  rw [e1] at hl
  have hgap' : t.logp = nh / 2 * (1 + Real.log (2 * Real.pi)) - gaussNLL (t.gls.sigma2 • trainCov (fun k => (10 : ℝ) ^ x k) t.Xhs 0) (fun i => t.yhs i - t.gls.beta 0 * t.F i 0) - nh / 2 * (t.gls.sigma2 - Real.log t.gls.sigma2) := hgap
  have h1 := gap_ge hpos
  have hn : (0 : ℝ) < nh := by exact_mod_cast (glsFit_ok h4).pos
  have h2 : (nh : ℝ) / 2 * 1 ≤ nh / 2 * (t.gls.sigma2 - Real.log t.gls.sigma2) := mul_le_mul_of_nonneg_left h1 (by positivity)
  exact ⟨_, hl, hgap', by linarith, by intro hc; linarith⟩

/-! ## Co-Kriging -/

/-- The parts of a co-Kriging training that `logp` depends on. -/
theorem ck_train_parts {ck : CKObj d q} {w : CKWorld d} {Xh : Samples nh d} {yh : Fin nh → ℝ} {Xl : Samples nl d} {yl : Fin nl → ℝ} {ck' : CKObj d q} {t : CKFit nh nl d q} (h : ck.train w Xh yh Xl yl = .ok (ck', t)) :
    ∃ theta noise g, ck.fitHyper w (ck.noise.map (· / std yh)) (std yh) t.Xhs (fun i => (yh i - mean yh) / std yh) (ck'.lf.predict t.lfFit t.Xhs) = .ok (t.rho, theta, noise) ∧
      ck'.kernel.param = pow10 theta ∧ ck'.noise = some noise ∧ t.yh = yh ∧ t.yhMean = mean yh ∧ t.yhStd = std yh ∧ std yh ≠ 0 ∧ t.sigma2 = g.sigma2 ∧
      diffFit (covTrain (pow10 theta) t.Xhs noise) (fun i => (yh i - mean yh) / std yh - t.rho * ck'.lf.predict t.lfFit t.Xhs i) = .ok g := by
  unfold CKObj.train at h
  obtain ⟨Xhs, h1, h⟩ := Py.bind_ok.mp h
  obtain ⟨Xls, h2, h⟩ := Py.bind_ok.mp h
  obtain ⟨yhs, h3, h⟩ := Py.bind_ok.mp h
  obtain ⟨hs, rfl⟩ := normalizeOutput_ok h3
  obtain ⟨⟨lf, lfFit⟩, h4, h⟩ := Py.bind_ok.mp h
  obtain ⟨⟨rho, theta, noise⟩, h5, h⟩ := Py.bind_ok.mp h
  obtain ⟨g, h6, h⟩ := Py.bind_ok.mp h
  obtain ⟨LC, h7, h⟩ := Py.bind_ok.mp h
  obtain ⟨a, h8, h⟩ := Py.bind_ok.mp h
  obtain ⟨b, h9, h⟩ := Py.bind_ok.mp h
  obtain ⟨mu, h10, h⟩ := Py.bind_ok.mp h
  simp only [Except.ok.injEq, Prod.mk.injEq] at h
  obtain ⟨e1, e2⟩ := h
  subst e1 e2
  exact ⟨theta, noise, g, h5, rfl, rfl, rfl, rfl, rfl, hs, rfl, h6⟩

theorem ck_logp_eq {ck : CKObj d q} {w : CKWorld d} {Xh : Samples nh d} {yh : Fin nh → ℝ} {Xl : Samples nl d} {yl : Fin nl → ℝ} {ck' : CKObj d q} {t : CKFit nh nl d q} (h : ck.train w Xh yh Xl yl = .ok (ck', t)) (hpos : 0 < t.sigma2) :
    ∃ theta noise g, ck.fitHyper w (ck.noise.map (· / std yh)) (std yh) t.Xhs (fun i => (yh i - mean yh) / std yh) (ck'.lf.predict t.lfFit t.Xhs) = .ok (t.rho, theta, noise) ∧
      ck'.kernel.param = pow10 theta ∧ ck'.noise = some noise ∧ t.sigma2 = g.sigma2 ∧
      diffFit (covTrain (pow10 theta) t.Xhs noise) (fun i => (yh i - mean yh) / std yh - t.rho * ck'.lf.predict t.lfFit t.Xhs i) = .ok g ∧
      ck'.logp t = .ok (-0.5 * nh * Real.log t.sigma2 - 1 / 2 * Real.log (covTrain (pow10 theta) t.Xhs noise).det) := by
  obtain ⟨theta, noise, g, h1, h2, h3, e1, e2, e3, hs, h5, h6⟩ := ck_train_parts h
  refine ⟨theta, noise, g, h1, h2, h3, h5, h6, ?_⟩
  unfold CKObj.logp
  rw [h3, h2, e1, e2, e3]
  simp only
  rw [h6]
  show (do let l ← npLog g.sigma2; .ok (-0.5 * nh * l - logDiag g.L) : Py ℝ) = _
  rw [h5] at hpos
  unfold npLog
  rw [if_pos hpos, h5, logDiag_eq (diffFit_ok h6).chol]
  rfl

/-- **C126 (co-Kriging).** The stored number is finite exactly if the process variance of the difference is not zero, and then it is the log-likelihood of the difference (without its constant) for the fitted process
variance, whatever the noise. -/
theorem C126_ck_meaning (ck : CKObj d q) (w : CKWorld d) (Xh : Samples nh d) (yh : Fin nh → ℝ) (Xl : Samples nl d) (yl : Fin nl → ℝ) (ck' : CKObj d q) (t : CKFit nh nl d q) (h : ck.train w Xh yh Xl yl = .ok (ck', t)) (hpos : 0 < t.sigma2) :
    ∃ (l σ m : ℝ), ck'.logp t = .ok l ∧ ck'.noise = some σ ∧ l = nh / 2 * (1 + Real.log (2 * Real.pi)) -
      gaussNLL (t.sigma2 • trainCov ck'.kernel.param t.Xhs (σ ^ 2)) (fun i => (yh i - mean yh) / std yh - t.rho * ck'.lf.predict t.lfFit t.Xhs i - m) ∧
      ∀ c, gaussNLL (t.sigma2 • trainCov ck'.kernel.param t.Xhs (σ ^ 2)) (fun i => (yh i - mean yh) / std yh - t.rho * ck'.lf.predict t.lfFit t.Xhs i - m) ≤
        gaussNLL (t.sigma2 • trainCov ck'.kernel.param t.Xhs (σ ^ 2)) (fun i => (yh i - mean yh) / std yh - t.rho * ck'.lf.predict t.lfFit t.Xhs i - c) := by
  obtain ⟨theta, noise, g, h1, h2, h3, h5, h6, h7⟩ := ck_logp_eq h hpos
  refine ⟨_, noise, g.mu, h7, h3, ?_⟩
  have hg := diffFit_ok h6
  have hn : (nh : ℝ) ≠ 0 := by exact_mod_cast hg.pos.ne'
  have hw : wnorm (covTrain (pow10 theta) t.Xhs noise) (fun i => (yh i - mean yh) / std yh - t.rho * ck'.lf.predict t.lfFit t.Xhs i - g.mu) = nh * t.sigma2 := by
    have := hg.sigma2
    rw [hg.gamma] at this
    rw [h5, this]
    unfold wnorm
    field_simp
  have e : trainCov ck'.kernel.param t.Xhs (noise ^ 2) = covTrain (pow10 theta) t.Xhs noise := by rw [covTrain_eq, h2]; rfl
  rw [e]
  constructor
  · rw [gaussNLL_smul _ hpos (posDef_covTrain _ _ _), hw]
    field_simp
    ring
  · intro c
    rw [gaussNLL_smul _ hpos (posDef_covTrain _ _ _), gaussNLL_smul _ hpos (posDef_covTrain _ _ _)]
    have := isDiff_min hg c
    have := div_le_div_of_nonneg_right this (mul_pos two_pos hpos).le
    linarith

/-- **C126 (co-Kriging, noise-free).** With an optimiser that finds the best parameters, the stored number is the largest log-likelihood, provided that no `ρ` within its bounds makes the difference constant. -/
theorem C126_ck_noise_free_partial (ck : CKObj d q) (w : CKWorld d) (Xh : Samples nh d) (yh : Fin nh → ℝ) (Xl : Samples nl d) (yl : Fin nl → ℝ) (hnoise : ck.noise = some 0) (hopt : ck.optimizer = none)
    (hmini : ExactMinimizer w.mini) (hkb : ck.kernel.boundLow ≤ ck.kernel.boundHigh) (hrb : ck.rhoLow ≤ ck.rhoHigh) (hstarts : w.starts ≠ [])
    (ck' : CKObj d q) (t : CKFit nh nl d q) (h : ck.train w Xh yh Xl yl = .ok (ck', t))
    (hfit : ∀ rho, ck.rhoLow ≤ rho → rho ≤ ck.rhoHigh → ∃ i j, (yh i - mean yh) / std yh - rho * ck'.lf.predict t.lfFit t.Xhs i ≠ (yh j - mean yh) / std yh - rho * ck'.lf.predict t.lfFit t.Xhs j) :
    ∃ l, ck'.logp t = .ok l ∧
      IsLeast {l | ∃ (rho : ℝ) (θ : Fin d → ℝ) (c s : ℝ), (ck.rhoLow ≤ rho ∧ rho ≤ ck.rhoHigh) ∧ (∀ j, ck.kernel.boundLow ≤ θ j ∧ θ j ≤ ck.kernel.boundHigh) ∧ 0 < s ∧
          l = gaussNLL (s • trainCov (fun k => (10 : ℝ) ^ θ k) t.Xhs 0) (fun i => (yh i - mean yh) / std yh - rho * ck'.lf.predict t.lfFit t.Xhs i - c)}
        (nh / 2 * (1 + Real.log (2 * Real.pi)) - l) := by
  obtain ⟨hpos, m, hl⟩ := C119_ck_noise_free_partial ck w Xh yh Xl yl hnoise hopt hmini hkb hrb hstarts ck' t h hfit
  obtain ⟨theta, noise, g, h1, h2, h3, h5, h6, h7⟩ := ck_logp_eq h hpos
  obtain ⟨l, σ, m', k1, k2, k3, k4⟩ := C126_ck_meaning ck w Xh yh Xl yl ck' t h hpos
  have hσ : σ = 0 := by
    rw [hnoise, Option.map_some, zero_div] at h1
    unfold CKObj.fitHyper at h1
    obtain ⟨x, _, h8⟩ := Py.bind_ok.mp h1
    simp only [Except.ok.injEq, Prod.mk.injEq] at h8
    rw [h3] at k2
    rw [← Option.some.inj k2, ← h8.2.2]
  rw [hσ, zero_pow two_ne_zero] at k3 k4
  refine ⟨l, k1, ?_⟩
  obtain ⟨θ, v, a1, _, a3, a4, a5, _⟩ := C79_ck_known ck w Xh yh Xl yl 0 hnoise hopt hmini.1 hkb hrb hstarts ck' t h fun _ => hfit
  have ep : ck'.kernel.param = fun k => (10 : ℝ) ^ θ k := funext a1
  have hmem : gaussNLL (t.sigma2 • trainCov ck'.kernel.param t.Xhs 0) (fun i => (yh i - mean yh) / std yh - t.rho * ck'.lf.predict t.lfFit t.Xhs i - m') ∈
      {l | ∃ (rho : ℝ) (θ : Fin d → ℝ) (c s : ℝ), (ck.rhoLow ≤ rho ∧ rho ≤ ck.rhoHigh) ∧ (∀ j, ck.kernel.boundLow ≤ θ j ∧ θ j ≤ ck.kernel.boundHigh) ∧ 0 < s ∧
          l = gaussNLL (s • trainCov (fun k => (10 : ℝ) ^ θ k) t.Xhs 0) (fun i => (yh i - mean yh) / std yh - rho * ck'.lf.predict t.lfFit t.Xhs i - c)} :=
    ⟨t.rho, θ, m', t.sigma2, ⟨a3, a4⟩, a5, hpos, by rw [ep]⟩
  rw [k3, sub_sub_cancel]
  exact ⟨hmem, fun x hx => (k4 m).trans (hl.2 hx)⟩

/-- **C126 (co-Kriging, estimated noise, counterexample).** When the noise is estimated, the search maximises the likelihood for process variance 1 but the stored number is the one for the fitted process variance `v`: it
is never the maximum, but too large by `n / 2 (v - log v) ≥ n / 2`. -/
theorem C126_ck_counterexample (ck : CKObj d q) (w : CKWorld d) (Xh : Samples nh d) (yh : Fin nh → ℝ) (Xl : Samples nl d) (yl : Fin nl → ℝ) (hnoise : ck.noise = none) (hopt : ck.optimizer = none)
    (hmini : ExactMinimizer w.mini) (hkb : ck.kernel.boundLow ≤ ck.kernel.boundHigh) (hrb : ck.rhoLow ≤ ck.rhoHigh) (hstarts : w.startsNoise ≠ [])
    (ck' : CKObj d q) (t : CKFit nh nl d q) (h : ck.train w Xh yh Xl yl = .ok (ck', t)) (hpos : 0 < t.sigma2) :
    ∃ l p, ck'.logp t = .ok p ∧
      IsLeast {l | ∃ (rho : ℝ) (θ : Fin d → ℝ) (s c : ℝ), (ck.rhoLow ≤ rho ∧ rho ≤ ck.rhoHigh) ∧ (∀ j, ck.kernel.boundLow ≤ θ j ∧ θ j ≤ ck.kernel.boundHigh) ∧ 1e-5 ≤ s ∧ s ≤ 10 ∧
          l = gaussNLL (trainCov (fun k => (10 : ℝ) ^ θ k) t.Xhs (s ^ 2)) (fun i => (yh i - mean yh) / std yh - rho * ck'.lf.predict t.lfFit t.Xhs i - c)} l ∧
      p = nh / 2 * Real.log (2 * Real.pi) - l + nh / 2 * (t.sigma2 - Real.log t.sigma2) ∧ nh / 2 * Real.log (2 * Real.pi) - l + nh / 2 ≤ p ∧ p ≠ nh / 2 * Real.log (2 * Real.pi) - l := by
  obtain ⟨σ, m, hσ, hl⟩ := C119_ck_unknown_noise ck w Xh yh Xl yl hnoise hopt hmini hkb hrb hstarts ck' t h
  obtain ⟨θ, σ', v, a1, a2, a3, a4, a5, a6, a7, a8, _⟩ := C79_ck_free ck w Xh yh Xl yl hnoise hopt hmini.1 hkb hrb hstarts ck' t h
  obtain rfl : σ' = σ := Option.some.inj (a2.symm.trans hσ)
  obtain ⟨theta, noise, g, h1, h2, h3, h5, h6, h7⟩ := ck_logp_eq h hpos
  obtain rfl : noise = σ' := Option.some.inj (h3.symm.trans hσ)
  have hg := diffFit_ok h6
  have hn : (0 : ℝ) < nh := by exact_mod_cast hg.pos
  have hw : wnorm (covTrain (pow10 theta) t.Xhs noise) (fun i => (yh i - mean yh) / std yh - t.rho * ck'.lf.predict t.lfFit t.Xhs i - g.mu) = nh * t.sigma2 := by
    have := hg.sigma2
    rw [hg.gamma] at this
    rw [h5, this]
    unfold wnorm
    field_simp
  have e : trainCov ck'.kernel.param t.Xhs (noise ^ 2) = covTrain (pow10 theta) t.Xhs noise := by rw [covTrain_eq, h2]; rfl
  have ep : ck'.kernel.param = fun k => (10 : ℝ) ^ θ k := funext a1
  have hmin := isDiff_min hg m
  have hle : gaussNLL (trainCov ck'.kernel.param t.Xhs (noise ^ 2)) (fun i => (yh i - mean yh) / std yh - t.rho * ck'.lf.predict t.lfFit t.Xhs i - g.mu) ≤
      gaussNLL (trainCov ck'.kernel.param t.Xhs (noise ^ 2)) (fun i => (yh i - mean yh) / std yh - t.rho * ck'.lf.predict t.lfFit t.Xhs i - m) := by
    rw [e]
    unfold gaussNLL
    linarith
  have h1' := gap_ge hpos
  have h2' : (nh : ℝ) / 2 * 1 ≤ nh / 2 * (t.sigma2 - Real.log t.sigma2) := mul_le_mul_of_nonneg_left h1' (by positivity)
  have hval : gaussNLL (trainCov ck'.kernel.param t.Xhs (noise ^ 2)) (fun i => (yh i - mean yh) / std yh - t.rho * ck'.lf.predict t.lfFit t.Xhs i - g.mu) =
      nh / 2 * Real.log (2 * Real.pi) + 1 / 2 * Real.log (covTrain (pow10 theta) t.Xhs noise).det + 1 / 2 * (nh * t.sigma2) := by
    rw [e]
    unfold gaussNLL
    rw [hw]
  refine ⟨_, _, h7, ⟨⟨t.rho, θ, noise, g.mu, ⟨a3, a4⟩, a5, a6, a7, by rw [← ep]⟩, fun x hx => hle.trans (hl.2 hx)⟩, ?_, ?_, ?_⟩
  · rw [hval]
    ring
  · rw [hval]
    linarith
  · rw [hval]
    intro hc
    linarith

/-! ## Non-vacuity -/

/-- The example process: known noise, estimated noise, and noise-free data that the constant trend does not fit. -/
example : ∃ gp' t, (exGP (some 1)).train knowingWorld exX exY = .ok (gp', t) := exGP_trains_knowing _ exX exY 0 2 exY_ne
example : ∃ gp' t, (exGP none).train knowingWorld exX exY = .ok (gp', t) := exGP_trains_knowing _ exX exY 0 2 exY_ne
example : ∃ gp' t, (exGP (some 0)).train knowingWorld exX exY = .ok (gp', t) ∧ ∀ b, ∃ i, (exGP (some 0)).regr (t.Xs i) ⬝ᵥ b ≠ t.ys i := by
  obtain ⟨gp', t, h⟩ := exGP_trains_knowing (some 0) exX exY 0 2 exY_ne
  refine ⟨gp', t, h, fun b => ?_⟩
  by_contra hcon
  push_neg at hcon
  obtain ⟨_, hs, theta, noise, _, _, _, e2⟩ := train_ok_iff.mp h
  have h1 := hcon 0
  have h2 := hcon 2
  have e : (exGP (some 0)).regr (t.Xs 0) = (exGP (some 0)).regr (t.Xs 2) := rfl
  have : t.ys 0 = t.ys 2 := h1.symm.trans ((congrArg (· ⬝ᵥ b) e).trans h2)
  rw [e2] at this
  exact exY_ne (by have := (div_left_inj' hs).mp this; linarith)

/-- A co-Kriging model with estimated noise and a non-zero process variance meets all hypotheses of `C126_ck_counterexample`. -/
example : ∃ ck' t, exCKZ.train knowingCKWorld exX exY exX exY = .ok (ck', t) ∧ exCKZ.noise = none ∧ exCKZ.optimizer = none ∧ ExactMinimizer knowingCKWorld.mini ∧ exCKZ.kernel.boundLow ≤ exCKZ.kernel.boundHigh ∧
    exCKZ.rhoLow ≤ exCKZ.rhoHigh ∧ knowingCKWorld.startsNoise ≠ [] ∧ 0 < t.sigma2 := by
  have hkb : exCKZ.kernel.boundLow ≤ exCKZ.kernel.boundHigh := by simp [exCKZ, exCK, RBF.mk']; norm_num
  obtain ⟨ck', t, ht⟩ : ∃ ck' t, exCKZ.train knowingCKWorld exX exY exX exY = .ok (ck', t) := by
    have h0 : exCKZ.noise ≠ some 0 := by simp [exCKZ, exCK]
    refine C48_train_succeeds exCKZ knowingCKWorld exX exY exX exY (fun _ => by simp [exCKZ, exCK, exGP]) (by simp [exCKZ, exCK, RBF.mk']; norm_num) (by simp [exCKZ, exCK, RBF.mk']; norm_num)
      (by simp [exCKZ]) cornerMinimizer_good (fun run h => by simp [exCKZ, exCK] at h) knowingMinimizer_exact.1 (fun run h => by simp [exCKZ, exCK] at h)
      (by simp [knowingCKWorld, exCKWorld, exWorld]) (by simp [knowingCKWorld, exCKWorld, exWorld]) (by simp [knowingCKWorld, exCKWorld]) (by simp [knowingCKWorld, exCKWorld]) 0 2 exY_ne (by norm_num)
      (ordinary_indep _ (by norm_num)) ?_ (fun h => absurd h h0)
    rintro (h | ⟨_, h⟩)
    · exact absurd h h0
    · simp [exCKZ, exCK] at h
  obtain ⟨θ, σ, v, _, _, hr1, hr2, _⟩ := C79_ck_free exCKZ knowingCKWorld exX exY exX exY rfl rfl knowingMinimizer_exact.1 hkb (by simp [exCKZ]) (by simp [knowingCKWorld, exCKWorld]) ck' t ht
  have hrho : t.rho = 0 := le_antisymm hr2 hr1
  obtain ⟨hT, hy, hyl, hm, hsd, _⟩ := ckTrained_of_train ht
  obtain ⟨theta, noise, g, _, _, _, _, _, _, hs, h5, h6⟩ := ck_train_parts ht
  refine ⟨ck', t, ht, rfl, rfl, knowingMinimizer_exact, hkb, by simp [exCKZ], by simp [knowingCKWorld, exCKWorld], ?_⟩
  rw [h5]
  refine (diffFit_ok h6).sigma2_pos (i := 0) (j := 2) ?_
  rw [hrho]
  simp only [zero_mul, sub_zero]
  intro h
  rw [div_left_inj' hs] at h
  exact exY_ne (by linarith)

end Mfpml.Props
