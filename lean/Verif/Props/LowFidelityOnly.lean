import Verif.Props.Units

/-!
# C162: low-fidelity predictions depend on the low-fidelity data only
-/

namespace Mfpml.Props

open Mfpml.GP Mfpml.Spec Matrix

set_option linter.unusedSectionVars false

variable {d q ql qd nh nh' nl m : ℕ}

/-- C162 (hierarchical Kriging). Two trainings from the same object with the same low-fidelity data (and the same solver and random starts for the low-fidelity model) give the same low-fidelity
predictions and standard deviations everywhere, whatever the high-fidelity data. -/
theorem C162_hk (hk hk₁ hk₂ : HKObj d q) (w w' : MFWorld d) (hw : w'.lf = w.lf) (Xh : Samples nh d) (yh : Fin nh → ℝ) (Xh' : Samples nh' d) (yh' : Fin nh' → ℝ) (Xl : Samples nl d)
    (yl : Fin nl → ℝ) (t₁ : HKFit nh nl d q) (t₂ : HKFit nh' nl d q) (h₁ : hk.train w Xh yh Xl yl = .ok (hk₁, t₁)) (h₂ : hk.train w' Xh' yh' Xl yl = .ok (hk₂, t₂)) (X : Samples m d) :
    hk₂.predictLf t₂ X = hk₁.predictLf t₁ X ∧ predictStd hk₂.lf t₂.lfFit X = predictStd hk₁.lf t₁.lfFit X := by
  obtain ⟨_, _, _, _, e₁, _⟩ := hkTrained_of_train h₁
  obtain ⟨_, _, _, _, e₂, _⟩ := hkTrained_of_train h₂
  rw [hw, e₁, Except.ok.injEq, Prod.mk.injEq] at e₂
  unfold HKObj.predictLf
  rw [e₂.1, e₂.2]
  exact ⟨rfl, rfl⟩

/-- C162 (scaled Kriging, with or without search for the scale factor). -/
theorem C162_sk (sk sk₁ sk₂ : SKObj d ql qd) (w w' : SKWorld d) (hw : w'.lf = w.lf) (Xh : Samples nh d) (yh : Fin nh → ℝ) (Xh' : Samples nh' d) (yh' : Fin nh' → ℝ) (Xl : Samples nl d)
    (yl : Fin nl → ℝ) (t₁ : SKFit nh nl d ql qd) (t₂ : SKFit nh' nl d ql qd) (h₁ : sk.train w Xh yh Xl yl = .ok (sk₁, t₁)) (h₂ : sk.train w' Xh' yh' Xl yl = .ok (sk₂, t₂)) (X : Samples m d) :
    predictMean sk₂.lf t₂.lfFit X = predictMean sk₁.lf t₁.lfFit X ∧ predictStd sk₂.lf t₂.lfFit X = predictStd sk₁.lf t₁.lfFit X := by
  obtain ⟨_, _, e₁, _⟩ := skTrain_ok h₁
  obtain ⟨_, _, e₂, _⟩ := skTrain_ok h₂
  rw [hw, e₁, Except.ok.injEq, Prod.mk.injEq] at e₂
  rw [e₂.1, e₂.2]
  exact ⟨rfl, rfl⟩

/-- The fit of `a y + b F c`. -/
theorem gls_affine {n q : ℕ} {K : Matrix (Fin n) (Fin n) ℝ} {F : Matrix (Fin n) (Fin q) ℝ} {y y' : Fin n → ℝ} {g g' : GLS n q} (h : IsGLS K F y g) (h' : IsGLS K F y' g') (a b : ℝ) (c : Fin q → ℝ)
    (hy : y' = a • y + b • (F *ᵥ c)) : g'.beta = a • g.beta + b • c ∧ g'.gamma = a • g.gamma ∧ g'.sigma2 = a ^ 2 * g.sigma2 := by
  have hu : IsUnit (Fᵀ * (K⁻¹ * F)).det := h.cholM.isUnitA
  have hb : g'.beta = a • g.beta + b • c := by
    rw [h'.beta, h.beta, hy]
    simp only [Matrix.mulVec_add, Matrix.mulVec_smul]
    congr 2
    rw [Matrix.mulVec_mulVec, Matrix.mulVec_mulVec, Matrix.mulVec_mulVec, Matrix.mul_assoc, Matrix.mul_assoc, Matrix.nonsing_inv_mul _ hu, Matrix.one_mulVec]
  have hr : y' - F *ᵥ g'.beta = a • (y - F *ᵥ g.beta) := by
    rw [hb, hy, Matrix.mulVec_add, Matrix.mulVec_smul, Matrix.mulVec_smul, smul_sub]
    abel
  have hg : g'.gamma = a • g.gamma := by rw [h'.gamma, hr, Matrix.mulVec_smul, ← h.gamma]
  refine ⟨hb, hg, ?_⟩
  rw [h'.sigma2, h.sigma2, hr, hg, smul_dotProduct, dotProduct_smul]
  simp only [smul_eq_mul]
  ring

/-- C162 (partial, co-Kriging). If the noise is known to be 0, both trainings find the same low-fidelity length scales, and the constants are among the combinations `c` of the basis of the
low-fidelity model (as for all bases of the package), then both give the same low-fidelity predictions and standard deviations.  Missing: the case of non-zero or searched noise, where the
claim is false (`C162_counterexample`), because the low-fidelity model is trained on data scaled with the mean and standard deviation of the high-fidelity responses. -/
theorem C162_ck_partial (ck ck₁ ck₂ : CKObj d q) (hno : ck.noise = some 0) (c : Fin q → ℝ) (hc : ∀ x, ck.lf.regr x ⬝ᵥ c = 1) (w w' : CKWorld d) (Xh : Samples nh d) (yh : Fin nh → ℝ)
    (Xh' : Samples nh' d) (yh' : Fin nh' → ℝ) (Xl : Samples nl d) (yl : Fin nl → ℝ) (t₁ : CKFit nh nl d q) (t₂ : CKFit nh' nl d q) (h₁ : ck.train w Xh yh Xl yl = .ok (ck₁, t₁))
    (h₂ : ck.train w' Xh' yh' Xl yl = .ok (ck₂, t₂)) (hpar : ck₂.lf.kernel.param = ck₁.lf.kernel.param) (X : Samples m d) :
    ck₂.predictLf t₂ X = ck₁.predictLf t₁ X ∧ ck₂.predictLfStd t₂ X = ck₁.predictLfStd t₁ X := by
  obtain ⟨hT₁, _, _, hm₁, hs₁, hb₁, _, hX₁, hn₁, e₁⟩ := ckTrained_of_train h₁
  obtain ⟨hT₂, _, _, hm₂, hs₂, hb₂, _, hX₂, hn₂, e₂⟩ := ckTrained_of_train h₂
  obtain ⟨hR₁, hx₁, hy₁, hr₁, _⟩ := rawTrained_of_train e₁
  obtain ⟨hR₂, hx₂, hy₂, hr₂, _⟩ := rawTrained_of_train e₂
  have hN₁ : t₁.lfFit.noise = 0 := by rw [(hn₁ 0 hno).2, zero_div]
  have hN₂ : t₂.lfFit.noise = 0 := by rw [(hn₂ 0 hno).2, zero_div]
  have hreg : ∀ s : ℝ, (ckLf0 ck s).regr = ck.lf.regr := fun s => by unfold ckLf0; rw [hno]; rfl
  rw [hreg] at hr₁ hr₂
  have hX : t₂.lfFit.X = t₁.lfFit.X := by rw [hx₁, hx₂, hX₁, hX₂]
  have hF : t₂.lfFit.F = t₁.lfFit.F := by rw [hR₁.F, hR₂.F, hr₁, hr₂, hX]
  have hK : t₂.lfFit.K = t₁.lfFit.K := by rw [hR₁.K, hR₂.K, hpar, hX, hN₁, hN₂]
  have hp₁ : 0 < std yh := hs₁ ▸ hT₁.stdpos
  have hp₂ : 0 < std yh' := hs₂ ▸ hT₂.stdpos
  have hFc : t₁.lfFit.F *ᵥ c = fun _ => 1 := by
    rw [hR₁.F, hr₁]
    funext i
    exact hc _
  have hG₂ := hR₂.gls
  rw [hK, hF] at hG₂
  obtain ⟨gb, gg, gs⟩ := gls_affine hR₁.gls hG₂ (std yh / std yh') ((mean yh - mean yh') / std yh') c (by
    rw [hy₁, hy₂, hFc]
    funext i
    simp only [Pi.add_apply, Pi.smul_apply, smul_eq_mul]
    field_simp
    ring)
  have hker : ∀ (xs : Samples m d), ck₂.lf.kernel.getKernelMatrix t₂.lfFit.X xs = ck₁.lf.kernel.getKernelMatrix t₁.lfFit.X xs := by
    intro xs
    unfold RBF.getKernelMatrix
    rw [hpar, hX]
  have hmean : ∀ (xs : Samples m d), (fun j => ck₂.lf.predict t₂.lfFit xs j * t₂.yhStd + t₂.yhMean) = fun j => ck₁.lf.predict t₁.lfFit xs j * t₁.yhStd + t₁.yhMean := by
    intro xs
    funext j
    unfold RawGP.predict
    rw [hker, gb, gg, hr₁, hr₂, hs₁, hs₂, hm₁, hm₂, Matrix.mulVec_add, Matrix.mulVec_smul, Matrix.mulVec_smul, Matrix.mulVec_smul]
    have : (regrMatrix ck.lf.regr xs *ᵥ c) j = 1 := hc _
    simp only [Pi.add_apply, Pi.smul_apply, smul_eq_mul, this]
    field_simp
    ring
  refine ⟨?_, ?_⟩
  · unfold CKObj.predictLf
    rw [hb₁, hb₂]
    cases normalizeInput ck.box X with
    | error e => rfl
    | ok xs => exact congrArg Except.ok (hmean xs)
  · unfold CKObj.predictLfStd
    rw [hb₁, hb₂]
    cases normalizeInput ck.box X with
    | error e => rfl
    | ok xs =>
      simp only [bind, Except.bind, RawGP.predictStd]
      rw [mseOf_eq hR₁.gls, mseOf_eq hR₂.gls]
      simp only [Except.ok.injEq, Prod.mk.injEq]
      refine ⟨hmean xs, ?_⟩
      funext j
      rw [hker, hK, hF, hr₁, hr₂, gs, hN₁, hN₂, hs₁, hs₂]
      generalize (1 - _ + _ : ℝ) = v
      rw [show (std yh / std yh') ^ 2 * t₁.lfFit.gls.sigma2 * v = (std yh / std yh') ^ 2 * (t₁.lfFit.gls.sigma2 * v) by ring]
      have h0 : (0 : ℝ) ≤ (std yh / std yh') ^ 2 := sq_nonneg _
      rw [show max ((std yh / std yh') ^ 2 * (t₁.lfFit.gls.sigma2 * v)) 0 = (std yh / std yh') ^ 2 * max (t₁.lfFit.gls.sigma2 * v) 0 by
        rw [mul_max_of_nonneg _ _ h0, mul_zero]]
      rw [show (std yh / std yh') ^ 2 * max (t₁.lfFit.gls.sigma2 * v) 0 + (0 : ℝ) ^ 2 = (std yh / std yh') ^ 2 * (max (t₁.lfFit.gls.sigma2 * v) 0 + 0 ^ 2) by ring,
        Real.sqrt_mul h0, Real.sqrt_sq (by positivity)]
      field_simp

/-! ### co-Kriging with noise -/

theorem exCKN_trains' {T : ℝ} (hT : 0 < T) : ∃ ck' t, (exCKN 1).train exCKNWorld exEnds (exOpp T) exEnds (exOpp 1) = .ok (ck', t) := by
  have h0 : (exCKN 1).noise ≠ some 0 := by simp [exCKN]
  refine C48_train_succeeds (exCKN 1) exCKNWorld _ _ _ _ (fun _ => by simp [exCKN, exGP]) (by simp [exCKN, RBF.mk']; norm_num) (by simp [exCKN, RBF.mk'])
    (by simp [exCKN]; norm_num) cornerMinimizer_good (fun run h => by simp [exCKN] at h) startMinimizer_good (fun run h => by simp [exCKN] at h)
    (by simp [exCKNWorld, exWorld]) (by simp [exCKNWorld, exWorld]) (by simp [exCKNWorld]) (by simp [exCKNWorld]) 0 1 ?_ (by norm_num)
    (ordinary_indep _ (by norm_num)) ?_ (fun h => absurd h h0)
  · simp [exOpp]; intro h; linarith
  · rintro (h | ⟨h, _⟩)
    · exact absurd h h0
    · simp [exCKN] at h

/-- The low-fidelity prediction at the second sample, when the standard deviation of the high-fidelity responses is `T`. -/
theorem exCKN_lf' {T : ℝ} (hT : 0 < T) {ck' : CKObj 1 1} {t : CKFit 2 2 1 1} (h : (exCKN 1).train exCKNWorld exEnds (exOpp T) exEnds (exOpp 1) = .ok (ck', t)) :
    ∃ p, ck'.predictLf t exEnds = .ok p ∧ p 1 = (1 + 1e-10 - Real.exp (-1)) / (1 + 1e-10 + (1 / T) ^ 2 - Real.exp (-1)) := by
  obtain ⟨hTr, _, _, hm, hsd, hbox, _, hXl, hno, hlf⟩ := ckTrained_of_train h
  have hy0 : (fun i => (exOpp 1 i - mean (exOpp T)) / std (exOpp T)) = ![-(1 / T), 1 / T] := by
    funext i
    rw [exOpp_mean, exOpp_std hT]
    fin_cases i
    · simp [exOpp, neg_div]
    · simp [exOpp]
  rw [hy0] at hlf
  have hXl' : t.Xls = fun i _ => (![0, 1] : Fin 2 → ℝ) i := by rw [hXl]; exact exEnds_unit
  rw [hXl'] at hlf
  obtain ⟨hraw, hX, hy, hregr, _⟩ := rawTrained_of_train hlf
  have hn1 : t.lfFit.noise = 1 / T := by rw [(hno 1 rfl).2, exOpp_std hT]
  have hpar : ck'.lf.kernel.param = fun _ => 1 := by
    unfold RawGP.train at hlf
    obtain ⟨⟨theta, noise⟩, h1, h2⟩ := Py.bind_ok.mp hlf
    obtain ⟨g, _, h2⟩ := Py.bind_ok.mp h2
    simp only [Except.ok.injEq, Prod.mk.injEq] at h2
    have hlf0 : ckLf0 (exCKN 1) (std (exOpp T)) = { (exCKN 1).lf with noise := some (1 / std (exOpp T)) } := rfl
    rw [hlf0] at h1 h2
    unfold RawGP.fitHyper at h1
    obtain ⟨x, hx, h1⟩ := Py.bind_ok.mp h1
    simp only [Except.ok.injEq, Prod.mk.injEq] at h1
    have hc := corner_search (x0 := fun _ => 0) hx
    rw [← h2.1]
    show pow10 theta = _
    rw [← h1.1, hc]
    funext j
    simp [pow10, exCKN, RBF.mk']
  have hregr' : ck'.lf.regr = ordinary 1 := by rw [hregr]; rfl
  have hK := hraw.K
  rw [hX, hn1, hpar, cov_two _ one_pos] at hK
  set k := Real.exp (-1) with hk
  have hk1 : k < 1 := by rw [hk, Real.exp_lt_one_iff]; norm_num
  have hG := hraw.gls
  set l := (1 + 1e-10 + (1 / T) ^ 2 - k : ℝ) with hl0
  have hl : l ≠ 0 := by
    have : 0 < l := by rw [hl0]; nlinarith [sq_nonneg (1 / T)]
    exact this.ne'
  have hinv : t.lfFit.K⁻¹ *ᵥ ![-(1 / T), 1 / T] = l⁻¹ • ![-(1 / T), 1 / T] := inv_mulVec_eigen hG.posDef hl (by rw [hK]; exact opp_eigen _ _ _)
  have hF : t.lfFit.F = fun _ _ => 1 := by rw [hraw.F, hregr']; rfl
  have hbeta : t.lfFit.gls.beta = 0 := by
    rw [hG.beta, hy, hinv, Matrix.mulVec_smul]
    have : t.lfFit.Fᵀ *ᵥ ![-(1 / T), 1 / T] = 0 := by
      funext j
      rw [hF]
      exact ones_opp (1 / T)
    rw [this, smul_zero, Matrix.mulVec_zero]
  have hgamma : t.lfFit.gls.gamma = l⁻¹ • ![-(1 / T), 1 / T] := by
    rw [hG.gamma, hbeta, Matrix.mulVec_zero, sub_zero, hy, hinv]
  have hcross : rbfMatrix (fun _ => 1) (fun i _ => (![0, 1] : Fin 2 → ℝ) i : Samples 2 1) (fun i _ => (![0, 1] : Fin 2 → ℝ) i : Samples 2 1) = !![1 + 1e-10, k; k, 1 + 1e-10] := by
    have := cov_two (fun _ => 1) one_pos 0
    rw [covTrain_zero] at this
    rw [this]
    simp [hk]
  have hpred : ck'.lf.predict t.lfFit (fun i _ => (![0, 1] : Fin 2 → ℝ) i : Samples 2 1) = l⁻¹ • ((1 + 1e-10 - k) • ![-(1 / T), 1 / T]) := by
    unfold RawGP.predict RBF.getKernelMatrix
    rw [hbeta, Matrix.mulVec_zero, zero_add, hX, hpar, hcross, hgamma, Matrix.mulVec_smul]
    have htr : (!![1 + 1e-10, k; k, 1 + 1e-10] : Matrix (Fin 2) (Fin 2) ℝ)ᵀ = !![1 + 1e-10, k; k, 1 + 1e-10] := by
      ext i j; fin_cases i <;> fin_cases j <;> rfl
    rw [htr, opp_eigen]
  refine ⟨_, Py.bind_ok.mpr ⟨_, normalizeInput_eq exEnds hTr.range, rfl⟩, ?_⟩
  rw [hbox, show (exCKN 1).box = (exGP none).box from rfl, exEnds_unit, hpred, hsd, hm, exOpp_std hT, exOpp_mean]
  simp
  field_simp

/-- C162 is false for co-Kriging with noise: two trainings of the same object with the same low-fidelity data, the same sample sites, solvers and random starts, whose high-fidelity responses
differ by a factor of 2, predict different low-fidelity values at a low-fidelity sample.  Both find the same low-fidelity length scale. -/
theorem C162_counterexample : ∃ (ck ck₁ ck₂ : CKObj 1 1) (w : CKWorld 1) (X : Samples 2 1) (yl yh : Fin 2 → ℝ) (t₁ t₂ : CKFit 2 2 1 1) (p₁ p₂ : Fin 2 → ℝ), GoodMinimizer w.mini ∧
    GoodMinimizer w.lf.mini ∧ ck.noise = some 1 ∧ ck.train w X yh X yl = .ok (ck₁, t₁) ∧ ck.train w X (fun i => 2 * yh i) X yl = .ok (ck₂, t₂) ∧ ck₁.predictLf t₁ X = .ok p₁ ∧
    ck₂.predictLf t₂ X = .ok p₂ ∧ p₁ 1 < p₂ 1 := by
  obtain ⟨ck₁, t₁, h1⟩ := exCKN_trains' (T := 1) one_pos
  obtain ⟨ck₂, t₂, h2⟩ := exCKN_trains' (T := 2) two_pos
  obtain ⟨p₁, e1, v1⟩ := exCKN_lf' one_pos h1
  obtain ⟨p₂, e2, v2⟩ := exCKN_lf' two_pos h2
  have hy : (fun i => 2 * exOpp 1 i) = exOpp 2 := by funext i; fin_cases i <;> simp [exOpp]
  refine ⟨exCKN 1, ck₁, ck₂, exCKNWorld, exEnds, exOpp 1, exOpp 1, t₁, t₂, p₁, p₂, startMinimizer_good, cornerMinimizer_good, rfl, h1, by rw [hy]; exact h2, e1, e2, ?_⟩
  rw [v1, v2]
  have hk1 : Real.exp (-1) < 1 := by rw [Real.exp_lt_one_iff]; norm_num
  apply div_lt_div_of_pos_left <;> norm_num <;> linarith

/-! ### The hypotheses are met -/

/-- Hierarchical Kriging: two sets of high-fidelity responses for the same low-fidelity data. -/
example : ∃ hk₁ hk₂ t₁ t₂, (exHK (some 0)).train ⟨exWorld, exWorld⟩ (fun i _ => ![0, 1, 2] i : Samples 3 1) ![0, 1, 5] (fun i _ => ![0, 1, 2] i : Samples 3 1) ![0, 1, 2] = .ok (hk₁, t₁) ∧
    (exHK (some 0)).train ⟨exWorld, exWorld⟩ (fun i _ => ![0, 1, 2] i : Samples 3 1) ![0, 1, 8] (fun i _ => ![0, 1, 2] i : Samples 3 1) ![0, 1, 2] = .ok (hk₂, t₂) := by
  obtain ⟨hk₁, t₁, h₁⟩ := exHK_trains
  obtain ⟨lf', lfFit, hlf⟩ := exGP_trains (some 0) (fun i _ => ![0, 1, 2] i : Samples 3 1) ![0, 1, 2] 0 1 (by norm_num)
  have hf := C34_interpolation _ _ _ _ rfl _ _ hlf
  have hmean : mean (![0, 1, 8] : Fin 3 → ℝ) = 3 := by
    unfold mean; rw [Fin.sum_univ_three]; simp; norm_num
  obtain ⟨hk₂, t₂, h₂⟩ := C41_hk_train_succeeds (exHK (some 0)) ⟨exWorld, exWorld⟩ (fun i _ => ![0, 1, 2] i : Samples 3 1) ![0, 1, 8] _ _ (fun _ => by simp [exHK, exGP]) (by simp [exHK, RBF.mk']; norm_num)
    cornerMinimizer_good (fun run h => by simp [exHK] at h) (by simp [exWorld]) (by simp [exWorld]) 0 1 (by norm_num) lf' lfFit hlf _ hf 0 (by rw [hmean]; simp) (by
      intro _ c
      rw [hmean]
      by_cases hc : c = 1
      · exact ⟨2, by rw [hc]; simp⟩
      · refine ⟨1, ?_⟩
        simp only [Matrix.cons_val_one, Matrix.cons_val_zero, ne_eq]
        intro h
        apply hc
        linarith)
  exact ⟨hk₁, hk₂, t₁, t₂, h₁, h₂⟩

/-- Scaled Kriging with a search for the scale factor: three and two high-fidelity samples. -/
example : ∃ sk₁ sk₂ t₁ t₂, (exSK true .error).train exSKWorld (fun i _ => ![0, 1, 2] i : Samples 3 1) ![0, 1, 5] (fun i _ => ![0, 1, 2] i : Samples 3 1) ![0, 1, 2] = .ok (sk₁, t₁) ∧
    (exSK true .error).train exSKWorld (fun i _ => ![0, 1] i : Samples 2 1) ![7, 1] (fun i _ => ![0, 1, 2] i : Samples 3 1) ![0, 1, 2] = .ok (sk₂, t₂) := by
  obtain ⟨sk₁, t₁, h₁, _⟩ := exSK_trains
  obtain ⟨lf', lfFit, hlf⟩ := exGP_trains (some 0) (fun i _ => ![0, 1, 2] i : Samples 3 1) ![0, 1, 2] 0 1 (by norm_num)
  have hf := C34_interpolation _ _ _ _ rfl _ _ hlf
  rw [predictMean_eq (trained_of_train hlf).1, Except.ok.injEq] at hf
  have hf' := predictMean_eq (trained_of_train hlf).1 (fun i _ => ![0, 1] i : Samples 2 1)
  have e0 := congrFun hf 0
  have e2 := congrFun hf 1
  obtain ⟨disc', discFit, hd⟩ := exGP_trains (some 0) (fun i _ => ![0, 1] i : Samples 2 1) (getDisc 2 ![0, 1] ![7, 1]) 0 1 (by simp [getDisc]; norm_num)
  have hf2 : predictMean lf' lfFit (fun i _ => ![0, 1] i : Samples 2 1) = .ok ![0, 1] := by
    rw [hf', Except.ok.injEq]
    funext j
    fin_cases j
    · exact e0
    · exact e2
  exact ⟨sk₁, _, t₁, _, h₁, Py.bind_ok.mpr ⟨_, hlf, Py.bind_ok.mpr ⟨_, hf2, Py.bind_ok.mpr ⟨(2, exGP (some 0)), rfl, Py.bind_ok.mpr ⟨_, hd, rfl⟩⟩⟩⟩⟩

/-- Noise-free co-Kriging trainings for the same low-fidelity data. -/
theorem exCK_trains_noiseless' (y2 : ℝ) : ∃ ck' t, (exCK (some 0)).train exCKWorld (fun i _ => ![0, 1, 2] i : Samples 3 1) ![0, 1, y2] (fun i _ => ![0, 1, 2] i : Samples 3 1) ![1, 1, 2] =
    .ok (ck', t) := by
  have hs : std (![0, 1, y2] : Fin 3 → ℝ) ≠ 0 := fun h => by
    have := (std_eq_zero_iff _).mp h 0 1
    norm_num at this
  refine C48_train_succeeds (exCK (some 0)) exCKWorld _ _ _ _ (fun _ => by simp [exCK, exGP]) (by simp [exCK, RBF.mk']; norm_num) (by simp [exCK, RBF.mk']; norm_num)
    (by simp [exCK]; norm_num) cornerMinimizer_good (fun run h => by simp [exCK] at h) cornerMinimizer_good (fun run h => by simp [exCK] at h)
    (by simp [exCKWorld, exWorld]) (by simp [exCKWorld, exWorld]) (by simp [exCKWorld]) (by simp [exCKWorld]) 0 1 (by norm_num) (by norm_num) (ordinary_indep _ (by norm_num)) ?_ ?_
  · intro _ b hb
    have h1 := congrFun hb 1
    have h2 := congrFun hb 2
    have e : ∀ i, (regrMatrix (exCK (some 0)).lf.regr (fun i : Fin 3 => normPt (exCK (some 0)).box (fun _ => ![0, 1, 2] i)) *ᵥ b) i = b 0 := by
      intro i
      exact ordinary_mulVec _ _ _
    rw [e] at h1 h2
    rw [h1] at h2
    rw [div_left_inj' hs] at h2
    have h3 : (1 : ℝ) - mean ![0, 1, y2] = 2 - mean ![0, 1, y2] := h2
    linarith
  · intro _ lf' lfFit htr rho _ _
    refine ⟨0, 1, ?_⟩
    obtain ⟨hR, hX, hy, _, hno⟩ := rawTrained_of_train htr
    have h0 : lfFit.noise = 0 := hno 0 (by simp [ckLf0, exCK])
    have hp := rawPredict_train hR h0
    rw [hX, hy] at hp
    have hp' : lf'.predict lfFit (fun i : Fin 3 => normPt (exCK (some 0)).box (fun _ => ![0, 1, 2] i)) = _ := hp
    rw [hp']
    intro he
    have : (![0, 1, y2] : Fin 3 → ℝ) 0 / std (![0, 1, y2] : Fin 3 → ℝ) = (![0, 1, y2] : Fin 3 → ℝ) 1 / std (![0, 1, y2] : Fin 3 → ℝ) := by
      simp only [Matrix.cons_val_zero, Matrix.cons_val_one, sub_div] at he ⊢
      linarith
    rw [div_left_inj' hs] at this
    norm_num at this

theorem exCK_lf_param {yh : Fin 3 → ℝ} {X : Samples 3 1} {yl : Fin 3 → ℝ} {ck' : CKObj 1 1} {t : CKFit 3 3 1 1} (h : (exCK (some 0)).train exCKWorld X yh X yl = .ok (ck', t)) :
    ck'.lf.kernel.param = pow10 (fun _ => -2) := by
  obtain ⟨_, _, _, _, _, _, _, _, _, hlf⟩ := ckTrained_of_train h
  unfold RawGP.train at hlf
  obtain ⟨⟨theta, noise⟩, h1, h2⟩ := Py.bind_ok.mp hlf
  obtain ⟨g, _, h2⟩ := Py.bind_ok.mp h2
  simp only [Except.ok.injEq, Prod.mk.injEq] at h2
  have hlf0 : ckLf0 (exCK (some 0)) (std yh) = { (exCK (some 0)).lf with noise := some (0 / std yh) } := rfl
  rw [hlf0] at h1 h2
  unfold RawGP.fitHyper at h1
  obtain ⟨x, hx, h1⟩ := Py.bind_ok.mp h1
  simp only [Except.ok.injEq, Prod.mk.injEq] at h1
  have hc := corner_search (x0 := fun _ => 0) hx
  rw [← h2.1]
  show pow10 theta = _
  rw [← h1.1, hc]
  rfl

/-- Noise-free co-Kriging: two trainings with the same low-fidelity length scale and different high-fidelity responses; the basis of the low-fidelity model is a constant. -/
example : ∃ ck₁ ck₂ t₁ t₂, (exCK (some 0)).train exCKWorld (fun i _ => ![0, 1, 2] i : Samples 3 1) ![0, 1, 5] (fun i _ => ![0, 1, 2] i : Samples 3 1) ![1, 1, 2] = .ok (ck₁, t₁) ∧
    (exCK (some 0)).train exCKWorld (fun i _ => ![0, 1, 2] i : Samples 3 1) ![0, 1, 8] (fun i _ => ![0, 1, 2] i : Samples 3 1) ![1, 1, 2] = .ok (ck₂, t₂) ∧
    ck₂.lf.kernel.param = ck₁.lf.kernel.param ∧ ∀ x, (exCK (some 0)).lf.regr x ⬝ᵥ (fun _ => 1) = 1 := by
  obtain ⟨ck₁, t₁, h₁⟩ := exCK_trains_noiseless' 5
  obtain ⟨ck₂, t₂, h₂⟩ := exCK_trains_noiseless' 8
  exact ⟨ck₁, ck₂, t₁, t₂, h₁, h₂, by rw [exCK_lf_param h₁, exCK_lf_param h₂], fun x => by simp [exCK, ordinary, dotProduct]⟩

end Mfpml.Props
