import Verif.Lemmas.MFKriging
import Verif.Props.GP

/-!
# Properties of hierarchical and scaled Kriging (C37, C38, C41–C45)
-/

set_option linter.unusedSectionVars false

open scoped BigOperators Matrix

namespace Mfpml.Props

open Mfpml.GP Mfpml.Spec
open Mfpml.EA (Box)

variable {nh nl n m d q ql qd : ℕ}

/-! ## Hierarchical Kriging -/

/-- C41. With noise 0 the prediction at the high-fidelity training samples is the high-fidelity responses. -/
theorem C41_hk_interpolates (hk : HKObj d q) (w : MFWorld d) (Xh : Samples nh d) (yh : Fin nh → ℝ) (Xl : Samples nl d) (yl : Fin nl → ℝ)
    (hnoise : hk.noise = some 0) (hk' : HKObj d q) (t : HKFit nh nl d q) (h : hk.train w Xh yh Xl yl = .ok (hk', t)) :
    hk'.predict t Xh = .ok yh := by
  obtain ⟨hT, hX, hy, hbox, hlf, hno, _, hstd, _⟩ := hkTrained_of_train h
  obtain ⟨f, hf, hF⟩ := hT.F
  rw [hX] at hf
  rw [hkPredict_eq hT Xh hf]
  have hn0 : t.noise = 0 := hno 0 hnoise
  have hXs : (fun i => normPt hk'.box (Xh i)) = t.Xhs := by rw [hT.Xhs, hX]
  have hK := hT.K
  rw [hn0, zero_div, covTrain_zero] at hK
  rw [hXs, ← hK, ← hF, mean_train hT.gls]
  congr 1
  funext i
  rw [hT.yhs i, hy]

/-- C41 (training succeeds). For every design space with `lb < ub`, non-constant responses at both fidelities and well-behaved optimisers, training returns unless the scaled low-fidelity
prediction at the high-fidelity samples is identically 0 or, for noise 0, proportional to the scaled responses. -/
theorem C41_hk_train_succeeds (hk : HKObj d q) (w : MFWorld d) (Xh : Samples nh d) (yh : Fin nh → ℝ) (Xl : Samples nl d) (yl : Fin nl → ℝ)
    (hbox : ∀ j, hk.box.low j < hk.box.high j) (hkb : hk.kernel.boundLow ≤ hk.kernel.boundHigh)
    (hmini : GoodMinimizer w.hf.mini) (hopt : ∀ run, hk.optimizer = some run → 0 < d ∧ GoodPopOptimizer run)
    (hstarts : w.hf.starts ≠ []) (hstartsN : w.hf.startsNoise ≠ [])
    (i0 j0 : Fin nh) (hy : yh i0 ≠ yh j0) (lf' : GPObj d q) (lfFit : GPFit nl d q) (hlf : hk.lf.train w.lf Xl yl = .ok (lf', lfFit))
    (f : Fin nh → ℝ) (hf : predictMean lf' lfFit Xh = .ok f) (k0 : Fin nh) (hf0 : f k0 ≠ mean yh)
    (hfit : hk.noise = some 0 → ∀ c : ℝ, ∃ i, c * (f i - mean yh) ≠ yh i - mean yh) :
    ∃ hk' t, hk.train w Xh yh Xl yl = .ok (hk', t) := by
  have hs : std yh ≠ 0 := fun h => hy ((std_eq_zero_iff yh).mp h i0 j0)
  have hn : 0 < nh := lt_of_le_of_lt (Nat.zero_le _) i0.isLt
  have hr : ∀ j, hk.box.high j - hk.box.low j ≠ 0 := fun j => by have := hbox j; linarith
  have hFv : ∀ (b : Fin 1 → ℝ) i, (scaleCol f (mean yh) (std yh) *ᵥ b) i = (f i - mean yh) / std yh * b 0 := by
    intro b i; simp [Matrix.mulVec, dotProduct, scaleCol]
  have hF : IndepColumns (scaleCol f (mean yh) (std yh)) := by
    intro c hc
    have := congrFun hc k0
    rw [hFv] at this
    have h0 : (f k0 - mean yh) / std yh ≠ 0 := div_ne_zero (sub_ne_zero.mpr hf0) hs
    funext k
    rw [Fin.fin_one_eq_zero k]
    exact (mul_eq_zero.mp this).resolve_left h0
  have hne : hk.noise = some 0 → ∀ b, scaleCol f (mean yh) (std yh) *ᵥ b ≠ fun i => (yh i - mean yh) / std yh := by
    intro h0 b hb
    obtain ⟨i, hi⟩ := hfit h0 (b 0)
    apply hi
    have := congrFun hb i
    rw [hFv] at this
    have := congrArg (· * std yh) this
    rw [div_mul_cancel₀ _ hs] at this
    rw [← this]
    field_simp
  obtain ⟨theta, noise, h5⟩ : ∃ theta noise, hk.fitHyper w.hf (std yh) (fun i => normPt hk.box (Xh i)) (scaleCol f (mean yh) (std yh))
      (fun i => (yh i - mean yh) / std yh) = .ok (theta, noise) := by
    unfold HKObj.fitHyper
    cases hno : hk.noise with
    | some s =>
      obtain ⟨x, hx, _⟩ := searchHyper_good (opt := hk.optimizer) (obj := hkLogLikKnown s (std yh) (fun i => normPt hk.box (Xh i)) (scaleCol f (mean yh) (std yh))
          (fun i => (yh i - mean yh) / std yh))
        (lo := fun _ => hk.kernel.boundLow) (hi := fun _ => hk.kernel.boundHigh) hmini hopt (fun _ => hkb)
        (fun x _ => negLogLik_ok _ (posDef_covTrain _ _ _) hF hn (fun hz => hne (by rw [hno, hz]))) w.hf.starts hstarts
      exact ⟨x, s, Py.bind_ok.mpr ⟨x, hx, rfl⟩⟩
    | none =>
      obtain ⟨x, hx, _⟩ := searchHyper_good (opt := hk.optimizer) (obj := hkLogLikFree (fun i => normPt hk.box (Xh i)) (scaleCol f (mean yh) (std yh))
          (fun i => (yh i - mean yh) / std yh))
        (lo := Fin.snoc (α := fun _ => ℝ) (fun _ => hk.kernel.boundLow) noiseLow)
        (hi := Fin.snoc (α := fun _ => ℝ) (fun _ => hk.kernel.boundHigh) noiseHigh) hmini (fun r h => ⟨Nat.succ_pos _, (hopt r h).2⟩)
        (fun j => by
          refine Fin.lastCases ?_ (fun i => ?_) j
          · simp [noiseLow, noiseHigh]; norm_num
          · simpa using hkb)
        (fun x _ => negLogLik_ok _ (posDef_covTrain _ _ _) hF hn (fun hz => hz.elim)) w.hf.startsNoise hstartsN
      exact ⟨_, _, Py.bind_ok.mpr ⟨x, hx, rfl⟩⟩
  obtain ⟨g, h6, _⟩ := glsFit_succeeds (fun i => (yh i - mean yh) / std yh) (posDef_covTrain (pow10 theta) (fun i => normPt hk.box (Xh i)) (noise / std yh))
    ((indep_iff _).mp hF) hn
  exact ⟨_, _, Py.bind_ok.mpr ⟨_, hlf, Py.bind_ok.mpr ⟨_, normalizeInput_eq Xh hr, Py.bind_ok.mpr ⟨_, normalizeOutput_eq hs, Py.bind_ok.mpr ⟨_, hf,
    Py.bind_ok.mpr ⟨_, h5, Py.bind_ok.mpr ⟨_, h6, rfl⟩⟩⟩⟩⟩⟩⟩

theorem hkPredictStd_eq {hk : HKObj d q} {t : HKFit nh nl d q} (hT : HKTrained hk t) (Xnew : Samples m d) {fl : Fin m → ℝ}
    (hfl : hk.predictLf t Xnew = .ok fl) :
    ∃ μ mse, hk.predict t Xnew = .ok μ ∧
      mseOf t.gls t.F (hk.kernel.getKernelMatrix t.Xhs (fun i => normPt hk.box (Xnew i))) (scaleCol fl t.yhMean t.yhStd) = .ok mse ∧
      hk.predictStd t Xnew = .ok (μ, fun j => Real.sqrt ((Real.sqrt (max (mse j) 0) * t.yhStd) ^ 2 + t.noise ^ 2)) :=
  ⟨_, _, hkPredict_eq hT Xnew hfl, mseOf_eq hT.gls _ _, Py.bind_ok.mpr ⟨_, hkPredict_eq hT Xnew hfl,
    Py.bind_ok.mpr ⟨_, normalizeInput_eq Xnew hT.range, Py.bind_ok.mpr ⟨_, hfl, Py.bind_ok.mpr ⟨_, mseOf_eq hT.gls _ _, rfl⟩⟩⟩⟩⟩

/-- C42. For every trained model and prediction set the standard deviation is returned and is at least the model's noise; at the high-fidelity training samples of a model with
noise 0 it is exactly 0. -/
theorem C42_hk_uncertainty (hk : HKObj d q) (w : MFWorld d) (Xh : Samples nh d) (yh : Fin nh → ℝ) (Xl : Samples nl d) (yl : Fin nl → ℝ)
    (hk' : HKObj d q) (t : HKFit nh nl d q) (h : hk.train w Xh yh Xl yl = .ok (hk', t)) :
    (∀ (m : ℕ) (Xnew : Samples m d), ∃ μ σ s, hk'.predictStd t Xnew = .ok (μ, σ) ∧ hk'.noise = some s ∧ ∀ j, s ≤ σ j ∧ |s| ≤ σ j) ∧
    (hk.noise = some 0 → ∃ μ σ, hk'.predictStd t Xh = .ok (μ, σ) ∧ hk'.noise = some 0 ∧ ∀ j, σ j = 0) := by
  obtain ⟨hT, hX, hy, hbox, hlf, hno, _, hstd, _⟩ := hkTrained_of_train h
  refine ⟨fun m Xnew => ?_, fun hnoise => ?_⟩
  · obtain ⟨fl, hfl⟩ := hkPredictLf_ok hT Xnew
    obtain ⟨μ, mse, _, _, h3⟩ := hkPredictStd_eq hT Xnew hfl
    refine ⟨μ, _, t.noise, h3, hT.noise, fun j => ?_⟩
    have : |t.noise| ≤ Real.sqrt ((Real.sqrt (max (mse j) 0) * t.yhStd) ^ 2 + t.noise ^ 2) := by
      rw [← Real.sqrt_sq_eq_abs]
      apply Real.sqrt_le_sqrt
      have := sq_nonneg (Real.sqrt (max (mse j) 0) * t.yhStd)
      linarith
    exact ⟨(le_abs_self _).trans this, this⟩
  · obtain ⟨f, hf, hF⟩ := hT.F
    rw [hX] at hf
    obtain ⟨μ, mse, _, hm, h3⟩ := hkPredictStd_eq hT Xh hf
    have hn0 : t.noise = 0 := hno 0 hnoise
    refine ⟨μ, _, h3, by rw [hT.noise, hn0], fun j => ?_⟩
    have hXs : (fun i => normPt hk'.box (Xh i)) = t.Xhs := by rw [hT.Xhs, hX]
    have hK := hT.K
    rw [hn0, zero_div, covTrain_zero] at hK
    have hknew : hk'.kernel.getKernelMatrix t.Xhs (fun i => normPt hk'.box (Xh i)) = t.K := by rw [hXs, hK]; rfl
    rw [hknew, ← hF, mseOf_eq hT.gls, Except.ok.injEq] at hm
    have hmj : mse j ≤ 0 := by
      rw [← hm]
      show t.gls.sigma2 * _ ≤ 0
      rw [mse_train hT.gls, hK, rbfMatrix_diag _ (fun k => (hT.param k).le)]
      have h1 := hT.gls.sigma2_nonneg
      have h2 := nugget_pos
      nlinarith
    rw [hn0, max_eq_right hmj]
    simp

/-- C37 (hierarchical Kriging). -/
theorem C37_hk (hk : HKObj d q) (t : HKFit nh nl d q) (Xnew : Samples m d) (μ σ : Fin m → ℝ) (h : hk.predictStd t Xnew = .ok (μ, σ)) :
    hk.predict t Xnew = .ok μ := by
  unfold HKObj.predictStd at h
  obtain ⟨fmean, h1, h⟩ := Py.bind_ok.mp h
  obtain ⟨_, _, h⟩ := Py.bind_ok.mp h
  obtain ⟨_, _, h⟩ := Py.bind_ok.mp h
  obtain ⟨_, _, h⟩ := Py.bind_ok.mp h
  simp only [Except.ok.injEq, Prod.mk.injEq] at h
  rw [h1, h.1]

/-- C38 (hierarchical Kriging: what happens instead). The noise of the first training is kept by every later one. -/
theorem C38_hk_noise_sticky (hk : HKObj d q) {nh' nl' : ℕ} (w w' : MFWorld d) (Xh : Samples nh d) (yh : Fin nh → ℝ) (Xl : Samples nl d) (yl : Fin nl → ℝ)
    (Xh' : Samples nh' d) (yh' : Fin nh' → ℝ) (Xl' : Samples nl' d) (yl' : Fin nl' → ℝ)
    (hk₁ hk₂ : HKObj d q) (t₁ : HKFit nh nl d q) (t₂ : HKFit nh' nl' d q)
    (h₁ : hk.train w Xh yh Xl yl = .ok (hk₁, t₁)) (h₂ : hk₁.train w' Xh' yh' Xl' yl' = .ok (hk₂, t₂)) :
    t₂.noise = t₁.noise ∧ t₂.lfFit.noise = t₁.lfFit.noise := by
  obtain ⟨hT₁, _, _, _, hl₁, _⟩ := hkTrained_of_train h₁
  obtain ⟨hT₂, _, _, _, hl₂, hno, _⟩ := hkTrained_of_train h₂
  exact ⟨hno _ hT₁.noise, (C38_noise_sticky _ _ _ _ _ _ _ _ _ _ _ hl₁ hl₂).1⟩

/-- A hierarchical model around the example GP. -/
noncomputable def exHK (noise : Option ℝ) : HKObj 1 1 :=
  { box := (exGP none).box, kernel := RBF.mk' (fun _ => 0) (-2) 3, optimizer := none, noise := noise, lf := exGP noise }

/-- The low-fidelity responses of the example interpolate at the high-fidelity samples (same samples), so the trend column is known. -/
theorem exHK_trains : ∃ hk' t, (exHK (some 0)).train ⟨exWorld, exWorld⟩ (fun i _ => ![0, 1, 2] i : Samples 3 1) ![0, 1, 5]
    (fun i _ => ![0, 1, 2] i : Samples 3 1) ![0, 1, 2] = .ok (hk', t) := by
  obtain ⟨lf', lfFit, hlf⟩ := exGP_trains (some 0) (fun i _ => ![0, 1, 2] i : Samples 3 1) ![0, 1, 2] 0 1 (by norm_num)
  have hf := C34_interpolation _ _ _ _ rfl _ _ hlf
  have hmean : mean (![0, 1, 5] : Fin 3 → ℝ) = 2 := by
    unfold mean; rw [Fin.sum_univ_three]; simp; norm_num
  refine C41_hk_train_succeeds (exHK (some 0)) ⟨exWorld, exWorld⟩ _ _ _ _ (fun _ => by simp [exHK, exGP]) (by simp [exHK, RBF.mk']; norm_num)
    cornerMinimizer_good (fun run h => by simp [exHK] at h) (by simp [exWorld]) (by simp [exWorld]) 0 1 (by norm_num) lf' lfFit hlf _ hf 0 ?_ ?_
  · rw [hmean]; simp
  · intro _ c
    rw [hmean]
    by_cases hc : c = 1
    · exact ⟨2, by rw [hc]; simp; norm_num⟩
    · refine ⟨1, ?_⟩
      simp only [Matrix.cons_val_one, Matrix.cons_val_zero, ne_eq]
      intro h
      apply hc
      linarith

/-! ## Scaled Kriging -/

/-- What scaled Kriging predicts at its high-fidelity training set when the discrepancy model has noise 0, with the standard deviation and without. -/
theorem sk_at_training {sk : SKObj d ql qd} {w : SKWorld d} {Xh : Samples nh d} {yh : Fin nh → ℝ} {Xl : Samples nl d} {yl : Fin nl → ℝ}
    (hnoise : sk.disc.noise = some 0) {sk' : SKObj d ql qd} {t : SKFit nh nl d ql qd} (h : sk.train w Xh yh Xl yl = .ok (sk', t)) :
    ∃ lf, predictMean sk'.lf t.lfFit Xh = .ok lf ∧ predictMean sk'.disc t.discFit Xh = .ok (fun i => yh i - sk'.rho * lf i) ∧
      (∃ σ, sk'.predictStd t Xh = .ok (yh, σ)) ∧ sk'.predict t Xh = .ok (fun i => (yh i - sk'.rho * lf i) * sk'.rho + lf i) := by
  obtain ⟨lf, disc, h1, h2, h3, h4, _, _⟩ := skTrain_ok h
  have hd : disc.noise = some 0 := by
    split at h3
    · exact optimizeRho_noise hnoise h3
    · simp only [Except.ok.injEq, Prod.mk.injEq] at h3
      rw [← h3.2]; exact hnoise
  have hdisc := C34_interpolation _ _ _ _ hd _ _ h4
  obtain ⟨μl, σl, hl, _⟩ := (C35_std _ _ _ _ _ _ h1).1 nh Xh
  obtain ⟨μd, σd, hd', _⟩ := (C35_std _ _ _ _ _ _ h4).1 nh Xh
  have el := C37_gp _ _ _ _ _ hl
  have ed := C37_gp _ _ _ _ _ hd'
  rw [h2, Except.ok.injEq] at el
  rw [hdisc, Except.ok.injEq] at ed
  refine ⟨lf, h2, hdisc, ⟨fun j => Real.sqrt (sk'.rho ^ 2 * σl j ^ 2 + σd j ^ 2), ?_⟩, ?_⟩
  · refine Py.bind_ok.mpr ⟨_, hl, Py.bind_ok.mpr ⟨_, hd', ?_⟩⟩
    refine congrArg Except.ok (Prod.ext ?_ rfl)
    funext i
    simp only [← el, ← ed, getDisc]
    ring
  · exact Py.bind_ok.mpr ⟨_, hdisc, Py.bind_ok.mpr ⟨_, h2, rfl⟩⟩

/-- C43 (part that holds). With a noise-free discrepancy model the mean returned by `predict(X, return_std=True)` at the high-fidelity samples is the high-fidelity responses, for
every rho; `predict(X)` returns them when rho is 1.  What is missing is `predict(X)` for other values of rho. -/
theorem C43_sk_reproduces_partial (sk : SKObj d ql qd) (w : SKWorld d) (Xh : Samples nh d) (yh : Fin nh → ℝ) (Xl : Samples nl d) (yl : Fin nl → ℝ)
    (hnoise : sk.disc.noise = some 0) (sk' : SKObj d ql qd) (t : SKFit nh nl d ql qd) (h : sk.train w Xh yh Xl yl = .ok (sk', t)) :
    (∃ σ, sk'.predictStd t Xh = .ok (yh, σ)) ∧ (sk'.rho = 1 → sk'.predict t Xh = .ok yh) := by
  obtain ⟨lf, _, _, h3, h4⟩ := sk_at_training hnoise h
  refine ⟨h3, fun hr => ?_⟩
  rw [h4, hr]
  congr 1
  funext i
  ring

/-- C43 (exact failure). `predict(X)` misses the responses by `(rho - 1) (yh - (rho + 1) lf)`: it reproduces them exactly when rho is 1 or the responses are `(rho + 1)` times the
low-fidelity prediction. -/
theorem C43_sk_failure_iff (sk : SKObj d ql qd) (w : SKWorld d) (Xh : Samples nh d) (yh : Fin nh → ℝ) (Xl : Samples nl d) (yl : Fin nl → ℝ)
    (hnoise : sk.disc.noise = some 0) (sk' : SKObj d ql qd) (t : SKFit nh nl d ql qd) (h : sk.train w Xh yh Xl yl = .ok (sk', t)) :
    ∃ lf, predictMean sk'.lf t.lfFit Xh = .ok lf ∧
      (sk'.predict t Xh = .ok yh ↔ sk'.rho = 1 ∨ ∀ i, yh i = (sk'.rho + 1) * lf i) := by
  obtain ⟨lf, h1, _, h3, h4⟩ := sk_at_training hnoise h
  refine ⟨lf, h1, ?_⟩
  rw [h4, Except.ok.injEq, funext_iff]
  constructor
  · intro hh
    by_cases hr : sk'.rho = 1
    · exact Or.inl hr
    · right
      intro i
      have := hh i
      have h5 : (sk'.rho - 1) * (yh i - (sk'.rho + 1) * lf i) = 0 := by linarith
      rcases mul_eq_zero.mp h5 with h6 | h6
      · exact absurd (by linarith) hr
      · linarith
  · rintro (hr | hh) i
    · rw [hr]; ring
    · have := hh i
      rw [this]; ring

/-- The example scaled model: rho is searched in `[2, 3]`; the corner optimiser returns 2. -/
noncomputable def exSK (opt : Bool) (rhoMethod : RhoMethod) : SKObj 1 1 1 :=
  SKObj.new (exGP none).box (exGP (some 0)) (exGP (some 0)) opt rhoMethod 2 3 none

/-- Its environment. -/
noncomputable def exSKWorld : SKWorld 1 := { lf := exWorld, disc := exWorld, mini := cornerMinimizer, x0 := 2, bumpEvals := [], bumpX := 2 }

theorem exSK_trains : ∃ sk' t, (exSK true .error).train exSKWorld (fun i _ => ![0, 1, 2] i : Samples 3 1) ![0, 1, 5]
    (fun i _ => ![0, 1, 2] i : Samples 3 1) ![0, 1, 2] = .ok (sk', t) ∧ sk'.rho = 2 ∧
    predictMean sk'.lf t.lfFit (fun i _ => ![0, 1, 2] i : Samples 3 1) = .ok ![0, 1, 2] := by
  obtain ⟨lf', lfFit, hlf⟩ := exGP_trains (some 0) (fun i _ => ![0, 1, 2] i : Samples 3 1) ![0, 1, 2] 0 1 (by norm_num)
  have hf := C34_interpolation _ _ _ _ rfl _ _ hlf
  obtain ⟨disc', discFit, hd⟩ := exGP_trains (some 0) (fun i _ => ![0, 1, 2] i : Samples 3 1) (getDisc 2 ![0, 1, 2] ![0, 1, 5]) 0 1
    (by simp [getDisc]; norm_num)
  exact ⟨_, _, Py.bind_ok.mpr ⟨_, hlf, Py.bind_ok.mpr ⟨_, hf, Py.bind_ok.mpr ⟨(2, exGP (some 0)), rfl, Py.bind_ok.mpr ⟨_, hd, rfl⟩⟩⟩⟩, rfl, hf⟩

/-- C43 is false of `predict(X)`: a trained noise-free model that does not reproduce its high-fidelity data. -/
theorem C43_sk_counterexample : ∃ (sk sk' : SKObj 1 1 1) (w : SKWorld 1) (X : Samples 3 1) (yh yl : Fin 3 → ℝ) (t : SKFit 3 3 1 1 1),
    sk.disc.noise = some 0 ∧ sk.train w X yh X yl = .ok (sk', t) ∧ sk'.predict t X ≠ .ok yh := by
  obtain ⟨sk', t, h, hr, hlf⟩ := exSK_trains
  refine ⟨_, sk', _, _, _, _, t, rfl, h, ?_⟩
  obtain ⟨lf, h1, h2⟩ := C43_sk_failure_iff _ _ _ _ _ _ rfl _ _ h
  rw [hlf, Except.ok.injEq] at h1
  rw [ne_eq, h2, ← h1, hr]
  rintro (h3 | h3)
  · norm_num at h3
  · have := h3 1
    norm_num at this

/-- C37 (scaled Kriging, exact form). The two means differ by `(rho - 1) (disc - lf)`; in particular they agree when rho is 1.  What is missing for C37 is that they agree in general. -/
theorem C37_sk_partial (sk : SKObj d ql qd) (t : SKFit nh nl d ql qd) (Xnew : Samples m d) (μ σ : Fin m → ℝ) (h : sk.predictStd t Xnew = .ok (μ, σ)) :
    ∃ disc lf, predictMean sk.disc t.discFit Xnew = .ok disc ∧ predictMean sk.lf t.lfFit Xnew = .ok lf ∧
      sk.predict t Xnew = .ok (fun j => μ j + (sk.rho - 1) * (disc j - lf j)) := by
  unfold SKObj.predictStd at h
  obtain ⟨⟨pl, sl⟩, h1, h⟩ := Py.bind_ok.mp h
  obtain ⟨⟨pd, sd⟩, h2, h⟩ := Py.bind_ok.mp h
  simp only [Except.ok.injEq, Prod.mk.injEq] at h
  have e1 := C37_gp _ _ _ _ _ h1
  have e2 := C37_gp _ _ _ _ _ h2
  refine ⟨pd, pl, e2, e1, Py.bind_ok.mpr ⟨_, e2, Py.bind_ok.mpr ⟨_, e1, ?_⟩⟩⟩
  congr 1
  funext j
  rw [← h.1]
  ring

/-- C37 is false of scaled Kriging. -/
theorem C37_sk_counterexample : ∃ (sk sk' : SKObj 1 1 1) (w : SKWorld 1) (X : Samples 3 1) (yh yl : Fin 3 → ℝ) (t : SKFit 3 3 1 1 1) (μ σ : Fin 3 → ℝ),
    sk.train w X yh X yl = .ok (sk', t) ∧ sk'.predictStd t X = .ok (μ, σ) ∧ sk'.predict t X ≠ .ok μ := by
  obtain ⟨sk', t, h, hr, hlf⟩ := exSK_trains
  obtain ⟨lf, _, _, ⟨σ, h3⟩, _⟩ := sk_at_training (sk := exSK true .error) rfl h
  refine ⟨_, sk', _, _, _, _, t, _, σ, h, h3, ?_⟩
  obtain ⟨lf, h1, h2⟩ := C43_sk_failure_iff _ _ _ _ _ _ rfl _ _ h
  rw [hlf, Except.ok.injEq] at h1
  rw [ne_eq, h2, ← h1, hr]
  rintro (h3 | h3)
  · norm_num at h3
  · have := h3 1
    norm_num at this

/-- C44. Without optimisation the scale factor is left as constructed (1 for a new object); with the error objective and a well-behaved optimiser it is in the declared interval;
an unknown method is reported as an error.  For the bumpiness objective rho is whatever the optimiser reports. -/
theorem C44_sk_rho (sk : SKObj d ql qd) (w : SKWorld d) (Xh : Samples nh d) (yh : Fin nh → ℝ) (Xl : Samples nl d) (yl : Fin nl → ℝ)
    (hb : sk.rhoLow ≤ sk.rhoHigh) (hmini : GoodMinimizer w.mini) (hopt : ∀ run, sk.rhoOptimizer = some run → GoodPopOptimizer run)
    (hbump : sk.rhoLow ≤ w.bumpX ∧ w.bumpX ≤ sk.rhoHigh) :
    (∀ sk' t, sk.train w Xh yh Xl yl = .ok (sk', t) →
      (sk.rhoOptimize = false → sk'.rho = sk.rho) ∧ (sk.rhoOptimize = true → sk.rhoLow ≤ sk'.rho ∧ sk'.rho ≤ sk.rhoHigh)) ∧
    (sk.rhoOptimize = true → sk.rhoMethod = .other → ∃ e, sk.train w Xh yh Xl yl = .error e) := by
  constructor
  · intro sk' t h
    obtain ⟨lf, disc, h1, h2, h3, h4, _, _⟩ := skTrain_ok h
    constructor
    · intro ho
      rw [ho] at h3
      simp only [Bool.false_eq_true, if_false, Except.ok.injEq, Prod.mk.injEq] at h3
      exact h3.1.symm
    · intro ho
      rw [ho] at h3
      simp only [if_true] at h3
      unfold SKObj.optimizeRho at h3
      split at h3
      · split at h3
        · obtain ⟨x, f, hm, hx, _⟩ := hmini 1 (fun r => .ok (evalError lf yh r 0)) (fun _ => w.x0) (fun _ => sk.rhoLow) (fun _ => sk.rhoHigh)
            (fun _ => hb) (fun x _ => ⟨_, rfl⟩)
          obtain ⟨⟨x', f'⟩, hm', h3⟩ := Py.bind_ok.mp h3
          rw [hm] at hm'
          simp only [Except.ok.injEq, Prod.mk.injEq] at hm' h3
          rw [← h3.1, ← hm'.1]
          exact hx 0
        · rename_i run hrun
          obtain ⟨x, hm, hx⟩ := hopt run hrun 1 Nat.one_pos (fun r => .ok (evalError lf yh r 0)) (fun _ => sk.rhoLow) (fun _ => sk.rhoHigh)
            (fun _ => hb) (fun x _ => ⟨_, rfl⟩)
          obtain ⟨x', hm', h3⟩ := Py.bind_ok.mp h3
          rw [hm] at hm'
          simp only [Except.ok.injEq, Prod.mk.injEq] at hm' h3
          rw [← h3.1, ← hm']
          exact hx 0
      · obtain ⟨disc', _, h3⟩ := Py.bind_ok.mp h3
        simp only [Except.ok.injEq, Prod.mk.injEq] at h3
        rw [← h3.1]
        exact hbump
      · cases h3
  · intro ho hm
    cases h : sk.train w Xh yh Xl yl with
    | error e => exact ⟨e, rfl⟩
    | ok r =>
      exfalso
      obtain ⟨lf, disc, h1, h2, h3, h4, _, _⟩ := skTrain_ok (show sk.train w Xh yh Xl yl = .ok (r.1, r.2) from h)
      rw [ho] at h3
      simp only [if_true] at h3
      unfold SKObj.optimizeRho at h3
      rw [hm] at h3
      cases h3

/-- `sk'` is reached from `sk` by any number of successful `train` calls, on any data. -/
inductive SKReach (sk : SKObj d ql qd) : SKObj d ql qd → Prop
  | refl : SKReach sk sk
  | train {nh nl : ℕ} {sk₁ sk₂ : SKObj d ql qd} (w : SKWorld d) (Xh : Samples nh d) (yh : Fin nh → ℝ) (Xl : Samples nl d) (yl : Fin nl → ℝ) (t : SKFit nh nl d ql qd) :
      SKReach sk sk₁ → sk₁.train w Xh yh Xl yl = .ok (sk₂, t) → SKReach sk sk₂

/-- C44 (rho stays 1). A model constructed with `rho_optimize=False` has scale factor 1 after every training history. -/
theorem C44_sk_rho_off (box : Box ℝ d) (lf : GPObj d ql) (disc : GPObj d qd) (method : RhoMethod) (lo hi : ℝ) (opt : Option PopOptimizer) (sk' : SKObj d ql qd)
    (h : SKReach (SKObj.new box lf disc false method lo hi opt) sk') : sk'.rho = 1 := by
  have : sk'.rho = 1 ∧ sk'.rhoOptimize = false := by
    induction h with
    | refl => exact ⟨rfl, rfl⟩
    | train w Xh yh Xl yl t _ htr ih =>
      unfold SKObj.train at htr
      rw [ih.2] at htr
      obtain ⟨⟨lf, lfFit⟩, h1, htr⟩ := Py.bind_ok.mp htr
      obtain ⟨lfAtXh, h2, htr⟩ := Py.bind_ok.mp htr
      obtain ⟨⟨rho, disc⟩, h3, htr⟩ := Py.bind_ok.mp htr
      obtain ⟨⟨disc', discFit⟩, h4, htr⟩ := Py.bind_ok.mp htr
      simp only [Bool.false_eq_true, if_false, Except.ok.injEq, Prod.mk.injEq] at h3 htr
      rw [← htr.1]
      exact ⟨by rw [← h3.1]; exact ih.1, rfl⟩
  exact this.1

/-- Such a history exists: one training of the example. -/
example : ∃ sk' t, (exSK false .error).train exSKWorld (fun i _ => ![0, 1, 2] i : Samples 3 1) ![0, 2, 2] (fun i _ => ![0, 1, 2] i : Samples 3 1) ![0, 1, 2] = .ok (sk', t) ∧
    SKReach (exSK false .error) sk' := by
  obtain ⟨lf', lfFit, hlf⟩ := exGP_trains (some 0) (fun i _ => ![0, 1, 2] i : Samples 3 1) ![0, 1, 2] 0 1 (by norm_num)
  have hf := C34_interpolation _ _ _ _ rfl _ _ hlf
  obtain ⟨disc', discFit, hd⟩ := exGP_trains (some 0) (fun i _ => ![0, 1, 2] i : Samples 3 1) (getDisc 1 ![0, 1, 2] ![0, 2, 2]) 0 1
    (by simp [getDisc]; norm_num)
  have htr : (exSK false .error).train exSKWorld (fun i _ => ![0, 1, 2] i : Samples 3 1) ![0, 2, 2] (fun i _ => ![0, 1, 2] i : Samples 3 1) ![0, 1, 2] = .ok (_, _) :=
    Py.bind_ok.mpr ⟨_, hlf, Py.bind_ok.mpr ⟨_, hf, Py.bind_ok.mpr ⟨(1, exGP (some 0)), rfl, Py.bind_ok.mpr ⟨_, hd, rfl⟩⟩⟩⟩
  exact ⟨_, _, htr, SKReach.train _ _ _ _ _ _ SKReach.refl htr⟩

example : (exSK true .error).rhoLow ≤ (exSK true .error).rhoHigh ∧ GoodMinimizer exSKWorld.mini :=
  ⟨by norm_num [exSK, SKObj.new], cornerMinimizer_good⟩

/-- C45. Every candidate's error is the sum of squares of `rho lf - yh` for this candidate alone; when the low-fidelity predictions are not all zero it is minimised exactly at
`lf·yh / lf·lf`. -/
theorem C45_sk_error (lf yh : Fin nh → ℝ) :
    (∀ (p : ℕ) (rho : Fin p → ℝ) (k : Fin p), evalError lf yh rho k = ∑ i, (rho k * lf i - yh i) ^ 2) ∧
    (∀ (p p' : ℕ) (rho : Fin p → ℝ) (rho' : Fin p' → ℝ) (k : Fin p) (k' : Fin p'), rho k = rho' k' → evalError lf yh rho k = evalError lf yh rho' k') ∧
    (∀ i0, lf i0 ≠ 0 → ∀ r : ℝ, evalError lf yh (fun _ : Fin 1 => lf ⬝ᵥ yh / lf ⬝ᵥ lf) 0 ≤ evalError lf yh (fun _ : Fin 1 => r) 0 ∧
      (evalError lf yh (fun _ : Fin 1 => r) 0 ≤ evalError lf yh (fun _ : Fin 1 => lf ⬝ᵥ yh / lf ⬝ᵥ lf) 0 → r = lf ⬝ᵥ yh / lf ⬝ᵥ lf)) := by
  refine ⟨fun _ _ _ => rfl, fun p p' rho rho' k k' h => by simp only [evalError, h], ?_⟩
  intro i0 hi0 r
  have hpos : 0 < lf ⬝ᵥ lf := by
    unfold dotProduct
    apply Finset.sum_pos'
    · intro i _; exact mul_self_nonneg _
    · exact ⟨i0, Finset.mem_univ _, mul_self_pos.mpr hi0⟩
  have hexp : ∀ s : ℝ, evalError lf yh (fun _ : Fin 1 => s) 0 = s ^ 2 * (lf ⬝ᵥ lf) - 2 * s * (lf ⬝ᵥ yh) + yh ⬝ᵥ yh := by
    intro s
    unfold evalError dotProduct
    rw [Finset.mul_sum, Finset.mul_sum, ← Finset.sum_sub_distrib, ← Finset.sum_add_distrib]
    apply Finset.sum_congr rfl
    intro i _
    ring
  set r0 := lf ⬝ᵥ yh / lf ⬝ᵥ lf with hr0
  have hr0' : lf ⬝ᵥ yh = r0 * (lf ⬝ᵥ lf) := by rw [hr0, div_mul_cancel₀ _ hpos.ne']
  have hdiff : evalError lf yh (fun _ : Fin 1 => r) 0 - evalError lf yh (fun _ : Fin 1 => r0) 0 = (r - r0) ^ 2 * (lf ⬝ᵥ lf) := by
    rw [hexp, hexp, hr0']; ring
  constructor
  · have : 0 ≤ (r - r0) ^ 2 * (lf ⬝ᵥ lf) := by positivity
    linarith
  · intro hle
    by_contra hne
    have : 0 < (r - r0) ^ 2 := by
      have := sub_ne_zero.mpr hne
      positivity
    have := mul_pos this hpos
    linarith

end Mfpml.Props
