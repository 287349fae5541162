import Verif.Lemmas.GP
import Mathlib.Data.Fin.VecNotation
import Mathlib.Tactic.FinCases
import Mathlib.LinearAlgebra.Matrix.Permutation

/-!
# Properties of Gaussian-process regression (C31–C40)
-/

set_option linter.unusedSectionVars false

open scoped BigOperators Matrix

namespace Mfpml.Props

open Mfpml.GP Mfpml.Spec
open Mfpml.EA (Box)

variable {n m d q : ℕ}

/-! ## C31: training succeeds -/

theorem fitHyper_ok (gp : GPObj d q) (w : World d) (hkb : gp.kernel.boundLow ≤ gp.kernel.boundHigh) (hmini : GoodMinimizer w.mini)
    (hopt : ∀ run, gp.optimizer = some run → 0 < d ∧ GoodPopOptimizer run) (hstarts : w.starts ≠ []) (hstartsN : w.startsNoise ≠ [])
    (yStd : ℝ) (Xs : Samples n d) (ys : Fin n → ℝ) (hn : 0 < n) (hF : IndepColumns (regrMatrix gp.regr Xs))
    (hfit : gp.noise = some 0 → ∀ b, regrMatrix gp.regr Xs *ᵥ b ≠ ys) :
    ∃ theta noise, gp.fitHyper w yStd Xs ys = .ok (theta, noise) := by
  unfold GPObj.fitHyper
  cases hno : gp.noise with
  | some s =>
    obtain ⟨x, hx, _⟩ := searchHyper_good (opt := gp.optimizer) (obj := gp.logLikKnown s yStd Xs ys)
      (lo := fun _ => gp.kernel.boundLow) (hi := fun _ => gp.kernel.boundHigh) hmini hopt (fun _ => hkb)
      (fun x _ => negLogLik_ok ys (posDef_covTrain _ _ _) hF hn (fun hz => hfit (by rw [hno, hz]))) w.starts hstarts
    exact ⟨x, s, Py.bind_ok.mpr ⟨x, hx, rfl⟩⟩
  | none =>
    obtain ⟨x, hx, _⟩ := searchHyper_good (opt := gp.optimizer) (obj := gp.logLikFree Xs ys)
      (lo := Fin.snoc (α := fun _ => ℝ) (fun _ => gp.kernel.boundLow) noiseLow)
      (hi := Fin.snoc (α := fun _ => ℝ) (fun _ => gp.kernel.boundHigh) noiseHigh) hmini (fun r h => ⟨Nat.succ_pos _, (hopt r h).2⟩)
      (fun j => by
        refine Fin.lastCases ?_ (fun i => ?_) j
        · simp [noiseLow, noiseHigh]; norm_num
        · simpa using hkb)
      (fun x _ => negLogLik_ok ys (posDef_covTrain _ _ _) hF hn (fun hz => hz.elim)) w.startsNoise hstartsN
    exact ⟨_, _, Py.bind_ok.mpr ⟨x, hx, rfl⟩⟩

/-- C31. Training terminates with a fitted model for every design space with `lb < ub`, every sample set (duplicates allowed), every non-constant response vector, known or
unknown noise and every well-behaved optimiser, provided the basis functions are independent on the (normalised) samples and, for noise 0, the trend alone does not already fit
the (normalised) responses exactly. -/
theorem C31_train_succeeds (gp : GPObj d q) (w : World d) (X : Samples n d) (y : Fin n → ℝ)
    (hbox : ∀ j, gp.box.low j < gp.box.high j) (hkb : gp.kernel.boundLow ≤ gp.kernel.boundHigh)
    (hmini : GoodMinimizer w.mini) (hopt : ∀ run, gp.optimizer = some run → 0 < d ∧ GoodPopOptimizer run)
    (hstarts : w.starts ≠ []) (hstartsN : w.startsNoise ≠ [])
    (i0 j0 : Fin n) (hy : y i0 ≠ y j0)
    (hF : IndepColumns (fun i => gp.regr (normPt gp.box (X i))))
    (hfit : gp.noise = some 0 → ∀ b, (fun i => gp.regr (normPt gp.box (X i)) : Matrix (Fin n) (Fin q) ℝ) *ᵥ b ≠ fun i => (y i - mean y) / std y) :
    ∃ gp' t, gp.train w X y = .ok (gp', t) := by
  have hs : std y ≠ 0 := fun h => hy ((std_eq_zero_iff y).mp h i0 j0)
  have hn : 0 < n := lt_of_le_of_lt (Nat.zero_le _) i0.isLt
  have hr : ∀ j, gp.box.high j - gp.box.low j ≠ 0 := fun j => by have := hbox j; linarith
  obtain ⟨theta, noise, h3⟩ := fitHyper_ok gp w hkb hmini hopt hstarts hstartsN (std y) (fun i => normPt gp.box (X i))
    (fun i => (y i - mean y) / std y) hn hF hfit
  obtain ⟨g, h4, _⟩ := glsFit_succeeds (fun i => (y i - mean y) / std y)
    (posDef_covTrain (pow10 theta) (fun i => normPt gp.box (X i)) (noise / std y))
    ((indep_iff _).mp hF) hn
  exact ⟨_, _, Py.bind_ok.mpr ⟨_, normalizeInput_eq X hr, Py.bind_ok.mpr ⟨_, normalizeOutput_eq hs,
    Py.bind_ok.mpr ⟨_, h3, Py.bind_ok.mpr ⟨_, h4, rfl⟩⟩⟩⟩⟩

theorem ordinary_mulVec (Xs : Samples n d) (b : Fin 1 → ℝ) (i : Fin n) : (regrMatrix (ordinary d) Xs *ᵥ b) i = b 0 := by
  simp [Matrix.mulVec, dotProduct, regrMatrix, ordinary]

theorem ordinary_indep (Xs : Samples n d) (hn : 0 < n) : IndepColumns (regrMatrix (ordinary d) Xs) := by
  intro c hc
  have := congrFun hc ⟨0, hn⟩
  rw [ordinary_mulVec] at this
  funext k
  rw [Fin.fin_one_eq_zero k]
  exact this

/-- C31 (default trend). With the default constant trend non-constant responses are enough. -/
theorem C31_train_succeeds_default (gp : GPObj d 1) (w : World d) (X : Samples n d) (y : Fin n → ℝ)
    (hregr : gp.regr = ordinary d)
    (hbox : ∀ j, gp.box.low j < gp.box.high j) (hkb : gp.kernel.boundLow ≤ gp.kernel.boundHigh)
    (hmini : GoodMinimizer w.mini) (hopt : ∀ run, gp.optimizer = some run → 0 < d ∧ GoodPopOptimizer run)
    (hstarts : w.starts ≠ []) (hstartsN : w.startsNoise ≠ [])
    (i0 j0 : Fin n) (hy : y i0 ≠ y j0) :
    ∃ gp' t, gp.train w X y = .ok (gp', t) := by
  have hs : std y ≠ 0 := fun h => hy ((std_eq_zero_iff y).mp h i0 j0)
  refine C31_train_succeeds gp w X y hbox hkb hmini hopt hstarts hstartsN i0 j0 hy ?_ ?_
  · rw [hregr]; exact ordinary_indep _ (lt_of_le_of_lt (Nat.zero_le _) i0.isLt)
  · intro _ b hb
    rw [hregr] at hb
    have h1 := congrFun hb i0
    have h2 := congrFun hb j0
    rw [show (fun i => ordinary d (normPt gp.box (X i)) : Matrix (Fin n) (Fin 1) ℝ) = regrMatrix (ordinary d) (fun i => normPt gp.box (X i)) from rfl,
      ordinary_mulVec] at h1 h2
    rw [h1] at h2
    rw [div_left_inj' hs] at h2
    exact hy (by linarith)

/-- C31 (why independence is needed). With dependent basis columns every likelihood evaluation raises `LinAlgError`, whatever the hyper-parameters. -/
theorem C31_dependent_basis_fails (gp : GPObj d q) (noise yStd : ℝ) (Xs : Samples n d) (ys : Fin n → ℝ)
    (hF : ¬ IndepColumns (fun i => gp.regr (Xs i))) (params : Fin d → ℝ) (params' : Fin (d + 1) → ℝ) :
    gp.logLikKnown noise yStd Xs ys params = .error .linAlgError ∧ gp.logLikFree Xs ys params' = .error .linAlgError := by
  have key : ∀ (K : Matrix (Fin n) (Fin n) ℝ) (z : Prop), negLogLik K (regrMatrix gp.regr Xs) ys z = .error .linAlgError := by
    intro K z
    rw [negLogLik_closed, if_neg]
    rintro ⟨_, h2⟩
    exact hF ((indep_iff _).mpr (mulVec_injective_of_posDef_conj h2))
  exact ⟨key _ _, key _ _⟩

/-- C31 (constant responses): training stops at the output normalisation. -/
theorem C31_constant_fails (gp : GPObj d q) (w : World d) (X : Samples n d) (y : Fin n → ℝ) (hy : ∀ i j, y i = y j) :
    ∃ e, gp.train w X y = .error e := by
  cases h : gp.train w X y with
  | error e => exact ⟨e, rfl⟩
  | ok r => exact absurd ((std_eq_zero_iff y).mpr hy) (train_ok_iff.mp (show gp.train w X y = .ok (r.1, r.2) from h)).stdne

/-- A one-dimensional model on `[0, 4]` with the default kernel bounds. -/
noncomputable def exGP (noise : Option ℝ) : GPObj 1 1 :=
  { box := { low := fun _ => 0, high := fun _ => 4 }, kernel := RBF.mk' (fun _ => 0) (-2) 3, regr := ordinary 1, optimizer := none, noise := noise }

/-- An environment with one start point. -/
noncomputable def exWorld : World 1 := { mini := cornerMinimizer, starts := [fun _ => 0], startsNoise := [fun _ => 0] }

/-- Three samples, two of them equal. -/
def exX : Samples 3 1 := fun i _ => ![1, 1, 3] i

/-- Their responses. -/
def exY : Fin 3 → ℝ := ![2, 2, 5]

theorem exGP_trains (noise : Option ℝ) {n : ℕ} (X : Samples n 1) (y : Fin n → ℝ) (i j : Fin n) (hy : y i ≠ y j) :
    ∃ gp' t, (exGP noise).train exWorld X y = .ok (gp', t) :=
  C31_train_succeeds_default _ _ X y rfl (fun _ => by simp [exGP]) (by simp [exGP, RBF.mk']; norm_num) cornerMinimizer_good
    (fun run h => by simp [exGP] at h) (by simp [exWorld]) (by simp [exWorld]) i j hy

theorem exY_ne : exY 0 ≠ exY 2 := by show (2 : ℝ) ≠ 5; norm_num

/-- The hypotheses are met, with and without known noise. -/
example (noise : Option ℝ) : ∃ gp' t, (exGP noise).train exWorld exX exY = .ok (gp', t) :=
  exGP_trains noise exX exY 0 2 exY_ne

/-! ## C32: restarts keep the best -/

/-- C32 (known noise). The trained kernel parameters are `10^θ` with `θ` inside the kernel's bounds, `θ` has a likelihood value, and no restart of the local optimiser reports a
smaller one. -/
theorem C32_restarts_known_noise (gp : GPObj d q) (w : World d) (X : Samples n d) (y : Fin n → ℝ) (s : ℝ) (hnoise : gp.noise = some s)
    (hopt : gp.optimizer = none) (hmini : GoodMinimizer w.mini) (hkb : gp.kernel.boundLow ≤ gp.kernel.boundHigh) (hstarts : w.starts ≠ [])
    (hobj : ∀ x, Between (fun _ => gp.kernel.boundLow) (fun _ => gp.kernel.boundHigh) x →
      ∃ v, gp.logLikKnown s (std y) (fun i => normPt gp.box (X i)) (fun i => (y i - mean y) / std y) x = .ok v)
    (gp' : GPObj d q) (t : GPFit n d q) (h : gp.train w X y = .ok (gp', t)) :
    ∃ theta v, (∀ j, gp'.kernel.param j = (10 : ℝ) ^ theta j) ∧ (∀ j, gp.kernel.boundLow ≤ theta j ∧ theta j ≤ gp.kernel.boundHigh) ∧
      gp.logLikKnown s (std y) (fun i => normPt gp.box (X i)) (fun i => (y i - mean y) / std y) theta = .ok v ∧
      ∀ x0 ∈ w.starts, ∀ x' f', w.mini d (gp.logLikKnown s (std y) (fun i => normPt gp.box (X i)) (fun i => (y i - mean y) / std y)) x0
        (fun _ => gp.kernel.boundLow) (fun _ => gp.kernel.boundHigh) = .ok (x', f') → v ≤ f' := by
  obtain ⟨hr, hs, theta, noise, h3, e1, h4, e2⟩ := train_ok_iff.mp h
  unfold GPObj.fitHyper at h3
  rw [hnoise] at h3
  obtain ⟨x, hx, h5⟩ := Py.bind_ok.mp h3
  simp only [Except.ok.injEq, Prod.mk.injEq] at h5
  obtain ⟨rfl, rfl⟩ := h5
  rw [hopt] at hx
  obtain ⟨x', v, k1, k2, k3, k4⟩ := searchHyper_none hmini (fun _ => hkb) hobj w.starts hstarts
  rw [k1, Except.ok.injEq] at hx
  subst hx
  exact ⟨x', v, fun j => by rw [e1]; rfl, k2, k3, k4⟩

/-- C32 (estimated noise). As before; in addition the estimated noise, relative to the standard deviation of the responses, lies in `[1e-5, 10]`. -/
theorem C32_restarts_free_noise (gp : GPObj d q) (w : World d) (X : Samples n d) (y : Fin n → ℝ) (hnoise : gp.noise = none)
    (hopt : gp.optimizer = none) (hmini : GoodMinimizer w.mini) (hkb : gp.kernel.boundLow ≤ gp.kernel.boundHigh) (hstarts : w.startsNoise ≠ [])
    (hn : 0 < n) (hF : IndepColumns (fun i => gp.regr (normPt gp.box (X i))))
    (gp' : GPObj d q) (t : GPFit n d q) (h : gp.train w X y = .ok (gp', t)) :
    ∃ (theta : Fin d → ℝ) (s v : ℝ), (∀ j, gp'.kernel.param j = (10 : ℝ) ^ theta j) ∧ gp'.noise = some (s * std y) ∧
      (∀ j, gp.kernel.boundLow ≤ theta j ∧ theta j ≤ gp.kernel.boundHigh) ∧ 1e-5 ≤ s ∧ s ≤ 10 ∧
      gp.logLikFree (fun i => normPt gp.box (X i)) (fun i => (y i - mean y) / std y) (Fin.snoc theta s) = .ok v ∧
      ∀ x0 ∈ w.startsNoise, ∀ x' f', w.mini (d + 1) (gp.logLikFree (fun i => normPt gp.box (X i)) (fun i => (y i - mean y) / std y)) x0
        (Fin.snoc (fun _ => gp.kernel.boundLow) 1e-5) (Fin.snoc (fun _ => gp.kernel.boundHigh) 10) = .ok (x', f') → v ≤ f' := by
  obtain ⟨hr, hs, theta, noise, h3, e1, h4, e2⟩ := train_ok_iff.mp h
  unfold GPObj.fitHyper at h3
  rw [hnoise] at h3
  obtain ⟨x, hx, h5⟩ := Py.bind_ok.mp h3
  simp only [Except.ok.injEq, Prod.mk.injEq] at h5
  obtain ⟨rfl, rfl⟩ := h5
  rw [hopt] at hx
  obtain ⟨x', v, k1, k2, k3, k4⟩ := searchHyper_none (obj := gp.logLikFree (fun i => normPt gp.box (X i)) (fun i => (y i - mean y) / std y))
    (lo := Fin.snoc (α := fun _ => ℝ) (fun _ => gp.kernel.boundLow) noiseLow) (hi := Fin.snoc (α := fun _ => ℝ) (fun _ => gp.kernel.boundHigh) noiseHigh)
    hmini (fun j => by
        refine Fin.lastCases ?_ (fun i => ?_) j
        · simp [noiseLow, noiseHigh]; norm_num
        · simpa using hkb)
    (fun x _ => negLogLik_ok _ (posDef_covTrain _ _ _) hF hn (fun hz => hz.elim)) w.startsNoise hstarts
  rw [k1, Except.ok.injEq] at hx
  subst hx
  have hl := k2 (Fin.last d)
  simp only [Fin.snoc_last] at hl
  refine ⟨fun j => x' j.castSucc, x' (Fin.last d), v, fun j => by rw [e1]; rfl, by rw [e1], fun j => ?_, hl.1, hl.2, ?_, k4⟩
  · have := k2 j.castSucc
    simpa using this
  · have : (Fin.snoc (fun j => x' j.castSucc) (x' (Fin.last d)) : Fin (d + 1) → ℝ) = x' := Fin.snoc_init_self x'
    rw [this]; exact k3

/-- The hypothesis `hobj` of the first theorem holds for the example (noise 0). -/
example : ∃ gp' t, (exGP (some 0)).train exWorld exX exY = .ok (gp', t) ∧
    ∀ x, ∃ v, (exGP (some 0)).logLikKnown 0 (std exY) (fun i => normPt (exGP (some 0)).box (exX i)) (fun i => (exY i - mean exY) / std exY) x = .ok v := by
  obtain ⟨gp', t, h⟩ := exGP_trains (some 0) exX exY 0 2 exY_ne
  refine ⟨gp', t, h, fun x => ?_⟩
  have hs := (train_ok_iff.mp h).stdne
  refine negLogLik_ok _ (posDef_covTrain _ _ _) (ordinary_indep _ (by norm_num)) (by norm_num) ?_
  intro _ b hb
  have h1 := congrFun hb 0
  have h2 := congrFun hb 2
  rw [show (exGP (some 0)).regr = ordinary 1 from rfl, ordinary_mulVec] at h1 h2
  rw [h1] at h2
  rw [div_left_inj' hs] at h2
  exact exY_ne (by linarith)

/-! ## C33: generalised least squares -/

/-- The quadratic form of a positive definite matrix splits along an orthogonal residual. -/
theorem wnorm_add_orth {K : Matrix (Fin n) (Fin n) ℝ} (hK : (K⁻¹)ᵀ = K⁻¹) (r z : Fin n → ℝ) (h : z ⬝ᵥ (K⁻¹ *ᵥ r) = 0) :
    wnorm K (r + z) = wnorm K r + wnorm K z := by
  unfold wnorm
  have h' : r ⬝ᵥ (K⁻¹ *ᵥ z) = 0 := by
    rw [← h, Matrix.dotProduct_mulVec, ← Matrix.mulVec_transpose, hK, dotProduct_comm]
  rw [Matrix.mulVec_add, dotProduct_add, add_dotProduct, add_dotProduct, h, h']
  ring

/-- C33. After `train`, with `K` the covariance of the normalised samples, `F` the basis matrix and `ys` the normalised responses: the residual `ys - F β` is `K⁻¹`-orthogonal to every
basis column; `β` is the only minimiser of the `K⁻¹`-weighted squared residual; `sigma2` is the minimum divided by `n`, is non-negative, and is positive unless the trend
fits the responses exactly. -/
theorem C33_gls (gp : GPObj d q) (w : World d) (X : Samples n d) (y : Fin n → ℝ) (gp' : GPObj d q) (t : GPFit n d q)
    (h : gp.train w X y = .ok (gp', t)) :
    (∀ i, t.ys i = (y i - mean y) / std y) ∧ (∀ i, t.F i = gp.regr (normPt gp.box (X i))) ∧
    (∀ i j, t.K i j = gp'.kernel.getKernelMatrix (fun a => normPt gp.box (X a)) (fun a => normPt gp.box (X a)) i j +
      if i = j then (t.noise / std y) ^ 2 else 0) ∧
    t.Fᵀ *ᵥ (t.K⁻¹ *ᵥ (t.ys - t.F *ᵥ t.gls.beta)) = 0 ∧
    (∀ b, wnorm t.K (t.ys - t.F *ᵥ t.gls.beta) ≤ wnorm t.K (t.ys - t.F *ᵥ b)) ∧
    (∀ b, wnorm t.K (t.ys - t.F *ᵥ b) ≤ wnorm t.K (t.ys - t.F *ᵥ t.gls.beta) → b = t.gls.beta) ∧
    t.gls.sigma2 = wnorm t.K (t.ys - t.F *ᵥ t.gls.beta) / n ∧ 0 ≤ t.gls.sigma2 ∧ ((∀ b, t.F *ᵥ b ≠ t.ys) → 0 < t.gls.sigma2) := by
  obtain ⟨hT, hX, hy, hbox, hregr, _, _, hstd, hys⟩ := trained_of_train h
  have hG := hT.gls
  have hF : t.F = regrMatrix gp.regr (fun i => normPt gp.box (X i)) := by rw [hT.F, hT.Xs, hX, hbox, hregr]
  have hK : t.K = covTrain gp'.kernel.param (fun i => normPt gp.box (X i)) (t.noise / std y) := by rw [hT.K, hT.Xs, hX, hbox, hstd]
  have hsplit : ∀ b, wnorm t.K (t.ys - t.F *ᵥ b) = wnorm t.K (t.ys - t.F *ᵥ t.gls.beta) + wnorm t.K (t.F *ᵥ (t.gls.beta - b)) := by
    intro b
    rw [← wnorm_add_orth hG.symmKinv]
    · congr 1
      rw [Matrix.mulVec_sub]; abel
    · rw [← hG.gamma, dotProduct_comm, Matrix.dotProduct_mulVec, ← Matrix.mulVec_transpose, hG.normal, zero_dotProduct]
  have hnn : ∀ z, 0 ≤ wnorm t.K z := fun z => by
    have := hG.posDef.inv.posSemidef.dotProduct_mulVec_nonneg z
    simpa [wnorm] using this
  refine ⟨fun i => by rw [hys], fun i => by rw [hF]; rfl, ?_, ?_, ?_, ?_, ?_, hG.sigma2_nonneg, fun hne => hG.sigma2_pos (fun e => hne _ e.symm)⟩
  · intro i j
    rw [hK]
    unfold covTrain RBF.getKernelMatrix
    rw [Matrix.add_apply, Matrix.smul_apply, Matrix.one_apply]
    congr 1
    split <;> simp
  · rw [← hG.gamma]; exact hG.normal
  · intro b
    rw [hsplit b]
    have := hnn (t.F *ᵥ (t.gls.beta - b))
    linarith
  · intro b hb
    rw [hsplit b] at hb
    by_contra hne
    have hz : t.F *ᵥ (t.gls.beta - b) ≠ 0 := by
      intro hz
      have := hG.inj (a₁ := t.gls.beta - b) (a₂ := 0) (by simpa using hz)
      exact hne (sub_eq_zero.mp this).symm
    have := hG.posDef.inv.dotProduct_mulVec_pos hz
    unfold wnorm at hb
    simp only [star_trivial] at this
    linarith
  · rw [hG.sigma2, hG.gamma]; rfl

/-! ## C34, C35: interpolation and standard deviation -/

/-- C34. A model trained with noise 0 predicts its training responses exactly at its training samples. -/
theorem C34_interpolation (gp : GPObj d q) (w : World d) (X : Samples n d) (y : Fin n → ℝ) (hnoise : gp.noise = some 0)
    (gp' : GPObj d q) (t : GPFit n d q) (h : gp.train w X y = .ok (gp', t)) : predictMean gp' t X = .ok y := by
  obtain ⟨hT, hX, hy, hbox, hregr, hno, _, hstd, hys⟩ := trained_of_train h
  rw [predictMean_eq hT]
  have hn0 : t.noise = 0 := hno 0 hnoise
  have hXs : (fun i => normPt gp'.box (X i)) = t.Xs := by rw [hT.Xs, hX]
  have hK := hT.K
  rw [hn0, zero_div, covTrain_zero] at hK
  rw [hXs, ← hK, ← hT.F, mean_train hT.gls]
  congr 1
  funext i
  rw [hT.ys i, hy]

/-- C34 (with noise): in general the prediction at the training samples misses the response by the noise variance times the fitted weight. -/
theorem C34_residual (gp : GPObj d q) (w : World d) (X : Samples n d) (y : Fin n → ℝ)
    (gp' : GPObj d q) (t : GPFit n d q) (h : gp.train w X y = .ok (gp', t)) :
    predictMean gp' t X = .ok (fun i => y i - (t.noise ^ 2 / std y) * t.gls.gamma i) := by
  obtain ⟨hT, hX, hy, hbox, hregr, hno, _, hstd, hys⟩ := trained_of_train h
  rw [predictMean_eq hT]
  have hXs : (fun i => normPt gp'.box (X i)) = t.Xs := by rw [hT.Xs, hX]
  have hK := hT.K
  unfold covTrain at hK
  have hR : rbfMatrix gp'.kernel.param t.Xs t.Xs = t.K - ((t.noise / t.yStd) ^ 2) • (1 : Matrix (Fin n) (Fin n) ℝ) := by
    rw [hK]; abel
  rw [hXs, hR, ← hT.F]
  congr 1
  funext i
  have hm := congrFun (mean_train hT.gls) i
  rw [Matrix.transpose_sub, Matrix.sub_mulVec, Matrix.transpose_smul, Matrix.transpose_one, Matrix.smul_mulVec, Matrix.one_mulVec]
  simp only [Pi.add_apply, Pi.sub_apply, Pi.smul_apply, smul_eq_mul] at hm ⊢
  have hy' := hT.ys i
  rw [← hstd, ← hy, ← hy', ← hm]
  have := hT.stdpos.ne'
  field_simp
  ring

/-- C35. For every trained model and every prediction set, `predict(..., return_std=True)` returns, and all standard deviations are non-negative; with noise 0 they are exactly 0 at the
training set. -/
theorem C35_std (gp : GPObj d q) (w : World d) (X : Samples n d) (y : Fin n → ℝ) (gp' : GPObj d q) (t : GPFit n d q)
    (h : gp.train w X y = .ok (gp', t)) :
    (∀ (m : ℕ) (Xnew : Samples m d), ∃ μ σ, predictStd gp' t Xnew = .ok (μ, σ) ∧ ∀ j, 0 ≤ σ j) ∧
    (gp.noise = some 0 → ∃ μ σ, predictStd gp' t X = .ok (μ, σ) ∧ ∀ j, σ j = 0) := by
  obtain ⟨hT, hX, hy, hbox, hregr, hno, _, hstd, hys⟩ := trained_of_train h
  refine ⟨fun m Xnew => ?_, fun hnoise => ?_⟩
  · refine ⟨_, _, Py.bind_ok.mpr ⟨_, predictMean_eq hT Xnew, Py.bind_ok.mpr ⟨_, normalizeInput_eq Xnew hT.range, Py.bind_ok.mpr ⟨_, mseOf_eq hT.gls _ _, rfl⟩⟩⟩, ?_⟩
    intro j
    exact Real.sqrt_nonneg _
  · refine ⟨_, _, Py.bind_ok.mpr ⟨_, predictMean_eq hT X, Py.bind_ok.mpr ⟨_, normalizeInput_eq X hT.range, Py.bind_ok.mpr ⟨_, mseOf_eq hT.gls _ _, rfl⟩⟩⟩, ?_⟩
    intro j
    have hn0 : t.noise = 0 := hno 0 hnoise
    have hXs : (fun i => normPt gp'.box (X i)) = t.Xs := by rw [hT.Xs, hX]
    have hK := hT.K
    rw [hn0, zero_div, covTrain_zero] at hK
    have hknew : gp'.kernel.getKernelMatrix t.Xs (fun i => normPt gp'.box (X i)) = t.K := by rw [hXs, hK]; rfl
    have hf : regrMatrix gp'.regr (fun i => normPt gp'.box (X i)) = t.F := by rw [hXs, hT.F]
    rw [hknew, hf, mse_train hT.gls, hK, rbfMatrix_diag _ (fun k => (hT.param k).le)]
    apply Real.sqrt_eq_zero_of_nonpos
    apply max_le _ (le_refl _)
    rw [hn0]
    have h1 := hT.gls.sigma2_nonneg
    have h2 := nugget_pos
    have h3 := sq_nonneg t.yStd
    have h4 : t.gls.sigma2 * (1 - (1 + nugget)) * t.yStd ^ 2 = -(t.gls.sigma2 * nugget * t.yStd ^ 2) := by ring
    rw [h4]
    have : 0 ≤ t.gls.sigma2 * nugget * t.yStd ^ 2 := by positivity
    linarith

/-! ## C36: dependence on the batch -/

/-- C36 (exact form). There is a function of the single point such that entry `j` of every prediction is its value at row `j`, plus `1e-10 · y_std · γ_j` when `j` is also the
position of a training sample: the position in the batch is the only thing the prediction of a point depends on.  What is missing for C36 is that this term is not zero. -/
theorem C36_batch_partial (gp : GPObj d q) (w : World d) (X : Samples n d) (y : Fin n → ℝ) (gp' : GPObj d q) (t : GPFit n d q)
    (h : gp.train w X y = .ok (gp', t)) :
    ∃ smooth : (Fin d → ℝ) → ℝ, ∀ (m : ℕ) (Xnew : Samples m d),
      predictMean gp' t Xnew = .ok (fun j => smooth (Xnew j) + if hj : j.val < n then 1e-10 * t.yStd * t.gls.gamma ⟨j.val, hj⟩ else 0) := by
  obtain ⟨hT, _⟩ := trained_of_train h
  refine ⟨fun x => (gp'.regr (normPt gp'.box x) ⬝ᵥ t.gls.beta + ∑ i, Real.exp (-rbfDist gp'.kernel.param (t.Xs i) (normPt gp'.box x)) * t.gls.gamma i)
    * t.yStd + t.yMean, fun m Xnew => ?_⟩
  rw [predictMean_eq hT]
  congr 1
  funext j
  have hsum : ((rbfMatrix gp'.kernel.param t.Xs (fun i => normPt gp'.box (Xnew i)))ᵀ *ᵥ t.gls.gamma) j =
      ∑ i, Real.exp (-rbfDist gp'.kernel.param (t.Xs i) (normPt gp'.box (Xnew j))) * t.gls.gamma i +
      if hj : j.val < n then nugget * t.gls.gamma ⟨j.val, hj⟩ else 0 := by
    simp only [Matrix.mulVec, dotProduct, Matrix.transpose_apply, rbfMatrix, add_mul, Finset.sum_add_distrib]
    congr 1
    split
    · rename_i hj
      rw [Finset.sum_eq_single ⟨j.val, hj⟩]
      · simp
      · intro b _ hb
        rw [if_neg (fun hbj => hb (Fin.ext hbj))]; simp
      · intro hh; exact absurd (Finset.mem_univ _) hh
    · rename_i hj
      apply Finset.sum_eq_zero
      intro b _
      have := b.isLt
      rw [if_neg (by omega)]; simp
  have hnug : nugget = 1e-10 := by unfold nugget; norm_num
  rw [Pi.add_apply, hsum, hnug]
  have hf : (regrMatrix gp'.regr (fun i => normPt gp'.box (Xnew i)) *ᵥ t.gls.beta) j = gp'.regr (normPt gp'.box (Xnew j)) ⬝ᵥ t.gls.beta := rfl
  rw [hf]
  by_cases hj : j.val < n
  · rw [dif_pos hj, dif_pos hj]; ring
  · rw [dif_neg hj, dif_neg hj]; ring

/-- C36 fails for every trained model whose trend does not fit the data exactly: any point, repeated `n + 1` times in one batch, gets at least two different predictions. -/
theorem C36_batch_independence_false (gp : GPObj d q) (w : World d) (X : Samples n d) (y : Fin n → ℝ) (gp' : GPObj d q) (t : GPFit n d q)
    (h : gp.train w X y = .ok (gp', t)) (hfit : ∀ b, t.F *ᵥ b ≠ t.ys) (x : Fin d → ℝ) :
    ∃ μ, predictMean gp' t (fun _ : Fin (n + 1) => x) = .ok μ ∧ ∃ i j, μ i ≠ μ j := by
  obtain ⟨hT, _⟩ := trained_of_train h
  obtain ⟨smooth, hs⟩ := C36_batch_partial gp w X y gp' t h
  refine ⟨_, hs (n + 1) (fun _ => x), ?_⟩
  have hγ : t.gls.gamma ≠ 0 := by
    intro h0
    have := hT.gls.K_gamma
    rw [h0, Matrix.mulVec_zero] at this
    exact hfit _ (sub_eq_zero.mp this.symm).symm
  obtain ⟨i, hi⟩ := Function.ne_iff.mp hγ
  refine ⟨i.castSucc, Fin.last n, ?_⟩
  simp only [Fin.val_castSucc, Fin.val_last, lt_irrefl, dite_false, add_zero]
  rw [dif_pos i.isLt]
  intro he
  have : (1e-10 : ℝ) * t.yStd * t.gls.gamma i = 0 := by linarith
  have h1 : (1e-10 : ℝ) * t.yStd ≠ 0 := mul_ne_zero (by norm_num) hT.stdpos.ne'
  rcases mul_eq_zero.mp this with h2 | h2
  · exact h1 h2
  · exact hi h2

theorem exGP_nofit {n : ℕ} (noise : Option ℝ) (X : Samples n 1) (y : Fin n → ℝ) (i j : Fin n) (hy : y i ≠ y j) (gp' : GPObj 1 1) (t : GPFit n 1 1)
    (h : (exGP noise).train exWorld X y = .ok (gp', t)) : ∀ b, t.F *ᵥ b ≠ t.ys := by
  intro b hb
  obtain ⟨hT, hX, hy', hbox, hregr, hno, hmn, hstd, hys⟩ := trained_of_train h
  have h1 := congrFun hb i
  have h2 := congrFun hb j
  rw [hT.F, hregr, show (exGP noise).regr = ordinary 1 from rfl, ordinary_mulVec] at h1 h2
  have e1 := hT.ys i
  have e2 := hT.ys j
  rw [← h1] at e1
  rw [← h2] at e2
  apply hy
  rw [← hy', ← e1, ← e2]

/-- The counterexample is real: the example model is trained and its trend does not fit. -/
example (x : Fin 1 → ℝ) : ∃ gp' t, (exGP (some 0)).train exWorld exX exY = .ok (gp', t) ∧
    ∃ μ, predictMean gp' t (fun _ : Fin 4 => x) = .ok μ ∧ ∃ i j, μ i ≠ μ j := by
  obtain ⟨gp', t, h⟩ := exGP_trains (some 0) exX exY 0 2 exY_ne
  exact ⟨gp', t, h, C36_batch_independence_false _ _ _ _ gp' t h (exGP_nofit _ _ _ 0 2 exY_ne _ _ h) x⟩

/-! ## C37: asking for the standard deviation -/

/-- C37 (GP). The mean returned with the standard deviation is the mean returned without it. -/
theorem C37_gp (gp : GPObj d q) (t : GPFit n d q) (Xnew : Samples m d) (μ σ : Fin m → ℝ) (h : predictStd gp t Xnew = .ok (μ, σ)) :
    predictMean gp t Xnew = .ok μ := by
  unfold predictStd at h
  obtain ⟨fmean, h1, h⟩ := Py.bind_ok.mp h
  obtain ⟨_, _, h⟩ := Py.bind_ok.mp h
  obtain ⟨_, _, h⟩ := Py.bind_ok.mp h
  simp only [Except.ok.injEq, Prod.mk.injEq] at h
  rw [h1, h.1]

/-! ## C38: retraining -/

/-- C38 (what happens instead). Once a model has been trained its noise never changes again: every later training, on any data and with any optimiser, keeps the noise of the
first one. -/
theorem C38_noise_sticky (gp : GPObj d q) (w₁ w₂ : World d) {n₁ n₂ : ℕ} (X₁ : Samples n₁ d) (X₂ : Samples n₂ d) (y₁ : Fin n₁ → ℝ) (y₂ : Fin n₂ → ℝ)
    (gp₁ gp₂ : GPObj d q) (t₁ : GPFit n₁ d q) (t₂ : GPFit n₂ d q)
    (h₁ : gp.train w₁ X₁ y₁ = .ok (gp₁, t₁)) (h₂ : gp₁.train w₂ X₂ y₂ = .ok (gp₂, t₂)) :
    t₂.noise = t₁.noise ∧ gp₂.noise = gp₁.noise := by
  obtain ⟨hT₁, _⟩ := trained_of_train h₁
  obtain ⟨hT₂, _, _, _, _, hno, _⟩ := trained_of_train h₂
  have := hno _ hT₁.noise
  exact ⟨this, by rw [hT₂.noise, hT₁.noise, this]⟩

/-- The noise the example environment estimates. -/
theorem exGP_noise {n : ℕ} (X : Samples n 1) (y : Fin n → ℝ) (gp' : GPObj 1 1) (t : GPFit n 1 1)
    (h : (exGP none).train exWorld X y = .ok (gp', t)) : t.noise = 1e-5 * std y := by
  obtain ⟨hr, hs, theta, noise, h3, e1, h4, e2⟩ := train_ok_iff.mp h
  unfold GPObj.fitHyper at h3
  simp only [exGP] at h3
  obtain ⟨x, hx, h5⟩ := Py.bind_ok.mp h3
  simp only [Except.ok.injEq, Prod.mk.injEq] at h5
  rw [e2]
  simp only
  rw [← h5.2]
  unfold searchHyper at hx
  simp only [exWorld] at hx
  obtain ⟨r, h6, h7⟩ := Py.bind_ok.mp hx
  unfold restartLoop at h6
  obtain ⟨⟨x', f⟩, h8, h9⟩ := Py.bind_ok.mp h6
  unfold cornerMinimizer at h8
  obtain ⟨v, _, h10⟩ := Py.bind_ok.mp h8
  simp only [Except.ok.injEq, Prod.mk.injEq] at h10
  simp only [WithTop.coe_lt_top, if_true] at h9
  unfold restartLoop at h9
  simp only [Except.ok.injEq] at h9
  rw [← h9] at h7
  simp only [Except.ok.injEq] at h7
  rw [← h7, ← h10.1, Fin.snoc_last, noiseLow]

/-- C38 is false: a model constructed with unknown noise, trained on one data set and then on a second one, ends with another noise than a fresh model trained on the second data
set with the same optimiser. -/
theorem C38_retraining_false :
    ∃ (gp gp₁ gp₂ gpF : GPObj 1 1) (w : World 1) (X : Samples 2 1) (y₁ y₂ : Fin 2 → ℝ) (t₁ t₂ tF : GPFit 2 1 1),
      GoodMinimizer w.mini ∧ gp.noise = none ∧ gp.train w X y₁ = .ok (gp₁, t₁) ∧ gp₁.train w X y₂ = .ok (gp₂, t₂) ∧
      gp.train w X y₂ = .ok (gpF, tF) ∧ t₂.noise ≠ tF.noise := by
  have hy1 : (![0, 1] : Fin 2 → ℝ) 0 ≠ ![0, 1] 1 := by norm_num
  have hy2 : (fun i => 2 * (![0, 1] : Fin 2 → ℝ) i + 0) 0 ≠ (fun i => 2 * (![0, 1] : Fin 2 → ℝ) i + 0) 1 := by norm_num
  obtain ⟨gp₁, t₁, h₁⟩ := exGP_trains none (fun i _ => ![1, 3] i) ![0, 1] 0 1 hy1
  obtain ⟨gpF, tF, hF⟩ := exGP_trains none (fun i _ => ![1, 3] i) (fun i => 2 * (![0, 1] : Fin 2 → ℝ) i + 0) 0 1 hy2
  obtain ⟨hr, hs, theta, noise, h3, e1, h4, e2⟩ := train_ok_iff.mp h₁
  obtain ⟨gp₂, t₂, h₂⟩ := C31_train_succeeds_default gp₁ exWorld (fun i _ => ![1, 3] i) (fun i => 2 * (![0, 1] : Fin 2 → ℝ) i + 0)
    (by rw [e1]; rfl) (fun j => by rw [e1]; simp [exGP]) (by rw [e1]; simp [exGP, RBF.mk', RBF.setParams]; norm_num) cornerMinimizer_good
    (fun run hrun => by rw [e1] at hrun; simp [exGP] at hrun) (by simp [exWorld]) (by simp [exWorld]) 0 1 hy2
  refine ⟨exGP none, gp₁, gp₂, gpF, exWorld, fun i _ => ![1, 3] i, ![0, 1], fun i => 2 * (![0, 1] : Fin 2 → ℝ) i + 0, t₁, t₂, tF,
    cornerMinimizer_good, rfl, h₁, h₂, hF, ?_⟩
  rw [(C38_noise_sticky _ _ _ _ _ _ _ _ _ _ _ h₁ h₂).1, exGP_noise _ _ _ _ h₁, exGP_noise _ _ _ _ hF, std_affine, abs_of_pos (by norm_num : (0 : ℝ) < 2)]
  have : 0 < std (![0, 1] : Fin 2 → ℝ) := lt_of_le_of_ne (std_nonneg _) (Ne.symm hs)
  intro he
  linarith

/-! ## C39: affine equivariance -/

theorem negLogLik_smul (K : Matrix (Fin n) (Fin n) ℝ) (F : Matrix (Fin n) (Fin q) ℝ) (y : Fin n → ℝ) (z : Prop) (c : ℝ) (hc : c * c = 1) :
    negLogLik K F (c • y) z = negLogLik K F y z := by
  rw [negLogLik_closed, negLogLik_closed]
  have : ∀ b : Fin q → ℝ, (c • y - F *ᵥ (c • b)) ⬝ᵥ (K⁻¹ *ᵥ (c • y - F *ᵥ (c • b))) = (y - F *ᵥ b) ⬝ᵥ (K⁻¹ *ᵥ (y - F *ᵥ b)) := by
    intro b
    rw [Matrix.mulVec_smul, ← smul_sub, Matrix.mulVec_smul, dotProduct_smul, smul_dotProduct, smul_smul, hc, one_smul]
  simp only [Matrix.mulVec_smul F, Matrix.mulVec_smul K⁻¹, Matrix.mulVec_smul Fᵀ, Matrix.mulVec_smul (Fᵀ * (K⁻¹ * F))⁻¹]
  simp only [Matrix.mulVec_smul] at this
  simp only [this]

/-- C39. Training with noise 0 on `a y + b`, `a ≠ 0`, with the same optimiser gives the same hyper-parameters, means `a μ + b` and standard deviations `|a| σ`. -/
theorem C39_affine_equivariance (gp : GPObj d q) (w : World d) (X : Samples n d) (y : Fin n → ℝ) (hnoise : gp.noise = some 0) (a b : ℝ) (ha : a ≠ 0)
    (gp' : GPObj d q) (t : GPFit n d q) (h : gp.train w X y = .ok (gp', t)) :
    ∃ t', gp.train w X (fun i => a * y i + b) = .ok (gp', t') ∧
      ∀ (m : ℕ) (Xnew : Samples m d), ∃ μ σ, predictStd gp' t Xnew = .ok (μ, σ) ∧
        predictStd gp' t' Xnew = .ok (fun j => a * μ j + b, fun j => |a| * σ j) := by
  obtain ⟨hr, hs, theta, noise, h3, e1, h4, e2⟩ := train_ok_iff.mp h
  obtain ⟨hT, hX, hy, hbox, hregr, hno, hmn, hstd, hys⟩ := trained_of_train h
  have hn0 : noise = 0 := by have := hno 0 hnoise; rw [e2] at this; exact this
  subst hn0
  have hG := glsFit_ok h4
  have habs : 0 < |a| := abs_pos.mpr ha
  set c := a / |a| with hc
  have hcc : c * c = 1 := by
    rw [hc, div_mul_div_comm, abs_mul_abs_self, div_self (mul_ne_zero ha ha)]
  have hca : c * |a| = a := by rw [hc, div_mul_cancel₀ _ habs.ne']
  have hstd' : std (fun i => a * y i + b) = |a| * std y := std_affine a b y
  have hmean' : mean (fun i => a * y i + b) = a * mean y + b := mean_affine hG.pos a b y
  have hs' : std (fun i => a * y i + b) ≠ 0 := by rw [hstd']; exact mul_ne_zero habs.ne' hs
  have hys' : (fun i => (a * y i + b - mean (fun i => a * y i + b)) / std (fun i => a * y i + b)) = c • fun i => (y i - mean y) / std y := by
    funext i
    rw [hstd', hmean', Pi.smul_apply, smul_eq_mul, hc]
    have := habs.ne'
    field_simp
    ring
  have hobj : gp.logLikKnown 0 (|a| * std y) (fun i => normPt gp.box (X i)) (c • fun i => (y i - mean y) / std y) =
      gp.logLikKnown 0 (std y) (fun i => normPt gp.box (X i)) (fun i => (y i - mean y) / std y) := by
    funext params
    unfold GPObj.logLikKnown
    rw [zero_div, zero_div, negLogLik_smul _ _ _ _ _ hcc]
  have h3' : gp.fitHyper w (|a| * std y) (fun i => normPt gp.box (X i)) (c • fun i => (y i - mean y) / std y) = .ok (theta, 0) := by
    unfold GPObj.fitHyper at h3 ⊢
    rw [hnoise] at h3 ⊢
    simp only at h3 ⊢
    rw [hobj]; exact h3
  obtain ⟨g', h4', hG'⟩ := glsFit_succeeds (c • fun i => (y i - mean y) / std y) hG.posDef hG.inj hG.pos
  have hβ : g'.beta = c • t.gls.beta := by
    rw [hG'.beta, hG.beta]; simp only [Matrix.mulVec_smul]
  have hγ : g'.gamma = c • t.gls.gamma := by
    rw [hG'.gamma, hG.gamma, hβ, Matrix.mulVec_smul, ← smul_sub, Matrix.mulVec_smul]
  have hσ : g'.sigma2 = t.gls.sigma2 := by
    rw [hG'.sigma2, hG.sigma2, hγ, hβ, Matrix.mulVec_smul, ← smul_sub, dotProduct_smul, smul_dotProduct, smul_smul, hcc, one_smul]
  rw [zero_div] at h4' hG'
  rw [zero_div] at hG
  have hz : (0 : ℝ) / (|a| * std y) = 0 := zero_div _
  refine ⟨{ X := X, Xs := fun i => normPt gp.box (X i), y := fun i => a * y i + b, ys := c • fun i => (y i - mean y) / std y,
            yMean := a * mean y + b, yStd := |a| * std y, F := regrMatrix gp.regr (fun i => normPt gp.box (X i)),
            K := covTrain (pow10 theta) (fun i => normPt gp.box (X i)) (0 / (|a| * std y)), gls := g', noise := 0 }, ?_, ?_⟩
  · apply train_ok_iff.mpr
    refine ⟨hr, hs', theta, 0, ?_, e1, ?_, ?_⟩
    · rw [hys', hstd']; exact h3'
    · rw [hys', hstd', hz]; exact h4'
    · rw [hys', hmean', hstd']
  · intro m Xnew
    have hrange : ∀ j, gp'.box.high j - gp'.box.low j ≠ 0 := hT.range
    refine ⟨_, _, Py.bind_ok.mpr ⟨_, predictMean_eq hT Xnew, Py.bind_ok.mpr ⟨_, normalizeInput_eq Xnew hT.range, Py.bind_ok.mpr ⟨_, mseOf_eq hT.gls _ _, rfl⟩⟩⟩, ?_⟩
    refine Py.bind_ok.mpr ⟨_, Py.bind_ok.mpr ⟨_, normalizeInput_eq Xnew hrange, rfl⟩, Py.bind_ok.mpr ⟨_, normalizeInput_eq Xnew hrange, Py.bind_ok.mpr ⟨_, mseOf_eq hG' _ _, ?_⟩⟩⟩
    have hKt : t.K = covTrain (pow10 theta) (fun i => normPt gp.box (X i)) 0 := by rw [e2]; simp
    have hFt : t.F = regrMatrix gp.regr (fun i => normPt gp.box (X i)) := by rw [e2]
    have hXt : t.Xs = fun i => normPt gp.box (X i) := by rw [e2]
    have hnt : t.noise = 0 := by rw [e2]
    simp only [Except.ok.injEq, Prod.mk.injEq]
    constructor
    · funext j
      rw [hβ, hγ, hXt, hstd, hmn, Matrix.mulVec_smul, Matrix.mulVec_smul, ← smul_add, Pi.smul_apply, smul_eq_mul]
      unfold RBF.getKernelMatrix
      generalize (_ + _ : Fin m → ℝ) j = v
      linear_combination v * std y * hca
    · funext j
      rw [hσ, hKt, hFt, hXt, hstd, hnt, ← Real.sqrt_sq_eq_abs, ← Real.sqrt_mul (sq_nonneg a)]
      congr 1
      rw [mul_max_of_nonneg _ _ (sq_nonneg a), mul_zero, mul_pow, Real.sq_sqrt (sq_nonneg a)]
      congr 1
      ring

/-- The hypotheses are met by the example model. -/
example : ∃ gp' t, (exGP (some 0)).train exWorld exX exY = .ok (gp', t) :=
  exGP_trains (some 0) exX exY 0 2 exY_ne

/-! ## C40: sample order -/

theorem dotProduct_perm (σ : Equiv.Perm (Fin n)) (u v : Fin n → ℝ) : (u ∘ σ) ⬝ᵥ (v ∘ σ) = u ⬝ᵥ v := by
  unfold dotProduct
  exact Equiv.sum_comp σ (fun i => u i * v i)

theorem mulVec_perm (σ : Equiv.Perm (Fin n)) (A : Matrix (Fin n) (Fin n) ℝ) (v : Fin n → ℝ) :
    A.submatrix σ σ *ᵥ (v ∘ σ) = (A *ᵥ v) ∘ σ := by
  funext i
  simp only [Matrix.mulVec, dotProduct, Matrix.submatrix_apply, Function.comp]
  exact Equiv.sum_comp σ (fun j => A (σ i) j * v j)

theorem basis_perm (σ : Equiv.Perm (Fin n)) (F : Matrix (Fin n) (Fin q) ℝ) (v : Fin n → ℝ) :
    (F.submatrix σ id)ᵀ *ᵥ (v ∘ σ) = Fᵀ *ᵥ v := by
  funext k
  simp only [Matrix.mulVec, dotProduct, Matrix.transpose_apply, Matrix.submatrix_apply, Function.comp, id]
  exact Equiv.sum_comp σ (fun j => F j k * v j)

theorem conj_perm (σ : Equiv.Perm (Fin n)) (A : Matrix (Fin n) (Fin n) ℝ) (F : Matrix (Fin n) (Fin q) ℝ) :
    (F.submatrix σ id)ᵀ * (A.submatrix σ σ * F.submatrix σ id) = Fᵀ * (A * F) := by
  have h : (F.submatrix σ id)ᵀ = Fᵀ.submatrix id σ := rfl
  rw [h, Matrix.submatrix_mul_equiv, Matrix.submatrix_mul_equiv, Matrix.submatrix_id_id]

theorem posDef_perm (σ : Equiv.Perm (Fin n)) (K : Matrix (Fin n) (Fin n) ℝ) : (K.submatrix σ σ).PosDef ↔ K.PosDef :=
  ⟨fun h => by
    have := h.submatrix (σ.symm.injective)
    simpa using this, fun h => h.submatrix σ.injective⟩

theorem negLogLik_perm (σ : Equiv.Perm (Fin n)) (K : Matrix (Fin n) (Fin n) ℝ) (F : Matrix (Fin n) (Fin q) ℝ) (y : Fin n → ℝ) (z : Prop) :
    negLogLik (K.submatrix σ σ) (F.submatrix σ id) (y ∘ σ) z = negLogLik K F y z := by
  have hinv : (K.submatrix σ σ)⁻¹ = K⁻¹.submatrix σ σ := Matrix.inv_submatrix_equiv K σ σ
  have hF : ∀ b, F.submatrix σ id *ᵥ b = (F *ᵥ b) ∘ σ := fun b => rfl
  have hsub : ∀ u v : Fin n → ℝ, u ∘ σ - v ∘ σ = (u - v) ∘ σ := fun u v => rfl
  rw [negLogLik_closed, negLogLik_closed, hinv]
  have hc : ((K.submatrix σ σ).PosDef ∧ ((F.submatrix σ id)ᵀ * (K⁻¹.submatrix σ σ * F.submatrix σ id)).PosDef) ↔
      (K.PosDef ∧ (Fᵀ * (K⁻¹ * F)).PosDef) := by rw [conj_perm, posDef_perm]
  by_cases h : K.PosDef ∧ (Fᵀ * (K⁻¹ * F)).PosDef
  · rw [if_pos h, if_pos (hc.mpr h)]
    simp only [conj_perm, mulVec_perm, basis_perm, hF, hsub, dotProduct_perm, Matrix.det_submatrix_equiv_self]
  · rw [if_neg h, if_neg (fun h' => h (hc.mp h'))]

theorem covTrain_perm (σ : Equiv.Perm (Fin n)) (param : Fin d → ℝ) (Xs : Samples n d) (s : ℝ) :
    covTrain param (fun i => Xs (σ i)) s = (covTrain param Xs s).submatrix σ σ := by
  ext i j
  unfold covTrain
  simp only [Matrix.add_apply, Matrix.smul_apply, Matrix.submatrix_apply, Matrix.one_apply, rbfMatrix, ← Fin.ext_iff, EmbeddingLike.apply_eq_iff_eq]

theorem mean_perm (σ : Equiv.Perm (Fin n)) (y : Fin n → ℝ) : mean (fun i => y (σ i)) = mean y := by
  unfold mean; rw [Equiv.sum_comp σ y]

theorem std_perm (σ : Equiv.Perm (Fin n)) (y : Fin n → ℝ) : std (fun i => y (σ i)) = std y := by
  unfold std; rw [mean_perm, Equiv.sum_comp σ (fun i => (y i - mean y) ^ 2)]

/-- C40 (likelihood). For normalised data in any order the objective minimised in training is the same function, with known and with unknown noise. -/
theorem C40_likelihood_order (gp : GPObj d q) (σ : Equiv.Perm (Fin n)) (noise yStd : ℝ) (Xs : Samples n d) (ys : Fin n → ℝ) :
    gp.logLikKnown noise yStd (fun i => Xs (σ i)) (fun i => ys (σ i)) = gp.logLikKnown noise yStd Xs ys ∧
    gp.logLikFree (fun i => Xs (σ i)) (fun i => ys (σ i)) = gp.logLikFree Xs ys := by
  have hreg : regrMatrix gp.regr (fun i => Xs (σ i)) = (regrMatrix gp.regr Xs).submatrix σ id := rfl
  constructor
  · funext params
    unfold GPObj.logLikKnown
    rw [covTrain_perm, hreg]
    exact negLogLik_perm σ _ _ ys _
  · funext params
    unfold GPObj.logLikFree
    rw [covTrain_perm, hreg]
    exact negLogLik_perm σ _ _ ys _

/-- C40 (training). Training on permuted samples with the same optimiser leaves the object in the same state (kernel parameters, noise) with the same trend and process
variance and correspondingly permuted weights. -/
theorem C40_training_order (gp : GPObj d q) (w : World d) (σ : Equiv.Perm (Fin n)) (X : Samples n d) (y : Fin n → ℝ) (gp' : GPObj d q) (t : GPFit n d q)
    (h : gp.train w X y = .ok (gp', t)) :
    ∃ t', gp.train w (fun i => X (σ i)) (fun i => y (σ i)) = .ok (gp', t') ∧ t'.noise = t.noise ∧ t'.gls.beta = t.gls.beta ∧ t'.gls.sigma2 = t.gls.sigma2 ∧
      ∀ i, t'.gls.gamma i = t.gls.gamma (σ i) := by
  obtain ⟨hr, hs, theta, noise, h3, e1, h4, e2⟩ := train_ok_iff.mp h
  have hG := glsFit_ok h4
  have hs' : std (fun i => y (σ i)) ≠ 0 := by rw [std_perm]; exact hs
  obtain ⟨hk, hf⟩ := C40_likelihood_order gp σ (n := n) (d := d) 0 0 (fun i => normPt gp.box (X i)) (fun i => (y i - mean y) / std y)
  have h3' : gp.fitHyper w (std y) (fun i => normPt gp.box (X (σ i))) (fun i => (y (σ i) - mean y) / std y) = .ok (theta, noise) := by
    unfold GPObj.fitHyper at h3 ⊢
    cases hno : gp.noise with
    | none =>
      rw [hno] at h3
      simp only at h3 ⊢
      rw [show gp.logLikFree (fun i => normPt gp.box (X (σ i))) (fun i => (y (σ i) - mean y) / std y) =
        gp.logLikFree (fun i => normPt gp.box (X i)) (fun i => (y i - mean y) / std y) from hf]
      exact h3
    | some s =>
      rw [hno] at h3
      simp only at h3 ⊢
      rw [show gp.logLikKnown s (std y) (fun i => normPt gp.box (X (σ i))) (fun i => (y (σ i) - mean y) / std y) =
        gp.logLikKnown s (std y) (fun i => normPt gp.box (X i)) (fun i => (y i - mean y) / std y) from
          (C40_likelihood_order gp σ s (std y) (fun i => normPt gp.box (X i)) (fun i => (y i - mean y) / std y)).1]
      exact h3
  set K := covTrain (pow10 theta) (fun i => normPt gp.box (X i)) (noise / std y) with hK
  set F := regrMatrix gp.regr (fun i => normPt gp.box (X i)) with hFdef
  set ys : Fin n → ℝ := fun i => (y i - mean y) / std y with hysdef
  have hinv : (K.submatrix σ σ)⁻¹ = K⁻¹.submatrix σ σ := Matrix.inv_submatrix_equiv K σ σ
  have hFb : ∀ b, F.submatrix σ id *ᵥ b = (F *ᵥ b) ∘ σ := fun b => rfl
  have hsub : ∀ u v : Fin n → ℝ, u ∘ σ - v ∘ σ = (u - v) ∘ σ := fun u v => rfl
  obtain ⟨g', h4', hG'⟩ := glsFit_succeeds (K := K.submatrix σ σ) (F := F.submatrix σ id) (ys ∘ σ) ((posDef_perm σ K).mpr hG.posDef)
    (fun a b hab => by
      apply hG.inj
      have : (F *ᵥ a) ∘ σ = (F *ᵥ b) ∘ σ := hab
      funext i
      have := congrFun this (σ.symm i)
      simpa using this) hG.pos
  have hβ : g'.beta = t.gls.beta := by
    rw [hG'.beta, hG.beta, hinv, conj_perm, mulVec_perm, basis_perm]
  have hγ : g'.gamma = t.gls.gamma ∘ σ := by
    rw [hG'.gamma, hβ, hinv, hFb, hsub, mulVec_perm, ← hG.gamma]
  have hσ : g'.sigma2 = t.gls.sigma2 := by
    rw [hG'.sigma2, hγ, hβ, hFb, hsub, dotProduct_perm, ← hG.sigma2]
  refine ⟨{ X := fun i => X (σ i), Xs := fun i => normPt gp.box (X (σ i)), y := fun i => y (σ i), ys := ys ∘ σ, yMean := mean y, yStd := std y,
            F := F.submatrix σ id, K := K.submatrix σ σ, gls := g', noise := noise }, ?_, by rw [e2], hβ, hσ, fun i => congrFun hγ i⟩
  apply train_ok_iff.mpr
  refine ⟨hr, hs', theta, noise, ?_, e1, ?_, ?_⟩
  · rw [std_perm, mean_perm]; exact h3'
  · rw [std_perm, mean_perm, covTrain_perm σ (pow10 theta) (fun i => normPt gp.box (X i))]; exact h4'
  · rw [std_perm, mean_perm, covTrain_perm σ (pow10 theta) (fun i => normPt gp.box (X i))]; rfl

end Mfpml.Props
