import Verif.Props.VariableOrderGP
import Verif.Model.ScaledKriging
import Verif.Model.CoKriging
import Verif.Props.SampleShapes

/-!
# The order of the design variables (C141): scaled Kriging and co-Kriging
-/

set_option linter.unusedSectionVars false
set_option linter.unusedDecidableInType false

open scoped BigOperators Matrix

namespace Mfpml.Props

open Mfpml.GP Mfpml.Spec
open Mfpml.EA (Box)

variable {n m d q ql qd nh nl : ℕ}

/-! ### Scaled Kriging -/

/-- The same scaled Kriging model with its variables renumbered. -/
structure ReorderedSK (σ : Equiv.Perm (Fin d)) (τl : Equiv.Perm (Fin ql)) (τd : Equiv.Perm (Fin qd)) (sk sk₁ : SKObj d ql qd) : Prop where
  lf : ReorderedGP σ τl sk.lf sk₁.lf
  disc : ReorderedGP σ τd sk.disc sk₁.disc
  rho : sk₁.rho = sk.rho
  rhoOptimize : sk₁.rhoOptimize = sk.rhoOptimize
  rhoMethod : sk₁.rhoMethod = sk.rhoMethod
  rhoLow : sk₁.rhoLow = sk.rhoLow
  rhoHigh : sk₁.rhoHigh = sk.rhoHigh
  rhoOptimizer : sk₁.rhoOptimizer = sk.rhoOptimizer

/-- The solvers of one training treat all variables alike; the search for the scale factor, which is about one number, is the same. -/
structure SKFollows (σ : Equiv.Perm (Fin d)) (sk sk₁ : SKObj d ql qd) (w w₁ : SKWorld d) : Prop where
  lf : SolverFollows σ sk.lf.optimizer sk₁.lf.optimizer w.lf w₁.lf
  disc : SolverFollows σ sk.disc.optimizer sk₁.disc.optimizer w.disc w₁.disc
  mini : w₁.mini = w.mini
  x0 : w₁.x0 = w.x0
  bumpX : w₁.bumpX = w.bumpX
  bump : List.Forall₂ (fun a a₁ : ℝ × World d => a₁.1 = a.1 ∧ SolverFollows σ sk.disc.optimizer sk₁.disc.optimizer a.2 a₁.2) w.bumpEvals w₁.bumpEvals

theorem bumpRun_reorder {σ : Equiv.Perm (Fin d)} {τ : Equiv.Perm (Fin q)} (Xh : Samples nh d) (yh lfAtXh : Fin nh → ℝ) {o o₁ : Option PopOptimizer} {evals evals₁ : List (ℝ × World d)}
    (he : List.Forall₂ (fun a a₁ : ℝ × World d => a₁.1 = a.1 ∧ SolverFollows σ o o₁ a.2 a₁.2) evals evals₁) :
    ∀ {gp gp₁ : GPObj d q}, ReorderedGP σ τ gp gp₁ → gp.optimizer = o → gp₁.optimizer = o₁ →
      (∃ e, bumpRun Xh yh lfAtXh evals gp = .error e ∧ bumpRun (reorderSamples σ Xh) yh lfAtXh evals₁ gp₁ = .error e) ∨
      ∃ gp' gp₁', bumpRun Xh yh lfAtXh evals gp = .ok gp' ∧ bumpRun (reorderSamples σ Xh) yh lfAtXh evals₁ gp₁ = .ok gp₁' ∧ ReorderedGP σ τ gp' gp₁' ∧ gp'.optimizer = o ∧ gp₁'.optimizer = o₁ := by
  induction he with
  | nil => intro gp gp₁ h ho ho₁; exact .inr ⟨gp, gp₁, rfl, rfl, h, ho, ho₁⟩
  | cons hab _ ih =>
    rename_i a a₁ l l₁ _
    intro gp gp₁ h ho ho₁
    obtain ⟨h1, h2⟩ := hab
    rcases a with ⟨r, w⟩
    rcases a₁ with ⟨r₁, w₁⟩
    dsimp only at h1 h2
    subst h1
    rw [← ho, ← ho₁] at h2
    simp only [bumpRun, evalBumpiness]
    rcases gp_train_reorder h h2 Xh (getDisc r₁ lfAtXh yh) with ⟨e, e1, e2⟩ | ⟨gp', t, gp₁', t₁, e1, e2, hr, _, o1, o2⟩
    · rw [e1, e2]; exact .inl ⟨e, rfl, rfl⟩
    · rw [e1, e2]; exact ih hr (o1.trans ho) (o2.trans ho₁)

theorem optimizeRho_reorder {σ : Equiv.Perm (Fin d)} {τl : Equiv.Perm (Fin ql)} {τd : Equiv.Perm (Fin qd)} {sk sk₁ : SKObj d ql qd} (h : ReorderedSK σ τl τd sk sk₁) {w w₁ : SKWorld d} (hw : SKFollows σ sk sk₁ w w₁)
    (Xh : Samples nh d) (yh lfAtXh : Fin nh → ℝ) :
    (∃ e, sk.optimizeRho w Xh yh lfAtXh = .error e ∧ sk₁.optimizeRho w₁ (reorderSamples σ Xh) yh lfAtXh = .error e) ∨
    ∃ rho disc disc₁, sk.optimizeRho w Xh yh lfAtXh = .ok (rho, disc) ∧ sk₁.optimizeRho w₁ (reorderSamples σ Xh) yh lfAtXh = .ok (rho, disc₁) ∧ ReorderedGP σ τd disc disc₁ ∧
      disc.optimizer = sk.disc.optimizer ∧ disc₁.optimizer = sk₁.disc.optimizer := by
  unfold SKObj.optimizeRho
  rw [h.rhoMethod]
  cases sk.rhoMethod with
  | other => exact .inl ⟨_, rfl, rfl⟩
  | bumpiness =>
    rcases bumpRun_reorder (τ := τd) Xh yh lfAtXh hw.bump h.disc rfl rfl with ⟨e, e1, e2⟩ | ⟨gp', gp₁', e1, e2, hr, o1, o2⟩
    · simp only [e1, e2]; exact .inl ⟨e, rfl, rfl⟩
    · simp only [e1, e2, hw.bumpX]; exact .inr ⟨_, gp', gp₁', rfl, rfl, hr, o1, o2⟩
  | error =>
    simp only [h.rhoOptimizer, h.rhoLow, h.rhoHigh, hw.mini, hw.x0]
    cases sk.rhoOptimizer with
    | none =>
      simp only
      cases w.mini 1 (fun r => .ok (evalError lfAtXh yh r 0)) (fun _ => w.x0) (fun _ => sk.rhoLow) (fun _ => sk.rhoHigh) with
      | error e => exact .inl ⟨e, rfl, rfl⟩
      | ok r => exact .inr ⟨_, _, _, rfl, rfl, h.disc, rfl, rfl⟩
    | some run =>
      simp only
      cases run 1 (fun r => .ok (evalError lfAtXh yh r 0)) (fun _ => sk.rhoLow) (fun _ => sk.rhoHigh) with
      | error e => exact .inl ⟨e, rfl, rfl⟩
      | ok r => exact .inr ⟨_, _, _, rfl, rfl, h.disc, rfl, rfl⟩

/-- **C141 (scaled Kriging).** The same for scaled Kriging, with every way of choosing the scale factor. -/
theorem C141_sk (σ : Equiv.Perm (Fin d)) (τl : Equiv.Perm (Fin ql)) (τd : Equiv.Perm (Fin qd)) (sk sk₁ : SKObj d ql qd) (h : ReorderedSK σ τl τd sk sk₁) (w w₁ : SKWorld d) (hw : SKFollows σ sk sk₁ w w₁)
    (Xh : Samples nh d) (yh : Fin nh → ℝ) (Xl : Samples nl d) (yl : Fin nl → ℝ) :
    (∀ e, sk₁.train w₁ (reorderSamples σ Xh) yh (reorderSamples σ Xl) yl = .error e ↔ sk.train w Xh yh Xl yl = .error e) ∧
    ∀ sk' t, sk.train w Xh yh Xl yl = .ok (sk', t) →
      ∃ sk₁' t₁, sk₁.train w₁ (reorderSamples σ Xh) yh (reorderSamples σ Xl) yl = .ok (sk₁', t₁) ∧ sk₁'.rho = sk'.rho ∧ sk₁'.lf.kernel.param = reorderPt σ sk'.lf.kernel.param ∧
        sk₁'.disc.kernel.param = reorderPt σ sk'.disc.kernel.param ∧
        ∀ (m : ℕ) (Xnew : Samples m d), sk₁'.predict t₁ (reorderSamples σ Xnew) = sk'.predict t Xnew ∧ sk₁'.predictStd t₁ (reorderSamples σ Xnew) = sk'.predictStd t Xnew := by
  have key : (∃ e, sk.train w Xh yh Xl yl = .error e ∧ sk₁.train w₁ (reorderSamples σ Xh) yh (reorderSamples σ Xl) yl = .error e) ∨
      ∃ sk' t sk₁' t₁, sk.train w Xh yh Xl yl = .ok (sk', t) ∧ sk₁.train w₁ (reorderSamples σ Xh) yh (reorderSamples σ Xl) yl = .ok (sk₁', t₁) ∧ sk₁'.rho = sk'.rho ∧
        ReorderedGP σ τl sk'.lf sk₁'.lf ∧ ReorderedGP σ τd sk'.disc sk₁'.disc ∧ SameFit σ τl t.lfFit t₁.lfFit ∧ SameFit σ τd t.discFit t₁.discFit := by
    unfold SKObj.train
    rcases gp_train_reorder h.lf hw.lf Xl yl with ⟨e, e1, e2⟩ | ⟨lf, lt, lf₁, lt₁, e1, e2, hr, ht, -, -⟩
    · rw [e1, e2]; exact .inl ⟨e, rfl, rfl⟩
    · rw [e1, e2]
      simp only [bind, Except.bind, gp_predictMean_reorder hr ht]
      cases predictMean lf lt Xh with
      | error e => exact .inl ⟨e, rfl, rfl⟩
      | ok f =>
        have hrho : (∃ e, (if sk.rhoOptimize then sk.optimizeRho w Xh yh f else .ok (sk.rho, sk.disc) : Py (ℝ × GPObj d qd)) = .error e ∧
              (if sk₁.rhoOptimize then sk₁.optimizeRho w₁ (reorderSamples σ Xh) yh f else .ok (sk₁.rho, sk₁.disc) : Py (ℝ × GPObj d qd)) = .error e) ∨
            ∃ rho disc disc₁, (if sk.rhoOptimize then sk.optimizeRho w Xh yh f else .ok (sk.rho, sk.disc) : Py (ℝ × GPObj d qd)) = .ok (rho, disc) ∧
              (if sk₁.rhoOptimize then sk₁.optimizeRho w₁ (reorderSamples σ Xh) yh f else .ok (sk₁.rho, sk₁.disc) : Py (ℝ × GPObj d qd)) = .ok (rho, disc₁) ∧ ReorderedGP σ τd disc disc₁ ∧
              disc.optimizer = sk.disc.optimizer ∧ disc₁.optimizer = sk₁.disc.optimizer := by
          rw [h.rhoOptimize]
          by_cases ho : sk.rhoOptimize = true
          · simp only [ho, if_true]; exact optimizeRho_reorder h hw Xh yh f
          · simp only [ho, Bool.false_eq_true, if_false, h.rho]; exact .inr ⟨_, _, _, rfl, rfl, h.disc, rfl, rfl⟩
        simp only
        rcases hrho with ⟨e, e3, e4⟩ | ⟨rho, disc, disc₁, e3, e4, hd, o1, o2⟩
        · rw [e3, e4]; exact .inl ⟨e, rfl, rfl⟩
        · rw [e3, e4]
          simp only
          rcases gp_train_reorder hd (by rw [o1, o2]; exact hw.disc) Xh (getDisc rho f yh) with ⟨e, e5, e6⟩ | ⟨dc, dt, dc₁, dt₁, e5, e6, hrd, htd, -, -⟩
          · rw [e5, e6]; exact .inl ⟨e, rfl, rfl⟩
          · rw [e5, e6]; exact .inr ⟨_, _, _, _, rfl, rfl, rfl, hr, hrd, ht, htd⟩
  rcases key with ⟨e, h1, h2⟩ | ⟨sk', t, sk₁', t₁, h1, h2, hrho, hl, hd, tl, td⟩
  · rw [h1, h2]
    exact ⟨fun _ => Iff.rfl, fun _ _ h => by cases h⟩
  · rw [h1, h2]
    refine ⟨fun e => ⟨fun h => (nomatch h), fun h => (nomatch h)⟩, fun sk'' t' he => ?_⟩
    simp only [Except.ok.injEq, Prod.mk.injEq] at he
    obtain ⟨rfl, rfl⟩ := he
    refine ⟨sk₁', t₁, rfl, hrho, hl.param, hd.param, fun m Xnew => ⟨?_, ?_⟩⟩
    · unfold SKObj.predict
      rw [gp_predictMean_reorder hl tl, gp_predictMean_reorder hd td, hrho]
    · unfold SKObj.predictStd
      rw [gp_predictStd_reorder hl tl, gp_predictStd_reorder hd td, hrho]

/-! ### Co-Kriging -/

/-- The same low-fidelity model of co-Kriging with its variables renumbered. -/
structure ReorderedRaw (σ : Equiv.Perm (Fin d)) (τ : Equiv.Perm (Fin q)) (gp gp₁ : RawGP d q) : Prop where
  param : gp₁.kernel.param = reorderPt σ gp.kernel.param
  low : gp₁.kernel.boundLow = gp.kernel.boundLow
  high : gp₁.kernel.boundHigh = gp.kernel.boundHigh
  regr : ∀ x c, gp₁.regr (reorderPt σ x) c = gp.regr x (τ c)
  noise : gp₁.noise = gp.noise

/-- The same co-Kriging model with its variables renumbered. -/
structure ReorderedCK (σ : Equiv.Perm (Fin d)) (τ : Equiv.Perm (Fin q)) (ck ck₁ : CKObj d q) : Prop where
  box : ck₁.box = reorderBox σ ck.box
  param : ck₁.kernel.param = reorderPt σ ck.kernel.param
  low : ck₁.kernel.boundLow = ck.kernel.boundLow
  high : ck₁.kernel.boundHigh = ck.kernel.boundHigh
  rhoLow : ck₁.rhoLow = ck.rhoLow
  rhoHigh : ck₁.rhoHigh = ck.rhoHigh
  noise : ck₁.noise = ck.noise
  lf : ReorderedRaw σ τ ck.lf ck₁.lf

/-- The searches of co-Kriging treat all variables alike: the low-fidelity ones, the one for scale factor and kernel parameters, and the one for scale factor, noise and kernel parameters. -/
structure CKFollows (σ : Equiv.Perm (Fin d)) (ck ck₁ : CKObj d q) (w w₁ : CKWorld d) : Prop where
  lf : SolverFollows σ ck.lf.optimizer ck₁.lf.optimizer w.lf w₁.lf
  known : SearchFollows (withFirst σ) ck.optimizer ck₁.optimizer w.mini w₁.mini w.starts w₁.starts
  free : SearchFollows (withFirst (withFirst σ)) ck.optimizer ck₁.optimizer w.mini w₁.mini w.startsNoise w₁.startsNoise

theorem cons_withFirst {p : ℕ} (σ : Equiv.Perm (Fin p)) (a : ℝ) (v : Fin p → ℝ) (hv : v = reorderPt σ v) : (Fin.cons a v : Fin (p + 1) → ℝ) = reorderPt (withFirst σ) (Fin.cons a v) := by
  funext j
  refine Fin.cases ?_ (fun j => ?_) j
  · simp [reorderPt, withFirst]
  · rw [(withFirst_apply σ _).2 j, Fin.cons_succ, Fin.cons_succ]
    exact congrFun hv j

theorem regrMatrix_reorder_raw {σ : Equiv.Perm (Fin d)} {τ : Equiv.Perm (Fin q)} {gp gp₁ : RawGP d q} (h : ReorderedRaw σ τ gp gp₁) (X : Samples n d) :
    regrMatrix gp₁.regr (reorderSamples σ X) = (regrMatrix gp.regr X).submatrix id τ := by
  funext i c
  exact h.regr (X i) c

theorem raw_fitHyper_reorder {σ : Equiv.Perm (Fin d)} {τ : Equiv.Perm (Fin q)} {gp gp₁ : RawGP d q} (h : ReorderedRaw σ τ gp gp₁) {w w₁ : World d} (hw : SolverFollows σ gp.optimizer gp₁.optimizer w w₁)
    (X : Samples n d) (y : Fin n → ℝ) : gp₁.fitHyper w₁ (reorderSamples σ X) y = (gp.fitHyper w X y).map (fun r => (reorderPt σ r.1, r.2)) := by
  unfold RawGP.fitHyper
  rw [h.noise]
  cases gp.noise with
  | some s =>
    have := hw.1 (fun params => negLogLik (covTrain (pow10 params) X s) (regrMatrix gp.regr X) y (s = 0))
      (fun params => negLogLik (covTrain (pow10 params) (reorderSamples σ X) s) (regrMatrix gp₁.regr (reorderSamples σ X)) y (s = 0)) (fun _ => gp.kernel.boundLow) (fun _ => gp.kernel.boundHigh)
      (fun x => by rw [pow10_reorder, covTrain_reorder, regrMatrix_reorder_raw h, negLogLik_cols τ])
    have this : searchHyper gp₁.optimizer w₁.mini (fun params => negLogLik (covTrain (pow10 params) (reorderSamples σ X) s) (regrMatrix gp₁.regr (reorderSamples σ X)) y (s = 0))
        (fun _ => gp.kernel.boundLow) (fun _ => gp.kernel.boundHigh) w₁.starts = _ := this
    simp only [h.low, h.high, this]
    cases searchHyper gp.optimizer w.mini (fun params => negLogLik (covTrain (pow10 params) X s) (regrMatrix gp.regr X) y (s = 0)) (fun _ => gp.kernel.boundLow) (fun _ => gp.kernel.boundHigh) w.starts <;> rfl
  | none =>
    have := hw.2 (fun params => negLogLik (covTrain (pow10 (fun j => params j.castSucc)) X (params (Fin.last d))) (regrMatrix gp.regr X) y False)
      (fun params => negLogLik (covTrain (pow10 (fun j => params j.castSucc)) (reorderSamples σ X) (params (Fin.last d))) (regrMatrix gp₁.regr (reorderSamples σ X)) y False)
      (Fin.snoc (fun _ => gp.kernel.boundLow) noiseLow) (Fin.snoc (fun _ => gp.kernel.boundHigh) noiseHigh)
      (fun x => by rw [(reorder_withNoise σ x).1, (reorder_withNoise σ x).2, pow10_reorder, covTrain_reorder, regrMatrix_reorder_raw h, negLogLik_cols τ])
    rw [← snoc_withNoise, ← snoc_withNoise] at this
    simp only [h.low, h.high, this]
    cases searchHyper gp.optimizer w.mini (fun params => negLogLik (covTrain (pow10 (fun j => params j.castSucc)) X (params (Fin.last d))) (regrMatrix gp.regr X) y False)
      (Fin.snoc (fun _ => gp.kernel.boundLow) noiseLow) (Fin.snoc (fun _ => gp.kernel.boundHigh) noiseHigh) w.startsNoise with
    | error e => rfl
    | ok x => simp only [Except.map, bind, Except.bind, (reorder_withNoise σ x).1, (reorder_withNoise σ x).2]

/-- What the two trained low-fidelity models have in common. -/
structure SameRawFit (σ : Equiv.Perm (Fin d)) (τ : Equiv.Perm (Fin q)) (t t₁ : RawFit n d q) : Prop where
  X : t₁.X = reorderSamples σ t.X
  F : t₁.F = t.F.submatrix id τ
  K : t₁.K = t.K
  gls : IsGLS t.K t.F t.y t.gls
  gls₁ : IsGLS t.K (t.F.submatrix id τ) t.y t₁.gls
  beta : t₁.gls.beta = t.gls.beta ∘ τ
  gamma : t₁.gls.gamma = t.gls.gamma
  sigma2 : t₁.gls.sigma2 = t.gls.sigma2
  noise : t₁.noise = t.noise

theorem raw_train_reorder {σ : Equiv.Perm (Fin d)} {τ : Equiv.Perm (Fin q)} {gp gp₁ : RawGP d q} (h : ReorderedRaw σ τ gp gp₁) {w w₁ : World d} (hw : SolverFollows σ gp.optimizer gp₁.optimizer w w₁)
    (X : Samples n d) (y : Fin n → ℝ) :
    (∃ e, gp.train w X y = .error e ∧ gp₁.train w₁ (reorderSamples σ X) y = .error e) ∨
    ∃ gp' t gp₁' t₁, gp.train w X y = .ok (gp', t) ∧ gp₁.train w₁ (reorderSamples σ X) y = .ok (gp₁', t₁) ∧ ReorderedRaw σ τ gp' gp₁' ∧ SameRawFit σ τ t t₁ := by
  unfold RawGP.train
  rw [raw_fitHyper_reorder h hw]
  cases gp.fitHyper w X y with
  | error e => exact .inl ⟨e, rfl, rfl⟩
  | ok r =>
    simp only [Except.map, bind, Except.bind, RBF.setParams, pow10_reorder, covTrain_reorder, regrMatrix_reorder_raw h]
    rcases glsFit_cols τ (covTrain (pow10 r.1) X r.2) (regrMatrix gp.regr X) y with ⟨e, h1, h2⟩ | ⟨g, g', h1, h2, hG, hG', hL, hb, hγ, hs⟩
    · rw [h1, h2]; exact .inl ⟨e, rfl, rfl⟩
    · rw [h1, h2]
      exact .inr ⟨_, _, _, _, rfl, rfl, ⟨rfl, h.low, h.high, h.regr, rfl⟩, ⟨rfl, rfl, rfl, hG, hG', hb, hγ, hs, rfl⟩⟩

theorem raw_predict_reorder {σ : Equiv.Perm (Fin d)} {τ : Equiv.Perm (Fin q)} {gp gp₁ : RawGP d q} (h : ReorderedRaw σ τ gp gp₁) {t t₁ : RawFit n d q} (ht : SameRawFit σ τ t t₁) (Xnew : Samples m d) :
    gp₁.predict t₁ (reorderSamples σ Xnew) = gp.predict t Xnew ∧ gp₁.predictStd t₁ (reorderSamples σ Xnew) = gp.predictStd t Xnew := by
  have hp : gp₁.predict t₁ (reorderSamples σ Xnew) = gp.predict t Xnew := by
    unfold RawGP.predict
    simp only [RBF.getKernelMatrix, h.param, ht.X, rbfMatrix_reorder, regrMatrix_reorder_raw h, ht.beta, ht.gamma, cols_mulVec]
  refine ⟨hp, ?_⟩
  unfold RawGP.predictStd
  simp only [hp, RBF.getKernelMatrix, h.param, ht.X, ht.F, rbfMatrix_reorder, regrMatrix_reorder_raw h, mseOf_cols τ ht.gls ht.gls₁ ht.sigma2, ht.noise]

theorem ck_fitHyper_reorder {σ : Equiv.Perm (Fin d)} {τ : Equiv.Perm (Fin q)} {ck ck₁ : CKObj d q} (h : ReorderedCK σ τ ck ck₁) {w w₁ : CKWorld d} (hw : CKFollows σ ck ck₁ w w₁) (noise : Option ℝ) (yStd : ℝ)
    (Xhs : Samples n d) (yhs pred : Fin n → ℝ) :
    ck₁.fitHyper w₁ noise yStd (reorderSamples σ Xhs) yhs pred = (ck.fitHyper w noise yStd Xhs yhs pred).map (fun r => (r.1, reorderPt σ r.2.1, r.2.2)) := by
  have hnl : ∀ rho (theta : Fin d → ℝ) s z, ckNegLogLik (reorderSamples σ Xhs) yhs pred rho (reorderPt σ theta) s z = ckNegLogLik Xhs yhs pred rho theta s z := fun rho theta s z => by
    unfold ckNegLogLik
    rw [pow10_reorder, covTrain_reorder]
  have hc : ∀ a : ℝ, (fun _ => a : Fin d → ℝ) = reorderPt σ (fun _ => a) := fun a => rfl
  unfold CKObj.fitHyper
  cases noise with
  | some s =>
    have := hw.known (fun p => ckNegLogLik Xhs yhs pred (p 0) (fun j => p j.succ) (s / yStd) (s = 0)) (fun p => ckNegLogLik (reorderSamples σ Xhs) yhs pred (p 0) (fun j => p j.succ) (s / yStd) (s = 0))
      (Fin.cons ck.rhoLow (fun _ => ck.kernel.boundLow)) (Fin.cons ck.rhoHigh (fun _ => ck.kernel.boundHigh))
      (fun x => by
        have h2 : (fun j : Fin d => reorderPt (withFirst σ) x j.succ) = reorderPt σ (fun j => x j.succ) := funext (withFirst_apply σ x).2
        rw [(withFirst_apply σ x).1, h2, hnl])
    rw [← cons_withFirst σ _ _ (hc _), ← cons_withFirst σ _ _ (hc _)] at this
    simp only [h.low, h.high, h.rhoLow, h.rhoHigh, this]
    cases searchHyper ck.optimizer w.mini (fun p => ckNegLogLik Xhs yhs pred (p 0) (fun j => p j.succ) (s / yStd) (s = 0)) (Fin.cons ck.rhoLow (fun _ => ck.kernel.boundLow))
      (Fin.cons ck.rhoHigh (fun _ => ck.kernel.boundHigh)) w.starts with
    | error e => rfl
    | ok x =>
      have h2 : (fun j : Fin d => reorderPt (withFirst σ) x j.succ) = reorderPt σ (fun j => x j.succ) := funext (withFirst_apply σ x).2
      simp only [Except.map, bind, Except.bind, (withFirst_apply σ x).1, h2]
  | none =>
    have hA : ∀ x : Fin (d + 2) → ℝ, reorderPt (withFirst (withFirst σ)) x 1 = x 1 := fun x => by
      have := (withFirst_apply (withFirst σ) x).2 0
      rw [show (withFirst σ) 0 = 0 by simp [withFirst]] at this
      exact this
    have hB : ∀ x : Fin (d + 2) → ℝ, (fun j : Fin d => reorderPt (withFirst (withFirst σ)) x j.succ.succ) = reorderPt σ (fun j => x j.succ.succ) := fun x => by
      funext j
      rw [(withFirst_apply (withFirst σ) x).2 j.succ]
      rw [show (withFirst σ) j.succ = (σ j).succ by simp [withFirst]]
      rfl
    have := hw.free (fun p => ckNegLogLik Xhs yhs pred (p 0) (fun j => p j.succ.succ) (p 1) False) (fun p => ckNegLogLik (reorderSamples σ Xhs) yhs pred (p 0) (fun j => p j.succ.succ) (p 1) False)
      (Fin.cons ck.rhoLow (Fin.cons noiseLow (fun _ => ck.kernel.boundLow))) (Fin.cons ck.rhoHigh (Fin.cons noiseHigh (fun _ => ck.kernel.boundHigh)))
      (fun x => by rw [(withFirst_apply _ x).1, hA, hB, hnl])
    rw [← cons_withFirst _ _ _ (cons_withFirst σ _ _ (hc _)), ← cons_withFirst _ _ _ (cons_withFirst σ _ _ (hc _))] at this
    simp only [h.low, h.high, h.rhoLow, h.rhoHigh, this]
    cases searchHyper ck.optimizer w.mini (fun p => ckNegLogLik Xhs yhs pred (p 0) (fun j => p j.succ.succ) (p 1) False) (Fin.cons ck.rhoLow (Fin.cons noiseLow (fun _ => ck.kernel.boundLow)))
      (Fin.cons ck.rhoHigh (Fin.cons noiseHigh (fun _ => ck.kernel.boundHigh))) w.startsNoise with
    | error e => rfl
    | ok x => simp only [Except.map, bind, Except.bind, (withFirst_apply _ x).1, hA, hB]

/-- What the two trained co-Kriging models have in common. -/
structure SameFitCK (σ : Equiv.Perm (Fin d)) (τ : Equiv.Perm (Fin q)) (t t₁ : CKFit nh nl d q) : Prop where
  Xhs : t₁.Xhs = reorderSamples σ t.Xhs
  Xls : t₁.Xls = reorderSamples σ t.Xls
  yhMean : t₁.yhMean = t.yhMean
  yhStd : t₁.yhStd = t.yhStd
  lf : SameRawFit σ τ t.lfFit t₁.lfFit
  rho : t₁.rho = t.rho
  sigma2 : t₁.sigma2 = t.sigma2
  LC : t₁.LC = t.LC
  y : t₁.y = t.y
  mu : t₁.mu = t.mu

theorem ckCov_reorder (σ : Equiv.Perm (Fin d)) (Kl : Matrix (Fin nl) (Fin nl) ℝ) (param : Fin d → ℝ) (s2l rho s2 : ℝ) (K : Matrix (Fin nh) (Fin nh) ℝ) (Xls : Samples nl d) (Xhs : Samples nh d) :
    ckCov Kl (reorderPt σ param) s2l rho s2 K (reorderSamples σ Xls) (reorderSamples σ Xhs) = ckCov Kl param s2l rho s2 K Xls Xhs := by
  unfold ckCov
  rw [rbfMatrix_reorder, rbfMatrix_reorder, rbfMatrix_reorder]

theorem ck_train_reorder {σ : Equiv.Perm (Fin d)} {τ : Equiv.Perm (Fin q)} {ck ck₁ : CKObj d q} (h : ReorderedCK σ τ ck ck₁) {w w₁ : CKWorld d} (hw : CKFollows σ ck ck₁ w w₁)
    (Xh : Samples nh d) (yh : Fin nh → ℝ) (Xl : Samples nl d) (yl : Fin nl → ℝ) :
    (∃ e, ck.train w Xh yh Xl yl = .error e ∧ ck₁.train w₁ (reorderSamples σ Xh) yh (reorderSamples σ Xl) yl = .error e) ∨
    ∃ ck' t ck₁' t₁, ck.train w Xh yh Xl yl = .ok (ck', t) ∧ ck₁.train w₁ (reorderSamples σ Xh) yh (reorderSamples σ Xl) yl = .ok (ck₁', t₁) ∧ ReorderedCK σ τ ck' ck₁' ∧ SameFitCK σ τ t t₁ := by
  unfold CKObj.train
  rw [h.box, normalizeInput_reorder, normalizeInput_reorder]
  cases normalizeInput ck.box Xh with
  | error e => exact .inl ⟨e, rfl, rfl⟩
  | ok Xhs =>
    simp only [Except.map, bind, Except.bind]
    cases normalizeInput ck.box Xl with
    | error e => exact .inl ⟨e, rfl, rfl⟩
    | ok Xls =>
      simp only
      cases normalizeOutput yh with
      | error e => exact .inl ⟨e, rfl, rfl⟩
      | ok yhs =>
        simp only [h.noise]
        generalize ck.noise.map (· / std yh) = no
        rcases no with _ | s
        on_goal 1 => have hlf := And.intro h.lf hw.lf
        on_goal 2 =>
          have hlf : ReorderedRaw σ τ { kernel := ck.lf.kernel, regr := ck.lf.regr, optimizer := ck.lf.optimizer, noise := some s }
              { kernel := ck₁.lf.kernel, regr := ck₁.lf.regr, optimizer := ck₁.lf.optimizer, noise := some s } ∧ SolverFollows σ ck.lf.optimizer ck₁.lf.optimizer w.lf w₁.lf :=
            ⟨⟨h.lf.param, h.lf.low, h.lf.high, h.lf.regr, rfl⟩, hw.lf⟩
        all_goals
          rcases raw_train_reorder hlf.1 hlf.2 Xls (fun i => (yl i - mean yh) / std yh) with ⟨e, h1, h2⟩ | ⟨lf, lt, lf₁, lt₁, h1, h2, hr, ht⟩
          · rw [h1, h2]; exact .inl ⟨e, rfl, rfl⟩
          · rw [h1, h2]
            simp only [(raw_predict_reorder hr ht Xhs).1, ck_fitHyper_reorder h hw]
            generalize CKObj.fitHyper ck w _ (std yh) Xhs yhs (lf.predict lt Xhs) = fit
            cases fit with
            | error e => exact .inl ⟨e, rfl, rfl⟩
            | ok r =>
              rcases r with ⟨rho, theta, noise'⟩
              simp only [Except.map, RBF.setParams, pow10_reorder, covTrain_reorder, hr.param, ht.K, ht.sigma2, ckCov_reorder]
              cases diffFit (covTrain (pow10 theta) Xhs noise') (fun i => yhs i - rho * lf.predict lt Xhs i) with
              | error e => exact .inl ⟨e, rfl, rfl⟩
              | ok g =>
                simp only
                cases cholesky (flat (ckCov lt.K lf.kernel.param lt.gls.sigma2 rho g.sigma2 (covTrain (pow10 theta) Xhs noise') Xls Xhs) + jitter • (1 : Matrix (Fin (nl + nh)) (Fin (nl + nh)) ℝ)) with
                | error e => exact .inl ⟨e, rfl, rfl⟩
                | ok LC =>
                  simp only
                  cases cholSolveV LC (Fin.append (fun i => (yl i - mean yh) / std yh) yhs) with
                  | error e => exact .inl ⟨e, rfl, rfl⟩
                  | ok a =>
                    simp only
                    cases cholSolveV LC (fun _ => 1) with
                    | error e => exact .inl ⟨e, rfl, rfl⟩
                    | ok b =>
                      simp only
                      cases npDiv ((fun _ => 1) ⬝ᵥ a) ((fun _ => 1) ⬝ᵥ b) with
                      | error e => exact .inl ⟨e, rfl, rfl⟩
                      | ok mu => exact .inr ⟨_, _, _, _, rfl, rfl, ⟨rfl, rfl, h.low, h.high, h.rhoLow, h.rhoHigh, rfl, hr⟩, ⟨rfl, rfl, rfl, rfl, ht, rfl, rfl, rfl, rfl, rfl⟩⟩

theorem crossCov_reorder {σ : Equiv.Perm (Fin d)} {τ : Equiv.Perm (Fin q)} {ck ck₁ : CKObj d q} (h : ReorderedCK σ τ ck ck₁) {t t₁ : CKFit nh nl d q} (ht : SameFitCK σ τ t t₁) (xs : Samples m d) :
    crossCov ck₁ t₁ (reorderSamples σ xs) = crossCov ck t xs := by
  funext a j
  unfold crossCov
  simp only [RBF.getKernelMatrix, h.param, h.lf.param, ht.Xhs, ht.Xls, rbfMatrix_reorder, ht.rho, ht.sigma2, ht.lf.sigma2]

/-- **C141 (co-Kriging).** The same for co-Kriging, also for its low-fidelity predictions. -/
theorem C141_ck (σ : Equiv.Perm (Fin d)) (τ : Equiv.Perm (Fin q)) (ck ck₁ : CKObj d q) (h : ReorderedCK σ τ ck ck₁) (w w₁ : CKWorld d) (hw : CKFollows σ ck ck₁ w w₁)
    (Xh : Samples nh d) (yh : Fin nh → ℝ) (Xl : Samples nl d) (yl : Fin nl → ℝ) :
    (∀ e, ck₁.train w₁ (reorderSamples σ Xh) yh (reorderSamples σ Xl) yl = .error e ↔ ck.train w Xh yh Xl yl = .error e) ∧
    ∀ ck' t, ck.train w Xh yh Xl yl = .ok (ck', t) →
      ∃ ck₁' t₁, ck₁.train w₁ (reorderSamples σ Xh) yh (reorderSamples σ Xl) yl = .ok (ck₁', t₁) ∧ t₁.rho = t.rho ∧ ck₁'.kernel.param = reorderPt σ ck'.kernel.param ∧
        ck₁'.lf.kernel.param = reorderPt σ ck'.lf.kernel.param ∧ ck₁'.noise = ck'.noise ∧
        ∀ (m : ℕ) (Xnew : Samples m d), ck₁'.predict t₁ (reorderSamples σ Xnew) = ck'.predict t Xnew ∧ 
            (ck₁'.predictStd t₁ (reorderSamples σ Xnew)).map (fun r => (r.1.noise, r.2)) = (ck'.predictStd t Xnew).map (fun r => (r.1.noise, r.2)) ∧
          ck₁'.predictLf t₁ (reorderSamples σ Xnew) = ck'.predictLf t Xnew ∧ ck₁'.predictLfStd t₁ (reorderSamples σ Xnew) = ck'.predictLfStd t Xnew := by
  rcases ck_train_reorder h hw Xh yh Xl yl with ⟨e, h1, h2⟩ | ⟨ck', t, ck₁', t₁, h1, h2, hr, ht⟩
  · rw [h1, h2]
    exact ⟨fun _ => Iff.rfl, fun _ _ h => by cases h⟩
  · rw [h1, h2]
    refine ⟨fun e => ⟨fun h => (nomatch h), fun h => (nomatch h)⟩, fun ck'' t' he => ?_⟩
    simp only [Except.ok.injEq, Prod.mk.injEq] at he
    obtain ⟨rfl, rfl⟩ := he
    refine ⟨ck₁', t₁, rfl, ht.rho, hr.param, hr.lf.param, hr.noise, fun m Xnew => ?_⟩
    have hp : ck₁'.predict t₁ (reorderSamples σ Xnew) = ck'.predict t Xnew := by
      unfold CKObj.predict
      rw [hr.box, normalizeInput_reorder]
      cases normalizeInput ck'.box Xnew with
      | error e => rfl
      | ok xs => simp only [Except.map, bind, Except.bind, crossCov_reorder hr ht, ht.LC, ht.y, ht.mu, ht.yhStd, ht.yhMean]
    refine ⟨hp, ?_, ?_, ?_⟩
    · unfold CKObj.predictStd
      rw [hp, hr.box, normalizeInput_reorder]
      cases ck'.predict t Xnew with
      | error e => rfl
      | ok f =>
        cases normalizeInput ck'.box Xnew with
        | error e => rfl
        | ok xs =>
          simp only [Except.map, bind, Except.bind, crossCov_reorder hr ht, ht.LC, ht.rho, ht.sigma2, ht.lf.sigma2, ht.yhStd, hr.noise]
          cases cholSolve t.LC (crossCov ck' t xs) with
          | error e => rfl
          | ok z =>
            simp only
            cases ck'.noise <;> rfl
    · unfold CKObj.predictLf
      rw [hr.box, normalizeInput_reorder]
      cases normalizeInput ck'.box Xnew with
      | error e => rfl
      | ok xs => simp only [Except.map, bind, Except.bind, (raw_predict_reorder hr.lf ht.lf xs).1, ht.yhStd, ht.yhMean]
    · unfold CKObj.predictLfStd
      rw [hr.box, normalizeInput_reorder]
      cases normalizeInput ck'.box Xnew with
      | error e => rfl
      | ok xs => simp only [Except.map, bind, Except.bind, (raw_predict_reorder hr.lf ht.lf xs).2, ht.yhStd, ht.yhMean]

/-! ### Concrete cases -/

/-- The optimiser that stays at the lower corner treats all variables alike. -/
theorem corner_follows {p : ℕ} (ρ : Equiv.Perm (Fin p)) (starts : List (Fin p → ℝ)) : SearchFollows ρ none none cornerMinimizer cornerMinimizer starts (starts.map (reorderPt ρ)) :=
  C141_restarts ρ _ _ starts (fun obj obj₁ x0 lo hi ho => by
    unfold cornerMinimizer
    rw [ho lo]
    cases obj lo <;> rfl)

/-- A two-dimensional model with different bounds of the two variables. -/
noncomputable def exGPSides (a b : ℝ) : GPObj 2 1 :=
  { box := { low := fun _ => 0, high := ![a, b] }, kernel := RBF.mk' (fun _ => 0) (-2) 3, regr := ordinary 2, optimizer := none, noise := some 0 }

theorem exGPSides_reordered : ReorderedGP (Equiv.swap 0 1) 1 (exGPSides 4 9) (exGPSides 9 4) where
  box := by
    have : reorderPt (Equiv.swap 0 1) (![4, 9] : Fin 2 → ℝ) = ![9, 4] := by
      funext j
      fin_cases j <;> simp [reorderPt]
    change Box.mk _ _ = Box.mk _ (reorderPt (Equiv.swap 0 1) (![4, 9] : Fin 2 → ℝ))
    rw [this]
    rfl
  param := rfl
  low := rfl
  high := rfl
  regr := fun _ _ => rfl
  noise := rfl

theorem exWorld2_follows (σ : Equiv.Perm (Fin 2)) : SolverFollows σ none none exWorld2 exWorld2 := ⟨corner_follows σ [fun _ => 0], corner_follows (withNoise σ) [fun _ => 0]⟩

/-- Kriging on three samples in two dimensions: exchange the two variables and training still returns, with the same predictions at exchanged points. -/
example (X : Samples 3 2) : ∃ gp' t gp₁' t₁, (exGPSides 4 9).train exWorld2 X exY = .ok (gp', t) ∧ (exGPSides 9 4).train exWorld2 (fun i => ![X i 1, X i 0]) exY = .ok (gp₁', t₁) ∧
    ∀ x : Fin 2 → ℝ, predictMean gp₁' t₁ (fun _ : Fin 1 => ![x 1, x 0]) = predictMean gp' t (fun _ : Fin 1 => x) := by
  have hsw : ∀ x : Fin 2 → ℝ, reorderPt (Equiv.swap 0 1) x = ![x 1, x 0] := fun x => by
    funext j
    fin_cases j <;> simp [reorderPt]
  have hu : Usual (exGPSides 4 9) exWorld2 := ⟨rfl, fun j => by fin_cases j <;> simp [exGPSides], by simp [exGPSides, RBF.mk']; norm_num, cornerMinimizer_good, fun run h => by simp [exGPSides] at h,
    by simp [exWorld2], by simp [exWorld2]⟩
  obtain ⟨gp', t, h⟩ := (usual_trains_iff hu X exY).mpr ⟨0, 2, exY_ne⟩
  obtain ⟨gp₁', t₁, h₁, -, -, hp⟩ := (C141_gp (Equiv.swap 0 1) 1 _ _ exGPSides_reordered exWorld2 exWorld2 (exWorld2_follows _) X exY).2 _ _ h
  have hX : reorderSamples (Equiv.swap 0 1) X = fun i => ![X i 1, X i 0] := funext fun i => hsw (X i)
  rw [hX] at h₁
  refine ⟨gp', t, gp₁', t₁, h, h₁, fun x => ?_⟩
  have h2 := (hp 1 (fun _ => x)).1
  have hx : reorderSamples (Equiv.swap 0 1) (fun _ : Fin 1 => x) = fun _ => ![x 1, x 0] := funext fun _ => hsw x
  rwa [hx] at h2

end Mfpml.Props
