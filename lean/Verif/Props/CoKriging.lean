import Verif.Lemmas.CoKriging
import Verif.Props.GP

/-!
# Properties of co-Kriging (C37, C38, C46–C50)
-/

set_option linter.unusedSectionVars false

open scoped BigOperators Matrix

namespace Mfpml.Props

open Mfpml.GP Mfpml.Spec
open Mfpml.EA (Box)

variable {nh nl n m d q : ℕ}

/-! ## C48: positive definiteness, and training -/

/-- C48 (matrix form). Whatever the samples, kernel parameters, scale factor and noise levels, and for all non-negative process variances, the joint covariance is symmetric
positive semidefinite, and with the jitter it is positive definite and has a Cholesky factor. -/
theorem C48_joint_covariance (paramL param : Fin d → ℝ) (Xl : Samples nl d) (Xh : Samples nh d) (noiseL noise rho s2L s2 : ℝ) (h1 : 0 ≤ s2L) (h2 : 0 ≤ s2) :
    let C := flat (ckCov (covTrain paramL Xl noiseL) paramL s2L rho s2 (covTrain param Xh noise) Xl Xh)
    Cᵀ = C ∧ (∀ v, 0 ≤ v ⬝ᵥ (C *ᵥ v)) ∧ (∀ v, v ≠ 0 → 0 < v ⬝ᵥ ((C + jitter • 1) *ᵥ v)) ∧ ∃ L, cholesky (C + jitter • 1) = .ok L := by
  intro C
  have hC : C.PosSemidef := posSemidef_flat (posSemidef_ckCov paramL param Xl Xh noiseL noise rho h1 h2)
  have hP : (C + jitter • (1 : Matrix _ _ ℝ)).PosDef := (posDef_smul_one jitter_pos).posSemidef_add hC
  refine ⟨?_, fun v => ?_, fun v hv => ?_, ?_⟩
  · have := hC.isHermitian
    rwa [Matrix.IsHermitian, Matrix.conjTranspose_eq_transpose_of_trivial] at this
  · simpa using hC.dotProduct_mulVec_nonneg v
  · simpa using hP.dotProduct_mulVec_pos hv
  · obtain ⟨L, hL, _⟩ := cholesky_of_posDef hP
    exact ⟨L, hL⟩

/-- C48 (of a trained model). The covariance a training leaves behind is symmetric and, with the jitter, positive definite, and the stored factor is its Cholesky factor. -/
theorem C48_trained (ck : CKObj d q) (w : CKWorld d) (Xh : Samples nh d) (yh : Fin nh → ℝ) (Xl : Samples nl d) (yl : Fin nl → ℝ)
    (ck' : CKObj d q) (t : CKFit nh nl d q) (h : ck.train w Xh yh Xl yl = .ok (ck', t)) :
    t.Cᵀ = t.C ∧ (∀ v, v ≠ 0 → 0 < v ⬝ᵥ ((t.C + jitter • 1) *ᵥ v)) ∧ t.LC * t.LCᵀ = t.C + jitter • 1 := by
  obtain ⟨hT, _⟩ := ckTrained_of_train h
  obtain ⟨noise, _, hC⟩ := hT.C
  have hcov := C48_joint_covariance ck'.lf.kernel.param ck'.kernel.param t.Xls t.Xhs t.lfFit.noise noise t.rho t.lfFit.gls.sigma2 t.sigma2
    hT.lf.gls.sigma2_nonneg hT.sigma2
  have hK := hT.lf.K
  rw [hT.lfX] at hK
  rw [← hK, ← hC] at hcov
  exact ⟨hcov.1, hcov.2.2.1, hT.LC.mul⟩

/-- C48 (training succeeds). For every design space with `lb < ub`, a non-constant high-fidelity response, at least one low-fidelity sample, a low-fidelity trend without dependent columns
and well-behaved optimisers, training returns.  With noise 0 the low-fidelity trend must not fit the data exactly and no admissible scale factor may make the difference constant. -/
theorem C48_train_succeeds (ck : CKObj d q) (w : CKWorld d) (Xh : Samples nh d) (yh : Fin nh → ℝ) (Xl : Samples nl d) (yl : Fin nl → ℝ)
    (hbox : ∀ j, ck.box.low j < ck.box.high j) (hkb : ck.kernel.boundLow ≤ ck.kernel.boundHigh) (hkl : ck.lf.kernel.boundLow ≤ ck.lf.kernel.boundHigh)
    (hrho : ck.rhoLow ≤ ck.rhoHigh)
    (hminiL : GoodMinimizer w.lf.mini) (hoptL : ∀ run, ck.lf.optimizer = some run → 0 < d ∧ GoodPopOptimizer run)
    (hmini : GoodMinimizer w.mini) (hopt : ∀ run, ck.optimizer = some run → 0 < d ∧ GoodPopOptimizer run)
    (hs1 : w.lf.starts ≠ []) (hs2 : w.lf.startsNoise ≠ []) (hs3 : w.starts ≠ []) (hs4 : w.startsNoise ≠ [])
    (i0 j0 : Fin nh) (hy : yh i0 ≠ yh j0) (hnl : 0 < nl) (hF : IndepColumns (regrMatrix ck.lf.regr (fun i => normPt ck.box (Xl i))))
    (hfitL : ck.noise = some 0 ∨ (ck.noise = none ∧ ck.lf.noise = some 0) →
      ∀ b, regrMatrix ck.lf.regr (fun i => normPt ck.box (Xl i)) *ᵥ b ≠ fun i => (yl i - mean yh) / std yh)
    (hfit : ck.noise = some 0 → ∀ lf' lfFit, (ckLf0 ck (std yh)).train w.lf (fun i => normPt ck.box (Xl i)) (fun i => (yl i - mean yh) / std yh) = .ok (lf', lfFit) →
      ∀ rho, ck.rhoLow ≤ rho → rho ≤ ck.rhoHigh → ∃ i j,
        (yh i - mean yh) / std yh - rho * lf'.predict lfFit (fun i => normPt ck.box (Xh i)) i ≠
        (yh j - mean yh) / std yh - rho * lf'.predict lfFit (fun i => normPt ck.box (Xh i)) j) :
    ∃ ck' t, ck.train w Xh yh Xl yl = .ok (ck', t) := by
  have hs : std yh ≠ 0 := fun h => hy ((std_eq_zero_iff yh).mp h i0 j0)
  have hn : 0 < nh := lt_of_le_of_lt (Nat.zero_le _) i0.isLt
  have hr : ∀ j, ck.box.high j - ck.box.low j ≠ 0 := fun j => by have := hbox j; linarith
  have hlf0 : (ckLf0 ck (std yh)).kernel = ck.lf.kernel ∧ (ckLf0 ck (std yh)).regr = ck.lf.regr ∧ (ckLf0 ck (std yh)).optimizer = ck.lf.optimizer ∧
      ((ckLf0 ck (std yh)).noise = some 0 → ck.noise = some 0 ∨ (ck.noise = none ∧ ck.lf.noise = some 0)) := by
    unfold ckLf0
    cases hno : ck.noise with
    | none => exact ⟨rfl, rfl, rfl, fun h => Or.inr ⟨rfl, h⟩⟩
    | some s =>
      refine ⟨rfl, rfl, rfl, fun h => Or.inl ?_⟩
      simp only [Option.map_some, Option.some.injEq, div_eq_zero_iff, hs, or_false] at h
      rw [h]
  obtain ⟨lf', lfFit, hlf⟩ := rawTrain_succeeds (gp := ckLf0 ck (std yh)) (w := w.lf) (X := fun i => normPt ck.box (Xl i)) (y := fun i => (yl i - mean yh) / std yh)
    (by rw [hlf0.1]; exact hkl) hminiL (by rw [hlf0.2.2.1]; exact hoptL) hs1 hs2 hnl (by rw [hlf0.2.1]; exact hF)
    (by rw [hlf0.2.1]; exact fun h => hfitL (hlf0.2.2.2 h))
  obtain ⟨rho, theta, noise', h5⟩ : ∃ rho theta noise', ck.fitHyper w (ck.noise.map (· / std yh)) (std yh) (fun i => normPt ck.box (Xh i))
      (fun i => (yh i - mean yh) / std yh) (lf'.predict lfFit (fun i => normPt ck.box (Xh i))) = .ok (rho, theta, noise') := by
    unfold CKObj.fitHyper
    cases hno : ck.noise with
    | some s =>
      obtain ⟨x, hx, _⟩ := searchHyper_good (opt := ck.optimizer)
        (obj := fun p => ckNegLogLik (fun i => normPt ck.box (Xh i)) (fun i => (yh i - mean yh) / std yh) (lf'.predict lfFit (fun i => normPt ck.box (Xh i)))
          (p 0) (fun j => p j.succ) (s / std yh / std yh) (s / std yh = 0))
        (lo := Fin.cons (α := fun _ => ℝ) ck.rhoLow (fun _ => ck.kernel.boundLow)) (hi := Fin.cons (α := fun _ => ℝ) ck.rhoHigh (fun _ => ck.kernel.boundHigh)) hmini (fun r h => ⟨Nat.succ_pos _, (hopt r h).2⟩)
        (fun j => by
          refine Fin.cases ?_ (fun i => ?_) j
          · simpa using hrho
          · simpa using hkb)
        (fun x hx => ckNegLogLik_ok _ _ _ hn (fun hz => by
          have hs0 : s = 0 := by simpa [div_eq_zero_iff, hs] using hz
          have h0 := hx 0
          simp only [Fin.cons_zero] at h0
          exact hfit (by rw [hno, hs0]) lf' lfFit hlf (x 0) h0.1 h0.2)) w.starts hs3
      exact ⟨_, _, _, Py.bind_ok.mpr ⟨x, hx, rfl⟩⟩
    | none =>
      obtain ⟨x, hx, _⟩ := searchHyper_good (opt := ck.optimizer)
        (obj := fun p => ckNegLogLik (fun i => normPt ck.box (Xh i)) (fun i => (yh i - mean yh) / std yh) (lf'.predict lfFit (fun i => normPt ck.box (Xh i)))
          (p 0) (fun j => p j.succ.succ) (p 1) False)
        (lo := Fin.cons (α := fun _ => ℝ) ck.rhoLow (Fin.cons (α := fun _ => ℝ) noiseLow (fun _ => ck.kernel.boundLow)))
        (hi := Fin.cons (α := fun _ => ℝ) ck.rhoHigh (Fin.cons (α := fun _ => ℝ) noiseHigh (fun _ => ck.kernel.boundHigh))) hmini (fun r h => ⟨Nat.succ_pos _, (hopt r h).2⟩)
        (fun j => by
          refine Fin.cases ?_ (fun i => ?_) j
          · simpa using hrho
          · refine Fin.cases ?_ (fun k => ?_) i
            · simp [noiseLow, noiseHigh]; norm_num
            · simpa using hkb)
        (fun x _ => ckNegLogLik_ok _ _ _ hn (fun hz => hz.elim)) w.startsNoise hs4
      exact ⟨_, _, _, Py.bind_ok.mpr ⟨x, hx, rfl⟩⟩
  obtain ⟨g, h6, hg⟩ := diffFit_succeeds (fun i => (yh i - mean yh) / std yh - rho * lf'.predict lfFit (fun i => normPt ck.box (Xh i)) i)
    (posDef_covTrain (pow10 theta) (fun i => normPt ck.box (Xh i)) noise') hn
  obtain ⟨hraw, hX, _, _, _⟩ := rawTrained_of_train hlf
  have hK := hraw.K
  rw [hX] at hK
  have hP : (flat (ckCov lfFit.K lf'.kernel.param lfFit.gls.sigma2 rho g.sigma2 (covTrain (pow10 theta) (fun i => normPt ck.box (Xh i)) noise')
      (fun i => normPt ck.box (Xl i)) (fun i => normPt ck.box (Xh i))) + jitter • (1 : Matrix _ _ ℝ)).PosDef := by
    rw [hK]
    exact (posDef_smul_one jitter_pos).posSemidef_add (posSemidef_flat (posSemidef_ckCov _ _ _ _ _ _ _ hraw.gls.sigma2_nonneg hg.sigma2_nonneg))
  obtain ⟨L, hL, hc⟩ := cholesky_of_posDef hP
  exact ⟨_, _, Py.bind_ok.mpr ⟨_, normalizeInput_eq Xh hr, Py.bind_ok.mpr ⟨_, normalizeInput_eq Xl hr, Py.bind_ok.mpr ⟨_, normalizeOutput_eq hs,
    Py.bind_ok.mpr ⟨_, hlf, Py.bind_ok.mpr ⟨_, h5, Py.bind_ok.mpr ⟨_, h6, Py.bind_ok.mpr ⟨_, hL, Py.bind_ok.mpr ⟨_, cholSolveV_eq hc _,
    Py.bind_ok.mpr ⟨_, cholSolveV_eq hc _, Py.bind_ok.mpr ⟨_, npDiv_eq (ones_quad_pos hP (by omega)).ne', rfl⟩⟩⟩⟩⟩⟩⟩⟩⟩⟩⟩

/-- A one-dimensional co-Kriging model on `[0, 4]`. -/
noncomputable def exCK (noise : Option ℝ) : CKObj 1 1 :=
  { box := (exGP none).box, kernel := RBF.mk' (fun _ => 0) (-2) 3, optimizer := none, rhoLow := 1 / 100, rhoHigh := 10, noise := noise,
    lf := { kernel := RBF.mk' (fun _ => 0) (-2) 3, regr := ordinary 1, optimizer := none, noise := noise } }

/-- An environment with one start point per search. -/
noncomputable def exCKWorld : CKWorld 1 := { lf := exWorld, mini := cornerMinimizer, starts := [fun _ => 0], startsNoise := [fun _ => 0] }

/-- Every non-constant high-fidelity response can be trained on with a non-zero or unknown noise. -/
theorem exCK_trains (noise : Option ℝ) (h0 : noise ≠ some 0) (Xh : Samples nh 1) (yh : Fin nh → ℝ) (Xl : Samples nl 1) (yl : Fin nl → ℝ) (i0 j0 : Fin nh) (hy : yh i0 ≠ yh j0)
    (hnl : 0 < nl) : ∃ ck' t, (exCK noise).train exCKWorld Xh yh Xl yl = .ok (ck', t) := by
  refine C48_train_succeeds (exCK noise) exCKWorld Xh yh Xl yl (fun _ => by simp [exCK, exGP]) (by simp [exCK, RBF.mk']; norm_num) (by simp [exCK, RBF.mk']; norm_num)
    (by simp [exCK]; norm_num) cornerMinimizer_good (fun run h => by simp [exCK] at h) cornerMinimizer_good (fun run h => by simp [exCK] at h)
    (by simp [exCKWorld, exWorld]) (by simp [exCKWorld, exWorld]) (by simp [exCKWorld]) (by simp [exCKWorld]) i0 j0 hy hnl (ordinary_indep _ hnl) ?_ (fun h => absurd h h0)
  rintro (h | ⟨_, h⟩) <;> exact absurd h h0

/-- A noise-free training that succeeds: three samples, the low-fidelity response does not separate the first two, the high-fidelity response does. -/
theorem exCK_trains_noiseless : ∃ ck' t, (exCK (some 0)).train exCKWorld (fun i _ => ![0, 1, 2] i : Samples 3 1) ![0, 1, 5] (fun i _ => ![0, 1, 2] i : Samples 3 1) ![1, 1, 2] =
    .ok (ck', t) := by
  have hs : std (![0, 1, 5] : Fin 3 → ℝ) ≠ 0 := fun h => by
    have := (std_eq_zero_iff _).mp h 0 1
    norm_num at this
  refine C48_train_succeeds (exCK (some 0)) exCKWorld _ _ _ _ (fun _ => by simp [exCK, exGP]) (by simp [exCK, RBF.mk']; norm_num) (by simp [exCK, RBF.mk']; norm_num)
    (by simp [exCK]; norm_num) cornerMinimizer_good (fun run h => by simp [exCK] at h) cornerMinimizer_good (fun run h => by simp [exCK] at h)
    (by simp [exCKWorld, exWorld]) (by simp [exCKWorld, exWorld]) (by simp [exCKWorld]) (by simp [exCKWorld]) 0 1 (by norm_num) (by norm_num) (ordinary_indep _ (by norm_num)) ?_ ?_
  · intro _ b hb
    have h1 := congrFun hb 1
    have h2 := congrFun hb 2
    have e : ∀ i, (regrMatrix (exCK (some 0)).lf.regr (fun i : Fin 3 => normPt (exCK (some 0)).box (fun _ => ![0, 1, 2] i)) *ᵥ b) i = b 0 := by
      intro i
      exact ordinary_mulVec _ _ _
    rw [e] at h1 h2
    rw [h1] at h2
    rw [div_left_inj' hs] at h2
    have h3 : (1 : ℝ) - mean ![0, 1, 5] = 2 - mean ![0, 1, 5] := h2
    linarith
  · intro _ lf' lfFit htr rho _ _
    refine ⟨0, 1, ?_⟩
    obtain ⟨hR, hX, hy, _, hno⟩ := rawTrained_of_train htr
    have h0 : lfFit.noise = 0 := hno 0 (by simp [ckLf0, exCK])
    have hp := rawPredict_train hR h0
    rw [hX, hy] at hp
    have hp' : lf'.predict lfFit (fun i : Fin 3 => normPt (exCK (some 0)).box (fun _ => ![0, 1, 2] i)) = _ := hp
    rw [hp']
    intro he
    have : (![0, 1, 5] : Fin 3 → ℝ) 0 / std (![0, 1, 5] : Fin 3 → ℝ) = (![0, 1, 5] : Fin 3 → ℝ) 1 / std (![0, 1, 5] : Fin 3 → ℝ) := by
      simp only [Matrix.cons_val_zero, Matrix.cons_val_one, sub_div] at he ⊢
      linarith
    rw [div_left_inj' hs] at this
    norm_num at this

/-! ## C49, C50: reproducing the data -/

/-- C49. With noise 0 the prediction at the high-fidelity samples misses the responses exactly by `1e-10 * std(yh)` times the high-fidelity part of the weights `z`, the solution of
`(C + 1e-10 I) z = y - mu` for the joint covariance `C` and the scaled responses `y` (low fidelity first). -/
theorem C49_ck_jitter (ck : CKObj d q) (w : CKWorld d) (Xh : Samples nh d) (yh : Fin nh → ℝ) (Xl : Samples nl d) (yl : Fin nl → ℝ)
    (hnoise : ck.noise = some 0) (ck' : CKObj d q) (t : CKFit nh nl d q) (h : ck.train w Xh yh Xl yl = .ok (ck', t)) :
    ∃ z : Fin (nl + nh) → ℝ,
      (t.C + (1 / 10 ^ 10 : ℝ) • 1) *ᵥ z = (fun a => Fin.append (fun i => (yl i - mean yh) / std yh) (fun i => (yh i - mean yh) / std yh) a - t.mu) ∧
      ∑ a, z a = 0 ∧
      ck'.predict t Xh = .ok (fun j => yh j - 1 / 10 ^ 10 * std yh * z (Fin.natAdd nl j)) := by
  obtain ⟨hT, hyh, hyl, hm, hsd, hbox, hXh, hXl, hno, _⟩ := ckTrained_of_train h
  have hjit : jitter = 1 / 10 ^ 10 := by unfold jitter; norm_num
  rw [← hjit]
  set A := t.C + jitter • (1 : Matrix (Fin (nl + nh)) (Fin (nl + nh)) ℝ) with hA
  have hu : IsUnit A.det := hT.LC.isUnitA
  have hpos : 0 < nl + nh := by have := hT.pos; omega
  have hq := ones_quad_pos hT.LC.posDef hpos
  refine ⟨A⁻¹ *ᵥ (fun i => t.y i - t.mu), ?_, ?_, ?_⟩
  · rw [Matrix.mulVec_mulVec, Matrix.mul_nonsing_inv _ hu, Matrix.one_mulVec, hT.y, hyh, hyl, hm, hsd]
  · have hsub : (fun i => t.y i - t.mu) = t.y - t.mu • (fun _ => (1 : ℝ)) := by ext i; simp
    have hsum : ∀ v : Fin (nl + nh) → ℝ, ∑ a, v a = (fun _ => 1) ⬝ᵥ v := by intro v; simp [dotProduct]
    rw [hsum, hsub, Matrix.mulVec_sub, Matrix.mulVec_smul, dotProduct_sub, dotProduct_smul, hT.mu, smul_eq_mul, div_mul_cancel₀ _ hq.ne', sub_self]
  · have hxs : normalizeInput ck'.box Xh = .ok t.Xhs := by rw [normalizeInput_eq Xh hT.range, hbox, hXh]
    refine Py.bind_ok.mpr ⟨_, hxs, Py.bind_ok.mpr ⟨_, cholSolveV_eq hT.LC _, ?_⟩⟩
    congr 1
    funext j
    obtain ⟨noise, hn1, hC⟩ := hT.C
    have hn0 : noise = 0 := by
      have := (hno 0 hnoise).1
      rw [hn1] at this
      simpa using this
    rw [hn0, covTrain_zero] at hC
    have hcol : ∀ a, crossCov ck' t t.Xhs a j = t.C a (Fin.natAdd nl j) := by
      intro a
      rw [hC]
      refine Fin.addCases (fun i => ?_) (fun i => ?_) a
      · simp [crossCov, flat, ckCov, RBF.getKernelMatrix]
      · simp [crossCov, flat, ckCov, RBF.getKernelMatrix]
    set z := A⁻¹ *ᵥ (fun i => t.y i - t.mu) with hz
    have hsym := (C48_trained ck w Xh yh Xl yl ck' t h).1
    have hAz : A *ᵥ z = fun i => t.y i - t.mu := by
      rw [hz, Matrix.mulVec_mulVec, Matrix.mul_nonsing_inv _ hu, Matrix.one_mulVec]
    have hj := congrFun hAz (Fin.natAdd nl j)
    rw [hA, Matrix.add_mulVec, Matrix.smul_mulVec, Matrix.one_mulVec] at hj
    simp only [Pi.add_apply, Pi.smul_apply, smul_eq_mul] at hj
    have hc : ((crossCov ck' t t.Xhs)ᵀ *ᵥ z) j = (t.C *ᵥ z) (Fin.natAdd nl j) := by
      unfold Matrix.mulVec dotProduct
      apply Finset.sum_congr rfl
      intro a _
      show crossCov ck' t t.Xhs a j * z a = t.C (Fin.natAdd nl j) a * z a
      rw [hcol, ← congrFun (congrFun hsym a) (Fin.natAdd nl j), Matrix.transpose_apply]
    rw [hc]
    have hyj : t.y (Fin.natAdd nl j) = (yh j - mean yh) / std yh := by
      rw [hT.y, Fin.append_right, hyh, hm, hsd]
    rw [hyj] at hj
    have e : (t.C *ᵥ z) (Fin.natAdd nl j) = (yh j - mean yh) / std yh - t.mu - jitter * z (Fin.natAdd nl j) := by linarith
    rw [e, hsd, hm]
    have hsp := hT.stdpos
    rw [hsd] at hsp
    field_simp
    ring

/-- C50. `predict_lf` is the affine un-scaling of the low-fidelity model trained on the scaled low-fidelity data; with noise 0 it reproduces the low-fidelity responses at the
low-fidelity samples. -/
theorem C50_ck_predict_lf (ck : CKObj d q) (w : CKWorld d) (Xh : Samples nh d) (yh : Fin nh → ℝ) (Xl : Samples nl d) (yl : Fin nl → ℝ)
    (ck' : CKObj d q) (t : CKFit nh nl d q) (h : ck.train w Xh yh Xl yl = .ok (ck', t)) :
    (∃ lf0 : RawGP d q, lf0.train w.lf (fun i => normPt ck.box (Xl i)) (fun i => (yl i - mean yh) / std yh) = .ok (ck'.lf, t.lfFit) ∧
      (∀ (m : ℕ) (Xnew : Samples m d), ck'.predictLf t Xnew = .ok (fun j => ck'.lf.predict t.lfFit (fun i => normPt ck.box (Xnew i)) j * std yh + mean yh)) ∧
      (∀ (m : ℕ) (Xnew : Samples m d), ∃ mean' std', ck'.lf.predictStd t.lfFit (fun i => normPt ck.box (Xnew i)) = .ok (mean', std') ∧
        ck'.predictLfStd t Xnew = .ok (fun j => mean' j * std yh + mean yh, fun j => std' j * std yh))) ∧
    (ck.noise = some 0 → ck'.predictLf t Xl = .ok yl) := by
  obtain ⟨hT, hyh, hyl, hm, hsd, hbox, hXh, hXl, hno, hlf⟩ := ckTrained_of_train h
  rw [hXl] at hlf
  have hpred : ∀ (m : ℕ) (Xnew : Samples m d), ck'.predictLf t Xnew = .ok (fun j => ck'.lf.predict t.lfFit (fun i => normPt ck.box (Xnew i)) j * std yh + mean yh) := by
    intro m Xnew
    refine Py.bind_ok.mpr ⟨_, normalizeInput_eq Xnew hT.range, ?_⟩
    rw [hbox, hsd, hm]
  refine ⟨⟨_, hlf, hpred, ?_⟩, ?_⟩
  · intro m Xnew
    have h1 : ck'.lf.predictStd t.lfFit (fun i => normPt ck.box (Xnew i)) = .ok (_, _) := Py.bind_ok.mpr ⟨_, mseOf_eq hT.lf.gls _ _, rfl⟩
    refine ⟨_, _, h1, Py.bind_ok.mpr ⟨_, normalizeInput_eq Xnew hT.range, ?_⟩⟩
    rw [hbox]
    refine Py.bind_ok.mpr ⟨_, h1, ?_⟩
    rw [hsd, hm]
  · intro h0
    rw [hpred]
    have hn0 : t.lfFit.noise = 0 := by
      have := (hno 0 h0).2
      simpa using this
    have hX : (fun i => normPt ck.box (Xl i)) = t.lfFit.X := by rw [hT.lfX, hXl]
    rw [hX, rawPredict_train hT.lf hn0]
    obtain ⟨_, _, hy, _, _⟩ := rawTrained_of_train hlf
    rw [hy]
    congr 1
    funext i
    have hsp := hT.stdpos
    rw [hsd] at hsp
    field_simp
    ring

/-! ## C46: repeated prediction -/

/-- `k + 1` consecutive calls `predict(X, return_std=True)`: the object left behind and the last returned pair. -/
noncomputable def ckPredictTimes (ck : CKObj d q) (t : CKFit nh nl d q) (X : Samples m d) : ℕ → Py (CKObj d q × (Fin m → ℝ) × (Fin m → ℝ))
  | 0 => ck.predictStd t X
  | k + 1 => do
    let (ck', _) ← ckPredictTimes ck t X k
    ck'.predictStd t X

theorem ckPredict_noise (ck : CKObj d q) (t : CKFit nh nl d q) (X : Samples m d) (s : Option ℝ) : ({ ck with noise := s } : CKObj d q).predict t X = ck.predict t X := rfl

theorem ckPredictStd_noise {ck : CKObj d q} {t : CKFit nh nl d q} (hT : CKTrained ck t) (X : Samples m d) :
    ∃ (μ e : Fin m → ℝ), ck.predict t X = .ok μ ∧ ∀ s, ({ ck with noise := some s } : CKObj d q).predictStd t X =
      .ok ({ ck with noise := some (s * t.yhStd) }, μ, fun j => Real.sqrt (e j ^ 2 + (s * t.yhStd) ^ 2)) := by
  have hp : ck.predict t X = .ok _ := Py.bind_ok.mpr ⟨_, normalizeInput_eq X hT.range, Py.bind_ok.mpr ⟨_, cholSolveV_eq hT.LC _, rfl⟩⟩
  refine ⟨_, fun j => Real.sqrt (max (t.rho ^ 2 * t.lfFit.gls.sigma2 + t.sigma2 - ((crossCov ck t (fun i => normPt ck.box (X i)))ᵀ *
    ((t.C + jitter • (1 : Matrix (Fin (nl + nh)) (Fin (nl + nh)) ℝ))⁻¹ * crossCov ck t (fun i => normPt ck.box (X i)))) j j) 0) * t.yhStd, hp, fun s => ?_⟩
  refine Py.bind_ok.mpr ⟨_, hp, Py.bind_ok.mpr ⟨_, normalizeInput_eq X hT.range, Py.bind_ok.mpr ⟨_, cholSolve_eq hT.LC _, rfl⟩⟩⟩

/-- C46 (exact form). Call number `k + 1` of `predict(X, return_std=True)` on a trained model returns the same mean as `predict(X)`, but a standard deviation computed with the noise
multiplied by `std(yh)` once more per call; two calls agree on it exactly when the noise is 0 or `std(yh)` is 1.  What is missing for C46 is the standard deviation for other models. -/
theorem C46_ck_repeated_predict_partial (ck : CKObj d q) (w : CKWorld d) (Xh : Samples nh d) (yh : Fin nh → ℝ) (Xl : Samples nl d) (yl : Fin nl → ℝ)
    (ck' : CKObj d q) (t : CKFit nh nl d q) (h : ck.train w Xh yh Xl yl = .ok (ck', t)) (X : Samples m d) :
    ∃ (s : ℝ) (μ : Fin m → ℝ) (σ : ℕ → Fin m → ℝ), ck'.noise = some s ∧ ck'.predict t X = .ok μ ∧
      (∀ k, ∃ ck'', ckPredictTimes ck' t X k = .ok (ck'', μ, σ k) ∧ ck''.noise = some (s * std yh ^ (k + 1)) ∧ ck''.predict t X = .ok μ) ∧
      (∀ j, (∀ k, σ k j = σ 0 j) ↔ s = 0 ∨ std yh = 1) := by
  obtain ⟨hT, hyh, hyl, hm, hsd, hbox, hXh, hXl, hno, hlf⟩ := ckTrained_of_train h
  obtain ⟨s, hs, _⟩ := hT.C
  obtain ⟨μ, e, hμ, hstep⟩ := ckPredictStd_noise hT X
  have hself : ck' = { ck' with noise := some s } := by
    cases ck'
    simp only at hs
    rw [hs]
  have hpos : 0 < std yh := by rw [← hsd]; exact hT.stdpos
  have hk : ∀ k, ckPredictTimes ck' t X k = .ok ({ ck' with noise := some (s * std yh ^ (k + 1)) }, μ, fun j => Real.sqrt (e j ^ 2 + (s * std yh ^ (k + 1)) ^ 2)) := by
    intro k
    induction k with
    | zero =>
      have := hstep s
      rw [← hself, hsd] at this
      simpa [ckPredictTimes] using this
    | succ k ih =>
      refine Py.bind_ok.mpr ⟨_, ih, ?_⟩
      have := hstep (s * std yh ^ (k + 1))
      rw [hsd, mul_assoc, ← pow_succ] at this
      exact this
  refine ⟨s, μ, fun k j => Real.sqrt (e j ^ 2 + (s * std yh ^ (k + 1)) ^ 2), hs, hμ, fun k => ⟨_, hk k, rfl, hμ⟩, fun j => ?_⟩
  constructor
  · intro hh
    have h1 := hh 1
    rw [Real.sqrt_inj (by positivity) (by positivity)] at h1
    have h2 : (s * std yh ^ (1 + 1)) ^ 2 = (s * std yh ^ (0 + 1)) ^ 2 := by linarith
    have h3 : s ^ 2 * std yh ^ 2 * ((std yh - 1) * (std yh + 1)) = 0 := by ring_nf; ring_nf at h2; linarith
    rcases mul_eq_zero.mp h3 with h4 | h4
    · left
      rcases mul_eq_zero.mp h4 with h5 | h5
      · exact pow_eq_zero_iff (two_ne_zero) |>.mp h5
      · exact absurd h5 (by positivity)
    · right
      rcases mul_eq_zero.mp h4 with h5 | h5
      · linarith
      · exact absurd h5 (by positivity)
  · rintro (h0 | h1) k
    · rw [h0]; simp
    · rw [h1]; simp

/-- The example's response `(0, 4)` has mean 2 and standard deviation 2. -/
theorem exCK_std : std (![0, 4] : Fin 2 → ℝ) = 2 := by
  have hm : mean (![0, 4] : Fin 2 → ℝ) = 2 := by unfold mean; simp; norm_num
  unfold std
  rw [hm]
  rw [Fin.sum_univ_two]
  show Real.sqrt (((0 - 2) ^ 2 + (4 - 2) ^ 2) / ((2 : ℕ) : ℝ)) = 2
  rw [show (((0 : ℝ) - 2) ^ 2 + (4 - 2) ^ 2) / ((2 : ℕ) : ℝ) = 2 ^ 2 by norm_num]
  exact Real.sqrt_sq (by norm_num)

/-- C46 is false: a trained model on which two consecutive calls return different standard deviations. -/
theorem C46_ck_counterexample : ∃ (ck ck' ck₁ ck₂ : CKObj 1 1) (w : CKWorld 1) (X : Samples 2 1) (yh yl : Fin 2 → ℝ) (t : CKFit 2 2 1 1) (μ σ₁ σ₂ : Fin 2 → ℝ),
    ck.train w X yh X yl = .ok (ck', t) ∧ ck'.predictStd t X = .ok (ck₁, μ, σ₁) ∧ ck₁.predictStd t X = .ok (ck₂, μ, σ₂) ∧ σ₁ 0 ≠ σ₂ 0 := by
  obtain ⟨ck', t, h⟩ := exCK_trains (some 1) (by simp) (fun i _ => ![0, 1] i : Samples 2 1) ![0, 4] (fun i _ => ![0, 1] i : Samples 2 1) ![0, 1] 0 1 (by norm_num) (by norm_num)
  obtain ⟨hT, _, _, _, hsd, _, _, _, hno, _⟩ := ckTrained_of_train h
  have hn := (hno 1 rfl).1
  rw [exCK_std] at hn hsd
  obtain ⟨μ, e, _, hstep⟩ := ckPredictStd_noise hT (fun i _ => ![0, 1] i : Samples 2 1)
  have hself : ck' = { ck' with noise := some (1 / 2) } := by
    cases ck'
    simp only at hn
    rw [hn]
  have h1 := hstep (1 / 2)
  rw [← hself, hsd] at h1
  have h2 := hstep (1 / 2 * 2)
  rw [hsd] at h2
  refine ⟨_, ck', _, _, _, _, _, _, t, μ, _, _, h, h1, h2, ?_⟩
  rw [ne_eq, Real.sqrt_inj (by positivity) (by positivity)]
  norm_num

/-- C37 (co-Kriging). -/
theorem C37_ck (ck ck' : CKObj d q) (t : CKFit nh nl d q) (X : Samples m d) (μ σ : Fin m → ℝ) (h : ck.predictStd t X = .ok (ck', μ, σ)) : ck.predict t X = .ok μ := by
  unfold CKObj.predictStd at h
  obtain ⟨f, h1, h⟩ := Py.bind_ok.mp h
  obtain ⟨_, _, h⟩ := Py.bind_ok.mp h
  obtain ⟨_, _, h⟩ := Py.bind_ok.mp h
  split at h
  · cases h
  · simp only [Except.ok.injEq, Prod.mk.injEq] at h
    rw [h1, h.2.1]

/-! ## C47: repeated training -/

/-- `ck'` is reached from `ck` by `k` successful trainings on the same data (the environment may differ from call to call). -/
inductive CKTrainedTimes (Xh : Samples nh d) (yh : Fin nh → ℝ) (Xl : Samples nl d) (yl : Fin nl → ℝ) (ck : CKObj d q) : ℕ → CKObj d q → Prop
  | zero : CKTrainedTimes Xh yh Xl yl ck 0 ck
  | succ {k : ℕ} {ck₁ ck₂ : CKObj d q} (w : CKWorld d) (t : CKFit nh nl d q) : CKTrainedTimes Xh yh Xl yl ck k ck₁ → ck₁.train w Xh yh Xl yl = .ok (ck₂, t) →
      CKTrainedTimes Xh yh Xl yl ck (k + 1) ck₂

/-- C47 (exact form). After `k` trainings on the same data a model constructed with noise `s` has noise `s / std(yh)^k`; so training twice gives the noise of training once exactly when
`s = 0` or `std(yh) = 1`.  What is missing for C47 is every other case. -/
theorem C47_ck_retraining_partial (Xh : Samples nh d) (yh : Fin nh → ℝ) (Xl : Samples nl d) (yl : Fin nl → ℝ) (ck : CKObj d q) (s : ℝ) (hs : ck.noise = some s) (k : ℕ)
    (ck' : CKObj d q) (h : CKTrainedTimes Xh yh Xl yl ck k ck') :
    ck'.noise = some (s / std yh ^ k) ∧ (2 ≤ k → (ck'.noise = some (s / std yh) ↔ s = 0 ∨ std yh = 1)) := by
  have hmain : ck'.noise = some (s / std yh ^ k) := by
    induction h with
    | zero => simpa using hs
    | succ w t _ htr ih =>
      obtain ⟨_, _, _, _, _, _, _, _, hno, _⟩ := ckTrained_of_train htr
      rw [(hno _ ih).1, pow_succ, div_div]
  refine ⟨hmain, fun hk => ?_⟩
  have hpos : 0 < std yh := by
    cases h with
    | zero => omega
    | succ w t _ htr =>
      obtain ⟨hT, _, _, _, hsd, _⟩ := ckTrained_of_train htr
      rw [← hsd]; exact hT.stdpos
  rw [hmain, Option.some.injEq]
  constructor
  · intro h1
    by_cases h0 : s = 0
    · exact Or.inl h0
    · right
      obtain ⟨m, rfl⟩ : ∃ m, k = m + 2 := ⟨k - 2, by omega⟩
      have h2 : std yh ^ (m + 2) = std yh := by
        have hp := (pow_pos hpos (m + 2)).ne'
        rw [div_eq_div_iff hp hpos.ne'] at h1
        exact (mul_left_cancel₀ h0 h1).symm
      have h3 : std yh ^ (m + 1) = 1 := by
        have h4 : std yh * std yh ^ (m + 1) = std yh * 1 := by rw [mul_one, ← pow_succ']; exact h2
        exact mul_left_cancel₀ hpos.ne' h4
      exact (pow_eq_one_iff_of_nonneg hpos.le (by omega)).mp h3
  · rintro (h0 | h1)
    · rw [h0]; simp
    · rw [h1]; simp

/-- C47 is false: training twice on the same data halves the noise of the example. -/
theorem C47_ck_counterexample : ∃ (ck ck₁ ck₂ : CKObj 1 1) (w : CKWorld 1) (X : Samples 2 1) (yh yl : Fin 2 → ℝ) (t₁ t₂ : CKFit 2 2 1 1),
    ck.train w X yh X yl = .ok (ck₁, t₁) ∧ ck₁.train w X yh X yl = .ok (ck₂, t₂) ∧ ck₁.noise = some (1 / 2) ∧ ck₂.noise = some (1 / 4) := by
  obtain ⟨ck₁, t₁, h⟩ := exCK_trains (some 1) (by simp) (fun i _ => ![0, 1] i : Samples 2 1) ![0, 4] (fun i _ => ![0, 1] i : Samples 2 1) ![0, 1] 0 1 (by norm_num) (by norm_num)
  obtain ⟨hT, _, _, _, hsd, hbox, _, _, hno, hlf⟩ := ckTrained_of_train h
  have hn := (hno 1 rfl).1
  rw [exCK_std] at hn
  have hfields : ck₁.box = (exCK (some 1)).box ∧ ck₁.rhoLow = 1 / 100 ∧ ck₁.rhoHigh = 10 ∧ ck₁.optimizer = none ∧ ck₁.kernel.boundLow = -2 ∧ ck₁.kernel.boundHigh = 3 ∧
      ck₁.lf.kernel.boundLow = -2 ∧ ck₁.lf.kernel.boundHigh = 3 ∧ ck₁.lf.optimizer = none ∧ ck₁.lf.regr = ordinary 1 := ckTrain_static h
  obtain ⟨f1, f2, f3, f4, f5, f6, f7, f8, f9, f10⟩ := hfields
  obtain ⟨ck₂, t₂, h2⟩ := C48_train_succeeds ck₁ exCKWorld (fun i _ => ![0, 1] i : Samples 2 1) ![0, 4] (fun i _ => ![0, 1] i : Samples 2 1) ![0, 1]
    (fun _ => by rw [f1]; simp [exCK, exGP]) (by rw [f5, f6]; norm_num) (by rw [f7, f8]; norm_num)
    (by rw [f2, f3]; norm_num) cornerMinimizer_good (fun run h => by simp [f9] at h) cornerMinimizer_good (fun run h => by simp [f4] at h)
    (by simp [exCKWorld, exWorld]) (by simp [exCKWorld, exWorld]) (by simp [exCKWorld]) (by simp [exCKWorld]) 0 1 (by norm_num) (by norm_num)
    (by rw [f10]; exact ordinary_indep _ (by norm_num))
    (by rw [hn]; rintro (h | ⟨h, _⟩) <;> simp at h) (by rw [hn]; intro h; simp at h)
  obtain ⟨_, _, _, _, _, _, _, _, hno2, _⟩ := ckTrained_of_train h2
  have hn2 := (hno2 _ hn).1
  rw [exCK_std] at hn2
  exact ⟨_, _, _, _, _, _, _, _, _, h, h2, hn, by rw [hn2]; norm_num⟩

/-- C38 (co-Kriging: what happens instead). Once a training has set the noise level, later trainings only divide it by the standard deviation of their own responses; it is never estimated
again. -/
theorem C38_ck_noise_sticky {nh' nl' : ℕ} (ck : CKObj d q) (w w' : CKWorld d) (Xh : Samples nh d) (yh : Fin nh → ℝ) (Xl : Samples nl d) (yl : Fin nl → ℝ)
    (Xh' : Samples nh' d) (yh' : Fin nh' → ℝ) (Xl' : Samples nl' d) (yl' : Fin nl' → ℝ) (ck₁ ck₂ : CKObj d q) (t₁ : CKFit nh nl d q) (t₂ : CKFit nh' nl' d q)
    (h₁ : ck.train w Xh yh Xl yl = .ok (ck₁, t₁)) (h₂ : ck₁.train w' Xh' yh' Xl' yl' = .ok (ck₂, t₂)) :
    ∃ s, ck₁.noise = some s ∧ ck₂.noise = some (s / std yh') ∧ t₂.lfFit.noise = s / std yh' := by
  obtain ⟨hT₁, _⟩ := ckTrained_of_train h₁
  obtain ⟨s, hs, _⟩ := hT₁.C
  obtain ⟨_, _, _, _, _, _, _, _, hno, _⟩ := ckTrained_of_train h₂
  exact ⟨s, hs, hno s hs⟩

end Mfpml.Props
