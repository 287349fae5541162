import Verif.Lemmas.GP
import Verif.Lemmas.MFKriging
import Verif.Lemmas.CoKriging

/-! # Lemmas about changes of units of the responses -/

set_option linter.unusedSectionVars false

open scoped BigOperators Matrix

namespace Mfpml.GP

open Mfpml.EA (Box)

variable {nh nl n m d q ql qd : ℕ}

/-! ### linear algebra -/

theorem solveV_smul (A : Matrix (Fin n) (Fin n) ℝ) (c : ℝ) (b : Fin n → ℝ) : solveV A (c • b) = (solveV A b).map (c • ·) := by
  unfold solveV
  split
  · simp [Except.map, Matrix.mulVec_smul]
  · rfl

theorem solve_smul (A : Matrix (Fin n) (Fin n) ℝ) (c : ℝ) (B : Matrix (Fin n) (Fin m) ℝ) : solve A (c • B) = (solve A B).map (c • ·) := by
  unfold solve
  split
  · simp [Except.map, Matrix.mul_smul]
  · rfl

theorem cholSolveV_smul (L : Matrix (Fin n) (Fin n) ℝ) (c : ℝ) (b : Fin n → ℝ) : cholSolveV L (c • b) = (cholSolveV L b).map (c • ·) := by
  unfold cholSolveV
  rw [solveV_smul]
  cases solveV L b with
  | error e => rfl
  | ok z => exact solveV_smul _ _ _

theorem cholSolve_smul (L : Matrix (Fin n) (Fin n) ℝ) (c : ℝ) (B : Matrix (Fin n) (Fin m) ℝ) : cholSolve L (c • B) = (cholSolve L B).map (c • ·) := by
  unfold cholSolve
  rw [solve_smul]
  cases solve L B with
  | error e => rfl
  | ok z => exact solve_smul _ _ _

/-- The fit of rescaled data: the trend matrix multiplied by `e`, the responses by `c`. -/
noncomputable def GLS.units (e c : ℝ) (g : GLS n q) : GLS n q :=
  { L := g.L, ld := g.ld, alpha := c • g.alpha, beta := (c * e) • g.beta, gamma := c • g.gamma, sigma2 := g.sigma2 }

theorem glsFit_units (K : Matrix (Fin n) (Fin n) ℝ) (F : Matrix (Fin n) (Fin q) ℝ) (y : Fin n → ℝ) {e c : ℝ} (he : e * e = 1) (hc : c * c = 1) :
    glsFit K (e • F) (c • y) = (glsFit K F y).map (GLS.units e c) := by
  unfold glsFit
  cases cholesky K with
  | error err => rfl
  | ok L =>
    simp only [bind, Except.bind]
    rw [cholSolveV_smul]
    cases cholSolveV L y with
    | error err => rfl
    | ok alpha =>
      simp only [Except.map]
      rw [cholSolve_smul]
      cases cholSolve L F with
      | error err => rfl
      | ok KF =>
        simp only [Except.map]
        have h1 : (e • F)ᵀ * (e • KF) = Fᵀ * KF := by
          rw [Matrix.transpose_smul, Matrix.smul_mul, Matrix.mul_smul, smul_smul, he, one_smul]
        have h2 : (e • F)ᵀ *ᵥ (c • alpha) = (c * e) • (Fᵀ *ᵥ alpha) := by
          rw [Matrix.transpose_smul, Matrix.smul_mulVec, Matrix.mulVec_smul, smul_smul, mul_comm]
        rw [h1, h2]
        cases cholesky (Fᵀ * KF) with
        | error err => rfl
        | ok ld =>
          simp only
          rw [cholSolveV_smul]
          cases cholSolveV ld (Fᵀ *ᵥ alpha) with
          | error err => rfl
          | ok beta =>
            simp only [Except.map]
            have h3 : c • y - (e • F) *ᵥ ((c * e) • beta) = c • (y - F *ᵥ beta) := by
              rw [Matrix.smul_mulVec, Matrix.mulVec_smul, smul_smul, smul_sub,
                show e * (c * e) = c by rw [mul_comm c e, ← mul_assoc, he, one_mul]]
            rw [h3, cholSolveV_smul]
            cases cholSolveV L (y - F *ᵥ beta) with
            | error err => rfl
            | ok gamma =>
              simp only [Except.map]
              have h4 : (c • (y - F *ᵥ beta)) ⬝ᵥ (c • gamma) = (y - F *ᵥ beta) ⬝ᵥ gamma := by
                rw [dotProduct_smul, smul_dotProduct, smul_smul, hc, one_smul]
              rw [h4]
              cases npDiv ((y - F *ᵥ beta) ⬝ᵥ gamma) n with
              | error err => rfl
              | ok s => rfl

theorem negLogLik_units (K : Matrix (Fin n) (Fin n) ℝ) (F : Matrix (Fin n) (Fin q) ℝ) (y : Fin n → ℝ) (z : Prop) {e c : ℝ} (he : e * e = 1) (hc : c * c = 1) :
    negLogLik K (e • F) (c • y) z = negLogLik K F y z := by
  unfold negLogLik
  rw [glsFit_units K F y he hc]
  cases glsFit K F y with
  | error err => rfl
  | ok g => rfl

theorem mseOf_units (g : GLS n q) (F : Matrix (Fin n) (Fin q) ℝ) (knew : Matrix (Fin n) (Fin m) ℝ) (f : Matrix (Fin m) (Fin q) ℝ) {e : ℝ} (c : ℝ) (he : e * e = 1) :
    mseOf (g.units e c) (e • F) knew (e • f) = mseOf g F knew f := by
  unfold mseOf
  simp only [GLS.units]
  cases cholSolve g.L knew with
  | error err => rfl
  | ok delta =>
    simp only [bind, Except.bind]
    have h1 : (e • f)ᵀ - (e • F)ᵀ * delta = e • (fᵀ - Fᵀ * delta) := by
      rw [Matrix.transpose_smul, Matrix.transpose_smul, Matrix.smul_mul, smul_sub]
    rw [h1, cholSolve_smul]
    cases cholSolve g.ld (fᵀ - Fᵀ * delta) with
    | error err => rfl
    | ok S =>
      simp only [Except.map, Except.ok.injEq]
      funext j
      have : ((e • (fᵀ - Fᵀ * delta))ᵀ * (e • S)) = (fᵀ - Fᵀ * delta)ᵀ * S := by
        rw [Matrix.transpose_smul, Matrix.smul_mul, Matrix.mul_smul, smul_smul, he, one_smul]
      rw [this]

/-- The sign of a change of units. -/
noncomputable def unitSign (a : ℝ) : ℝ := a / |a|

theorem unitSign_sq {a : ℝ} (ha : a ≠ 0) : unitSign a * unitSign a = 1 := by
  unfold unitSign
  rw [div_mul_div_comm, abs_mul_abs_self, div_self (mul_ne_zero ha ha)]

theorem unitSign_mul {a : ℝ} (ha : a ≠ 0) : unitSign a * |a| = a := by
  unfold unitSign
  rw [div_mul_cancel₀ _ (abs_pos.mpr ha).ne']

theorem normalizeOutput_units {a : ℝ} (ha : a ≠ 0) (b : ℝ) (y : Fin n → ℝ) :
    normalizeOutput (fun i => a * y i + b) = (normalizeOutput y).map (unitSign a • ·) := by
  have habs := abs_pos.mpr ha
  unfold normalizeOutput
  rw [std_affine]
  by_cases hs : std y = 0
  · rw [if_pos hs, if_pos (by rw [hs, mul_zero])]; rfl
  · rw [if_neg hs, if_neg (mul_ne_zero habs.ne' hs)]
    have hn : 0 < n := by
      rcases Nat.eq_zero_or_pos n with h | h
      · subst h; exact absurd (by simp [std]) hs
      · exact h
    rw [mean_affine hn]
    simp only [Except.map, Except.ok.injEq]
    funext i
    simp only [Pi.smul_apply, smul_eq_mul, unitSign]
    field_simp
    ring

/-! ### Gaussian-process regression -/

/-- The object a user would create for responses in other units: a known noise level is multiplied by `|a|`. -/
noncomputable def GPObj.units (a : ℝ) (gp : GPObj d q) : GPObj d q := { gp with noise := gp.noise.map (|a| * ·) }

/-- A fit to `a y + b` in terms of the fit to `y`. -/
noncomputable def GPFit.units (a b : ℝ) (t : GPFit n d q) : GPFit n d q :=
  { t with y := fun i => a * t.y i + b, ys := unitSign a • t.ys, yMean := a * t.yMean + b, yStd := |a| * t.yStd, gls := t.gls.units 1 (unitSign a), noise := |a| * t.noise }

theorem gp_fitHyper_units {a : ℝ} (ha : a ≠ 0) (gp : GPObj d q) (w : World d) (s : ℝ) (Xs : Samples n d) (ys : Fin n → ℝ) :
    (gp.units a).fitHyper w (|a| * s) Xs (unitSign a • ys) = (gp.fitHyper w s Xs ys).map (fun r => (r.1, |a| * r.2)) := by
  have habs := abs_pos.mpr ha
  have hu := unitSign_sq ha
  unfold GPObj.fitHyper GPObj.units
  cases hno : gp.noise with
  | none =>
    simp only [Option.map]
    have : (GPObj.logLikFree { gp with noise := none } Xs (unitSign a • ys)) = gp.logLikFree Xs ys := by
      funext p
      unfold GPObj.logLikFree
      have := negLogLik_units (covTrain (pow10 (fun j => p j.castSucc)) Xs (p (Fin.last d))) (regrMatrix gp.regr Xs) ys False (one_mul 1) hu
      rwa [one_smul] at this
    rw [this]
    cases searchHyper gp.optimizer w.mini (gp.logLikFree Xs ys) (Fin.snoc (fun _ => gp.kernel.boundLow) noiseLow) (Fin.snoc (fun _ => gp.kernel.boundHigh) noiseHigh)
      w.startsNoise with
    | error e => rfl
    | ok x =>
      simp only [bind, Except.bind, Except.map, Except.ok.injEq, Prod.mk.injEq, true_and]
      ring
  | some v =>
    simp only [Option.map]
    have : (GPObj.logLikKnown { gp with noise := some (|a| * v) } (|a| * v) (|a| * s) Xs (unitSign a • ys)) = gp.logLikKnown v s Xs ys := by
      funext p
      unfold GPObj.logLikKnown
      have h2 : (|a| * v = 0) = (v = 0) := by simp [ha]
      rw [mul_div_mul_left _ _ habs.ne', h2]
      have := negLogLik_units (covTrain (pow10 p) Xs (v / s)) (regrMatrix gp.regr Xs) ys (v = 0) (one_mul 1) hu
      rwa [one_smul] at this
    rw [this]
    cases searchHyper gp.optimizer w.mini (gp.logLikKnown v s Xs ys) (fun _ => gp.kernel.boundLow) (fun _ => gp.kernel.boundHigh) w.starts with
    | error e => rfl
    | ok x => rfl

theorem gp_train_units {a : ℝ} (ha : a ≠ 0) (b : ℝ) (gp : GPObj d q) (w : World d) (X : Samples n d) (y : Fin n → ℝ) :
    (gp.units a).train w X (fun i => a * y i + b) = (gp.train w X y).map (fun r => (r.1.units a, r.2.units a b)) := by
  have habs := abs_pos.mpr ha
  have hu := unitSign_sq ha
  unfold GPObj.train
  have hbox : (gp.units a).box = gp.box := rfl
  rw [hbox]
  cases normalizeInput gp.box X with
  | error e => rfl
  | ok Xs =>
    simp only [bind, Except.bind]
    rw [normalizeOutput_units ha, std_affine]
    cases hy : normalizeOutput y with
    | error e => rfl
    | ok ys =>
      simp only [Except.map]
      rw [gp_fitHyper_units ha]
      have hn : 0 < n := by
        rcases Nat.eq_zero_or_pos n with h | h
        · subst h; exact absurd (by simp [std]) (normalizeOutput_ok hy).1
        · exact h
      rw [mean_affine hn]
      cases gp.fitHyper w (std y) Xs ys with
      | error e => rfl
      | ok r =>
        obtain ⟨theta, noise⟩ := r
        simp only [Except.map]
        rw [mul_div_mul_left _ _ habs.ne']
        have := glsFit_units (covTrain (gp.kernel.setParams theta).param Xs (noise / std y)) (regrMatrix gp.regr Xs) ys (one_mul 1) hu
        rw [one_smul] at this
        rw [show (gp.units a).kernel = gp.kernel from rfl, show (gp.units a).regr = gp.regr from rfl, this]
        cases glsFit (covTrain (gp.kernel.setParams theta).param Xs (noise / std y)) (regrMatrix gp.regr Xs) ys with
        | error e => rfl
        | ok g => rfl

theorem gp_predict_units {a : ℝ} (ha : a ≠ 0) (b : ℝ) (gp : GPObj d q) (t : GPFit n d q) (Xnew : Samples m d) :
    predictMean (gp.units a) (t.units a b) Xnew = (predictMean gp t Xnew).map (fun μ j => a * μ j + b) := by
  unfold predictMean
  rw [show (gp.units a).box = gp.box from rfl]
  cases normalizeInput gp.box Xnew with
  | error e => rfl
  | ok xs =>
    simp only [bind, Except.bind, Except.map, Except.ok.injEq]
    funext j
    simp only [GPFit.units, GLS.units, GPObj.units, mul_one, Matrix.mulVec_smul, ← smul_add, Pi.smul_apply, smul_eq_mul]
    generalize (_ + _ : Fin m → ℝ) j = v
    linear_combination (v * t.yStd) * unitSign_mul ha

theorem gp_predictStd_units {a : ℝ} (ha : a ≠ 0) (b : ℝ) (gp : GPObj d q) (t : GPFit n d q) (Xnew : Samples m d) :
    predictStd (gp.units a) (t.units a b) Xnew = (predictStd gp t Xnew).map (fun r => (fun j => a * r.1 j + b, fun j => |a| * r.2 j)) := by
  unfold predictStd
  rw [gp_predict_units ha, show (gp.units a).box = gp.box from rfl, show (gp.units a).kernel = gp.kernel from rfl, show (gp.units a).regr = gp.regr from rfl]
  cases predictMean gp t Xnew with
  | error e => rfl
  | ok μ =>
    simp only [bind, Except.bind, Except.map]
    cases normalizeInput gp.box Xnew with
    | error e => rfl
    | ok xs =>
      simp only
      have := mseOf_units t.gls t.F (gp.kernel.getKernelMatrix t.Xs xs) (regrMatrix gp.regr xs) (unitSign a) (one_mul 1)
      rw [one_smul, one_smul] at this
      rw [show (t.units a b).gls = t.gls.units 1 (unitSign a) from rfl, show (t.units a b).F = t.F from rfl, show (t.units a b).Xs = t.Xs from rfl, this]
      cases mseOf t.gls t.F (gp.kernel.getKernelMatrix t.Xs xs) (regrMatrix gp.regr xs) with
      | error e => rfl
      | ok mse =>
        simp only [GPFit.units, Except.ok.injEq, Prod.mk.injEq, true_and]
        funext j
        rw [← Real.sqrt_sq_eq_abs, ← Real.sqrt_mul (sq_nonneg a), mul_max_of_nonneg _ _ (sq_nonneg a), mul_zero, mul_pow, mul_pow, Real.sq_sqrt (sq_nonneg a)]
        congr 2
        ring

/-! ### Hierarchical Kriging -/

/-- See `GPObj.units`. -/
noncomputable def HKObj.units (a : ℝ) (hk : HKObj d q) : HKObj d q := { hk with noise := hk.noise.map (|a| * ·), lf := hk.lf.units a }

/-- See `GPFit.units`. -/
noncomputable def HKFit.units (a b : ℝ) (t : HKFit nh nl d q) : HKFit nh nl d q :=
  { t with lfFit := t.lfFit.units a b, yh := fun i => a * t.yh i + b, yhs := unitSign a • t.yhs, yhMean := a * t.yhMean + b, yhStd := |a| * t.yhStd, F := unitSign a • t.F,
           gls := t.gls.units (unitSign a) (unitSign a), noise := |a| * t.noise }

theorem scaleCol_units (a b : ℝ) (f : Fin m → ℝ) (mn s : ℝ) : scaleCol (fun i => a * f i + b) (a * mn + b) (|a| * s) = unitSign a • scaleCol f mn s := by
  ext i j
  simp only [scaleCol, Matrix.smul_apply, smul_eq_mul, unitSign]
  rw [div_mul_div_comm]
  congr 1
  ring

theorem hk_fitHyper_units {a : ℝ} (ha : a ≠ 0) (hk : HKObj d q) (w : World d) (s : ℝ) (Xs : Samples n d) (F : Matrix (Fin n) (Fin 1) ℝ) (ys : Fin n → ℝ) :
    (hk.units a).fitHyper w (|a| * s) Xs (unitSign a • F) (unitSign a • ys) = (hk.fitHyper w s Xs F ys).map (fun r => (r.1, |a| * r.2)) := by
  have habs := abs_pos.mpr ha
  have hu := unitSign_sq ha
  unfold HKObj.fitHyper HKObj.units
  cases hno : hk.noise with
  | none =>
    simp only [Option.map]
    have : hkLogLikFree Xs (unitSign a • F) (unitSign a • ys) = hkLogLikFree Xs F ys := by
      funext p
      exact negLogLik_units _ F ys False hu hu
    rw [this]
    cases searchHyper hk.optimizer w.mini (hkLogLikFree Xs F ys) (Fin.snoc (fun _ => hk.kernel.boundLow) noiseLow) (Fin.snoc (fun _ => hk.kernel.boundHigh) noiseHigh)
      w.startsNoise with
    | error e => rfl
    | ok x =>
      simp only [bind, Except.bind, Except.map, Except.ok.injEq, Prod.mk.injEq, true_and]
      ring
  | some v =>
    simp only [Option.map]
    have : hkLogLikKnown (|a| * v) (|a| * s) Xs (unitSign a • F) (unitSign a • ys) = hkLogLikKnown v s Xs F ys := by
      funext p
      unfold hkLogLikKnown
      have h2 : (|a| * v = 0) = (v = 0) := by simp [ha]
      rw [mul_div_mul_left _ _ habs.ne', h2]
      exact negLogLik_units _ F ys (v = 0) hu hu
    rw [this]
    cases searchHyper hk.optimizer w.mini (hkLogLikKnown v s Xs F ys) (fun _ => hk.kernel.boundLow) (fun _ => hk.kernel.boundHigh) w.starts with
    | error e => rfl
    | ok x => rfl

theorem hk_train_units {a : ℝ} (ha : a ≠ 0) (b : ℝ) (hk : HKObj d q) (w : MFWorld d) (Xh : Samples nh d) (yh : Fin nh → ℝ) (Xl : Samples nl d) (yl : Fin nl → ℝ) :
    (hk.units a).train w Xh (fun i => a * yh i + b) Xl (fun i => a * yl i + b) = (hk.train w Xh yh Xl yl).map (fun r => (r.1.units a, r.2.units a b)) := by
  have habs := abs_pos.mpr ha
  have hu := unitSign_sq ha
  unfold HKObj.train
  rw [show (hk.units a).lf = hk.lf.units a from rfl, show (hk.units a).box = hk.box from rfl, gp_train_units ha]
  cases hk.lf.train w.lf Xl yl with
  | error e => rfl
  | ok r =>
    obtain ⟨lf, lfFit⟩ := r
    simp only [bind, Except.bind, Except.map]
    cases normalizeInput hk.box Xh with
    | error e => rfl
    | ok Xhs =>
      simp only
      rw [normalizeOutput_units ha, std_affine]
      cases hy : normalizeOutput yh with
      | error e => rfl
      | ok yhs =>
        simp only [Except.map]
        have hn : 0 < nh := by
          rcases Nat.eq_zero_or_pos nh with h | h
          · subst h; exact absurd (by simp [std]) (normalizeOutput_ok hy).1
          · exact h
        rw [gp_predict_units ha, mean_affine hn]
        cases predictMean lf lfFit Xh with
        | error e => rfl
        | ok f =>
          simp only [Except.map]
          rw [scaleCol_units, hk_fitHyper_units ha]
          cases hk.fitHyper w.hf (std yh) Xhs (scaleCol f (mean yh) (std yh)) yhs with
          | error e => rfl
          | ok r =>
            obtain ⟨theta, noise⟩ := r
            simp only [Except.map]
            rw [mul_div_mul_left _ _ habs.ne', glsFit_units _ _ _ hu hu, show (hk.units a).kernel = hk.kernel from rfl]
            cases glsFit (rbfMatrix (hk.kernel.setParams theta).param Xhs Xhs + ((noise / std yh) ^ 2) • (1 : Matrix (Fin nh) (Fin nh) ℝ))
              (scaleCol f (mean yh) (std yh)) yhs with
            | error e => rfl
            | ok g => rfl

theorem hk_predict_units {a : ℝ} (ha : a ≠ 0) (b : ℝ) (hk : HKObj d q) (t : HKFit nh nl d q) (Xnew : Samples m d) :
    (hk.units a).predict (t.units a b) Xnew = (hk.predict t Xnew).map (fun μ j => a * μ j + b) := by
  unfold HKObj.predict HKObj.predictLf
  rw [show (hk.units a).box = hk.box from rfl]
  cases normalizeInput hk.box Xnew with
  | error e => rfl
  | ok xs =>
    simp only [bind, Except.bind]
    rw [show (hk.units a).lf = hk.lf.units a from rfl, show (t.units a b).lfFit = t.lfFit.units a b from rfl, gp_predict_units ha]
    cases predictMean hk.lf t.lfFit Xnew with
    | error e => rfl
    | ok fl =>
      simp only [Except.map, Except.ok.injEq]
      funext j
      simp only [HKFit.units, scaleCol_units, GLS.units, unitSign_sq ha, one_smul, Matrix.smul_mulVec, Matrix.mulVec_smul, ← smul_add, Pi.smul_apply, smul_eq_mul]
      rw [show (hk.units a).kernel = hk.kernel from rfl]
      generalize (_ + _ : Fin m → ℝ) j = v
      linear_combination (v * t.yhStd) * unitSign_mul ha

theorem epistemic_units (a v s noise : ℝ) :
    Real.sqrt ((Real.sqrt (max v 0) * (|a| * s)) ^ 2 + (|a| * noise) ^ 2) = |a| * Real.sqrt ((Real.sqrt (max v 0) * s) ^ 2 + noise ^ 2) := by
  rw [show (Real.sqrt (max v 0) * (|a| * s)) ^ 2 + (|a| * noise) ^ 2 = |a| ^ 2 * ((Real.sqrt (max v 0) * s) ^ 2 + noise ^ 2) by ring,
    Real.sqrt_mul (sq_nonneg _), Real.sqrt_sq (abs_nonneg a)]

theorem hk_predictStd_units {a : ℝ} (ha : a ≠ 0) (b : ℝ) (hk : HKObj d q) (t : HKFit nh nl d q) (Xnew : Samples m d) :
    (hk.units a).predictStd (t.units a b) Xnew = (hk.predictStd t Xnew).map (fun r => (fun j => a * r.1 j + b, fun j => |a| * r.2 j)) := by
  unfold HKObj.predictStd
  rw [hk_predict_units ha]
  cases hk.predict t Xnew with
  | error e => rfl
  | ok μ =>
    simp only [bind, Except.bind, Except.map]
    unfold HKObj.predictLf
    rw [show (hk.units a).box = hk.box from rfl]
    cases normalizeInput hk.box Xnew with
    | error e => rfl
    | ok xs =>
      simp only
      rw [show (hk.units a).lf = hk.lf.units a from rfl, show (t.units a b).lfFit = t.lfFit.units a b from rfl, gp_predict_units ha]
      cases predictMean hk.lf t.lfFit Xnew with
      | error e => rfl
      | ok fl =>
        simp only [Except.map]
        rw [show (t.units a b).yhMean = a * t.yhMean + b from rfl, show (t.units a b).yhStd = |a| * t.yhStd from rfl, scaleCol_units,
          show (t.units a b).gls = t.gls.units (unitSign a) (unitSign a) from rfl, show (t.units a b).F = unitSign a • t.F from rfl,
          show (hk.units a).kernel = hk.kernel from rfl, show (t.units a b).Xhs = t.Xhs from rfl, mseOf_units _ _ _ _ _ (unitSign_sq ha)]
        cases mseOf t.gls t.F (hk.kernel.getKernelMatrix t.Xhs xs) (scaleCol fl t.yhMean t.yhStd) with
        | error e => rfl
        | ok mse =>
          simp only [HKFit.units, Except.ok.injEq, Prod.mk.injEq, true_and]
          funext j
          exact epistemic_units a (mse j) t.yhStd t.noise

/-! ### Scaled Kriging -/

/-- See `GPObj.units`. -/
noncomputable def SKObj.units (a : ℝ) (sk : SKObj d ql qd) : SKObj d ql qd := { sk with lf := sk.lf.units a, disc := sk.disc.units a }

/-- See `GPFit.units`; the discrepancy of `a y + b` is `a` times the discrepancy plus `b (1 - rho)`. -/
noncomputable def SKFit.units (a b rho : ℝ) (t : SKFit nh nl d ql qd) : SKFit nh nl d ql qd :=
  { t with yh := fun i => a * t.yh i + b, lfFit := t.lfFit.units a b, discFit := t.discFit.units a (b * (1 - rho)) }

theorem getDisc_units (a b rho : ℝ) (f y : Fin nh → ℝ) :
    getDisc rho (fun i => a * f i + b) (fun i => a * y i + b) = fun i => a * getDisc rho f y i + b * (1 - rho) := by
  funext i
  simp only [getDisc]
  ring

theorem sk_train_units {a : ℝ} (ha : a ≠ 0) (b : ℝ) (sk : SKObj d ql qd) (hopt : sk.rhoOptimize = false) (w : SKWorld d)
    (Xh : Samples nh d) (yh : Fin nh → ℝ) (Xl : Samples nl d) (yl : Fin nl → ℝ) :
    (sk.units a).train w Xh (fun i => a * yh i + b) Xl (fun i => a * yl i + b) = (sk.train w Xh yh Xl yl).map (fun r => (r.1.units a, r.2.units a b sk.rho)) := by
  unfold SKObj.train
  rw [show (sk.units a).lf = sk.lf.units a from rfl, gp_train_units ha]
  cases sk.lf.train w.lf Xl yl with
  | error e => rfl
  | ok r =>
    obtain ⟨lf, lfFit⟩ := r
    simp only [bind, Except.bind, Except.map]
    rw [gp_predict_units ha]
    cases predictMean lf lfFit Xh with
    | error e => rfl
    | ok f =>
      simp only [Except.map]
      rw [show (sk.units a).rhoOptimize = false from hopt, hopt]
      simp only [Bool.false_eq_true, if_false]
      rw [show (sk.units a).rho = sk.rho from rfl, show (sk.units a).disc = sk.disc.units a from rfl, getDisc_units, gp_train_units ha]
      cases sk.disc.train w.disc Xh (getDisc sk.rho f yh) with
      | error e => rfl
      | ok r => rfl

/-- `predict(X, return_std=True)`. -/
theorem sk_predictStd_units {a : ℝ} (ha : a ≠ 0) (b : ℝ) (sk : SKObj d ql qd) (t : SKFit nh nl d ql qd) (Xnew : Samples m d) :
    (sk.units a).predictStd (t.units a b sk.rho) Xnew = (sk.predictStd t Xnew).map (fun r => (fun j => a * r.1 j + b, fun j => |a| * r.2 j)) := by
  unfold SKObj.predictStd
  rw [show (sk.units a).lf = sk.lf.units a from rfl, show (sk.units a).disc = sk.disc.units a from rfl, show (t.units a b sk.rho).lfFit = t.lfFit.units a b from rfl,
    show (t.units a b sk.rho).discFit = t.discFit.units a (b * (1 - sk.rho)) from rfl, gp_predictStd_units ha, gp_predictStd_units ha]
  cases GP.predictStd sk.lf t.lfFit Xnew with
  | error e => rfl
  | ok r =>
    simp only [bind, Except.bind, Except.map]
    cases GP.predictStd sk.disc t.discFit Xnew with
    | error e => rfl
    | ok r' =>
      simp only [Except.ok.injEq, Prod.mk.injEq]
      constructor
      · funext j
        simp only [SKObj.units]
        ring
      · funext j
        simp only [SKObj.units]
        rw [show sk.rho ^ 2 * (|a| * r.2 j) ^ 2 + (|a| * r'.2 j) ^ 2 = |a| ^ 2 * (sk.rho ^ 2 * r.2 j ^ 2 + r'.2 j ^ 2) by ring,
          Real.sqrt_mul (sq_nonneg _), Real.sqrt_sq (abs_nonneg a)]

/-- `predict(X)`: the shift comes back as `b + rho (1 - rho) b`. -/
theorem sk_predict_units {a : ℝ} (ha : a ≠ 0) (b : ℝ) (sk : SKObj d ql qd) (t : SKFit nh nl d ql qd) (Xnew : Samples m d) :
    (sk.units a).predict (t.units a b sk.rho) Xnew = (sk.predict t Xnew).map (fun μ j => a * μ j + (b + sk.rho * (1 - sk.rho) * b)) := by
  unfold SKObj.predict
  rw [show (sk.units a).lf = sk.lf.units a from rfl, show (sk.units a).disc = sk.disc.units a from rfl, show (t.units a b sk.rho).lfFit = t.lfFit.units a b from rfl,
    show (t.units a b sk.rho).discFit = t.discFit.units a (b * (1 - sk.rho)) from rfl, gp_predict_units ha, gp_predict_units ha]
  cases predictMean sk.disc t.discFit Xnew with
  | error e => rfl
  | ok r =>
    simp only [bind, Except.bind, Except.map]
    cases predictMean sk.lf t.lfFit Xnew with
    | error e => rfl
    | ok r' =>
      simp only [Except.ok.injEq]
      funext j
      simp only [SKObj.units]
      ring

/-! ### Co-Kriging -/

/-- See `GLS.units`. -/
noncomputable def RawFit.units (c : ℝ) (t : RawFit n d q) : RawFit n d q := { t with y := c • t.y, gls := t.gls.units 1 c }

theorem raw_train_units {c : ℝ} (hc : c * c = 1) (gp : RawGP d q) (w : World d) (X : Samples n d) (y : Fin n → ℝ) :
    gp.train w X (c • y) = (gp.train w X y).map (fun r => (r.1, r.2.units c)) := by
  have hf : gp.fitHyper w X (c • y) = gp.fitHyper w X y := by
    unfold RawGP.fitHyper
    have h : ∀ (K : Matrix (Fin n) (Fin n) ℝ) (z : Prop), negLogLik K (regrMatrix gp.regr X) (c • y) z = negLogLik K (regrMatrix gp.regr X) y z := by
      intro K z
      have := negLogLik_units K (regrMatrix gp.regr X) y z (one_mul 1) hc
      rwa [one_smul] at this
    simp only [h]
  unfold RawGP.train
  rw [hf]
  cases gp.fitHyper w X y with
  | error e => rfl
  | ok r =>
    obtain ⟨theta, noise⟩ := r
    simp only [bind, Except.bind]
    have := glsFit_units (covTrain (gp.kernel.setParams theta).param X noise) (regrMatrix gp.regr X) y (one_mul 1) hc
    rw [one_smul] at this
    rw [this]
    cases glsFit (covTrain (gp.kernel.setParams theta).param X noise) (regrMatrix gp.regr X) y with
    | error e => rfl
    | ok g => rfl

theorem raw_predict_units (c : ℝ) (gp : RawGP d q) (t : RawFit n d q) (Xnew : Samples m d) : gp.predict (t.units c) Xnew = c • gp.predict t Xnew := by
  unfold RawGP.predict
  simp only [RawFit.units, GLS.units, mul_one, Matrix.mulVec_smul, smul_add]

theorem raw_predictStd_units (c : ℝ) (gp : RawGP d q) (t : RawFit n d q) (Xnew : Samples m d) :
    gp.predictStd (t.units c) Xnew = (gp.predictStd t Xnew).map (fun r => (c • r.1, r.2)) := by
  unfold RawGP.predictStd
  rw [raw_predict_units]
  have := mseOf_units t.gls t.F (gp.kernel.getKernelMatrix t.X Xnew) (regrMatrix gp.regr Xnew) c (one_mul 1)
  rw [one_smul, one_smul] at this
  rw [show (t.units c).gls = t.gls.units 1 c from rfl, show (t.units c).F = t.F from rfl, show (t.units c).X = t.X from rfl, this]
  cases mseOf t.gls t.F (gp.kernel.getKernelMatrix t.X Xnew) (regrMatrix gp.regr Xnew) with
  | error e => rfl
  | ok mse => rfl

/-- See `GLS.units`. -/
noncomputable def DiffFit.units (c : ℝ) (g : DiffFit n) : DiffFit n := { g with mu := c * g.mu, gamma := c • g.gamma }

theorem npDiv_smul (c x y : ℝ) : npDiv (c * x) y = (npDiv x y).map (c * ·) := by
  unfold npDiv
  split
  · rfl
  · simp only [Except.map, Except.ok.injEq]; ring

theorem diffFit_units {c : ℝ} (hc : c * c = 1) (K : Matrix (Fin n) (Fin n) ℝ) (v : Fin n → ℝ) : diffFit K (c • v) = (diffFit K v).map (DiffFit.units c) := by
  unfold diffFit
  cases cholesky K with
  | error e => rfl
  | ok L =>
    simp only [bind, Except.bind]
    rw [cholSolveV_smul]
    cases cholSolveV L v with
    | error e => rfl
    | ok alpha =>
      simp only [Except.map]
      cases cholSolveV L (fun _ => 1) with
      | error e => rfl
      | ok beta =>
        simp only
        rw [dotProduct_smul, smul_eq_mul, npDiv_smul]
        cases npDiv ((fun _ => 1) ⬝ᵥ alpha) ((fun _ => 1) ⬝ᵥ beta) with
        | error e => rfl
        | ok mu =>
          simp only [Except.map]
          have h1 : (fun i => (c • v) i - c * mu) = c • fun i => v i - mu := by
            funext i; simp only [Pi.smul_apply, smul_eq_mul]; ring
          rw [h1, cholSolveV_smul]
          cases cholSolveV L (fun i => v i - mu) with
          | error e => rfl
          | ok gamma =>
            simp only [Except.map]
            rw [dotProduct_smul, smul_dotProduct, smul_smul, hc, one_smul]
            cases npDiv ((fun i => v i - mu) ⬝ᵥ gamma) n with
            | error e => rfl
            | ok s => rfl

theorem diff_smul (c rho : ℝ) (yhs p : Fin n → ℝ) : (fun i => (c • yhs) i - rho * (c • p) i) = c • fun i => yhs i - rho * p i := by
  funext i; simp only [Pi.smul_apply, smul_eq_mul]; ring

theorem ckNegLogLik_units {c : ℝ} (hc : c * c = 1) (Xhs : Samples n d) (yhs p : Fin n → ℝ) (rho : ℝ) (theta : Fin d → ℝ) (s : ℝ) (z : Prop) :
    ckNegLogLik Xhs (c • yhs) (c • p) rho theta s z = ckNegLogLik Xhs yhs p rho theta s z := by
  unfold ckNegLogLik
  rw [diff_smul, diffFit_units hc]
  cases diffFit (covTrain (pow10 theta) Xhs s) (fun i => yhs i - rho * p i) with
  | error e => rfl
  | ok g => rfl

/-- See `GPObj.units`; a noise level of the low-fidelity model object is in units of the spread of the responses already. -/
noncomputable def CKObj.units (a : ℝ) (ck : CKObj d q) : CKObj d q := { ck with noise := ck.noise.map (|a| * ·) }

/-- See `GPFit.units`. -/
noncomputable def CKFit.units (a b : ℝ) (t : CKFit nh nl d q) : CKFit nh nl d q :=
  { t with yh := fun i => a * t.yh i + b, yl := fun i => a * t.yl i + b, yhMean := a * t.yhMean + b, yhStd := |a| * t.yhStd, lfFit := t.lfFit.units (unitSign a),
           y := unitSign a • t.y, mu := unitSign a * t.mu }

theorem ck_fitHyper_units {c : ℝ} (hc : c * c = 1) (ck : CKObj d q) (w : CKWorld d) {noise : Option ℝ} (hno : ∀ s, noise = some s → s = 0) (s s' : ℝ) (Xhs : Samples n d)
    (yhs p : Fin n → ℝ) : ck.fitHyper w noise s' Xhs (c • yhs) (c • p) = ck.fitHyper w noise s Xhs yhs p := by
  unfold CKObj.fitHyper
  cases noise with
  | none => simp only [ckNegLogLik_units hc]
  | some v =>
    have := hno v rfl
    subst this
    simp only [ckNegLogLik_units hc, zero_div]

theorem append_smul (c : ℝ) (u : Fin nl → ℝ) (v : Fin nh → ℝ) : Fin.append (c • u) (c • v) = c • Fin.append u v := by
  funext i
  refine Fin.addCases (fun i => ?_) (fun i => ?_) i <;> simp

theorem ck_train_units {a : ℝ} (ha : a ≠ 0) (b : ℝ) (ck : CKObj d q) (hno : ∀ s, ck.noise = some s → s = 0) (w : CKWorld d)
    (Xh : Samples nh d) (yh : Fin nh → ℝ) (Xl : Samples nl d) (yl : Fin nl → ℝ) :
    (ck.units a).train w Xh (fun i => a * yh i + b) Xl (fun i => a * yl i + b) = (ck.train w Xh yh Xl yl).map (fun r => (r.1, r.2.units a b)) := by
  have habs := abs_pos.mpr ha
  have hu := unitSign_sq ha
  unfold CKObj.train
  rw [show (ck.units a).box = ck.box from rfl]
  cases normalizeInput ck.box Xh with
  | error e => rfl
  | ok Xhs =>
    simp only [bind, Except.bind]
    cases normalizeInput ck.box Xl with
    | error e => rfl
    | ok Xls =>
      simp only
      rw [normalizeOutput_units ha]
      cases hy : normalizeOutput yh with
      | error e => rfl
      | ok yhs =>
        simp only [Except.map]
        have hn : 0 < nh := by
          rcases Nat.eq_zero_or_pos nh with h | h
          · subst h; exact absurd (by simp [std]) (normalizeOutput_ok hy).1
          · exact h
        rw [std_affine, mean_affine hn]
        have h1 : (fun i => (a * yl i + b - (a * mean yh + b)) / (|a| * std yh)) = unitSign a • fun i => (yl i - mean yh) / std yh := by
          funext i
          simp only [Pi.smul_apply, smul_eq_mul, unitSign]
          rw [div_mul_div_comm]; congr 1; ring
        have h2 : (ck.units a).noise.map (· / (|a| * std yh)) = ck.noise.map (· / std yh) := by
          unfold CKObj.units
          cases ck.noise with
          | none => rfl
          | some s => simp only [Option.map, mul_div_mul_left _ _ habs.ne']
        rw [h1, h2, show (ck.units a).lf = ck.lf from rfl, raw_train_units hu]
        cases (match ck.noise.map (· / std yh) with | some s => { ck.lf with noise := some s } | none => ck.lf : RawGP d q).train w.lf Xls
            (fun i => (yl i - mean yh) / std yh) with
        | error e => rfl
        | ok r =>
          obtain ⟨lf, lfFit⟩ := r
          simp only [Except.map]
          rw [raw_predict_units]
          have hno' : ∀ s, ck.noise.map (· / std yh) = some s → s = 0 := by
            intro s hs
            cases hn' : ck.noise with
            | none => rw [hn'] at hs; cases hs
            | some v =>
              rw [hn'] at hs
              simp only [Option.map, Option.some.injEq] at hs
              rw [← hs, hno v hn', zero_div]
          have h3 : (ck.units a).fitHyper w (ck.noise.map (· / std yh)) (|a| * std yh) Xhs (unitSign a • yhs) (unitSign a • lf.predict lfFit Xhs) =
              ck.fitHyper w (ck.noise.map (· / std yh)) (std yh) Xhs yhs (lf.predict lfFit Xhs) :=
            ck_fitHyper_units hu ck w hno' _ _ _ _ _
          rw [h3]
          cases ck.fitHyper w (ck.noise.map (· / std yh)) (std yh) Xhs yhs (lf.predict lfFit Xhs) with
          | error e => rfl
          | ok r =>
            obtain ⟨rho, theta, noise'⟩ := r
            simp only
            rw [diff_smul, diffFit_units hu, show (ck.units a).kernel = ck.kernel from rfl]
            cases diffFit (covTrain (ck.kernel.setParams theta).param Xhs noise') (fun i => yhs i - rho * lf.predict lfFit Xhs i) with
            | error e => rfl
            | ok g =>
              simp only [Except.map]
              rw [append_smul, show (lfFit.units (unitSign a)).K = lfFit.K from rfl, show (lfFit.units (unitSign a)).gls.sigma2 = lfFit.gls.sigma2 from rfl,
                show (g.units (unitSign a)).sigma2 = g.sigma2 from rfl]
              cases cholesky (flat (ckCov lfFit.K lf.kernel.param lfFit.gls.sigma2 rho g.sigma2 (covTrain (ck.kernel.setParams theta).param Xhs noise') Xls Xhs) +
                  jitter • (1 : Matrix (Fin (nl + nh)) (Fin (nl + nh)) ℝ)) with
              | error e => rfl
              | ok LC =>
                simp only
                rw [cholSolveV_smul]
                cases cholSolveV LC (Fin.append (fun i => (yl i - mean yh) / std yh) yhs) with
                | error e => rfl
                | ok u =>
                  simp only [Except.map]
                  cases cholSolveV LC (fun _ => 1) with
                  | error e => rfl
                  | ok v =>
                    simp only
                    rw [dotProduct_smul, smul_eq_mul, npDiv_smul]
                    cases npDiv ((fun _ => 1) ⬝ᵥ u) ((fun _ => 1) ⬝ᵥ v) with
                    | error e => rfl
                    | ok mu => rfl

theorem ck_predict_units {a : ℝ} (ha : a ≠ 0) (b : ℝ) (ck : CKObj d q) (t : CKFit nh nl d q) (Xnew : Samples m d) :
    ck.predict (t.units a b) Xnew = (ck.predict t Xnew).map (fun μ j => a * μ j + b) := by
  unfold CKObj.predict
  cases normalizeInput ck.box Xnew with
  | error e => rfl
  | ok xs =>
    simp only [bind, Except.bind]
    have h1 : (fun i => (t.units a b).y i - (t.units a b).mu) = unitSign a • fun i => t.y i - t.mu := by
      funext i; simp only [CKFit.units, Pi.smul_apply, smul_eq_mul]; ring
    rw [h1, cholSolveV_smul, show (t.units a b).LC = t.LC from rfl]
    cases cholSolveV t.LC (fun i => t.y i - t.mu) with
    | error e => rfl
    | ok z =>
      simp only [Except.map, Except.ok.injEq]
      funext j
      rw [show crossCov ck (t.units a b) xs = crossCov ck t xs from rfl, Matrix.mulVec_smul, Pi.smul_apply, smul_eq_mul]
      simp only [CKFit.units]
      linear_combination ((t.mu + ((crossCov ck t xs)ᵀ *ᵥ z) j) * t.yhStd) * unitSign_mul ha

theorem ck_predictStd_units {a : ℝ} (ha : a ≠ 0) (b : ℝ) (ck : CKObj d q) (t : CKFit nh nl d q) (Xnew : Samples m d) :
    ck.predictStd (t.units a b) Xnew = (ck.predictStd t Xnew).map (fun r => (r.1.units a, fun j => a * r.2.1 j + b, fun j => |a| * r.2.2 j)) := by
  unfold CKObj.predictStd
  rw [ck_predict_units ha]
  cases ck.predict t Xnew with
  | error e => rfl
  | ok μ =>
    simp only [bind, Except.bind, Except.map]
    cases normalizeInput ck.box Xnew with
    | error e => rfl
    | ok xs =>
      simp only
      rw [show crossCov ck (t.units a b) xs = crossCov ck t xs from rfl, show (t.units a b).LC = t.LC from rfl]
      cases cholSolve t.LC (crossCov ck t xs) with
      | error e => rfl
      | ok z =>
        simp only
        cases hno : ck.noise with
        | none => rfl
        | some s =>
          simp only [Except.ok.injEq, Prod.mk.injEq, true_and]
          constructor
          · simp only [CKObj.units, CKFit.units, Option.map]
            congr 2
            ring
          · funext j
            rw [show (t.units a b).yhStd = |a| * t.yhStd from rfl, show s * (|a| * t.yhStd) = |a| * (s * t.yhStd) by ring]
            exact epistemic_units a _ t.yhStd (s * t.yhStd)

theorem ck_predictLf_units {a : ℝ} (ha : a ≠ 0) (b : ℝ) (ck : CKObj d q) (t : CKFit nh nl d q) (Xnew : Samples m d) :
    ck.predictLfStd (t.units a b) Xnew = (ck.predictLfStd t Xnew).map (fun r => (fun j => a * r.1 j + b, fun j => |a| * r.2 j)) := by
  unfold CKObj.predictLfStd
  cases normalizeInput ck.box Xnew with
  | error e => rfl
  | ok xs =>
    simp only [bind, Except.bind]
    rw [show (t.units a b).lfFit = t.lfFit.units (unitSign a) from rfl, raw_predictStd_units]
    cases ck.lf.predictStd t.lfFit xs with
    | error e => rfl
    | ok r =>
      simp only [Except.map, Except.ok.injEq, Prod.mk.injEq, CKFit.units]
      constructor
      · funext j
        simp only [Pi.smul_apply, smul_eq_mul]
        linear_combination (r.1 j * t.yhStd) * unitSign_mul ha
      · funext j; ring

end Mfpml.GP
