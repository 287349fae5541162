import Verif.Props.FarAway
import Verif.Props.Units

/-!
# C128: units of the low-fidelity responses
-/

open scoped BigOperators Matrix

namespace Mfpml.Props

open Mfpml Mfpml.GP Mfpml.Spec
open Mfpml.EA (Box)

variable {n nh nl d q : ℕ}

/-! ### A trend column in other units -/

theorem cholesky_not_posDef {A : Matrix (Fin n) (Fin n) ℝ} (h : ¬A.PosDef) : cholesky A = .error .linAlgError := by
  cases hc : cholesky A with
  | ok L => exact absurd (cholesky_ok hc).posDef h
  | error e =>
    unfold cholesky at hc
    split at hc
    · simp at hc
    · simpa using hc.symm

theorem glsFit_not_posDef {K : Matrix (Fin n) (Fin n) ℝ} {F : Matrix (Fin n) (Fin q) ℝ} (y : Fin n → ℝ) (h : ¬(K.PosDef ∧ Function.Injective F.mulVec)) :
    glsFit K F y = .error .linAlgError := by
  unfold glsFit
  by_cases hK : K.PosDef
  · obtain ⟨L, hL, hc⟩ := cholesky_of_posDef hK
    have hM : ¬(Fᵀ * (K⁻¹ * F)).PosDef := fun hM => h ⟨hK, mulVec_injective_of_posDef_conj hM⟩
    rw [hL]
    simp only [bind, Except.bind, cholSolveV_eq hc, cholSolve_eq hc, cholesky_not_posDef hM]
  · rw [cholesky_not_posDef hK]; rfl

theorem conj_scaleF (a : ℝ) (P : Matrix (Fin n) (Fin n) ℝ) (F : Matrix (Fin n) (Fin q) ℝ) : (a • F)ᵀ * (P * (a • F)) = (a * a) • (Fᵀ * (P * F)) := by
  rw [Matrix.transpose_smul, Matrix.smul_mul, Matrix.mul_smul, Matrix.mul_smul, smul_smul]

theorem inv_scaleF {a : ℝ} (ha : a ≠ 0) {P : Matrix (Fin n) (Fin n) ℝ} {F : Matrix (Fin n) (Fin q) ℝ} (h : IsUnit (Fᵀ * (P * F)).det) :
    ((a • F)ᵀ * (P * (a • F)))⁻¹ = (a * a)⁻¹ • (Fᵀ * (P * F))⁻¹ := by
  apply Matrix.inv_eq_right_inv
  rw [conj_scaleF, Matrix.smul_mul, Matrix.mul_smul, smul_smul, Matrix.mul_nonsing_inv _ h, mul_inv_cancel₀ (mul_ne_zero ha ha), one_smul]

theorem mseCol_scaleF {a : ℝ} (ha : a ≠ 0) (σ2 : ℝ) {K : Matrix (Fin n) (Fin n) ℝ} {F : Matrix (Fin n) (Fin q) ℝ} (h : IsUnit (Fᵀ * (K⁻¹ * F)).det) (k : Fin n → ℝ) (f : Fin q → ℝ) :
    mseCol σ2 K (a • F) k (a • f) = mseCol σ2 K F k f := by
  unfold mseCol
  rw [inv_scaleF ha h, Matrix.transpose_smul, Matrix.smul_mulVec, ← smul_sub, Matrix.smul_mulVec, Matrix.mulVec_smul, smul_dotProduct, dotProduct_smul, dotProduct_smul]
  simp only [smul_eq_mul]
  field_simp

theorem glsFit_L {K : Matrix (Fin n) (Fin n) ℝ} {F : Matrix (Fin n) (Fin q) ℝ} {y : Fin n → ℝ} {g : GLS n q} (h : glsFit K F y = .ok g) : cholesky K = .ok g.L := by
  unfold glsFit at h
  obtain ⟨L, hL, h⟩ := Py.bind_ok.mp h
  obtain ⟨_, _, h⟩ := Py.bind_ok.mp h
  obtain ⟨_, _, h⟩ := Py.bind_ok.mp h
  obtain ⟨_, _, h⟩ := Py.bind_ok.mp h
  obtain ⟨_, _, h⟩ := Py.bind_ok.mp h
  obtain ⟨_, _, h⟩ := Py.bind_ok.mp h
  obtain ⟨_, _, h⟩ := Py.bind_ok.mp h
  rw [Except.ok.injEq] at h
  rw [hL, ← h]

theorem glsFit_scaleF {a : ℝ} (ha : a ≠ 0) (K : Matrix (Fin n) (Fin n) ℝ) (F : Matrix (Fin n) (Fin q) ℝ) (y : Fin n → ℝ) (hn : 0 < n) :
    (∃ e, glsFit K F y = .error e ∧ glsFit K (a • F) y = .error e) ∨
    ∃ g g', glsFit K F y = .ok g ∧ glsFit K (a • F) y = .ok g' ∧ IsGLS K F y g ∧ IsGLS K (a • F) y g' ∧
      g'.L = g.L ∧ g'.beta = a⁻¹ • g.beta ∧ g'.gamma = g.gamma ∧ g'.sigma2 = g.sigma2 := by
  have hi : Function.Injective (a • F).mulVec ↔ Function.Injective F.mulVec := by
    have hmul : ∀ v, (a • F) *ᵥ v = a • (F *ᵥ v) := fun v => Matrix.smul_mulVec a F v
    constructor
    · intro h u v huv; exact h (by rw [hmul, hmul, huv])
    · intro h u v huv
      rw [hmul, hmul] at huv
      exact h (smul_right_injective _ ha huv)
  by_cases h : K.PosDef ∧ Function.Injective F.mulVec
  · right
    obtain ⟨g, hg, hG⟩ := glsFit_succeeds y h.1 h.2 hn
    obtain ⟨g', hg', hG'⟩ := glsFit_succeeds y h.1 (hi.mpr h.2) hn
    refine ⟨g, g', hg, hg', hG, hG', ?_, ?_⟩
    · have := glsFit_L hg'
      rw [glsFit_L hg, Except.ok.injEq] at this
      exact this.symm
    · have hb : g'.beta = a⁻¹ • g.beta := by
        have hM : (((a • F)ᵀ * (K⁻¹ * (a • F)))⁻¹ : Matrix (Fin q) (Fin q) ℝ) = (a * a)⁻¹ • (Fᵀ * (K⁻¹ * F))⁻¹  := inv_scaleF ha hG.cholM.isUnitA
        rw [hG'.beta, hG.beta, hM, Matrix.transpose_smul, Matrix.smul_mulVec, Matrix.smul_mulVec, Matrix.mulVec_smul, smul_smul]
        congr 1
        field_simp
      have hr : (a • F) *ᵥ g'.beta = F *ᵥ g.beta := by
        rw [hb, Matrix.smul_mulVec, Matrix.mulVec_smul, smul_smul, mul_inv_cancel₀ ha, one_smul]
      have hγ : g'.gamma = g.gamma := by rw [hG'.gamma, hG.gamma, hr]
      exact ⟨hb, hγ, by rw [hG'.sigma2, hG.sigma2, hr, hγ]⟩
  · left
    exact ⟨_, glsFit_not_posDef y h, glsFit_not_posDef y (by rwa [hi])⟩

theorem negLogLik_scaleF {a : ℝ} (ha : a ≠ 0) (K : Matrix (Fin n) (Fin n) ℝ) (F : Matrix (Fin n) (Fin q) ℝ) (y : Fin n → ℝ) (hn : 0 < n) (z : Prop) :
    negLogLik K (a • F) y z = negLogLik K F y z := by
  unfold negLogLik
  rcases glsFit_scaleF ha K F y hn with ⟨e, h, h'⟩ | ⟨g, g', h, h', -, -, hL, -, -, hs⟩
  · rw [h, h']
  · rw [h, h']; simp only [bind, Except.bind, hL, hs]

theorem hk_fitHyper_scaleF {a : ℝ} (ha : a ≠ 0) (hk : HKObj d q) (w : World d) (s : ℝ) (Xs : Samples n d) (F : Matrix (Fin n) (Fin 1) ℝ) (ys : Fin n → ℝ) (hn : 0 < n)
    (lf : GPObj d q) : ({ hk with lf := lf } : HKObj d q).fitHyper w s Xs (a • F) ys = hk.fitHyper w s Xs F ys := by
  unfold HKObj.fitHyper
  have h1 : hkLogLikFree Xs (a • F) ys = hkLogLikFree Xs F ys := funext fun p => negLogLik_scaleF ha _ F ys hn False
  have h2 : ∀ v, hkLogLikKnown v s Xs (a • F) ys = hkLogLikKnown v s Xs F ys := fun v => funext fun p => negLogLik_scaleF ha _ F ys hn _
  cases hk.noise with
  | none => simp only [h1]
  | some v => simp only [h2]

theorem scaleCol_about {m : ℕ} (f : Fin m → ℝ) (a μ s : ℝ) : scaleCol (fun i => a * f i + (μ - a * μ)) μ s = a • scaleCol f μ s := by
  funext i j
  simp only [scaleCol, Matrix.smul_apply, smul_eq_mul]
  ring

/-! ### The property -/

/-- **C128 (hierarchical Kriging), responses rescaled about the mean of the high-fidelity responses.** Responses `yl` of the low-fidelity model are replaced by `c + a (yl - c)`, where `c` is the mean of the high-fidelity
responses, `a` is any nonzero number and a known low-fidelity noise is multiplied by `|a|`: training ends with the same error in both cases, or succeeds in both and all predictions for the high fidelity are the same,
whatever the batch. -/
theorem C128_hk_partial {a : ℝ} (ha : a ≠ 0) (hk : HKObj d q) (w : MFWorld d) (Xh : Samples nh d) (yh : Fin nh → ℝ) (Xl : Samples nl d) (yl : Fin nl → ℝ) :
    let hk₂ : HKObj d q := { hk with lf := { hk.lf with noise := hk.lf.noise.map (|a| * ·) } }
    let yl₂ : Fin nl → ℝ := fun i => mean yh + a * (yl i - mean yh)
    (∃ e, hk.train w Xh yh Xl yl = .error e ∧ hk₂.train w Xh yh Xl yl₂ = .error e) ∨
    ∃ hk' t hk₂' t₂, hk.train w Xh yh Xl yl = .ok (hk', t) ∧ hk₂.train w Xh yh Xl yl₂ = .ok (hk₂', t₂) ∧
      ∀ (m : ℕ) (X : Samples m d), hk₂'.predict t₂ X = hk'.predict t X ∧ hk₂'.predictStd t₂ X = hk'.predictStd t X := by
  intro hk₂ yl₂
  have hyl : yl₂ = fun i => a * yl i + (mean yh - a * mean yh) := by funext i; simp only [yl₂]; ring
  rw [hyl]
  unfold HKObj.train
  rw [show hk₂.lf = hk.lf.units a from rfl, show hk₂.box = hk.box from rfl, show hk₂.kernel = hk.kernel from rfl, gp_train_units ha]
  cases hlf : hk.lf.train w.lf Xl yl with
  | error e => exact .inl ⟨e, rfl, rfl⟩
  | ok r =>
    obtain ⟨lf, lfFit⟩ := r
    simp only [bind, Except.bind, Except.map]
    cases hx : normalizeInput hk.box Xh with
    | error e => exact .inl ⟨e, rfl, rfl⟩
    | ok Xhs =>
      simp only
      cases hy : normalizeOutput yh with
      | error e => exact .inl ⟨e, rfl, rfl⟩
      | ok yhs =>
        simp only
        have hn : 0 < nh := by
          rcases Nat.eq_zero_or_pos nh with h | h
          · subst h; exact absurd (by simp [std]) (normalizeOutput_ok hy).1
          · exact h
        rw [gp_predict_units ha]
        cases hp : predictMean lf lfFit Xh with
        | error e => exact .inl ⟨e, rfl, rfl⟩
        | ok f =>
          simp only [Except.map]
          rw [scaleCol_about, hk_fitHyper_scaleF ha hk _ _ _ _ _ hn]
          cases hh : hk.fitHyper w.hf (std yh) Xhs (scaleCol f (mean yh) (std yh)) yhs with
          | error e => exact .inl ⟨e, rfl, rfl⟩
          | ok r =>
            obtain ⟨theta, noise⟩ := r
            simp only
            rcases glsFit_scaleF ha (rbfMatrix (hk.kernel.setParams theta).param Xhs Xhs + ((noise / std yh) ^ 2) • (1 : Matrix (Fin nh) (Fin nh) ℝ)) (scaleCol f (mean yh) (std yh)) yhs hn with
              ⟨e, h, h'⟩ | ⟨g, g', h, h', hG, hG', hL, hb, hγ, hs⟩
            · rw [h, h']; exact .inl ⟨e, rfl, rfl⟩
            · rw [h, h']
              right
              refine ⟨_, _, _, _, rfl, rfl, fun m X => ?_⟩
              have hpr : ∀ (m : ℕ) (X : Samples m d), predictMean (lf.units a) (lfFit.units a (mean yh - a * mean yh)) X = (predictMean lf lfFit X).map fun f i => a * f i + (mean yh - a * mean yh) :=
                fun m X => gp_predict_units ha _ _ _ _
              have hmean : ∀ (m : ℕ) (X : Samples m d),
                  HKObj.predict { hk₂ with kernel := hk.kernel.setParams theta, noise := some noise, lf := lf.units a }
                    { lfFit := lfFit.units a (mean yh - a * mean yh), Xh := Xh, Xhs := Xhs, yh := yh, yhs := yhs, yhMean := mean yh, yhStd := std yh, F := a • scaleCol f (mean yh) (std yh),
                      K := rbfMatrix (hk.kernel.setParams theta).param Xhs Xhs + ((noise / std yh) ^ 2) • (1 : Matrix (Fin nh) (Fin nh) ℝ), gls := g', noise := noise } X =
                  HKObj.predict { hk with kernel := hk.kernel.setParams theta, noise := some noise, lf := lf }
                    { lfFit := lfFit, Xh := Xh, Xhs := Xhs, yh := yh, yhs := yhs, yhMean := mean yh, yhStd := std yh, F := scaleCol f (mean yh) (std yh),
                      K := rbfMatrix (hk.kernel.setParams theta).param Xhs Xhs + ((noise / std yh) ^ 2) • (1 : Matrix (Fin nh) (Fin nh) ℝ), gls := g, noise := noise } X := by
                intro m X
                unfold HKObj.predict HKObj.predictLf
                simp only [show hk₂.box = hk.box from rfl, hpr]
                cases normalizeInput hk.box X with
                | error e => rfl
                | ok xs =>
                  simp only [bind, Except.bind]
                  cases predictMean lf lfFit X with
                  | error e => rfl
                  | ok fl =>
                    simp only [Except.map]
                    rw [scaleCol_about, hb, hγ, Matrix.smul_mulVec, Matrix.mulVec_smul, smul_smul, mul_inv_cancel₀ ha, one_smul]
              refine ⟨hmean m X, ?_⟩
              unfold HKObj.predictStd HKObj.predictLf
              rw [hmean m X]
              simp only [hpr]
              refine bind_congr fun μ => ?_
              refine bind_congr fun xs => ?_
              cases predictMean lf lfFit X with
              | error e => rfl
              | ok fl =>
                simp only [Except.map, bind, Except.bind]
                rw [scaleCol_about, mseOf_col hG', mseOf_col hG, hs]
                simp only [show ∀ j, (a • scaleCol fl (mean yh) (std yh)) j = a • (scaleCol fl (mean yh) (std yh) j) from fun j => rfl, mseCol_scaleF ha _ hG.cholM.isUnitA]

/-! ### Responses in other units in general -/

/-- Two samples and their responses. -/
def exX2 : Samples 2 1 := fun i _ => ![1, 3] i

/-- For two samples the weighted mean is the mean. -/
theorem weightedMean_two {R : Matrix (Fin 2) (Fin 2) ℝ} (hd : R.det ≠ 0) (h00 : R 0 0 = R 1 1) (h01 : R 0 1 = R 1 0) (hlt : R 0 1 ≠ R 0 0) (y : Fin 2 → ℝ) :
    weightedMean R y = (y 0 + y 1) / 2 := by
  have hd' := hd
  rw [Matrix.det_fin_two] at hd'
  have e : ∀ v : Fin 2 → ℝ, (1 : Fin 2 → ℝ) ⬝ᵥ (R⁻¹ *ᵥ v) = R.det⁻¹ * ((R 0 0 - R 0 1) * (v 0 + v 1)) := by
    intro v
    rw [Matrix.inv_def, Ring.inverse_eq_inv', Matrix.adjugate_fin_two, Matrix.smul_mulVec, dotProduct_smul, smul_eq_mul]
    congr 1
    simp [dotProduct, Matrix.mulVec, Fin.sum_univ_two]
    rw [← h00, ← h01]
    ring
  have h1 : R 0 0 - R 0 1 ≠ 0 := sub_ne_zero.mpr hlt.symm
  unfold weightedMean
  rw [e, e]
  have := inv_ne_zero hd
  simp only [Pi.one_apply]
  field_simp
  norm_num

theorem trainCov_two (θ : Fin d → ℝ) (hθ : ∀ k, 0 ≤ θ k) (X : Samples 2 d) (v : ℝ) (hv : 0 ≤ v) :
    (trainCov θ X v) 0 0 = (trainCov θ X v) 1 1 ∧ (trainCov θ X v) 0 1 = (trainCov θ X v) 1 0 ∧ (trainCov θ X v) 0 1 < (trainCov θ X v) 0 0 := by
  have e : gaussCorr θ (X 0) (X 1) = gaussCorr θ (X 1) (X 0) := by
    unfold gaussCorr
    congr 2
    exact Finset.sum_congr rfl fun k _ => by ring
  have h1 : gaussCorr θ (X 0) (X 1) ≤ 1 := Real.exp_le_one_iff.mpr (neg_nonpos.mpr (Finset.sum_nonneg fun k _ => mul_nonneg (hθ k) (sq_nonneg _)))
  have hself : ∀ i, gaussCorr θ (X i) (X i) = 1 := fun i => by simp [gaussCorr]
  simp only [trainCov, Matrix.of_apply, hself, if_true, Fin.isValue, zero_ne_one, one_ne_zero, if_false]
  exact ⟨trivial, by rw [e], by norm_num; linarith⟩

/-- For two samples with opposite responses the sign of the estimated scale is that of the difference of the trend column. -/
theorem beta_two {K : Matrix (Fin 2) (Fin 2) ℝ} {F : Matrix (Fin 2) (Fin 1) ℝ} {y : Fin 2 → ℝ} {g : GLS 2 1} (h : IsGLS K F y g) (h00 : K 0 0 = K 1 1) (h01 : K 0 1 = K 1 0) (hlt : K 0 1 < K 0 0)
    {u : ℝ} (hu : 0 < u) (hy0 : y 0 = -u) (hy1 : y 1 = u) (hF : F 0 0 < F 1 0) : 0 < g.beta 0 := by
  have hc : 0 < K 0 0 - K 0 1 := sub_pos.mpr hlt
  have hKy : K *ᵥ y = (K 0 0 - K 0 1) • y := by
    funext i
    fin_cases i
    · simp [Matrix.mulVec, dotProduct, Fin.sum_univ_two, hy0, hy1]; ring
    · simp [Matrix.mulVec, dotProduct, Fin.sum_univ_two, hy0, hy1, ← h00, ← h01]; ring
  have hinv : K⁻¹ *ᵥ y = (K 0 0 - K 0 1)⁻¹ • y := by
    have h1 : y = K *ᵥ ((K 0 0 - K 0 1)⁻¹ • y) := by
      rw [Matrix.mulVec_smul, hKy, smul_smul, inv_mul_cancel₀ hc.ne', one_smul]
    conv_lhs => rw [h1]
    rw [Matrix.mulVec_mulVec, Matrix.nonsing_inv_mul _ h.cholK.isUnitA, Matrix.one_mulVec]
  have hM := h.cholM.posDef
  have hM0 : 0 < (Fᵀ * (K⁻¹ * F)) 0 0 := hM.diag_pos
  have hb : (Fᵀ * (K⁻¹ * F)) *ᵥ g.beta = Fᵀ *ᵥ (K⁻¹ *ᵥ y) := by
    rw [h.beta, Matrix.mulVec_mulVec, Matrix.mul_nonsing_inv _ h.cholM.isUnitA, Matrix.one_mulVec]
  have h0 := congrFun hb 0
  rw [hinv] at h0
  have e1 : ((Fᵀ * (K⁻¹ * F)) *ᵥ g.beta) 0 = (Fᵀ * (K⁻¹ * F)) 0 0 * g.beta 0 := by simp [Matrix.mulVec, dotProduct]
  have e2 : (Fᵀ *ᵥ ((K 0 0 - K 0 1)⁻¹ • y)) 0 = (K 0 0 - K 0 1)⁻¹ * (u * (F 1 0 - F 0 0)) := by
    simp [Matrix.mulVec, dotProduct, Fin.sum_univ_two, hy0, hy1]; ring
  rw [e1, e2] at h0
  have hpos : 0 < (K 0 0 - K 0 1)⁻¹ * (u * (F 1 0 - F 0 0)) := mul_pos (inv_pos.mpr hc) (mul_pos hu (sub_pos.mpr hF))
  rw [← h0] at hpos
  exact (pos_iff_pos_of_mul_pos hpos).mp hM0

/-- C128 is false in general: with responses `(0, 2)` of both fidelities at two samples, multiplying the low-fidelity responses by 2 changes the predictions for the high fidelity. -/
theorem C128_hk_counterexample : ∃ (hk₁ : HKObj 1 1) (t₁ : HKFit 2 2 1 1) (hk₂ : HKObj 1 1) (t₂ : HKFit 2 2 1 1) (X : Samples 3 1) (μ₁ μ₂ : Fin 3 → ℝ),
    exHKB.lf.noise = some 0 ∧ exHKB.train ⟨exWorld, exWorld⟩ exX2 ![0, 2] exX2 ![0, 2] = .ok (hk₁, t₁) ∧
    exHKB.train ⟨exWorld, exWorld⟩ exX2 ![0, 2] exX2 (fun i => 2 * ![0, 2] i) = .ok (hk₂, t₂) ∧
    hk₁.predict t₁ X = .ok μ₁ ∧ hk₂.predict t₂ X = .ok μ₂ ∧ μ₁ 2 ≠ μ₂ 2 := by
  have hm : mean (![0, 2] : Fin 2 → ℝ) = 1 := by unfold mean; rw [Fin.sum_univ_two]; simp
  have tr : ∀ a : ℝ, 0 < a → ∃ hk' t, exHKB.train ⟨exWorld, exWorld⟩ exX2 ![0, 2] exX2 (fun i => a * ![0, 2] i) = .ok (hk', t) ∧
      ∃ β, 0 < β ∧ ∃ s, FarAway (fun _ X => (hk'.predictStd t X).toOption) (fun j => max 2 2 ≤ j) (1 + β * (a - 1)) s := by
    intro a ha
    obtain ⟨lf', lfFit, hlf⟩ := exGP_trains (some 0) exX2 (fun i => a * ![0, 2] i) 0 1 (by simp [ha.ne'])
    have hf := C34_interpolation _ _ _ _ rfl _ _ hlf
    obtain ⟨hk', t, ht⟩ := C41_hk_train_succeeds exHKB ⟨exWorld, exWorld⟩ exX2 ![0, 2] exX2 _ (fun _ => by simp [exHKB, exHK, exGP]) (by simp [exHKB, exHK, RBF.mk']; norm_num)
      cornerMinimizer_good (fun run h => by simp [exHKB, exHK] at h) (by simp [exWorld]) (by simp [exWorld]) 0 1 (by simp) lf' lfFit hlf _ hf 0 (by rw [hm]; simp)
      (fun h => by simp [exHKB, exHK] at h)
    obtain ⟨hT, hX, hy, hbox, hlf', hno, hm', hsd, hys⟩ := hkTrained_of_train ht
    obtain ⟨hTl, _⟩ := trained_of_train hlf'
    refine ⟨hk', t, ht, t.gls.beta 0, ?_, ?_⟩
    · have hs : 0 < std (![0, 2] : Fin 2 → ℝ) := hsd ▸ hT.stdpos
      have hK : t.K = trainCov hk'.kernel.param t.Xhs ((t.noise / t.yhStd) ^ 2) := by rw [hT.K]; exact covTrain_gen _ (fun k => (hT.param k).le) _ _
      obtain ⟨h1, h2, h3⟩ := trainCov_two hk'.kernel.param (fun k => (hT.param k).le) t.Xhs ((t.noise / t.yhStd) ^ 2) (sq_nonneg _)
      rw [← hK] at h1 h2 h3
      have hl : (hk'.lf, t.lfFit) = (lf', lfFit) := by
        have : Except.ok (hk'.lf, t.lfFit) = (Except.ok (lf', lfFit) : Py _) := hlf'.symm.trans hlf
        exact Except.ok.inj this
      obtain ⟨e1, e2⟩ := Prod.mk.inj hl
      obtain ⟨f, hf', hF⟩ := hT.F
      have hfe : f = fun i => a * ![0, 2] i := by
        unfold HKObj.predictLf at hf'
        rw [e1, e2, hX, hf] at hf'
        exact (Except.ok.inj hf').symm
      refine beta_two hT.gls h1 h2 h3 (u := 1 / std (![0, 2] : Fin 2 → ℝ)) (by positivity) (by rw [hys, hm]; simp; ring) (by rw [hys, hm]; simp; norm_num) ?_
      rw [hF, hfe, hm', hsd, hm]
      simp only [scaleCol]
      apply div_lt_div_of_pos_right _ hs
      simp [ha]
    · have hfar := C127_hk_partial exHKB rfl _ _ _ _ _ hk' t ht
      obtain ⟨h1, h2, h3⟩ := trainCov_two hk'.lf.kernel.param (fun k => (hTl.param k).le) t.lfFit.Xs ((t.lfFit.noise / t.lfFit.yStd) ^ 2) (sq_nonneg _)
      have hK : t.lfFit.K = trainCov hk'.lf.kernel.param t.lfFit.Xs ((t.lfFit.noise / t.lfFit.yStd) ^ 2) := by rw [hTl.K]; exact covTrain_gen _ (fun k => (hTl.param k).le) _ _
      have hdet : (trainCov hk'.lf.kernel.param t.lfFit.Xs ((t.lfFit.noise / t.lfFit.yStd) ^ 2)).det ≠ 0 := by
        rw [← hK]; exact hTl.gls.posDef.det_pos.ne'
      rw [weightedMean_two hdet h1 h2 h3.ne, hm] at hfar
      have e : (a * (![0, 2] : Fin 2 → ℝ) 0 + a * (![0, 2] : Fin 2 → ℝ) 1) / 2 = a := by simp
      simp only [e] at hfar
      exact ⟨_, hfar⟩
  obtain ⟨hk₁, t₁, h₁, β₁, hb₁, s₁, f₁⟩ := tr 1 one_pos
  obtain ⟨hk₂, t₂, h₂, β₂, hb₂, s₂, f₂⟩ := tr 2 two_pos
  rw [sub_self, mul_zero, add_zero] at f₁
  obtain ⟨R₁, hR₁⟩ := f₁ (β₂ / 2) (half_pos hb₂)
  obtain ⟨R₂, hR₂⟩ := f₂ (β₂ / 2) (half_pos hb₂)
  have hfar : ∀ R ≤ max R₁ R₂, ∃ k, R < |(fun _ _ => |max R₁ R₂| + 1 : Samples 3 1) 2 k| := by
    intro R hR
    refine ⟨0, ?_⟩
    have h1 := le_abs_self (max R₁ R₂)
    have h2 := le_abs_self (|max R₁ R₂| + 1)
    exact lt_of_lt_of_le (by linarith) h2
  obtain ⟨μ₁, σ₁, hp₁, hd₁, -⟩ := hR₁ 3 (fun _ _ => |max R₁ R₂| + 1) 2 (by norm_num) (hfar R₁ (le_max_left _ _))
  obtain ⟨μ₂, σ₂, hp₂, hd₂, -⟩ := hR₂ 3 (fun _ _ => |max R₁ R₂| + 1) 2 (by norm_num) (hfar R₂ (le_max_right _ _))
  have hmean : ∀ {hk' : HKObj 1 1} {t : HKFit 2 2 1 1} {X : Samples 3 1} {μ σ : Fin 3 → ℝ}, (hk'.predictStd t X).toOption = some (μ, σ) → hk'.predict t X = .ok μ := by
    intro hk' t X μ σ h
    cases hh : hk'.predictStd t X with
    | error e => rw [hh] at h; simp [Except.toOption] at h
    | ok r =>
      rw [hh] at h
      have hr : r = (μ, σ) := Option.some.inj h
      subst hr
      unfold HKObj.predictStd at hh
      obtain ⟨fm, hfm, hh⟩ := Py.bind_ok.mp hh
      obtain ⟨_, _, hh⟩ := Py.bind_ok.mp hh
      obtain ⟨_, _, hh⟩ := Py.bind_ok.mp hh
      obtain ⟨_, _, hh⟩ := Py.bind_ok.mp hh
      rw [hfm, (Prod.mk.inj (Except.ok.inj hh)).1]
  refine ⟨hk₁, t₁, hk₂, t₂, _, μ₁, μ₂, rfl, ?_, h₂, hmean hp₁, hmean hp₂, ?_⟩
  · rw [← h₁]; congr 1; funext i; ring
  · intro he
    rw [he] at hd₁
    rw [abs_lt] at hd₁ hd₂
    have : (2 : ℝ) - 1 = 1 := by norm_num
    rw [this, mul_one] at hd₂
    linarith [hd₁.2, hd₂.1]

/-- Training succeeds in an example, so that the second case of `C128_hk_partial` is met. -/
example : ∃ hk' t, (exHK (some 0)).train ⟨exWorld, exWorld⟩ (fun i _ => ![0, 1, 2] i : Samples 3 1) ![0, 1, 5] (fun i _ => ![0, 1, 2] i : Samples 3 1) ![0, 1, 2] = .ok (hk', t) := exHK_trains

end Mfpml.Props
