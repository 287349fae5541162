import Verif.Spec.FarAway
import Verif.Props.Batch
import Verif.Props.CoKrigingPrediction

/-!
# Predictions far from the data (C127)
-/

set_option linter.unusedSectionVars false

open scoped BigOperators Matrix Topology

namespace Mfpml.Props

open Mfpml.GP Mfpml.Spec Filter
open Mfpml.EA (Box)

variable {n m d q ql qd nh nl : ℕ}

/-- The neighbourhoods of infinity: one of the coordinates is large. -/
def farF (d : ℕ) : Filter (Fin d → ℝ) := ⨆ k, comap (fun x => |x k|) atTop

theorem farF_eventually {p : (Fin d → ℝ) → Prop} (h : ∀ᶠ x in farF d, p x) : ∃ R : ℝ, ∀ x : Fin d → ℝ, (∃ k, R < |x k|) → p x := by
  have h1 : ∀ k : Fin d, ∃ R : ℝ, ∀ x : Fin d → ℝ, R < |x k| → p x := by
    intro k
    have hk : ∀ᶠ x in comap (fun x : Fin d → ℝ => |x k|) atTop, p x := h.filter_mono (le_iSup (fun k : Fin d => comap (fun x : Fin d → ℝ => |x k|) atTop) k)
    obtain ⟨s, hs, hp⟩ := mem_comap.mp hk
    obtain ⟨R, hR⟩ := mem_atTop_sets.mp hs
    exact ⟨R, fun x hx => hp (hR _ hx.le)⟩
  choose R hR using h1
  refine ⟨∑ k, |R k|, fun x ⟨k, hk⟩ => hR k x (lt_of_le_of_lt ?_ hk)⟩
  exact (le_abs_self _).trans (Finset.single_le_sum (f := fun k => |R k|) (fun k _ => abs_nonneg _) (Finset.mem_univ k))

theorem farAway_of_tendsto {predict : (m : ℕ) → Samples m d → Py ((Fin m → ℝ) × (Fin m → ℝ))} {μ σ : ℕ → (Fin d → ℝ) → ℝ}
    (h : ∀ (m : ℕ) (X : Samples m d), predict m X = .ok (fun j => μ j (X j), fun j => σ j (X j))) {rows : ℕ → Prop} {μ0 σ0 : (Fin d → ℝ) → ℝ}
    (hr : ∀ k, rows k → μ k = μ0 ∧ σ k = σ0) {l s : ℝ} (hμ : Tendsto μ0 (farF d) (𝓝 l)) (hσ : Tendsto σ0 (farF d) (𝓝 s)) :
    FarAway (fun m X => (predict m X).toOption) rows l s := by
  intro ε hε
  obtain ⟨R, hR⟩ := farF_eventually ((Metric.tendsto_nhds.mp hμ ε hε).and (Metric.tendsto_nhds.mp hσ ε hε))
  refine ⟨R, fun m X j hj hX => ⟨fun j => μ j (X j), fun j => σ j (X j), ?_, ?_, ?_⟩⟩
  · show (predict m X).toOption = _
    rw [h]; rfl
  · show |μ j (X j) - l| < ε
    rw [(hr _ hj).1]; exact (hR _ hX).1
  · show |σ j (X j) - s| < ε
    rw [(hr _ hj).2]; exact (hR _ hX).2

/-- Correlations vanish far away. -/
theorem corr_far (param : Fin d → ℝ) (hp : ∀ k, 0 < param k) (b : Box ℝ d) (hb : ∀ k, b.high k - b.low k ≠ 0) (a : Fin d → ℝ) :
    Tendsto (fun x => Real.exp (-rbfDist param a (normPt b x))) (farF d) (𝓝 0) := by
  refine Real.tendsto_exp_atBot.comp (tendsto_neg_atTop_atBot.comp ?_)
  unfold farF
  rw [tendsto_iSup]
  intro k
  have h1 : Tendsto (fun T : ℝ => param k * (T / |b.high k - b.low k| + (-|b.low k / (b.high k - b.low k) + a k| - 1 / 4))) atTop atTop :=
    (tendsto_atTop_add_const_right _ _ (tendsto_id.atTop_div_const (abs_pos.mpr (hb k)))).const_mul_atTop (hp k)
  refine tendsto_atTop_mono (fun x => ?_) (h1.comp tendsto_comap)
  rw [rbfDist_eq _ fun k => (hp k).le]
  refine le_trans ?_ (Finset.single_le_sum (f := fun k => param k * (a k - normPt b x k) ^ 2) (fun k _ => mul_nonneg (hp k).le (sq_nonneg _)) (Finset.mem_univ k))
  refine mul_le_mul_of_nonneg_left ?_ (hp k).le
  have e : a k - normPt b x k = (b.low k / (b.high k - b.low k) + a k) - x k / (b.high k - b.low k) := by unfold normPt; rw [sub_div]; ring
  rw [e]
  set u := b.low k / (b.high k - b.low k) + a k
  show |x k| / |b.high k - b.low k| + (-|u| - 1 / 4) ≤ _
  rw [← abs_div]
  set v := x k / (b.high k - b.low k)
  have h2 : |v| - |u| ≤ |u - v| := by rw [abs_sub_comm]; exact abs_sub_abs_le_abs_sub v u
  have h3 := sq_abs (u - v)
  nlinarith [sq_nonneg (|u - v| - 1 / 2)]

/-- The correlations in row `k` far away: only the nugget is left. -/
noncomputable def farCol (n k : ℕ) : Fin n → ℝ := fun i => (if i.val = k then 1 else 0) * nugget

theorem farCol_zero {n k : ℕ} (h : n ≤ k) : farCol n k = 0 := by
  funext i
  unfold farCol
  have := i.isLt
  rw [if_neg (by omega), zero_mul]; rfl

theorem corrCol_tendsto (param : Fin d → ℝ) (hp : ∀ k, 0 < param k) (b : Box ℝ d) (hb : ∀ k, b.high k - b.low k ≠ 0) (Xs : Samples n d) (k : ℕ) :
    Tendsto (fun x => corrCol param Xs k (normPt b x)) (farF d) (𝓝 (farCol n k)) := by
  refine tendsto_pi_nhds.mpr fun i => ?_
  have := (corr_far param hp b hb (Xs i)).add_const ((if i.val = k then 1 else 0) * nugget)
  rw [zero_add] at this
  exact this

theorem mseCol_continuous (σ2 : ℝ) (K : Matrix (Fin n) (Fin n) ℝ) (F : Matrix (Fin n) (Fin q) ℝ) :
    Continuous fun p : (Fin n → ℝ) × (Fin q → ℝ) => mseCol σ2 K F p.1 p.2 := by
  unfold mseCol
  have c1 : Continuous fun p : (Fin n → ℝ) × (Fin q → ℝ) => K⁻¹ *ᵥ p.1 := continuous_const.matrix_mulVec continuous_fst
  have c2 : Continuous fun p : (Fin n → ℝ) × (Fin q → ℝ) => p.2 - Fᵀ *ᵥ (K⁻¹ *ᵥ p.1) := continuous_snd.sub (continuous_const.matrix_mulVec c1)
  exact continuous_const.mul ((continuous_const.sub (continuous_fst.dotProduct c1)).add (c2.dotProduct (continuous_const.matrix_mulVec c2)))

theorem covTrain_gen (param : Fin d → ℝ) (hp : ∀ k, 0 ≤ param k) (X : Samples n d) (s : ℝ) : covTrain param X s = trainCov param X (s ^ 2) := by
  ext i j
  have h := C26_rbf_values (RBF.mk param 0 0) hp X X i j
  unfold covTrain trainCov
  rw [Matrix.add_apply, Matrix.smul_apply, Matrix.one_apply, Matrix.of_apply]
  have h' : rbfMatrix param X X i j = gaussCorr param (X i) (X j) + if i = j then 1e-10 else 0 := by
    rw [show rbfMatrix param X X i j = (RBF.mk param 0 0 : RBF d).getKernelMatrix X X i j from rfl, h]
    simp only [Fin.ext_iff]
  rw [h']
  split
  · simp; ring
  · simp

theorem ones_dot (v : Fin n → ℝ) : (1 : Fin n → ℝ) ⬝ᵥ v = ∑ i, v i := by simp [dotProduct]

/-- Generalised least squares with a constant trend, in the units of the responses. -/
theorem gls_const {K : Matrix (Fin n) (Fin n) ℝ} {F : Matrix (Fin n) (Fin 1) ℝ} {ys y : Fin n → ℝ} {g : GLS n 1} (h : IsGLS K F ys g) (hF : ∀ i, F i 0 = 1) {a s : ℝ} (hs : 0 < s)
    (hy : ∀ i, ys i * s + a = y i) :
    0 < (1 : Fin n → ℝ) ⬝ᵥ (K⁻¹ *ᵥ 1) ∧ g.beta 0 * s + a = weightedMean K y ∧ (∀ i, s * g.gamma i = (K⁻¹ *ᵥ fun i => y i - weightedMean K y) i) ∧ g.sigma2 * s ^ 2 = weightedVar K y ∧
      Fᵀ * (K⁻¹ * F) = Matrix.of fun _ _ => (1 : Fin n → ℝ) ⬝ᵥ (K⁻¹ *ᵥ 1) := by
  have hFv : ∀ v : Fin n → ℝ, ∀ j, (Fᵀ *ᵥ v) j = 1 ⬝ᵥ v := by
    intro v j
    rw [Subsingleton.elim j 0]
    simp [Matrix.mulVec, dotProduct, hF]
  have hFb : F *ᵥ g.beta = fun _ => g.beta 0 := by
    funext i; simp [Matrix.mulVec, dotProduct, hF]
  have hM : Fᵀ * (K⁻¹ * F) = Matrix.of fun _ _ => (1 : Fin n → ℝ) ⬝ᵥ (K⁻¹ *ᵥ 1) := by
    ext i j
    rw [Subsingleton.elim i 0, Subsingleton.elim j 0]
    rw [quad_col]
    have : (fun i => F i 0) = (1 : Fin n → ℝ) := funext hF
    rw [this]; rfl
  have hpos : 0 < (1 : Fin n → ℝ) ⬝ᵥ (K⁻¹ *ᵥ 1) := by
    have := h.cholM.posDef.diag_pos (i := 0)
    rw [hM] at this
    exact this
  have hn : 1 ⬝ᵥ g.gamma = 0 := by rw [← hFv g.gamma 0, h.normal]; rfl
  have hγ : ∀ c : ℝ, K⁻¹ *ᵥ (fun i => y i - c) = s • g.gamma + (g.beta 0 * s + a - c) • (K⁻¹ *ᵥ 1) := by
    intro c
    have e : (fun i => y i - c) = s • (ys - F *ᵥ g.beta) + (g.beta 0 * s + a - c) • 1 := by
      funext i
      rw [hFb]
      simp only [Pi.add_apply, Pi.smul_apply, Pi.sub_apply, smul_eq_mul, Pi.one_apply]
      rw [← hy i]; ring
    rw [e, Matrix.mulVec_add, Matrix.mulVec_smul, Matrix.mulVec_smul, ← h.gamma]
  have hβ : g.beta 0 * s + a = weightedMean K y := by
    unfold weightedMean
    have := hγ 0
    simp only [sub_zero] at this
    rw [this, dotProduct_add, dotProduct_smul, dotProduct_smul, hn, smul_zero, zero_add, smul_eq_mul, mul_div_assoc, div_self hpos.ne', mul_one]
  have hγ' : ∀ i, s * g.gamma i = (K⁻¹ *ᵥ fun i => y i - weightedMean K y) i := by
    intro i
    rw [hγ, hβ, sub_self, zero_smul, add_zero]; rfl
  refine ⟨hpos, hβ, hγ', ?_, hM⟩
  unfold weightedVar
  have e1 : (K⁻¹ *ᵥ fun i => y i - weightedMean K y) = s • g.gamma := by
    funext i; rw [← hγ' i]; rfl
  have e2 : (fun i => y i - weightedMean K y) = s • (ys - F *ᵥ g.beta) := by
    funext i
    rw [hFb, ← hβ, ← hy i]
    simp only [Pi.smul_apply, Pi.sub_apply, smul_eq_mul]; ring
  rw [e1, e2, h.sigma2, dotProduct_smul, smul_dotProduct, smul_eq_mul, smul_eq_mul]
  ring

theorem inv_one_matrix (c : ℝ) (v w : Fin 1 → ℝ) : v ⬝ᵥ ((Matrix.of fun _ _ => c : Matrix (Fin 1) (Fin 1) ℝ)⁻¹ *ᵥ w) = v 0 * w 0 / c := by
  have : (Matrix.of fun _ _ => c : Matrix (Fin 1) (Fin 1) ℝ)⁻¹ = Matrix.of fun _ _ => c⁻¹ := by
    rw [Matrix.inv_subsingleton]
    ext i j
    rw [Subsingleton.elim i j]
    simp
  rw [this]
  simp [Matrix.mulVec, dotProduct]
  ring

/-- The mean squared error for a constant trend. -/
theorem mseCol_const (σ2 : ℝ) (K : Matrix (Fin n) (Fin n) ℝ) (F : Matrix (Fin n) (Fin 1) ℝ) (hF : ∀ i, F i 0 = 1) (hM : Fᵀ * (K⁻¹ * F) = Matrix.of fun _ _ => (1 : Fin n → ℝ) ⬝ᵥ (K⁻¹ *ᵥ 1)) (k : Fin n → ℝ) (f : Fin 1 → ℝ) :
    mseCol σ2 K F k f = σ2 * (1 - k ⬝ᵥ (K⁻¹ *ᵥ k) + (f 0 - 1 ⬝ᵥ (K⁻¹ *ᵥ k)) ^ 2 * weightedMeanVar K) := by
  unfold mseCol weightedMeanVar
  rw [hM, inv_one_matrix]
  have : (Fᵀ *ᵥ (K⁻¹ *ᵥ k)) 0 = 1 ⬝ᵥ (K⁻¹ *ᵥ k) := by simp [Matrix.mulVec, dotProduct, hF]
  rw [Pi.sub_apply, this]
  ring

/-! ### Kriging -/

/-- The row functions of a Kriging model. -/
noncomputable def gpMu (gp : GPObj d q) (t : GPFit n d q) (k : ℕ) (x : Fin d → ℝ) : ℝ :=
  (gp.regr (normPt gp.box x) ⬝ᵥ t.gls.beta + corrCol gp.kernel.param t.Xs k (normPt gp.box x) ⬝ᵥ t.gls.gamma) * t.yStd + t.yMean

/-- The standard deviation in row `k`. -/
noncomputable def gpSd (gp : GPObj d q) (t : GPFit n d q) (k : ℕ) (x : Fin d → ℝ) : ℝ :=
  Real.sqrt (max (mseCol t.gls.sigma2 t.K t.F (corrCol gp.kernel.param t.Xs k (normPt gp.box x)) (gp.regr (normPt gp.box x)) * t.yStd ^ 2 + t.noise ^ 2) 0)

theorem gp_predict_rows {gp : GPObj d q} {t : GPFit n d q} (hT : Trained gp t) (m : ℕ) (X : Samples m d) :
    GP.predictStd gp t X = .ok (fun j => gpMu gp t j (X j), fun j => gpSd gp t j (X j)) := by
  unfold GP.predictStd
  exact Py.bind_ok.mpr ⟨_, predictMean_eq hT X, Py.bind_ok.mpr ⟨_, normalizeInput_eq X hT.range, Py.bind_ok.mpr ⟨_, mseOf_col hT.gls _ _, rfl⟩⟩⟩

theorem gpMu_far (gp : GPObj d q) (t : GPFit n d q) {k : ℕ} (hk : n ≤ k) : gpMu gp t k = gpMu gp t n := by
  funext x; unfold gpMu; rw [corrCol_far _ _ hk]

theorem gpSd_far (gp : GPObj d q) (t : GPFit n d q) {k : ℕ} (hk : n ≤ k) : gpSd gp t k = gpSd gp t n := by
  funext x; unfold gpSd; rw [corrCol_far _ _ hk]

/-- The distance of the mean to the trend. -/
theorem gp_trend_tendsto {gp : GPObj d q} {t : GPFit n d q} (hT : Trained gp t) (k : ℕ) :
    Tendsto (fun x => gpMu gp t k x - ((gp.regr (normPt gp.box x) ⬝ᵥ t.gls.beta) * t.yStd + t.yMean)) (farF d) (𝓝 (t.yStd * (farCol n k ⬝ᵥ t.gls.gamma))) := by
  have h1 := corrCol_tendsto gp.kernel.param hT.param gp.box hT.range t.Xs k
  have h2 : Continuous fun c : Fin n → ℝ => t.yStd * (c ⬝ᵥ t.gls.gamma) := continuous_const.mul (continuous_id.dotProduct continuous_const)
  refine ((h2.tendsto _).comp h1).congr fun x => ?_
  simp only [Function.comp, gpMu]; ring

theorem farCol_dot (n : ℕ) (i : Fin n) (v : Fin n → ℝ) : farCol n i ⬝ᵥ v = 1e-10 * v i := by
  unfold farCol dotProduct
  rw [Finset.sum_eq_single i]
  · have : nugget = 1e-10 := by unfold nugget; norm_num
    simp [this]
  · intro b _ hb
    dsimp only
    rw [if_neg (fun h => hb (Fin.ext h))]; simp
  · intro h; exact absurd (Finset.mem_univ _) h

theorem farCol_eq (n : ℕ) (i : Fin n) : farCol n i = (1e-10 : ℝ) • Pi.single i 1 := by
  funext j
  unfold farCol
  have : nugget = 1e-10 := by unfold nugget; norm_num
  by_cases h : j = i
  · subst h; simp [this]
  · rw [if_neg (fun h' => h (Fin.ext h'))]; simp [h]

/-- The limits in row `k` for a constant trend. -/
theorem gp_far {gp : GPObj d 1} {t : GPFit n d 1} (hT : Trained gp t) (hc : gp.regr = ordinary d) (k : ℕ) :
    let R := trainCov gp.kernel.param t.Xs ((t.noise / t.yStd) ^ 2)
    Tendsto (gpMu gp t k) (farF d) (𝓝 (weightedMean R t.y + farCol n k ⬝ᵥ (R⁻¹ *ᵥ fun i => t.y i - weightedMean R t.y))) ∧
    Tendsto (gpSd gp t k) (farF d) (𝓝 (Real.sqrt (max (weightedVar R t.y * (1 - farCol n k ⬝ᵥ (R⁻¹ *ᵥ farCol n k) + (1 - 1 ⬝ᵥ (R⁻¹ *ᵥ farCol n k)) ^ 2 * weightedMeanVar R) + t.noise ^ 2) 0))) := by
  intro R
  have hK : t.K = R := by rw [hT.K]; exact covTrain_gen _ (fun k => (hT.param k).le) _ _
  have hF : ∀ i, t.F i 0 = 1 := by intro i; rw [hT.F, hc]; rfl
  obtain ⟨hpos, hβ, hγ, hσ, hM⟩ := gls_const hT.gls hF hT.stdpos hT.ys
  rw [hK] at hpos hβ hγ hσ hM
  constructor
  · have h1 := (gp_trend_tendsto hT k).add_const (weightedMean R t.y)
    have e : t.yStd * (farCol n k ⬝ᵥ t.gls.gamma) + weightedMean R t.y = weightedMean R t.y + farCol n k ⬝ᵥ (R⁻¹ *ᵥ fun i => t.y i - weightedMean R t.y) := by
      have : (R⁻¹ *ᵥ fun i => t.y i - weightedMean R t.y) = t.yStd • t.gls.gamma := funext fun i => (hγ i).symm
      rw [this, dotProduct_smul, smul_eq_mul]; ring
    rw [e] at h1
    refine h1.congr fun x => ?_
    have : gp.regr (normPt gp.box x) ⬝ᵥ t.gls.beta = t.gls.beta 0 := by rw [hc]; simp [dotProduct, ordinary]
    rw [this, hβ]; ring
  · have h1 := corrCol_tendsto gp.kernel.param hT.param gp.box hT.range t.Xs k
    have h2 : Continuous fun c : Fin n → ℝ => Real.sqrt (max (mseCol t.gls.sigma2 t.K t.F c (fun _ => 1) * t.yStd ^ 2 + t.noise ^ 2) 0) := by
      have c1 : Continuous fun c : Fin n → ℝ => mseCol t.gls.sigma2 t.K t.F c (fun _ => 1) := (mseCol_continuous t.gls.sigma2 t.K t.F).comp (continuous_id.prodMk continuous_const)
      exact Real.continuous_sqrt.comp (((c1.mul continuous_const).add continuous_const).max continuous_const)
    have h3 := (h2.tendsto _).comp h1
    rw [hK, mseCol_const _ _ _ hF hM, show ∀ a, t.gls.sigma2 * a * t.yStd ^ 2 = (t.gls.sigma2 * t.yStd ^ 2) * a from fun a => by ring, hσ] at h3
    refine h3.congr fun x => ?_
    have : gp.regr (normPt gp.box x) = fun _ => 1 := by rw [hc]; rfl
    simp only [Function.comp, gpSd, this, hK]

theorem weightedVar_nonneg {R : Matrix (Fin n) (Fin n) ℝ} (hR : R.PosDef) (y : Fin n → ℝ) : 0 ≤ weightedVar R y := by
  unfold weightedVar
  refine div_nonneg ?_ (Nat.cast_nonneg _)
  have := hR.inv.posSemidef.dotProduct_mulVec_nonneg (fun i => y i - weightedMean R y)
  simpa using this

/-- The limit in the later rows. -/
theorem gp_far_later {gp : GPObj d 1} {t : GPFit n d 1} (hT : Trained gp t) (hc : gp.regr = ordinary d) {k : ℕ} (hk : n ≤ k) :
    let R := trainCov gp.kernel.param t.Xs ((t.noise / t.yStd) ^ 2)
    Tendsto (gpMu gp t k) (farF d) (𝓝 (weightedMean R t.y)) ∧ Tendsto (gpSd gp t k) (farF d) (𝓝 (Real.sqrt (weightedVar R t.y * (1 + weightedMeanVar R) + t.noise ^ 2))) := by
  intro R
  have h := gp_far hT hc k
  simp only [farCol_zero hk, zero_dotProduct, Matrix.mulVec_zero, dotProduct_zero, add_zero, sub_zero, one_pow, one_mul] at h
  refine ⟨h.1, ?_⟩
  have hK : t.K = R := by rw [hT.K]; exact covTrain_gen _ (fun k => (hT.param k).le) _ _
  have hP : R.PosDef := hK ▸ hT.gls.posDef
  have h0 : 0 ≤ weightedVar R t.y * (1 + weightedMeanVar R) + t.noise ^ 2 := by
    have h1 := weightedVar_nonneg hP t.y
    have h2 : 0 ≤ weightedMeanVar R := by
      unfold weightedMeanVar
      have := hP.inv.posSemidef.dotProduct_mulVec_nonneg (1 : Fin n → ℝ)
      simp only [star_one] at this
      exact div_nonneg zero_le_one this
    positivity
  have := h.2
  rwa [max_eq_left h0] at this

/-- **C127 (Kriging with a constant trend), the later rows of a batch.** Far from the samples the mean is the weighted mean of the responses and the variance is that of the process plus that of the weighted mean plus the noise. -/
theorem C127_gp_partial (gp : GPObj d 1) (hc : gp.regr = ordinary d) (w : World d) (X : Samples n d) (y : Fin n → ℝ) (gp' : GPObj d 1) (t : GPFit n d 1) (h : gp.train w X y = .ok (gp', t)) :
    let R := trainCov gp'.kernel.param t.Xs ((t.noise / t.yStd) ^ 2)
    FarAway (fun _ X => (GP.predictStd gp' t X).toOption) (fun j => n ≤ j) (weightedMean R y) (Real.sqrt (weightedVar R y * (1 + weightedMeanVar R) + t.noise ^ 2)) := by
  intro R
  obtain ⟨hT, _, hy, _, hr, _⟩ := trained_of_train h
  have hf := gp_far_later hT (hr.trans hc) (le_refl n)
  rw [hy] at hf
  exact farAway_of_tendsto (gp_predict_rows hT) (fun k hk => ⟨gpMu_far _ _ hk, gpSd_far _ _ hk⟩) hf.1 hf.2

/-- **C127 (Kriging with a constant trend), the first rows of a batch.** In row `i` the nugget of the kernel does not vanish: the limits contain the response and the weights of sample number `i`, wherever the point moves. -/
theorem C127_gp_first_rows (gp : GPObj d 1) (hc : gp.regr = ordinary d) (w : World d) (X : Samples n d) (y : Fin n → ℝ) (gp' : GPObj d 1) (t : GPFit n d 1) (h : gp.train w X y = .ok (gp', t)) (i : Fin n) :
    let R := trainCov gp'.kernel.param t.Xs ((t.noise / t.yStd) ^ 2)
    FarAway (fun _ X => (GP.predictStd gp' t X).toOption) (fun j => j = i) (weightedMean R y + 1e-10 * (R⁻¹ *ᵥ fun i => y i - weightedMean R y) i)
      (Real.sqrt (max (weightedVar R y * (1 - 1e-20 * R⁻¹ i i + (1 - 1e-10 * (R⁻¹ *ᵥ 1) i) ^ 2 * weightedMeanVar R) + t.noise ^ 2) 0)) := by
  intro R
  obtain ⟨hT, _, hy, _, hr, _⟩ := trained_of_train h
  have hf := gp_far hT (hr.trans hc) i
  have hK : t.K = R := by rw [hT.K]; exact covTrain_gen _ (fun k => (hT.param k).le) _ _
  have hsym : (R⁻¹)ᵀ = R⁻¹ := by
    have hP : R.PosDef := hK ▸ hT.gls.posDef
    have := hP.inv.isHermitian
    rwa [Matrix.IsHermitian, Matrix.conjTranspose_eq_transpose_of_trivial] at this
  have e1 : (R⁻¹ *ᵥ farCol n i) i = 1e-10 * R⁻¹ i i := by rw [farCol_eq, Matrix.mulVec_smul, Pi.smul_apply, Matrix.mulVec_single_one]; rfl
  have e2 : (1 : Fin n → ℝ) ⬝ᵥ (R⁻¹ *ᵥ farCol n i) = 1e-10 * (R⁻¹ *ᵥ 1) i := by
    rw [Matrix.dotProduct_mulVec, ← Matrix.mulVec_transpose, hsym, dotProduct_comm, farCol_dot]
  have e3 : farCol n i ⬝ᵥ (R⁻¹ *ᵥ farCol n i) = 1e-20 * R⁻¹ i i := by rw [farCol_dot, e1]; ring
  rw [hy] at hf
  simp only [] at hf
  rw [farCol_dot, e2, e3] at hf
  exact farAway_of_tendsto (gp_predict_rows hT) (fun k hk => by rw [hk]; exact ⟨rfl, rfl⟩) hf.1 hf.2

/-- **C127 (Kriging with any trend), the later rows of a batch.** Far from the samples the mean is the fitted trend. -/
theorem C127_gp_trend_partial (gp : GPObj d q) (w : World d) (X : Samples n d) (y : Fin n → ℝ) (gp' : GPObj d q) (t : GPFit n d q) (h : gp.train w X y = .ok (gp', t)) :
    ∀ ε > 0, ∃ R : ℝ, ∀ (m : ℕ) (X : Samples m d) (j : Fin m), n ≤ j.val → (∃ k, R < |X j k|) →
      ∃ μ σ, GP.predictStd gp' t X = .ok (μ, σ) ∧ |μ j - ((gp.regr (normPt gp.box (X j)) ⬝ᵥ t.gls.beta) * t.yStd + t.yMean)| < ε := by
  obtain ⟨hT, _, _, hb, hr, _⟩ := trained_of_train h
  intro ε hε
  have hf := gp_trend_tendsto hT n
  rw [farCol_zero (le_refl n), zero_dotProduct, mul_zero] at hf
  obtain ⟨R, hR⟩ := farF_eventually (Metric.tendsto_nhds.mp hf ε hε)
  refine ⟨R, fun m X j hj hX => ⟨_, _, gp_predict_rows hT m X, ?_⟩⟩
  have := hR _ hX
  rw [Real.dist_0_eq_abs, hb, hr] at this
  show |gpMu gp' t j (X j) - _| < ε
  rw [gpMu_far gp' t hj]
  exact this

theorem farAway_unique {predict : (m : ℕ) → (Fin m → Fin d → ℝ) → Option ((Fin m → ℝ) × (Fin m → ℝ))} (hd : 0 < d) {i : ℕ} {l s l' s' : ℝ} (h : FarAway predict (fun j => j = i) l s)
    (h' : FarAway predict (fun j => j = i) l' s') : l = l' := by
  by_contra hne
  have hε : 0 < |l - l'| / 2 := half_pos (abs_pos.mpr (sub_ne_zero.mpr hne))
  obtain ⟨R, hR⟩ := h _ hε
  obtain ⟨R', hR'⟩ := h' _ hε
  let X : Fin (i + 1) → Fin d → ℝ := fun _ _ => |R| + |R'| + 1
  have hx : ∀ k, |X (Fin.last i) k| = |R| + |R'| + 1 := fun k => abs_of_pos (by positivity)
  obtain ⟨μ, σ, e, h1, _⟩ := hR (i + 1) X (Fin.last i) rfl ⟨⟨0, hd⟩, by rw [hx ⟨0, hd⟩]; linarith [le_abs_self R, abs_nonneg R']⟩
  obtain ⟨μ', σ', e', h1', _⟩ := hR' (i + 1) X (Fin.last i) rfl ⟨⟨0, hd⟩, by rw [hx ⟨0, hd⟩]; linarith [le_abs_self R', abs_nonneg R]⟩
  rw [e, Option.some.injEq, Prod.mk.injEq] at e'
  rw [← e'.1] at h1'
  have := abs_sub_le l (μ (Fin.last i)) l'
  rw [abs_sub_comm l (μ (Fin.last i))] at this
  linarith

theorem gp_weights {gp : GPObj d 1} (hc : gp.regr = ordinary d) {w : World d} {X : Samples n d} {y : Fin n → ℝ} {gp' : GPObj d 1} {t : GPFit n d 1} (h : gp.train w X y = .ok (gp', t)) :
    let R := trainCov gp'.kernel.param t.Xs ((t.noise / t.yStd) ^ 2)
    1 ⬝ᵥ (R⁻¹ *ᵥ fun i => y i - weightedMean R y) = 0 ∧ (R⁻¹ *ᵥ fun i => y i - weightedMean R y) ≠ 0 := by
  intro R
  obtain ⟨hT, _, hy, _, hr, _, _, hstd, _⟩ := trained_of_train h
  have hK : t.K = R := by rw [hT.K]; exact covTrain_gen _ (fun k => (hT.param k).le) _ _
  have hF : ∀ i, t.F i 0 = 1 := by intro i; rw [hT.F, hr, hc]; rfl
  obtain ⟨hpos, hβ, hγ, hσ, hM⟩ := gls_const hT.gls hF hT.stdpos hT.ys
  rw [hK, hy] at hγ
  have e : (R⁻¹ *ᵥ fun i => y i - weightedMean R y) = t.yStd • t.gls.gamma := funext fun i => (hγ i).symm
  constructor
  · have hn : 1 ⬝ᵥ t.gls.gamma = 0 := by
      have := congrFun hT.gls.normal 0
      simpa [Matrix.mulVec, dotProduct, hF] using this
    rw [e, dotProduct_smul, hn, smul_zero]
  · intro h0
    have hP : R.PosDef := hK ▸ hT.gls.posDef
    have h1 : R *ᵥ (R⁻¹ *ᵥ fun i => y i - weightedMean R y) = 0 := by rw [h0, Matrix.mulVec_zero]
    rw [Matrix.mulVec_mulVec, Matrix.mul_nonsing_inv _ ((Matrix.isUnit_iff_isUnit_det _).mp hP.isUnit), Matrix.one_mulVec] at h1
    have h2 : std y = 0 := (std_eq_zero_iff y).mpr fun i j => by
      have a := congrFun h1 i
      have b := congrFun h1 j
      simp only [Pi.zero_apply] at a b
      linarith
    exact hT.stdpos.ne' (hstd.trans h2)

/-- C127 is false for Kriging in the first rows of a batch: for every trained model with a constant trend there is a row in which predictions tend to another number than the weighted mean. -/
theorem C127_gp_counterexample (gp : GPObj d 1) (hd : 0 < d) (hc : gp.regr = ordinary d) (w : World d) (X : Samples n d) (y : Fin n → ℝ) (gp' : GPObj d 1) (t : GPFit n d 1) (h : gp.train w X y = .ok (gp', t)) :
    ∃ i : Fin n, ∀ s, ¬ FarAway (fun _ X => (GP.predictStd gp' t X).toOption) (fun j => j = i) (weightedMean (trainCov gp'.kernel.param t.Xs ((t.noise / t.yStd) ^ 2)) y) s := by
  obtain ⟨i, hi⟩ := Function.ne_iff.mp (gp_weights hc h).2
  refine ⟨i, fun s hs => hi ?_⟩
  have := farAway_unique hd hs (C127_gp_first_rows gp hc w X y gp' t h i)
  rw [Pi.zero_apply]
  linarith

/-- C127 is false for points predicted one by one, for every model trained on two samples: the limit is not the weighted mean. -/
theorem C127_gp_single_point_counterexample (gp : GPObj d 1) (hd : 0 < d) (hc : gp.regr = ordinary d) (w : World d) (X : Samples 2 d) (y : Fin 2 → ℝ) (gp' : GPObj d 1) (t : GPFit 2 d 1) (h : gp.train w X y = .ok (gp', t)) :
    ∀ s, ¬ FarAway (fun _ X => (GP.predictStd gp' t X).toOption) (fun j => j = 0) (weightedMean (trainCov gp'.kernel.param t.Xs ((t.noise / t.yStd) ^ 2)) y) s := by
  obtain ⟨h0, h1⟩ := gp_weights hc h
  rw [ones_dot, Fin.sum_univ_two] at h0
  intro s hs
  have := farAway_unique hd hs (C127_gp_first_rows gp hc w X y gp' t h 0)
  apply h1
  funext i
  have h2 : (((trainCov gp'.kernel.param t.Xs ((t.noise / t.yStd) ^ 2))⁻¹ *ᵥ fun i => y i - weightedMean (trainCov gp'.kernel.param t.Xs ((t.noise / t.yStd) ^ 2)) y) 0) = 0 := by linarith
  rw [h2, zero_add] at h0
  fin_cases i
  · exact h2
  · exact h0

/-- The hypotheses hold: two samples, with and without noise. -/
example (noise : Option ℝ) : ∃ gp' t, (exGP noise).train exWorld (fun i _ => ![1, 3] i : Samples 2 1) ![2, 5] = .ok (gp', t) ∧ (exGP noise).regr = ordinary 1 := by
  obtain ⟨gp', t, h⟩ := exGP_trains noise (fun i _ => ![1, 3] i : Samples 2 1) ![2, 5] 0 1 (by norm_num)
  exact ⟨gp', t, h, rfl⟩

/-! ### Hierarchical Kriging -/

/-- **C127 (hierarchical Kriging whose low-fidelity model has a constant trend), the later rows of a batch.** With `l` the limit of the low-fidelity predictions, the mean tends to `β (l - mean) + mean`: the high-fidelity trend at `l`. -/
theorem C127_hk_partial (hk : HKObj d 1) (hc : hk.lf.regr = ordinary d) (w : MFWorld d) (Xh : Samples nh d) (yh : Fin nh → ℝ) (Xl : Samples nl d) (yl : Fin nl → ℝ)
    (hk' : HKObj d 1) (t : HKFit nh nl d 1) (h : hk.train w Xh yh Xl yl = .ok (hk', t)) :
    let l := weightedMean (trainCov hk'.lf.kernel.param t.lfFit.Xs ((t.lfFit.noise / t.lfFit.yStd) ^ 2)) yl
    let R := trainCov hk'.kernel.param t.Xhs ((t.noise / t.yhStd) ^ 2)
    let f := fun i => t.F i 0
    FarAway (fun _ X => (hk'.predictStd t X).toOption) (fun j => max nh nl ≤ j) (mean yh + t.gls.beta 0 * (l - mean yh))
      (Real.sqrt (t.gls.sigma2 * (std yh ^ 2 + (l - mean yh) ^ 2 / (f ⬝ᵥ (R⁻¹ *ᵥ f))) + t.noise ^ 2)) := by
  intro l R f
  obtain ⟨hT, _, _, _, hlf, _, hm, hsd, _⟩ := hkTrained_of_train h
  obtain ⟨hTl, _, hyl, _, hr, _⟩ := trained_of_train hlf
  have hK : t.K = R := by rw [hT.K]; exact covTrain_gen _ (fun k => (hT.param k).le) _ _
  have hl : ∀ (m : ℕ) (X : Samples m d), hk'.predictLf t X = .ok (fun j => gpMu hk'.lf t.lfFit j (X j)) := fun m X => C37_gp _ _ _ _ _ (gp_predict_rows hTl m X)
  have hfar := (gp_far_later hTl (hr.trans hc) (le_refl nl)).1
  rw [hyl] at hfar
  let μ : ℕ → (Fin d → ℝ) → ℝ := fun k x => ((fun _ : Fin 1 => (gpMu hk'.lf t.lfFit k x - t.yhMean) / t.yhStd) ⬝ᵥ t.gls.beta + corrCol hk'.kernel.param t.Xhs k (normPt hk'.box x) ⬝ᵥ t.gls.gamma) * t.yhStd + t.yhMean
  let σ : ℕ → (Fin d → ℝ) → ℝ := fun k x => Real.sqrt ((Real.sqrt (max (mseCol t.gls.sigma2 t.K t.F (corrCol hk'.kernel.param t.Xhs k (normPt hk'.box x))
        (fun _ => (gpMu hk'.lf t.lfFit k x - t.yhMean) / t.yhStd)) 0) * t.yhStd) ^ 2 + t.noise ^ 2)
  have hp : ∀ (m : ℕ) (X : Samples m d), hk'.predictStd t X = .ok (fun j => μ j (X j), fun j => σ j (X j)) := fun m X =>
    Py.bind_ok.mpr ⟨_, hkPredict_eq hT X (hl m X), Py.bind_ok.mpr ⟨_, normalizeInput_eq X hT.range, Py.bind_ok.mpr ⟨_, hl m X, Py.bind_ok.mpr ⟨_, mseOf_col hT.gls _ _, rfl⟩⟩⟩⟩
  have hf1 : Tendsto (fun x => fun _ : Fin 1 => (gpMu hk'.lf t.lfFit nl x - t.yhMean) / t.yhStd) (farF d) (𝓝 fun _ => (l - t.yhMean) / t.yhStd) :=
    tendsto_pi_nhds.mpr fun _ => (hfar.sub_const _).div_const _
  have hc1 := corrCol_tendsto hk'.kernel.param hT.param hk'.box hT.range t.Xhs nh
  rw [farCol_zero (le_refl nh)] at hc1
  have hs := hT.stdpos.ne'
  refine farAway_of_tendsto (μ0 := fun x => ((fun _ : Fin 1 => (gpMu hk'.lf t.lfFit nl x - t.yhMean) / t.yhStd) ⬝ᵥ t.gls.beta + corrCol hk'.kernel.param t.Xhs nh (normPt hk'.box x) ⬝ᵥ t.gls.gamma) * t.yhStd + t.yhMean)
    (σ0 := fun x => Real.sqrt ((Real.sqrt (max (mseCol t.gls.sigma2 t.K t.F (corrCol hk'.kernel.param t.Xhs nh (normPt hk'.box x))
        (fun _ => (gpMu hk'.lf t.lfFit nl x - t.yhMean) / t.yhStd)) 0) * t.yhStd) ^ 2 + t.noise ^ 2)) hp (fun k hk => ?_) ?_ ?_
  · simp only [μ, σ]
    rw [gpMu_far _ _ (le_trans (le_max_right nh nl) hk)]
    have : ∀ x, corrCol hk'.kernel.param t.Xhs k x = corrCol hk'.kernel.param t.Xhs nh x := fun x => corrCol_far _ _ (le_trans (le_max_left nh nl) hk) x
    simp only [this, true_and]
  · have h2 : Continuous fun p : (Fin 1 → ℝ) × (Fin nh → ℝ) => (p.1 ⬝ᵥ t.gls.beta + p.2 ⬝ᵥ t.gls.gamma) * t.yhStd + t.yhMean :=
      (((continuous_fst.dotProduct continuous_const).add (continuous_snd.dotProduct continuous_const)).mul continuous_const).add continuous_const
    have h3 := (h2.tendsto _).comp (hf1.prodMk_nhds hc1)
    refine h3.mono_right (le_of_eq (congrArg 𝓝 ?_))
    dsimp only
    rw [zero_dotProduct, ← hm]
    simp [dotProduct]
    field_simp
    ring
  · have h2 : Continuous fun p : (Fin nh → ℝ) × (Fin 1 → ℝ) => Real.sqrt ((Real.sqrt (max (mseCol t.gls.sigma2 t.K t.F p.1 p.2) 0) * t.yhStd) ^ 2 + t.noise ^ 2) := by
      have c1 := mseCol_continuous t.gls.sigma2 t.K t.F
      exact Real.continuous_sqrt.comp ((((Real.continuous_sqrt.comp (c1.max continuous_const)).mul continuous_const).pow 2).add continuous_const)
    have h3 := (h2.tendsto _).comp (hc1.prodMk_nhds hf1)
    refine h3.mono_right (le_of_eq (congrArg 𝓝 ?_))
    have hM : t.Fᵀ * (t.K⁻¹ * t.F) = Matrix.of fun _ _ => f ⬝ᵥ (R⁻¹ *ᵥ f) := by
      ext i j
      rw [Subsingleton.elim i 0, Subsingleton.elim j 0, quad_col, hK]; rfl
    have hpos : 0 < f ⬝ᵥ (R⁻¹ *ᵥ f) := by
      have := hT.gls.cholM.posDef.diag_pos (i := 0)
      rw [hM] at this
      exact this
    have e : mseCol t.gls.sigma2 t.K t.F 0 (fun _ => (l - t.yhMean) / t.yhStd) = t.gls.sigma2 * (1 + ((l - t.yhMean) / t.yhStd) ^ 2 / (f ⬝ᵥ (R⁻¹ *ᵥ f))) := by
      unfold mseCol
      rw [hM, inv_one_matrix]
      simp only [Matrix.mulVec_zero, dotProduct_zero, sub_zero]
      ring
    have h0 := hT.gls.sigma2_nonneg
    dsimp only
    rw [e, max_eq_left (by positivity), mul_pow, Real.sq_sqrt (by positivity), ← hm, ← hsd]
    congr 2
    field_simp

/-! ### Scaled Kriging -/

/-- **C127 (scaled Kriging, constant trends), the later rows of a batch.** The limits of the two parts are combined like the predictions. -/
theorem C127_sk_partial (sk : SKObj d 1 1) (hcl : sk.lf.regr = ordinary d) (w : SKWorld d) (Xh : Samples nh d) (yh : Fin nh → ℝ) (Xl : Samples nl d) (yl : Fin nl → ℝ)
    (sk' : SKObj d 1 1) (t : SKFit nh nl d 1 1) (h : sk.train w Xh yh Xl yl = .ok (sk', t)) (hcd : sk'.disc.regr = ordinary d) :
    let Rl := trainCov sk'.lf.kernel.param t.lfFit.Xs ((t.lfFit.noise / t.lfFit.yStd) ^ 2)
    let Rd := trainCov sk'.disc.kernel.param t.discFit.Xs ((t.discFit.noise / t.discFit.yStd) ^ 2)
    FarAway (fun _ X => (sk'.predictStd t X).toOption) (fun j => max nh nl ≤ j) (sk'.rho * weightedMean Rl yl + weightedMean Rd t.discFit.y)
      (Real.sqrt (sk'.rho ^ 2 * (weightedVar Rl yl * (1 + weightedMeanVar Rl) + t.lfFit.noise ^ 2) + (weightedVar Rd t.discFit.y * (1 + weightedMeanVar Rd) + t.discFit.noise ^ 2))) := by
  intro Rl Rd
  obtain ⟨f, disc, h1, h2, h3, h4, _⟩ := skTrain_ok h
  obtain ⟨hTl, _, hyl, _, hrl, _⟩ := trained_of_train h1
  obtain ⟨hTd, _⟩ := trained_of_train h4
  have fl := gp_far_later hTl (hrl.trans hcl) (le_refl nl)
  have fd := gp_far_later hTd hcd (le_refl nh)
  rw [hyl] at fl
  have hp : ∀ (m : ℕ) (X : Samples m d), sk'.predictStd t X = .ok (fun j => sk'.rho * gpMu sk'.lf t.lfFit j (X j) + gpMu sk'.disc t.discFit j (X j),
      fun j => Real.sqrt (sk'.rho ^ 2 * gpSd sk'.lf t.lfFit j (X j) ^ 2 + gpSd sk'.disc t.discFit j (X j) ^ 2)) := fun m X =>
    Py.bind_ok.mpr ⟨_, gp_predict_rows hTl m X, Py.bind_ok.mpr ⟨_, gp_predict_rows hTd m X, rfl⟩⟩
  refine farAway_of_tendsto (μ := fun k x => sk'.rho * gpMu sk'.lf t.lfFit k x + gpMu sk'.disc t.discFit k x)
    (σ := fun k x => Real.sqrt (sk'.rho ^ 2 * gpSd sk'.lf t.lfFit k x ^ 2 + gpSd sk'.disc t.discFit k x ^ 2))
    (μ0 := fun x => sk'.rho * gpMu sk'.lf t.lfFit nl x + gpMu sk'.disc t.discFit nh x)
    (σ0 := fun x => Real.sqrt (sk'.rho ^ 2 * gpSd sk'.lf t.lfFit nl x ^ 2 + gpSd sk'.disc t.discFit nh x ^ 2)) hp (fun k hk => ?_) ((fl.1.const_mul _).add fd.1) ?_
  · have a := le_trans (le_max_right nh nl) hk
    have b := le_trans (le_max_left nh nl) hk
    simp only [gpMu_far _ _ a, gpMu_far _ _ b, gpSd_far _ _ a, gpSd_far _ _ b, true_and]
  · have := (Real.continuous_sqrt.tendsto _).comp (((fl.2.pow 2).const_mul (sk'.rho ^ 2)).add (fd.2.pow 2))
    have nn : ∀ {N : ℕ} {gp : GPObj d 1} {s : GPFit N d 1} (hT : Trained gp s),
        0 ≤ weightedVar (trainCov gp.kernel.param s.Xs ((s.noise / s.yStd) ^ 2)) s.y * (1 + weightedMeanVar (trainCov gp.kernel.param s.Xs ((s.noise / s.yStd) ^ 2))) + s.noise ^ 2 := by
      intro N gp s hT
      have hK : s.K = trainCov gp.kernel.param s.Xs ((s.noise / s.yStd) ^ 2) := by rw [hT.K]; exact covTrain_gen _ (fun k => (hT.param k).le) _ _
      have hP := hK ▸ hT.gls.posDef
      have h1 := weightedVar_nonneg hP s.y
      have h2 : 0 ≤ weightedMeanVar (trainCov gp.kernel.param s.Xs ((s.noise / s.yStd) ^ 2)) := by
        unfold weightedMeanVar
        have := hP.inv.posSemidef.dotProduct_mulVec_nonneg (1 : Fin N → ℝ)
        simp only [star_one] at this
        exact div_nonneg zero_le_one this
      positivity
    have n1 := nn hTl
    rw [hyl] at n1
    rw [Real.sq_sqrt n1, Real.sq_sqrt (nn hTd)] at this
    exact this

/-! ### Co-Kriging -/

/-- **C127 (co-Kriging), the later rows of a batch.** The mean tends to the weighted mean of the responses of both fidelities for the joint covariance matrix, and the standard deviation to that of the process, plus noise. -/
theorem C127_ck_partial (ck : CKObj d q) (w : CKWorld d) (Xh : Samples nh d) (yh : Fin nh → ℝ) (Xl : Samples nl d) (yl : Fin nl → ℝ)
    (ck' : CKObj d q) (t : CKFit nh nl d q) (h : ck.train w Xh yh Xl yl = .ok (ck', t)) :
    ∃ noise, ck'.noise = some noise ∧
    FarAway (fun _ X => ((ck'.predictStd t X).map Prod.snd).toOption) (fun j => max nh nl ≤ j) (weightedMean (t.C + (1e-10 : ℝ) • 1) (Fin.append yl yh))
      (std yh * Real.sqrt (t.rho ^ 2 * t.lfFit.gls.sigma2 + t.sigma2 + noise ^ 2)) := by
  obtain ⟨hT, hyh, hyl, hm, hsd, _⟩ := ckTrained_of_train h
  have hjit : jitter = 1e-10 := by unfold jitter; norm_num
  obtain ⟨s, hs, _⟩ := hT.C
  refine ⟨s, hs, ?_⟩
  set A : Matrix (Fin (nl + nh)) (Fin (nl + nh)) ℝ := t.C + jitter • 1 with hA
  have hPA : A.PosDef := hT.LC.posDef
  set z : Fin (nl + nh) → ℝ := A⁻¹ *ᵥ fun i => t.y i - t.mu with hz
  have hp : ∀ (m : ℕ) (X : Samples m d), ck'.predict t X = .ok (fun j => (t.mu + ((crossCov ck' t fun i => normPt ck'.box (X i))ᵀ *ᵥ z) j) * t.yhStd + t.yhMean) := fun m X =>
    Py.bind_ok.mpr ⟨_, normalizeInput_eq X hT.range, Py.bind_ok.mpr ⟨_, cholSolveV_eq hT.LC _, rfl⟩⟩
  let c : ℕ → (Fin d → ℝ) → Fin (nl + nh) → ℝ := fun k x => Fin.append (fun i => t.rho * t.lfFit.gls.sigma2 * corrCol ck'.lf.kernel.param t.Xls k (normPt ck'.box x) i)
    (fun i => t.rho ^ 2 * t.lfFit.gls.sigma2 * corrCol ck'.lf.kernel.param t.Xhs k (normPt ck'.box x) i + t.sigma2 * corrCol ck'.kernel.param t.Xhs k (normPt ck'.box x) i)
  have hc : ∀ (m : ℕ) (X : Samples m d) (j : Fin m), (fun a => crossCov ck' t (fun i => normPt ck'.box (X i)) a j) = c j (X j) := fun m X j => funext fun a => crossCov_col _ j a
  let μ : ℕ → (Fin d → ℝ) → ℝ := fun k x => (t.mu + c k x ⬝ᵥ z) * t.yhStd + t.yhMean
  let σ : ℕ → (Fin d → ℝ) → ℝ := fun k x => Real.sqrt ((Real.sqrt (max (t.rho ^ 2 * t.lfFit.gls.sigma2 + t.sigma2 - c k x ⬝ᵥ (A⁻¹ *ᵥ c k x)) 0) * t.yhStd) ^ 2 + (s * t.yhStd) ^ 2)
  have hP : ∀ (m : ℕ) (X : Samples m d), (ck'.predictStd t X).map Prod.snd = .ok (fun j => μ j (X j), fun j => σ j (X j)) := by
    intro m X
    have : ck'.predictStd t X = .ok ({ ck' with noise := some (s * t.yhStd) }, (fun j => (t.mu + ((crossCov ck' t fun i => normPt ck'.box (X i))ᵀ *ᵥ z) j) * t.yhStd + t.yhMean),
        fun j => Real.sqrt ((Real.sqrt (max (t.rho ^ 2 * t.lfFit.gls.sigma2 + t.sigma2 - ((crossCov ck' t fun i => normPt ck'.box (X i))ᵀ *
          (A⁻¹ * crossCov ck' t fun i => normPt ck'.box (X i))) j j) 0) * t.yhStd) ^ 2 + (s * t.yhStd) ^ 2)) := by
      refine Py.bind_ok.mpr ⟨_, hp m X, Py.bind_ok.mpr ⟨_, normalizeInput_eq X hT.range, Py.bind_ok.mpr ⟨_, cholSolve_eq hT.LC _, ?_⟩⟩⟩
      rw [hs]
    rw [this]
    refine congrArg Except.ok (Prod.ext (funext fun j => ?_) (funext fun j => ?_))
    · dsimp only [μ]
      rw [← hc m X j]; rfl
    · dsimp only [σ]
      rw [quad_col, hc m X j]
  have hcl : Tendsto (c (max nh nl)) (farF d) (𝓝 0) := by
    refine tendsto_pi_nhds.mpr fun a => ?_
    have a1 := corrCol_tendsto ck'.lf.kernel.param hT.lf.param ck'.box hT.range t.Xls (max nh nl)
    have a2 := corrCol_tendsto ck'.lf.kernel.param hT.lf.param ck'.box hT.range t.Xhs (max nh nl)
    have a3 := corrCol_tendsto ck'.kernel.param (ck_param_pos h) ck'.box hT.range t.Xhs (max nh nl)
    rw [farCol_zero (le_max_right _ _)] at a1
    rw [farCol_zero (le_max_left _ _)] at a2 a3
    refine Fin.addCases (fun i => ?_) (fun i => ?_) a
    · have := (tendsto_pi_nhds.mp a1 i).const_mul (t.rho * t.lfFit.gls.sigma2)
      simpa only [c, Fin.append_left, Pi.zero_apply, mul_zero] using this
    · have := ((tendsto_pi_nhds.mp a2 i).const_mul (t.rho ^ 2 * t.lfFit.gls.sigma2)).add ((tendsto_pi_nhds.mp a3 i).const_mul t.sigma2)
      simpa only [c, Fin.append_right, Pi.zero_apply, mul_zero, add_zero] using this
  have hpos := hT.stdpos
  refine farAway_of_tendsto (μ0 := μ (max nh nl)) (σ0 := σ (max nh nl)) hP (fun k hk => ?_) ?_ ?_
  · have : c k = c (max nh nl) := by
      funext x
      simp only [c]
      rw [corrCol_far _ _ (le_trans (le_max_right nh nl) hk), corrCol_far _ _ (le_max_right nh nl), corrCol_far ck'.lf.kernel.param t.Xhs (le_trans (le_max_left nh nl) hk),
        corrCol_far ck'.lf.kernel.param t.Xhs (le_max_left nh nl), corrCol_far ck'.kernel.param t.Xhs (le_trans (le_max_left nh nl) hk),
        corrCol_far ck'.kernel.param t.Xhs (le_max_left nh nl)]
    simp only [μ, σ, this, and_self]
  · have h2 : Continuous fun v : Fin (nl + nh) → ℝ => (t.mu + v ⬝ᵥ z) * t.yhStd + t.yhMean :=
      ((continuous_const.add (continuous_id.dotProduct continuous_const)).mul continuous_const).add continuous_const
    refine ((h2.tendsto _).comp hcl).mono_right (le_of_eq (congrArg 𝓝 ?_))
    have hq : (1 : Fin (nl + nh) → ℝ) ⬝ᵥ (A⁻¹ *ᵥ 1) ≠ 0 := (ones_quad_pos hPA (Nat.add_pos_right _ hT.pos)).ne'
    have e : Fin.append yl yh = t.yhStd • t.y + t.yhMean • (1 : Fin (nl + nh) → ℝ) := by
      rw [hT.y, hyh, hyl]
      funext a
      refine Fin.addCases (fun i => ?_) (fun i => ?_) a
      · simp only [Pi.add_apply, Pi.smul_apply, Fin.append_left, smul_eq_mul, Pi.one_apply]; field_simp; ring
      · simp only [Pi.add_apply, Pi.smul_apply, Fin.append_right, smul_eq_mul, Pi.one_apply]; field_simp; ring
    rw [zero_dotProduct, add_zero, ← hjit, ← hA]
    unfold weightedMean
    rw [e, Matrix.mulVec_add, Matrix.mulVec_smul, Matrix.mulVec_smul, dotProduct_add, dotProduct_smul, dotProduct_smul, add_div, smul_eq_mul, smul_eq_mul, mul_div_assoc, mul_div_assoc, div_self hq, mul_one]
    have := hT.mu
    rw [← hA] at this
    rw [this, mul_comm]; rfl
  · have h2 : Continuous fun v : Fin (nl + nh) → ℝ => Real.sqrt ((Real.sqrt (max (t.rho ^ 2 * t.lfFit.gls.sigma2 + t.sigma2 - v ⬝ᵥ (A⁻¹ *ᵥ v)) 0) * t.yhStd) ^ 2 + (s * t.yhStd) ^ 2) :=
      Real.continuous_sqrt.comp ((((Real.continuous_sqrt.comp ((continuous_const.sub (continuous_id.dotProduct (continuous_const.matrix_mulVec continuous_id))).max continuous_const)).mul continuous_const).pow 2).add continuous_const)
    refine ((h2.tendsto _).comp hcl).mono_right (le_of_eq (congrArg 𝓝 ?_))
    have h3 := hT.lf.gls.sigma2_nonneg
    have h4 := hT.sigma2
    rw [zero_dotProduct, sub_zero, max_eq_left (by positivity), mul_pow, Real.sq_sqrt (by positivity), mul_pow, ← add_mul, Real.sqrt_mul (by positivity), Real.sqrt_sq hpos.le, hsd, mul_comm]

/-! ### The hypotheses hold -/

example : ∃ hk' t, (exHK (some 0)).train ⟨exWorld, exWorld⟩ (fun i _ => ![0, 1, 2] i : Samples 3 1) ![0, 1, 5] (fun i _ => ![0, 1, 2] i : Samples 3 1) ![0, 1, 2] = .ok (hk', t) ∧ (exHK (some 0)).lf.regr = ordinary 1 := by
  obtain ⟨hk', t, h⟩ := exHK_trains
  exact ⟨hk', t, h, rfl⟩

example : ∃ sk' t, (exSK true .error).train exSKWorld (fun i _ => ![0, 1, 2] i : Samples 3 1) ![0, 1, 5] (fun i _ => ![0, 1, 2] i : Samples 3 1) ![0, 1, 2] = .ok (sk', t) ∧
    (exSK true .error).lf.regr = ordinary 1 ∧ sk'.disc.regr = ordinary 1 := by
  obtain ⟨sk', t, h, _⟩ := exSK_trains
  refine ⟨sk', t, h, rfl, ?_⟩
  obtain ⟨f, disc, h1, h2, h3, h4, _⟩ := skTrain_ok h
  rw [(trained_of_train h4).2.2.2.2.1]
  rw [if_pos (show (exSK true .error).rhoOptimize = true from rfl)] at h3
  obtain ⟨x, _, h5⟩ := Py.bind_ok.mp h3
  simp only [Except.ok.injEq, Prod.mk.injEq] at h5
  rw [← h5.2]; rfl

example (noise : Option ℝ) (h0 : noise ≠ some 0) : ∃ ck' t, (exCK noise).train exCKWorld exX exY exX exY = .ok (ck', t) := exCK_trains noise h0 exX exY exX exY 0 2 exY_ne (by norm_num)

end Mfpml.Props
