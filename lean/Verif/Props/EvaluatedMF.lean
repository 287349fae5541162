import Verif.Props.Evaluated
import Verif.Spec.EvaluatedMF

/-!
# Multi-fidelity predictions at and near evaluated points, whatever the batch (C188, C189)
-/

set_option linter.unusedSectionVars false

open scoped BigOperators Matrix

namespace Mfpml.Props

open Mfpml.GP Mfpml.Spec
open Mfpml.EA (Box)

variable {nh nl n m d q ql qd : ℕ}

/-- The size of fitted weights, for any trend matrix. -/
theorem gls_weights_size {param : Fin d → ℝ} (hp : ∀ k, 0 ≤ param k) {Xs : Samples n d} {τ : ℝ} {K : Matrix (Fin n) (Fin n) ℝ} {F : Matrix (Fin n) (Fin q) ℝ} {ys : Fin n → ℝ} {g : GLS n q}
    (hg : IsGLS K F ys g) (hK : K = covTrain param Xs τ) :
    (∑ i, ∑ k, g.gamma i * g.gamma k * gaussCorr param (Xs i) (Xs k)) + (1e-10 + τ ^ 2) * ∑ i, g.gamma i ^ 2 = n * g.sigma2 := by
  have h1 : (n : ℝ) * g.sigma2 = g.gamma ⬝ᵥ (K *ᵥ g.gamma) := by
    have hn : (n : ℝ) ≠ 0 := by exact_mod_cast hg.pos.ne'
    rw [hg.sigma2, hg.K_gamma, dotProduct_comm, mul_div_cancel₀ _ hn]
  rw [h1, hK, covTrain_apply _ hp]
  simp only [dotProduct, Matrix.mulVec, add_mul, Finset.sum_add_distrib, Finset.mul_sum, mul_add]
  congr 1
  · exact Finset.sum_congr rfl (fun i _ => Finset.sum_congr rfl (fun k _ => by ring))
  · rw [← Finset.sum_add_distrib]
    refine Finset.sum_congr rfl (fun i _ => ?_)
    simp only [ite_mul, zero_mul, mul_ite, mul_zero, Finset.sum_ite_eq, Finset.mem_univ, if_true]
    ring

theorem gls_weights_bound {param : Fin d → ℝ} (hp : ∀ k, 0 ≤ param k) {Xs : Samples n d} {τ : ℝ} {K : Matrix (Fin n) (Fin n) ℝ} {F : Matrix (Fin n) (Fin q) ℝ} {ys : Fin n → ℝ} {g : GLS n q}
    (hg : IsGLS K F ys g) (hK : K = covTrain param Xs τ) : (1e-10 + τ ^ 2) * ∑ i, g.gamma i ^ 2 ≤ n * g.sigma2 := by
  have h1 := gls_weights_size hp hg hK
  have h2 := gauss_quad_nonneg param hp Xs g.gamma
  linarith

/-- The nugget that a row of a batch gets if its number is a sample's moves the correlation part little. -/
theorem gls_nugget_row {param : Fin d → ℝ} (hp : ∀ k, 0 ≤ param k) {Xs : Samples n d} {τ : ℝ} {K : Matrix (Fin n) (Fin n) ℝ} {F : Matrix (Fin n) (Fin q) ℝ} {ys : Fin n → ℝ} {g : GLS n q}
    (hg : IsGLS K F ys g) (hK : K = covTrain param Xs τ) (k : ℕ) (z : Fin d → ℝ) :
    ∃ e : ℝ, |e| ≤ 1e-5 * Real.sqrt (n * g.sigma2) ∧ (∀ hk : k < n, e = 1e-10 * g.gamma ⟨k, hk⟩) ∧ (n ≤ k → e = 0) ∧
      ∑ i : Fin n, (gaussCorr param (Xs i) z + if i.val = k then (1e-10 : ℝ) else 0) * g.gamma i = ∑ i, gaussCorr param (Xs i) z * g.gamma i + e := by
  have hb := gls_weights_bound hp hg hK
  have hs : 0 ≤ τ ^ 2 * ∑ i, g.gamma i ^ 2 := mul_nonneg (sq_nonneg _) (Finset.sum_nonneg fun i _ => sq_nonneg _)
  have hnn : 0 ≤ (n : ℝ) * g.sigma2 := mul_nonneg (Nat.cast_nonneg n) hg.sigma2_nonneg
  by_cases hk : k < n
  · refine ⟨1e-10 * g.gamma ⟨k, hk⟩, ?_, fun _ => rfl, fun h => absurd hk (by omega), ?_⟩
    · apply abs_le_of_sq_le_sq _ (by positivity)
      have hγ : g.gamma ⟨k, hk⟩ ^ 2 ≤ ∑ a, g.gamma a ^ 2 := Finset.single_le_sum (f := fun a => g.gamma a ^ 2) (fun a _ => sq_nonneg _) (Finset.mem_univ _)
      rw [mul_pow, mul_pow, Real.sq_sqrt hnn]
      nlinarith
    · simp only [add_mul, Finset.sum_add_distrib]
      congr 1
      rw [Finset.sum_eq_single ⟨k, hk⟩]
      · simp
      · intro b _ hb
        rw [if_neg (fun hbj => hb (Fin.ext hbj))]; simp
      · intro hh; exact absurd (Finset.mem_univ _) hh
  · refine ⟨0, by simpa using by positivity, fun h => absurd h hk, fun _ => rfl, ?_⟩
    rw [add_zero]
    refine Finset.sum_congr rfl (fun i _ => ?_)
    have := i.isLt
    rw [if_neg (by omega), add_zero]

/-- The fitted expression at a sample, in row number `k` of a batch, misses the scaled response by little. -/
theorem gls_at_sample {param : Fin d → ℝ} (hp : ∀ k, 0 ≤ param k) {Xs : Samples n d} {τ : ℝ} {K : Matrix (Fin n) (Fin n) ℝ} {F : Matrix (Fin n) (Fin q) ℝ} {ys : Fin n → ℝ} {g : GLS n q}
    (hg : IsGLS K F ys g) (hK : K = covTrain param Xs τ) (k : ℕ) (i : Fin n) :
    (F i ⬝ᵥ g.beta + ∑ a : Fin n, (gaussCorr param (Xs a) (Xs i) + if a.val = k then (1e-10 : ℝ) else 0) * g.gamma a - ys i) ^ 2 ≤ 2 * n * (g.sigma2 * (1e-10 + τ ^ 2)) := by
  have hrow : F i ⬝ᵥ g.beta + (∑ a, (gaussCorr param (Xs a) (Xs i)) * g.gamma a) + (1e-10 + τ ^ 2) * g.gamma i = ys i := by
    have := congrFun (mean_train hg) i
    rw [← this, hg.symmK, hK, covTrain_apply _ hp, add_assoc, Pi.add_apply]
    congr 1
    simp only [Matrix.mulVec, dotProduct, add_mul, Finset.sum_add_distrib, ite_mul, zero_mul, Finset.sum_ite_eq, Finset.mem_univ, if_true]
    congr 1
    refine Finset.sum_congr rfl (fun a _ => ?_)
    congr 1
    unfold gaussCorr; congr 2; exact Finset.sum_congr rfl (fun k _ => by ring)
  obtain ⟨e, _, hlt, hge, hsum⟩ := gls_nugget_row hp hg hK k (Xs i)
  rw [hsum]
  have hb := gls_weights_bound hp hg hK
  set s2 : ℝ := τ ^ 2 with hs2
  have hs2nn : 0 ≤ s2 := sq_nonneg _
  have hfin : ∀ x : ℝ, x ^ 2 ≤ 2 * (1e-10 + s2) ^ 2 * ∑ a, g.gamma a ^ 2 → x ^ 2 ≤ 2 * n * (g.sigma2 * (1e-10 + s2)) := by
    intro x hx
    refine hx.trans ?_
    have := mul_le_mul_of_nonneg_left hb (by positivity : 0 ≤ 2 * (1e-10 + s2))
    refine le_trans (le_of_eq ?_) (this.trans (le_of_eq ?_)) <;> ring
  have hγi : g.gamma i ^ 2 ≤ ∑ a, g.gamma a ^ 2 := Finset.single_le_sum (f := fun a => g.gamma a ^ 2) (fun a _ => sq_nonneg _) (Finset.mem_univ i)
  rw [show F i ⬝ᵥ g.beta + (∑ a, gaussCorr param (Xs a) (Xs i) * g.gamma a + e) - ys i = e - (1e-10 + s2) * g.gamma i by rw [← hrow]; ring]
  apply hfin
  by_cases hk : k < n
  · rw [hlt hk]
    by_cases hij : (⟨k, hk⟩ : Fin n) = i
    · rw [hij]
      have : (1e-10 * g.gamma i - (1e-10 + s2) * g.gamma i) ^ 2 = s2 ^ 2 * g.gamma i ^ 2 := by ring
      rw [this]
      have h2 : s2 ^ 2 ≤ 2 * (1e-10 + s2) ^ 2 := by nlinarith
      exact mul_le_mul h2 hγi (sq_nonneg _) (by positivity)
    · have h2 : g.gamma ⟨k, hk⟩ ^ 2 + g.gamma i ^ 2 ≤ ∑ a, g.gamma a ^ 2 := by
        rw [← Finset.sum_pair (f := fun a => g.gamma a ^ 2) hij]
        exact Finset.sum_le_sum_of_subset_of_nonneg (Finset.subset_univ _) (fun a _ _ => sq_nonneg _)
      have h3 : (1e-10 * g.gamma ⟨k, hk⟩ - (1e-10 + s2) * g.gamma i) ^ 2 ≤ 2 * (1e-10 + s2) ^ 2 * (g.gamma ⟨k, hk⟩ ^ 2 + g.gamma i ^ 2) := by
        have h4 : (1e-10 : ℝ) ^ 2 ≤ (1e-10 + s2) ^ 2 := by nlinarith
        have h5 := mul_le_mul_of_nonneg_right h4 (sq_nonneg (g.gamma ⟨k, hk⟩))
        nlinarith [sq_nonneg (1e-10 * g.gamma ⟨k, hk⟩ + (1e-10 + s2) * g.gamma i)]
      exact h3.trans (mul_le_mul_of_nonneg_left h2 (by positivity))
  · rw [hge (by omega)]
    have : (0 - (1e-10 + s2) * g.gamma i) ^ 2 = (1e-10 + s2) ^ 2 * g.gamma i ^ 2 := by ring
    rw [this]
    have h2 : (1e-10 + s2) ^ 2 ≤ 2 * (1e-10 + s2) ^ 2 := by nlinarith [sq_nonneg (1e-10 + s2)]
    exact mul_le_mul h2 hγi (sq_nonneg _) (by positivity)

/-- The predicted means at one point in two rows of two batches differ by little. -/
theorem gp_same_point {gp : GPObj d q} {t : GPFit n d q} (hT : Trained gp t) {m' : ℕ} (Xa : Samples m d) (Xb : Samples m' d) (ja : Fin m) (jb : Fin m') (hx : Xa ja = Xb jb)
    (μa : Fin m → ℝ) (μb : Fin m' → ℝ) (ha : GP.predictMean gp t Xa = .ok μa) (hb : GP.predictMean gp t Xb = .ok μb) :
    |μa ja - μb jb| ≤ 2e-5 * Real.sqrt (n * t.gls.sigma2) * t.yStd := by
  rw [mean_row hT] at ha hb
  obtain ⟨ea, hea, ea'⟩ := nugget_row hT ja.val (normPt gp.box (Xa ja))
  obtain ⟨eb, heb, eb'⟩ := nugget_row hT jb.val (normPt gp.box (Xb jb))
  rw [← congrFun (Except.ok.inj ha) ja, ← congrFun (Except.ok.inj hb) jb]
  rw [ea', eb', hx]
  have hs := hT.stdpos.le
  rw [show ∀ c A : ℝ, (c + (A + ea)) * t.yStd + t.yMean - ((c + (A + eb)) * t.yStd + t.yMean) = (ea - eb) * t.yStd from fun c A => by ring, abs_mul, abs_of_nonneg hs]
  refine mul_le_mul_of_nonneg_right ((abs_sub _ _).trans ?_) hs
  linarith

/-- The predicted mean of hierarchical Kriging, row by row. -/
theorem hk_mean_row {hk : HKObj d q} {t : HKFit nh nl d q} (hT : HKTrained hk t) (Xnew : Samples m d) {fl : Fin m → ℝ} (hfl : hk.predictLf t Xnew = .ok fl) :
    hk.predict t Xnew = .ok (fun j => ((fl j - t.yhMean) / t.yhStd * t.gls.beta 0 +
      ∑ i, (gaussCorr hk.kernel.param (t.Xhs i) (normPt hk.box (Xnew j)) + if i.val = j.val then 1e-10 else 0) * t.gls.gamma i) * t.yhStd + t.yhMean) := by
  rw [hkPredict_eq hT Xnew hfl]
  congr 1
  funext j
  have e2 : ((rbfMatrix hk.kernel.param t.Xhs (fun i => normPt hk.box (Xnew i)))ᵀ *ᵥ t.gls.gamma) j =
      (fun i => rbfMatrix hk.kernel.param t.Xhs (fun i => normPt hk.box (Xnew i)) i j) ⬝ᵥ t.gls.gamma := rfl
  have e1 : (scaleCol fl t.yhMean t.yhStd *ᵥ t.gls.beta) j = (fl j - t.yhMean) / t.yhStd * t.gls.beta 0 := by
    simp [Matrix.mulVec, dotProduct, scaleCol]
  rw [Pi.add_apply, e2, rbfMatrix_col _ (fun k => (hT.param k).le), e1]
  rfl

/-- C188 (hierarchical Kriging, mean). In every batch and every row of it, the prediction at a high-fidelity sample misses its response by at most `sqrt (2 nh v) + 2e-5 |β| sqrt (nl σl²) sl` with
`v = σ² (1e-10 s² + noise²)`: `σ²`, `β` and `s` are the fitted process variance, the fitted factor on the low-fidelity prediction and the spread of the high-fidelity responses; `σl²`, `sl` the fitted process
variance and the spread of the responses at the low fidelity. -/
theorem C188_hk_mean (hk : HKObj d q) (w : MFWorld d) (Xh : Samples nh d) (yh : Fin nh → ℝ) (Xl : Samples nl d) (yl : Fin nl → ℝ)
    (hk' : HKObj d q) (t : HKFit nh nl d q) (h : hk.train w Xh yh Xl yl = .ok (hk', t)) (Xnew : Samples m d) (j : Fin m) (i : Fin nh) (hx : Xnew j = Xh i) :
    ∃ μ, hk'.predict t Xnew = .ok μ ∧
      |μ j - yh i| ≤ Real.sqrt (2 * nh * (t.gls.sigma2 * (1e-10 * std yh ^ 2 + t.noise ^ 2))) + 2e-5 * |t.gls.beta 0| * (Real.sqrt (nl * t.lfFit.gls.sigma2) * std yl) := by
  obtain ⟨hT, hX, hy, hbox, hlf, hno, hmn, hstd, hys⟩ := hkTrained_of_train h
  have hp := fun k => (hT.param k).le
  obtain ⟨lfh, hlfh, hTF⟩ := hT.F
  obtain ⟨lfn, hlfn⟩ := hkPredictLf_ok hT Xnew
  refine ⟨_, hk_mean_row hT Xnew hlfn, ?_⟩
  have hxi : normPt hk'.box (Xnew j) = t.Xhs i := by rw [hT.Xhs, hX, hx]
  rw [hxi]
  have h1 := gls_at_sample hp hT.gls hT.K j.val i
  have h2 := gp_same_point hT.lf Xnew t.Xh j i (by rw [hx, hX]) lfn lfh hlfn hlfh
  obtain ⟨_, _, _, _, _, _, _, hsl, _⟩ := trained_of_train hlf
  rw [hsl] at h2
  have hFi : t.F i ⬝ᵥ t.gls.beta = (lfh i - t.yhMean) / t.yhStd * t.gls.beta 0 := by
    rw [hTF]; simp [dotProduct, scaleCol]
  rw [hFi] at h1
  have hs := hT.stdpos
  set S := ∑ a : Fin nh, (gaussCorr hk'.kernel.param (t.Xhs a) (t.Xhs i) + if a.val = j.val then (1e-10 : ℝ) else 0) * t.gls.gamma a with hS
  have hyi := hT.yhs i
  have e1 : ((lfn j - t.yhMean) / t.yhStd * t.gls.beta 0 + S) * t.yhStd + t.yhMean - yh i =
      ((lfh i - t.yhMean) / t.yhStd * t.gls.beta 0 + S - t.yhs i) * t.yhStd + t.gls.beta 0 * (lfn j - lfh i) := by
    rw [← hy, ← hyi]; field_simp; ring
  rw [e1]
  refine (abs_add_le _ _).trans (add_le_add ?_ ?_)
  · apply Real.abs_le_sqrt
    rw [mul_pow, ← hstd]
    refine (mul_le_mul_of_nonneg_right h1 (sq_nonneg _)).trans (le_of_eq ?_)
    field_simp
  · rw [abs_mul]
    refine (mul_le_mul_of_nonneg_left h2 (abs_nonneg _)).trans (le_of_eq ?_)
    ring

/-- Weights that take observation `i` and `ε` times observation `l`. -/
theorem predErr_pick_add (C : Fin n → Fin n → ℝ) (hsym : ∀ a b, C a b = C b a) (c : Fin n → ℝ) (i l : Fin n) (ε : ℝ) :
    predErr 1 C c (fun a => pickWeights i a + ε * pickWeights l a) = 1 - 2 * c i + C i i + 2 * ε * (C l i - c l) + ε ^ 2 * C l l := by
  simp only [predErr, pickWeights, add_mul, mul_add, Finset.sum_add_distrib, ite_mul, mul_ite, one_mul, mul_one, zero_mul, mul_zero, Finset.sum_ite_eq', Finset.mem_univ, if_true]
  rw [hsym i l]
  ring

theorem gaussCorr_symm (θ x x' : Fin d → ℝ) : gaussCorr θ x x' = gaussCorr θ x' x := by
  unfold gaussCorr; congr 2; exact Finset.sum_congr rfl (fun k _ => by ring)

/-- C188 (hierarchical Kriging, standard deviation). In every batch and every row of it, the squared standard deviation at a high-fidelity sample is at most
`σ² s² ((1e-10 + noise²/s²) (1 + 2 ε) + ε² (1 + 1e-10 + noise²/s²)) + noise²`, where `ε = 2e-5 sqrt (nl σl²) sl / |f l - mean yh|` for any high-fidelity sample `l` whose low-fidelity prediction `f l` is not
the average of the high-fidelity responses. -/
theorem C188_hk_std (hk : HKObj d q) (w : MFWorld d) (Xh : Samples nh d) (yh : Fin nh → ℝ) (Xl : Samples nl d) (yl : Fin nl → ℝ)
    (hk' : HKObj d q) (t : HKFit nh nl d q) (h : hk.train w Xh yh Xl yl = .ok (hk', t)) (f : Fin nh → ℝ) (hf : hk'.predictLf t Xh = .ok f) (l : Fin nh) (hl : f l ≠ mean yh)
    (ε : ℝ) (hε : ε = 2e-5 * (Real.sqrt (nl * t.lfFit.gls.sigma2) * std yl) / |f l - mean yh|) (Xnew : Samples m d) (j : Fin m) (i : Fin nh) (hx : Xnew j = Xh i) :
    ∃ μ σ, hk'.predictStd t Xnew = .ok (μ, σ) ∧
      σ j ^ 2 ≤ t.gls.sigma2 * std yh ^ 2 * ((1e-10 + (t.noise / std yh) ^ 2) * (1 + 2 * ε) + ε ^ 2 * (1 + 1e-10 + (t.noise / std yh) ^ 2)) + t.noise ^ 2 := by
  obtain ⟨lfh, lfn, μ, σ, hlfh, hlfn, _, hpred, hs2, hrow⟩ := C100_hk_best_linear_unbiased hk w Xh yh Xl yl hk' t h Xnew
  rw [hlfh] at hf
  obtain rfl := Except.ok.inj hf
  obtain ⟨wt, hb, _, hσ, _⟩ := hrow j
  obtain ⟨hT, hX, hy, hbox, hlf, hno, hmn, hstd, hys⟩ := hkTrained_of_train h
  have hp := fun k => (hT.param k).le
  have hspos : 0 < std yh := hstd ▸ hT.stdpos
  refine ⟨μ, σ, hpred, ?_⟩
  have h2 := gp_same_point hT.lf Xnew Xh j i hx lfn lfh hlfn hlfh
  obtain ⟨_, _, _, _, _, _, _, hsl, _⟩ := trained_of_train hlf
  rw [hsl, mul_assoc] at h2
  have hl0 : 0 < |lfh l - mean yh| := abs_pos.mpr (sub_ne_zero.mpr hl)
  set δ : ℝ := (lfn j - lfh i) / (lfh l - mean yh) with hδ
  have hδε : |δ| ≤ ε := by
    rw [hδ, abs_div, hε]
    exact div_le_div_of_nonneg_right h2 hl0.le
  have hε0 : 0 ≤ ε := (abs_nonneg _).trans hδε
  rw [hσ]
  refine add_le_add (mul_le_mul_of_nonneg_left (max_le ?_ (by positivity)) (by positivity)) le_rfl
  have hub : UnbiasedWeights (fun (i : Fin nh) (_ : Fin 1) => (lfh i - mean yh) / std yh) (fun _ => (lfn j - mean yh) / std yh) (fun a => pickWeights i a + δ * pickWeights l a) := by
    intro b
    simp [pickWeights, add_mul, Finset.sum_add_distrib]
    have hne : lfh l - mean yh ≠ 0 := sub_ne_zero.mpr hl
    rw [hδ]
    field_simp
    ring
  refine (best_le hb hub).trans ?_
  rw [predErr_pick_add]
  · dsimp only
    rw [hx, gaussCorr_self, gaussCorr_self, if_pos rfl, if_pos rfl]
    set τ2 : ℝ := (t.noise / std yh) ^ 2 with hτ2
    have hτ0 : 0 ≤ τ2 := sq_nonneg _
    have hdiff : |(gaussCorr hk'.kernel.param (fun k => (Xh l k - hk.box.low k) / (hk.box.high k - hk.box.low k)) (fun k => (Xh i k - hk.box.low k) / (hk.box.high k - hk.box.low k)) +
        if l = i then 1e-10 + τ2 else 0) -
        (gaussCorr hk'.kernel.param (fun k => (Xh l k - hk.box.low k) / (hk.box.high k - hk.box.low k)) (fun k => (Xh i k - hk.box.low k) / (hk.box.high k - hk.box.low k)) +
        if l.val = j.val then 1e-10 else 0)| ≤ 1e-10 + τ2 := by
      rw [abs_le]
      constructor <;> split <;> split <;> linarith
    have h3 := (le_abs_self _).trans ((abs_mul δ _).le.trans (mul_le_mul hδε hdiff (abs_nonneg _) hε0))
    have h4 : δ ^ 2 ≤ ε ^ 2 := sq_le_sq' (by linarith [neg_abs_le δ]) ((le_abs_self _).trans hδε)
    have h5 := mul_le_mul_of_nonneg_right h4 (by linarith : (0:ℝ) ≤ 1 + (1e-10 + τ2))
    have h6 : (1:ℝ) - 2 * (1 + if i.val = j.val then 1e-10 else 0) + (1 + (1e-10 + τ2)) ≤ 1e-10 + τ2 := by split <;> linarith
    rw [mul_assoc 2 δ]
    linarith
  · intro a b
    rw [gaussCorr_symm]
    congr 1
    simp only [eq_comm]

/-- C188 (hierarchical Kriging, the reference sample). After every training there is a sample `l` as `C188_hk_std` asks for. -/
theorem C188_hk_reference (hk : HKObj d q) (w : MFWorld d) (Xh : Samples nh d) (yh : Fin nh → ℝ) (Xl : Samples nl d) (yl : Fin nl → ℝ)
    (hk' : HKObj d q) (t : HKFit nh nl d q) (h : hk.train w Xh yh Xl yl = .ok (hk', t)) : ∃ f, hk'.predictLf t Xh = .ok f ∧ ∃ l, f l ≠ mean yh := by
  obtain ⟨hT, hX, _, _, _, _, hmn, _⟩ := hkTrained_of_train h
  obtain ⟨f, hf, hF⟩ := hT.F
  rw [hX] at hf
  refine ⟨f, hf, ?_⟩
  by_contra hcon
  push Not at hcon
  have hF0 : t.F = 0 := by
    rw [hF]
    ext i k
    simp [scaleCol, hcon i, hmn]
  have hpd := hT.gls.cholM.posDef
  rw [hF0] at hpd
  have := hpd.diag_pos (i := 0)
  simp at this

/-- C188 (scaled Kriging). In every batch and every row of it, the prediction (asked for with standard deviation, see C43 for the other form) at a high-fidelity sample misses its response by at most
`sqrt (2 nh v) + 2e-5 |ρ| sqrt (nl σl²) sl`, with `v = σd² (1e-10 sd² + noise²)` for the process variance, spread and noise of the discrepancy; the squared standard deviation is at most `v + noise²` above
`ρ²` times that of the low-fidelity model, and at a point sampled at both fidelities at most `v + noise² + ρ² (vl + noisel²)`. -/
theorem C188_sk (sk : SKObj d ql qd) (w : SKWorld d) (Xh : Samples nh d) (yh : Fin nh → ℝ) (Xl : Samples nl d) (yl : Fin nl → ℝ)
    (sk' : SKObj d ql qd) (t : SKFit nh nl d ql qd) (h : sk.train w Xh yh Xl yl = .ok (sk', t)) (Xnew : Samples m d) (j : Fin m) (i : Fin nh) (hx : Xnew j = Xh i) :
    ∃ μ σ μl σl f, sk'.predictStd t Xnew = .ok (μ, σ) ∧ GP.predictStd sk'.lf t.lfFit Xnew = .ok (μl, σl) ∧ GP.predictMean sk'.lf t.lfFit Xh = .ok f ∧
      |μ j - yh i| ≤ Real.sqrt (2 * nh * (t.discFit.gls.sigma2 * (1e-10 * std (fun a => yh a - sk'.rho * f a) ^ 2 + t.discFit.noise ^ 2))) +
        2e-5 * |sk'.rho| * (Real.sqrt (nl * t.lfFit.gls.sigma2) * std yl) ∧
      σ j ^ 2 ≤ sk'.rho ^ 2 * σl j ^ 2 + (t.discFit.gls.sigma2 * (1e-10 * std (fun a => yh a - sk'.rho * f a) ^ 2 + t.discFit.noise ^ 2) + t.discFit.noise ^ 2) ∧
      ∀ k, Xh i = Xl k → σ j ^ 2 ≤ sk'.rho ^ 2 * (t.lfFit.gls.sigma2 * (1e-10 * std yl ^ 2 + t.lfFit.noise ^ 2) + t.lfFit.noise ^ 2) +
        (t.discFit.gls.sigma2 * (1e-10 * std (fun a => yh a - sk'.rho * f a) ^ 2 + t.discFit.noise ^ 2) + t.discFit.noise ^ 2) := by
  obtain ⟨f, disc, h1, h2, h3, h4, hXh, hyh⟩ := skTrain_ok h
  obtain ⟨μd, σd, hd, hd1, hd2⟩ := C114_gp_evaluated disc w.disc Xh _ sk'.disc t.discFit h4 Xnew j i hx
  obtain ⟨hTl, _, _, _, _, _, _, hsl, _⟩ := trained_of_train h1
  obtain ⟨μl, hμl⟩ : ∃ μl, GP.predictMean sk'.lf t.lfFit Xnew = .ok μl := ⟨_, predictMean_eq hTl Xnew⟩
  obtain ⟨μl', σl, _, hl, -⟩ := C100_best_linear_unbiased sk.lf w.lf Xl yl sk'.lf t.lfFit h1 Xnew
  have hμ' := C37_gp _ _ _ _ _ hl
  rw [hμl] at hμ'
  obtain rfl := Except.ok.inj hμ'
  have hσj : Real.sqrt (sk'.rho ^ 2 * σl j ^ 2 + σd j ^ 2) ^ 2 = sk'.rho ^ 2 * σl j ^ 2 + σd j ^ 2 := Real.sq_sqrt (by positivity)
  refine ⟨_, _, μl, σl, f, Py.bind_ok.mpr ⟨_, hl, Py.bind_ok.mpr ⟨_, hd, rfl⟩⟩, hl, h2, ?_, ?_, fun k hk => ?_⟩
  · have h5 := gp_same_point hTl Xnew Xh j i hx μl f hμl h2
    rw [hsl] at h5
    unfold getDisc at hd1
    rw [show sk'.rho * μl j + μd j - yh i = (μd j - (yh i - sk'.rho * f i)) + sk'.rho * (μl j - f i) by ring]
    refine (abs_add_le _ _).trans (add_le_add (Real.abs_le_sqrt hd1) ?_)
    rw [abs_mul]
    refine (mul_le_mul_of_nonneg_left h5 (abs_nonneg _)).trans (le_of_eq ?_)
    ring
  · rw [hσj]
    exact add_le_add le_rfl hd2
  · rw [hσj]
    obtain ⟨μ2, σ2, hl2, _, hl3⟩ := C114_gp_evaluated sk.lf w.lf Xl yl sk'.lf t.lfFit h1 Xnew j k (hx.trans hk)
    rw [hl] at hl2
    obtain ⟨rfl, rfl⟩ := Prod.mk.inj (Except.ok.inj hl2)
    exact add_le_add (mul_le_mul_of_nonneg_left hl3 (sq_nonneg _)) hd2

/-- The hypotheses of C188 are met: hierarchical and scaled Kriging trained on three samples, the second of them asked for in the first and in the fifth row of a batch. -/
example : (∃ hk' t f, (exHK (some 0)).train ⟨exWorld, exWorld⟩ (fun i _ => ![0, 1, 2] i : Samples 3 1) ![0, 1, 5] (fun i _ => ![0, 1, 2] i : Samples 3 1) ![0, 1, 2] = .ok (hk', t) ∧
      hk'.predictLf t (fun i _ => ![0, 1, 2] i : Samples 3 1) = .ok f ∧ ∃ l : Fin 3, f l ≠ mean ![0, 1, 5]) ∧
    ∃ sk' t, (exSK true .error).train exSKWorld (fun i _ => ![0, 1, 2] i : Samples 3 1) ![0, 1, 5] (fun i _ => ![0, 1, 2] i : Samples 3 1) ![0, 1, 2] = .ok (sk', t) ∧
      ∃ μ σ, sk'.predictStd t (fun _ _ => 1 : Samples 5 1) = .ok (μ, σ) := by
  constructor
  · obtain ⟨hk', t, h⟩ := exHK_trains
    obtain ⟨_, _, _, _, hlf, _⟩ := hkTrained_of_train h
    have hf := C34_interpolation _ _ _ _ rfl _ _ hlf
    refine ⟨hk', t, _, h, hf, 0, ?_⟩
    have hmean : mean (![0, 1, 5] : Fin 3 → ℝ) = 2 := by
      unfold mean; rw [Fin.sum_univ_three]; simp; norm_num
    rw [hmean]; simp
  · obtain ⟨sk', t, h, _⟩ := exSK_trains
    obtain ⟨μ, σ, _, _, _, hp, _⟩ := C188_sk _ _ _ _ _ _ _ _ h (fun _ _ => 1 : Samples 5 1) 0 1 (by funext k; simp)
    exact ⟨sk', t, h, μ, σ, hp⟩

/-! ## C189: multi-fidelity predictions vary slowly -/

/-- Increments of the correlation part of a fit, with the nuggets of the rows. -/
theorem gls_increment {param : Fin d → ℝ} (hp : ∀ k, 0 ≤ param k) {Xs : Samples n d} {τ : ℝ} {K : Matrix (Fin n) (Fin n) ℝ} {F : Matrix (Fin n) (Fin q) ℝ} {ys : Fin n → ℝ} {g : GLS n q}
    (hg : IsGLS K F ys g) (hK : K = covTrain param Xs τ) (k k' : ℕ) (z z' : Fin d → ℝ) :
    |∑ i : Fin n, (gaussCorr param (Xs i) z + if i.val = k then (1e-10 : ℝ) else 0) * g.gamma i - ∑ i : Fin n, (gaussCorr param (Xs i) z' + if i.val = k' then (1e-10 : ℝ) else 0) * g.gamma i| ≤
      Real.sqrt (2 * n * g.sigma2 * ∑ k, param k * (z k - z' k) ^ 2) + 2e-5 * Real.sqrt (n * g.sigma2) := by
  obtain ⟨ea, hea, _, _, ea'⟩ := gls_nugget_row hp hg hK k z
  obtain ⟨eb, heb, _, _, eb'⟩ := gls_nugget_row hp hg hK k' z'
  rw [ea', eb']
  have hdiff := kernel_increment param hp Xs g.gamma z z'
  have hsize := gls_weights_size hp hg hK
  have hle : (∑ i, ∑ k, g.gamma i * g.gamma k * gaussCorr param (Xs i) (Xs k)) ≤ n * g.sigma2 := by
    have : 0 ≤ (1e-10 + τ ^ 2) * ∑ i, g.gamma i ^ 2 := mul_nonneg (by positivity) (Finset.sum_nonneg (fun i _ => sq_nonneg _))
    linarith
  have hgc := gaussCorr_ge param z z'
  have hg0 : gaussCorr param z z' ≤ 1 := by
    unfold gaussCorr
    rw [Real.exp_le_one_iff, neg_nonpos]
    exact Finset.sum_nonneg (fun k _ => mul_nonneg (hp k) (sq_nonneg _))
  have h1 := hdiff.trans (mul_le_mul hle (mul_le_mul_of_nonneg_left hgc (by norm_num : (0:ℝ) ≤ 2)) (by linarith) (mul_nonneg (Nat.cast_nonneg n) hg.sigma2_nonneg))
  rw [show (n : ℝ) * g.sigma2 * (2 * ∑ k, param k * (z k - z' k) ^ 2) = 2 * n * g.sigma2 * ∑ k, param k * (z k - z' k) ^ 2 by ring] at h1
  have h2 := Real.abs_le_sqrt h1
  simp only [sub_mul, Finset.sum_sub_distrib] at h2
  rw [show ∀ A B : ℝ, A + ea - (B + eb) = (A - B) + (ea - eb) from fun A B => by ring]
  refine (abs_add_le _ _).trans (add_le_add h2 ((abs_sub _ _).trans ?_))
  linarith

/-- C189 (hierarchical Kriging). If the low-fidelity basis is constant (the default), the predictions at two points, in any rows of any batches, differ by at most the step of the high-fidelity process
(weighted distance for its length scales) plus `|β|` times the step of the low-fidelity process (weighted distance for the length scales of that process). -/
theorem C189_hk (hk : HKObj d q) (w : MFWorld d) (Xh : Samples nh d) (yh : Fin nh → ℝ) (Xl : Samples nl d) (yl : Fin nl → ℝ)
    (hk' : HKObj d q) (t : HKFit nh nl d q) (h : hk.train w Xh yh Xl yl = .ok (hk', t)) (hconst : ∀ x x', hk.lf.regr x = hk.lf.regr x')
    {m' : ℕ} (Xa : Samples m d) (Xb : Samples m' d) (ja : Fin m) (jb : Fin m') :
    ∃ μa μb, hk'.predict t Xa = .ok μa ∧ hk'.predict t Xb = .ok μb ∧
      |μa ja - μb jb| ≤ meanStep nh t.gls.sigma2 (std yh) (weightedDist hk'.kernel.param hk.box (Xa ja) (Xb jb)) +
        |t.gls.beta 0| * meanStep nl t.lfFit.gls.sigma2 (std yl) (weightedDist hk'.lf.kernel.param hk.lf.box (Xa ja) (Xb jb)) := by
  obtain ⟨hT, hX, hy, hbox, hlf, hno, hmn, hstd, hys⟩ := hkTrained_of_train h
  obtain ⟨la, lb, hla, hlb, hll⟩ := C115_gp_mean hk.lf w.lf Xl yl hk'.lf t.lfFit hlf hconst Xa Xb ja jb
  refine ⟨_, _, hk_mean_row hT Xa hla, hk_mean_row hT Xb hlb, ?_⟩
  have hinc := gls_increment (fun k => (hT.param k).le) hT.gls hT.K ja.val jb.val (normPt hk'.box (Xa ja)) (normPt hk'.box (Xb jb))
  set A := ∑ i : Fin nh, (gaussCorr hk'.kernel.param (t.Xhs i) (normPt hk'.box (Xa ja)) + if i.val = ja.val then (1e-10 : ℝ) else 0) * t.gls.gamma i
  set B := ∑ i : Fin nh, (gaussCorr hk'.kernel.param (t.Xhs i) (normPt hk'.box (Xb jb)) + if i.val = jb.val then (1e-10 : ℝ) else 0) * t.gls.gamma i
  have hs := hT.stdpos
  have e1 : ((la ja - t.yhMean) / t.yhStd * t.gls.beta 0 + A) * t.yhStd + t.yhMean - (((lb jb - t.yhMean) / t.yhStd * t.gls.beta 0 + B) * t.yhStd + t.yhMean) =
      (A - B) * t.yhStd + t.gls.beta 0 * (la ja - lb jb) := by
    field_simp; ring
  rw [e1]
  refine (abs_add_le _ _).trans (add_le_add ?_ ?_)
  · rw [abs_mul, abs_of_pos hs, ← hstd]
    rw [hbox] at hinc
    exact mul_le_mul_of_nonneg_right hinc hs.le
  · rw [abs_mul]
    exact mul_le_mul_of_nonneg_left hll (abs_nonneg _)

/-- C189 (scaled Kriging). If both bases are constant, the predictions at two points, in any rows of any batches, differ by at most the step of the discrepancy plus `|ρ|` times that of the low-fidelity process
when asked for with standard deviation, and by at most the step of the low-fidelity process plus `|ρ|` times that of the discrepancy when asked for without (the two forms differ, C43). -/
theorem C189_sk (sk : SKObj d ql qd) (w : SKWorld d) (Xh : Samples nh d) (yh : Fin nh → ℝ) (Xl : Samples nl d) (yl : Fin nl → ℝ)
    (sk' : SKObj d ql qd) (t : SKFit nh nl d ql qd) (h : sk.train w Xh yh Xl yl = .ok (sk', t)) (hl : ∀ x x', sk.lf.regr x = sk.lf.regr x') (hd : ∀ x x', sk'.disc.regr x = sk'.disc.regr x')
    {m' : ℕ} (Xa : Samples m d) (Xb : Samples m' d) (ja : Fin m) (jb : Fin m') :
    ∃ f, GP.predictMean sk'.lf t.lfFit Xh = .ok f ∧
      let lfStep := meanStep nl t.lfFit.gls.sigma2 (std yl) (weightedDist sk'.lf.kernel.param sk.lf.box (Xa ja) (Xb jb))
      let discStep := meanStep nh t.discFit.gls.sigma2 (std fun i => yh i - sk'.rho * f i) (weightedDist sk'.disc.kernel.param sk'.disc.box (Xa ja) (Xb jb))
      (∃ μa σa μb σb, sk'.predictStd t Xa = .ok (μa, σa) ∧ sk'.predictStd t Xb = .ok (μb, σb) ∧ |μa ja - μb jb| ≤ discStep + |sk'.rho| * lfStep) ∧
      ∃ μa μb, sk'.predict t Xa = .ok μa ∧ sk'.predict t Xb = .ok μb ∧ |μa ja - μb jb| ≤ lfStep + |sk'.rho| * discStep := by
  obtain ⟨f, disc, h1, h2, h3, h4, hXh, hyh⟩ := skTrain_ok h
  obtain ⟨_, _, _, hbox, hregr, _⟩ := trained_of_train h4
  obtain ⟨la, lb, hla, hlb, hll⟩ := C115_gp_mean sk.lf w.lf Xl yl sk'.lf t.lfFit h1 hl Xa Xb ja jb
  obtain ⟨da, db, hda, hdb, hdd⟩ := C115_gp_mean disc w.disc Xh _ sk'.disc t.discFit h4 (by rw [← hregr]; exact hd) Xa Xb ja jb
  have std_of : ∀ {k : ℕ} (X : Samples k d) (a b : Fin k → ℝ), GP.predictMean sk'.lf t.lfFit X = .ok a → GP.predictMean sk'.disc t.discFit X = .ok b →
      ∃ σ, sk'.predictStd t X = .ok (fun j => sk'.rho * a j + b j, σ) := by
    intro k X a b ha hb
    obtain ⟨a', σ1, _, e1, -⟩ := C100_best_linear_unbiased sk.lf w.lf Xl yl sk'.lf t.lfFit h1 X
    obtain ⟨b', σ2, _, e2, -⟩ := C100_best_linear_unbiased disc w.disc Xh _ sk'.disc t.discFit h4 X
    have e1' := C37_gp _ _ _ _ _ e1
    have e2' := C37_gp _ _ _ _ _ e2
    rw [ha] at e1'
    rw [hb] at e2'
    obtain rfl := Except.ok.inj e1'
    obtain rfl := Except.ok.inj e2'
    exact ⟨_, Py.bind_ok.mpr ⟨_, e1, Py.bind_ok.mpr ⟨_, e2, rfl⟩⟩⟩
  obtain ⟨σa, hσa⟩ := std_of Xa la da hla hda
  obtain ⟨σb, hσb⟩ := std_of Xb lb db hlb hdb
  rw [← hbox] at hdd
  refine ⟨f, h2, ⟨_, σa, _, σb, hσa, hσb, ?_⟩, _, _, Py.bind_ok.mpr ⟨_, hda, Py.bind_ok.mpr ⟨_, hla, rfl⟩⟩, Py.bind_ok.mpr ⟨_, hdb, Py.bind_ok.mpr ⟨_, hlb, rfl⟩⟩, ?_⟩
  · rw [show sk'.rho * la ja + da ja - (sk'.rho * lb jb + db jb) = (da ja - db jb) + sk'.rho * (la ja - lb jb) by ring]
    refine (abs_add_le _ _).trans (add_le_add hdd ?_)
    rw [abs_mul]
    exact mul_le_mul_of_nonneg_left hll (abs_nonneg _)
  · rw [show da ja * sk'.rho + la ja - (db jb * sk'.rho + lb jb) = (la ja - lb jb) + sk'.rho * (da ja - db jb) by ring]
    refine (abs_add_le _ _).trans (add_le_add hll ?_)
    rw [abs_mul]
    exact mul_le_mul_of_nonneg_left hdd (abs_nonneg _)

/-- The hypotheses of C189 are met by the example models: their bases are the constant ones. -/
example : (∃ hk' t, (exHK (some 0)).train ⟨exWorld, exWorld⟩ (fun i _ => ![0, 1, 2] i : Samples 3 1) ![0, 1, 5] (fun i _ => ![0, 1, 2] i : Samples 3 1) ![0, 1, 2] = .ok (hk', t)) ∧
    (∀ x x', (exHK (some 0)).lf.regr x = (exHK (some 0)).lf.regr x') ∧
    ∃ sk' t, (exSK true .error).train exSKWorld (fun i _ => ![0, 1, 2] i : Samples 3 1) ![0, 1, 5] (fun i _ => ![0, 1, 2] i : Samples 3 1) ![0, 1, 2] = .ok (sk', t) ∧
      (∀ x x', (exSK true .error).lf.regr x = (exSK true .error).lf.regr x') ∧ ∀ x x', sk'.disc.regr x = sk'.disc.regr x' := by
  refine ⟨exHK_trains, fun _ _ => rfl, ?_⟩
  obtain ⟨sk', t, h, _⟩ := exSK_trains
  refine ⟨sk', t, h, fun _ _ => rfl, ?_⟩
  obtain ⟨f, disc, h1, h2, h3, h4, _⟩ := skTrain_ok h
  rw [(trained_of_train h4).2.2.2.2.1]
  rw [if_pos (show (exSK true .error).rhoOptimize = true from rfl)] at h3
  obtain ⟨x, _, h5⟩ := Py.bind_ok.mp h3
  simp only [Except.ok.injEq, Prod.mk.injEq] at h5
  rw [← h5.2]
  exact fun _ _ => rfl

end Mfpml.Props
