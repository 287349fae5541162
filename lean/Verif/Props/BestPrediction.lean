import Verif.Lemmas.BestPrediction
import Verif.Props.MFKriging

/-!
# The predictions are best linear unbiased predictions (C100, C101)
-/

set_option linter.unusedSectionVars false

open scoped BigOperators Matrix

namespace Mfpml.Props

open Mfpml.GP Mfpml.Spec
open Mfpml.EA (Box)

variable {nh nl n m d q : ℕ}

theorem best_of_gls {K : Matrix (Fin n) (Fin n) ℝ} {F : Matrix (Fin n) (Fin q) ℝ} {y : Fin n → ℝ} {g : GLS n q} (h : IsGLS K F y g) (c : Fin n → ℝ)
    (f : Fin q → ℝ) : BestLinearUnbiased K c F f (krigingWeights K F c f) := by
  refine ⟨(unbiased_iff _ _ _).mpr (krigingWeights_unbiased h c f), fun w hw hne v => ?_⟩
  rw [predErr_krigingWeights h v c f w ((unbiased_iff _ _ _).mp hw)]
  have := h.posDef.dotProduct_mulVec_pos (x := w - krigingWeights K F c f) (sub_ne_zero.mpr hne)
  simp only [star_trivial] at this
  linarith

theorem mse_entry {K : Matrix (Fin n) (Fin n) ℝ} {F : Matrix (Fin n) (Fin q) ℝ} {y : Fin n → ℝ} {g : GLS n q} (h : IsGLS K F y g)
    (knew : Matrix (Fin n) (Fin m) ℝ) (f : Matrix (Fin m) (Fin q) ℝ) :
    mseOf g F knew f = .ok (fun j => g.sigma2 * predErr 1 K (fun i => knew i j) (krigingWeights K F (fun i => knew i j) (f j))) := by
  rw [mseOf_eq h]
  congr 1
  funext j
  rw [predErr_krigingWeights_value h]
  congr 2

/-- The covariance of the training data, entry by entry. -/
theorem covTrain_apply (param : Fin d → ℝ) (hp : ∀ k, 0 ≤ param k) (Xs : Samples n d) (s : ℝ) :
    covTrain param Xs s = fun i k => gaussCorr param (Xs i) (Xs k) + if i = k then 1e-10 + s ^ 2 else 0 := by
  funext i k
  have hnug : nugget = 1e-10 := by unfold nugget; norm_num
  rw [covTrain, rbfMatrix_self]
  simp only [Matrix.add_apply, Matrix.of_apply, Matrix.smul_apply, Matrix.one_apply, smul_eq_mul, gaussCorr, rbfDist_eq param hp, hnug]
  split <;> ring

theorem rbfMatrix_col (param : Fin d → ℝ) (hp : ∀ k, 0 ≤ param k) (Xs : Samples n d) (Xn : Samples m d) (j : Fin m) :
    (fun i => rbfMatrix param Xs Xn i j) = fun i => gaussCorr param (Xs i) (Xn j) + if i.val = j.val then 1e-10 else 0 := by
  funext i
  have hnug : nugget = 1e-10 := by unfold nugget; norm_num
  simp only [rbfMatrix, gaussCorr, rbfDist_eq param hp, hnug]
  split <;> ring

/-- C100. For every trained Gaussian process and every prediction point, let `u` be the scaling of points to the unit box, `C` the Gaussian correlation of the samples with the
trained length scales plus `1e-10` and the relative noise variance on the diagonal, and `c` the correlation of the samples with the point.  The predicted mean is the best linear
unbiased prediction from the responses (the responses enter relative to their average), and the squared standard deviation is the mean squared error of that prediction for the
fitted process variance plus the squared noise.  The vector `c` carries an extra `1e-10` when the row number of the point is that of a sample; from row `n` on it does not and the mean
squared error is nonnegative. -/
theorem C100_best_linear_unbiased (gp : GPObj d q) (w : World d) (X : Samples n d) (y : Fin n → ℝ) (gp' : GPObj d q) (t : GPFit n d q)
    (h : gp.train w X y = .ok (gp', t)) (Xnew : Samples m d) :
    ∃ μ σ, predictMean gp' t Xnew = .ok μ ∧ predictStd gp' t Xnew = .ok (μ, σ) ∧ 0 ≤ t.gls.sigma2 ∧ ∀ j,
      let u : (Fin d → ℝ) → Fin d → ℝ := fun x k => (x k - gp.box.low k) / (gp.box.high k - gp.box.low k)
      let C : Fin n → Fin n → ℝ := fun i k => gaussCorr gp'.kernel.param (u (X i)) (u (X k)) + if i = k then 1e-10 + (t.noise / std y) ^ 2 else 0
      let c : Fin n → ℝ := fun i => gaussCorr gp'.kernel.param (u (X i)) (u (Xnew j)) + if i.val = j.val then 1e-10 else 0
      ∃ wt, BestLinearUnbiased C c (fun i => gp.regr (u (X i))) (gp.regr (u (Xnew j))) wt ∧
        μ j = mean y + ∑ i, wt i * (y i - mean y) ∧
        σ j ^ 2 = max (t.gls.sigma2 * std y ^ 2 * predErr 1 C c wt + t.noise ^ 2) 0 ∧
        (n ≤ j.val → 0 ≤ predErr 1 C c wt ∧ σ j ^ 2 = t.gls.sigma2 * std y ^ 2 * predErr 1 C c wt + t.noise ^ 2) := by
  obtain ⟨hT, hX, hy, hbox, hregr, hno, hmn, hstd, hys⟩ := trained_of_train h
  have hp := fun k => (hT.param k).le
  have hmean := predictMean_eq hT Xnew
  refine ⟨_, _, hmean, Py.bind_ok.mpr ⟨_, hmean, Py.bind_ok.mpr ⟨_, normalizeInput_eq Xnew hT.range, Py.bind_ok.mpr ⟨_, mse_entry hT.gls _ _, rfl⟩⟩⟩,
    hT.gls.sigma2_nonneg, fun j => ?_⟩
  intro u C c
  have hu : u = normPt gp'.box := by rw [hbox]; rfl
  have hXs : t.Xs = fun i => u (X i) := by rw [hT.Xs, hX, hu]
  have hC : t.K = C := by rw [hT.K, hXs, covTrain_apply _ hp, hstd]
  have hc : (fun i => gp'.kernel.getKernelMatrix t.Xs (fun i => normPt gp'.box (Xnew i)) i j) = c := by
    rw [← hu, hXs]
    exact rbfMatrix_col _ hp _ _ j
  have hF : t.F = fun i => gp.regr (u (X i)) := by rw [hT.F, hXs, hregr]; rfl
  have hf : regrMatrix gp'.regr (fun i => normPt gp'.box (Xnew i)) j = gp.regr (u (Xnew j)) := by rw [hregr, ← hu]; rfl
  refine ⟨krigingWeights t.K t.F c (gp.regr (u (Xnew j))), ?_, ?_, ?_, fun hj => ?_⟩
  · have := best_of_gls hT.gls c (gp.regr (u (Xnew j)))
    rwa [hC, hF] at this ⊢
  · have hm := krigingWeights_mean hT.gls c (gp.regr (u (Xnew j)))
    have e1 : (regrMatrix gp'.regr (fun i => normPt gp'.box (Xnew i)) *ᵥ t.gls.beta) j = gp.regr (u (Xnew j)) ⬝ᵥ t.gls.beta := by
      rw [← hf]; rfl
    have e2 : ((rbfMatrix gp'.kernel.param t.Xs (fun i => normPt gp'.box (Xnew i)))ᵀ *ᵥ t.gls.gamma) j = c ⬝ᵥ t.gls.gamma := by
      rw [← hc]; rfl
    show (_ + _) * t.yStd + t.yMean = _
    rw [e1, e2, hm, hmn, hys, hstd, add_comm]
    congr 1
    rw [dotProduct, Finset.sum_mul]
    refine Finset.sum_congr rfl (fun i _ => ?_)
    have : std y ≠ 0 := by rw [← hstd]; exact hT.stdpos.ne'
    field_simp
  · rw [Real.sq_sqrt (le_max_right _ _), hc, hf, hC, hstd]
    congr 2
    ring
  · have hnn : 0 ≤ predErr 1 C c (krigingWeights t.K t.F c (gp.regr (u (Xnew j)))) := by
      have := predErr_nonneg gp'.kernel.param hp t.Xs (u (Xnew j)) (t.noise / t.yStd) (krigingWeights t.K t.F c (gp.regr (u (Xnew j))))
      rw [← hT.K] at this
      convert this using 1
      rw [hC]
      congr 1
      funext i
      have := i.isLt
      simp only [c, hXs, gaussCorr, rbfDist_eq _ hp]
      rw [if_neg (by omega), add_zero]
    refine ⟨hnn, ?_⟩
    rw [Real.sq_sqrt (le_max_right _ _), hc, hf, hC, hstd]
    have : 0 ≤ t.gls.sigma2 * std y ^ 2 * predErr 1 C c (krigingWeights C t.F c (gp.regr (u (Xnew j)))) := by
      rw [hC] at hnn
      exact mul_nonneg (mul_nonneg hT.gls.sigma2_nonneg (sq_nonneg _)) hnn
    rw [max_eq_left]
    · ring
    · nlinarith [sq_nonneg t.noise]

/-- C100 (bases with a constant). When the basis has a constant column, as all bases of the package have, the weights add up to 1, so the prediction is a weighted sum of the responses
themselves. -/
theorem C100_weighted_sum (C : Fin n → Fin n → ℝ) (c : Fin n → ℝ) (F : Fin n → Fin q → ℝ) (f : Fin q → ℝ) (wt : Fin n → ℝ) (hb : BestLinearUnbiased C c F f wt)
    (k : Fin q) (hF : ∀ i, F i k = 1) (hf : f k = 1) (y : Fin n → ℝ) (a : ℝ) :
    ∑ i, wt i = 1 ∧ a + ∑ i, wt i * (y i - a) = ∑ i, wt i * y i := by
  have h1 : ∑ i, wt i = 1 := by
    have := hb.unbiased (fun k' => if k' = k then 1 else 0)
    simpa [hF, hf] using this
  refine ⟨h1, ?_⟩
  simp only [mul_sub, Finset.sum_sub_distrib]
  rw [← Finset.sum_mul, h1]
  ring

/-- The hypotheses of C100 are met by the example process, with the point in the first row (the row of a sample) and in the fourth row. -/
example (noise : Option ℝ) : ∃ gp' t, (exGP noise).train exWorld exX exY = .ok (gp', t) ∧ ∃ μ σ, predictStd gp' t (fun _ _ => 2 : Samples 4 1) = .ok (μ, σ) := by
  obtain ⟨gp', t, h⟩ := exGP_trains noise exX exY 0 2 exY_ne
  obtain ⟨μ, σ, _, h2, _⟩ := C100_best_linear_unbiased _ _ _ _ _ _ h (fun _ _ => 2 : Samples 4 1)
  exact ⟨gp', t, h, μ, σ, h2⟩

/-- C100 (hierarchical Kriging). The same for hierarchical Kriging, with one basis function: the low-fidelity prediction, shifted and scaled with the average and spread of the
high-fidelity responses. -/
theorem C100_hk_best_linear_unbiased (hk : HKObj d q) (w : MFWorld d) (Xh : Samples nh d) (yh : Fin nh → ℝ) (Xl : Samples nl d) (yl : Fin nl → ℝ)
    (hk' : HKObj d q) (t : HKFit nh nl d q) (h : hk.train w Xh yh Xl yl = .ok (hk', t)) (Xnew : Samples m d) :
    ∃ lfh lfn μ σ, hk'.predictLf t Xh = .ok lfh ∧ hk'.predictLf t Xnew = .ok lfn ∧ hk'.predict t Xnew = .ok μ ∧ hk'.predictStd t Xnew = .ok (μ, σ) ∧
      0 ≤ t.gls.sigma2 ∧ ∀ j,
      let u : (Fin d → ℝ) → Fin d → ℝ := fun x k => (x k - hk.box.low k) / (hk.box.high k - hk.box.low k)
      let C : Fin nh → Fin nh → ℝ := fun i k => gaussCorr hk'.kernel.param (u (Xh i)) (u (Xh k)) + if i = k then 1e-10 + (t.noise / std yh) ^ 2 else 0
      let c : Fin nh → ℝ := fun i => gaussCorr hk'.kernel.param (u (Xh i)) (u (Xnew j)) + if i.val = j.val then 1e-10 else 0
      ∃ wt, BestLinearUnbiased C c (fun i (_ : Fin 1) => (lfh i - mean yh) / std yh) (fun _ => (lfn j - mean yh) / std yh) wt ∧
        μ j = mean yh + ∑ i, wt i * (yh i - mean yh) ∧
        σ j ^ 2 = t.gls.sigma2 * std yh ^ 2 * max (predErr 1 C c wt) 0 + t.noise ^ 2 ∧
        (nh ≤ j.val → 0 ≤ predErr 1 C c wt) := by
  obtain ⟨hT, hX, hy, hbox, hlf, hno, hmn, hstd, hys⟩ := hkTrained_of_train h
  have hp := fun k => (hT.param k).le
  obtain ⟨lfh, hlfh, hTF⟩ := hT.F
  rw [hX] at hlfh
  obtain ⟨lfn, hlfn⟩ := hkPredictLf_ok hT Xnew
  have hmean := hkPredict_eq hT Xnew hlfn
  refine ⟨lfh, lfn, _, _, hlfh, hlfn, hmean, Py.bind_ok.mpr ⟨_, hmean, Py.bind_ok.mpr ⟨_, normalizeInput_eq Xnew hT.range, Py.bind_ok.mpr ⟨_, hlfn,
    Py.bind_ok.mpr ⟨_, mse_entry hT.gls _ _, rfl⟩⟩⟩⟩, hT.gls.sigma2_nonneg, fun j => ?_⟩
  intro u C c
  have hu : u = normPt hk'.box := by rw [hbox]; rfl
  have hXs : t.Xhs = fun i => u (Xh i) := by rw [hT.Xhs, hX, hu]
  have hC : t.K = C := by rw [hT.K, hXs, covTrain_apply _ hp, hstd]
  have hc : (fun i => hk'.kernel.getKernelMatrix t.Xhs (fun i => normPt hk'.box (Xnew i)) i j) = c := by
    rw [← hu, hXs]
    exact rbfMatrix_col _ hp _ _ j
  have hF : t.F = fun i (_ : Fin 1) => (lfh i - mean yh) / std yh := by rw [hTF, hmn, hstd]; rfl
  have hf : scaleCol lfn t.yhMean t.yhStd j = fun _ => (lfn j - mean yh) / std yh := by rw [hmn, hstd]; rfl
  refine ⟨krigingWeights t.K t.F c (fun _ => (lfn j - mean yh) / std yh), ?_, ?_, ?_, fun hj => ?_⟩
  · have := best_of_gls hT.gls c (fun _ => (lfn j - mean yh) / std yh)
    rwa [hC, hF] at this ⊢
  · have hm := krigingWeights_mean hT.gls c (fun _ => (lfn j - mean yh) / std yh)
    have e1 : (scaleCol lfn t.yhMean t.yhStd *ᵥ t.gls.beta) j = (fun _ => (lfn j - mean yh) / std yh) ⬝ᵥ t.gls.beta := by
      rw [← hf]; rfl
    have e2 : ((rbfMatrix hk'.kernel.param t.Xhs (fun i => normPt hk'.box (Xnew i)))ᵀ *ᵥ t.gls.gamma) j = c ⬝ᵥ t.gls.gamma := by
      rw [← hc]; rfl
    show (_ + _) * t.yhStd + t.yhMean = _
    rw [e1, e2, hm, hmn, hys, hstd, add_comm]
    congr 1
    rw [dotProduct, Finset.sum_mul]
    refine Finset.sum_congr rfl (fun i _ => ?_)
    have : std yh ≠ 0 := by rw [← hstd]; exact hT.stdpos.ne'
    field_simp
  · rw [Real.sq_sqrt (by positivity), mul_pow, Real.sq_sqrt (le_max_right _ _), hc, hf, hC, hstd,
      show (0 : ℝ) = t.gls.sigma2 * 0 by ring, ← mul_max_of_nonneg _ _ hT.gls.sigma2_nonneg]
    ring_nf
  · have := predErr_nonneg hk'.kernel.param hp t.Xhs (u (Xnew j)) (t.noise / t.yhStd) (krigingWeights t.K t.F c (fun _ => (lfn j - mean yh) / std yh))
    rw [← hT.K] at this
    convert this using 1
    rw [hC]
    congr 1
    funext i
    have := i.isLt
    simp only [c, hXs, gaussCorr, rbfDist_eq _ hp]
    rw [if_neg (by omega), add_zero]

/-- The hypotheses of C100 for hierarchical Kriging are met. -/
example : ∃ hk' t, (exHK (some 0)).train ⟨exWorld, exWorld⟩ (fun i _ => ![0, 1, 2] i : Samples 3 1) ![0, 1, 5]
    (fun i _ => ![0, 1, 2] i : Samples 3 1) ![0, 1, 2] = .ok (hk', t) := exHK_trains

/-! ## C101: more samples -/

/-- The least error of an unbiased predictor does not grow when observations are added: leave the new ones out. -/
theorem predErr_extend {C : Fin n → Fin n → ℝ} {C' : Fin m → Fin m → ℝ} {c : Fin n → ℝ} {c' : Fin m → ℝ} {F : Fin n → Fin q → ℝ} {F' : Fin m → Fin q → ℝ} {f : Fin q → ℝ}
    {wt : Fin n → ℝ} {wt' : Fin m → ℝ} (e : Fin n ↪ Fin m) (hC : ∀ i k, C' (e i) (e k) = C i k) (hc : ∀ i, c' (e i) = c i) (hF : ∀ i, F' (e i) = F i)
    (hw : UnbiasedWeights F f wt) (hb : BestLinearUnbiased C' c' F' f wt') : predErr 1 C' c' wt' ≤ predErr 1 C c wt := by
  let v : Fin m → ℝ := Function.extend e wt 0
  have hve : ∀ i, v (e i) = wt i := fun i => e.injective.extend_apply _ _ _
  have hv0 : ∀ a, (∀ i, e i ≠ a) → v a = 0 := fun a ha => Function.extend_apply' _ _ _ (by rintro ⟨i, hi⟩; exact ha i hi)
  have hsum : ∀ g : Fin m → ℝ, ∑ a, v a * g a = ∑ i, wt i * g (e i) := by
    intro g
    rw [← Finset.sum_subset (Finset.subset_univ (Finset.univ.map e)), Finset.sum_map]
    · exact Finset.sum_congr rfl (fun i _ => by rw [hve])
    · intro a _ ha
      rw [hv0 a (fun i hi => ha (Finset.mem_map.mpr ⟨i, Finset.mem_univ _, hi⟩)), zero_mul]
  have hvu : UnbiasedWeights F' f v := by
    intro b
    rw [hsum, ← hw b]
    exact Finset.sum_congr rfl (fun i _ => by rw [hF])
  have hve' : predErr 1 C' c' v = predErr 1 C c wt := by
    unfold predErr
    rw [hsum c']
    congr 1
    · rw [Finset.sum_congr rfl (fun i _ => by rw [hc])]
    · have : ∀ a, ∑ b, v a * v b * C' a b = v a * ∑ b, v b * C' a b := fun a => by
        rw [Finset.mul_sum]; exact Finset.sum_congr rfl (fun b _ => by ring)
      rw [Finset.sum_congr rfl (fun a _ => this a), hsum]
      refine Finset.sum_congr rfl (fun i _ => ?_)
      rw [hsum, Finset.mul_sum]
      exact Finset.sum_congr rfl (fun k _ => by rw [hC]; ring)
  rw [← hve']
  by_cases hv : v = wt'
  · rw [hv]
  · exact (hb.best v hvu hv 1).le

/-- C101. Two trained processes with the same design space, basis, length scales and noise relative to the spread of the responses; the samples of the first are among those of the
second.  At every point (in rows beyond the training sizes) the epistemic part of the reported variance, relative to the fitted process variance, of the second is at most that of the
first.  Stated without division: `v₂ * τ₁ ≤ v₁ * τ₂` with `v` the reported variance minus the noise variance and `τ` the fitted process variance. -/
theorem C101_more_samples {n' m' : ℕ} (gp gp₁ : GPObj d q) (w w' : World d) (X : Samples n d) (y : Fin n → ℝ) (X' : Samples n' d) (y' : Fin n' → ℝ)
    (a b : GPObj d q) (t : GPFit n d q) (t' : GPFit n' d q) (h : gp.train w X y = .ok (a, t)) (h' : gp₁.train w' X' y' = .ok (b, t'))
    (hbox : gp₁.box = gp.box) (hregr : gp₁.regr = gp.regr) (hpar : b.kernel.param = a.kernel.param) (hnoise : t'.noise / std y' = t.noise / std y)
    (e : Fin n ↪ Fin n') (he : ∀ i, X' (e i) = X i)
    (P : Samples m d) (P' : Samples m' d) (μ σ : Fin m → ℝ) (μ' σ' : Fin m' → ℝ) (hP : predictStd a t P = .ok (μ, σ)) (hP' : predictStd b t' P' = .ok (μ', σ'))
    (j : Fin m) (j' : Fin m') (hj : n ≤ j.val) (hj' : n' ≤ j'.val) (hx : P' j' = P j) :
    0 ≤ σ' j' ^ 2 - t'.noise ^ 2 ∧
    (σ' j' ^ 2 - t'.noise ^ 2) * (t.gls.sigma2 * std y ^ 2) ≤ (σ j ^ 2 - t.noise ^ 2) * (t'.gls.sigma2 * std y' ^ 2) := by
  obtain ⟨μ1, σ1, _, h2, hs, hall⟩ := C100_best_linear_unbiased gp w X y a t h P
  obtain ⟨μ2, σ2, _, h3, hs', hall'⟩ := C100_best_linear_unbiased gp₁ w' X' y' b t' h' P'
  rw [hP, Except.ok.injEq, Prod.mk.injEq] at h2
  rw [hP', Except.ok.injEq, Prod.mk.injEq] at h3
  obtain ⟨wt, hb, _, _, hv⟩ := hall j
  obtain ⟨wt', hb', _, _, hv'⟩ := hall' j'
  obtain ⟨hn0, hv⟩ := hv hj
  obtain ⟨hn0', hv'⟩ := hv' hj'
  rw [← h2.2] at hv
  rw [← h3.2] at hv'
  have key := predErr_extend (hb := hb') (hw := (by rw [hx, hregr, hbox]; exact hb.unbiased)) e
    (C := fun i k => gaussCorr a.kernel.param (fun l => (X i l - gp.box.low l) / (gp.box.high l - gp.box.low l))
      (fun l => (X k l - gp.box.low l) / (gp.box.high l - gp.box.low l)) + if i = k then 1e-10 + (t.noise / std y) ^ 2 else 0)
    (c := fun i => gaussCorr a.kernel.param (fun l => (X i l - gp.box.low l) / (gp.box.high l - gp.box.low l))
      (fun l => (P j l - gp.box.low l) / (gp.box.high l - gp.box.low l)) + if i.val = j.val then 1e-10 else 0)
    (F := fun i => gp.regr (fun l => (X i l - gp.box.low l) / (gp.box.high l - gp.box.low l)))
    (fun i k => by simp only [he, hbox, hpar, hnoise, e.injective.eq_iff])
    (fun i => by
      have h1 := i.isLt
      have h2 := (e i).isLt
      simp only [he, hbox, hpar, hx]
      rw [if_neg (by omega), if_neg (by omega)])
    (fun i => by simp only [he, hbox, hregr])
  rw [hv, hv', add_sub_cancel_right, add_sub_cancel_right]
  refine ⟨mul_nonneg (mul_nonneg hs' (sq_nonneg _)) hn0', ?_⟩
  have hpos := mul_nonneg (mul_nonneg hs (sq_nonneg (std y))) (mul_nonneg hs' (sq_nonneg (std y')))
  have := mul_le_mul_of_nonneg_left key hpos
  refine le_trans (le_of_eq ?_) (this.trans (le_of_eq ?_)) <;> ring

theorem corner_search {p : ℕ} {obj : (Fin p → ℝ) → Py ℝ} {lo hi x0 x : Fin p → ℝ} (h : searchHyper none cornerMinimizer obj lo hi [x0] = .ok x) : x = lo := by
  unfold searchHyper at h
  obtain ⟨r, h1, h⟩ := Py.bind_ok.mp h
  unfold restartLoop at h1
  obtain ⟨⟨x', f⟩, h2, h1⟩ := Py.bind_ok.mp h1
  unfold cornerMinimizer at h2
  obtain ⟨v, _, h2⟩ := Py.bind_ok.mp h2
  simp only [Except.ok.injEq, Prod.mk.injEq] at h2
  simp only [] at h1
  rw [if_pos (WithTop.coe_lt_top _)] at h1
  simp only [restartLoop, Except.ok.injEq] at h1
  subst h1
  simp only [Except.ok.injEq] at h
  rw [← h, ← h2.1]

theorem exGP_param (s : ℝ) (X : Samples n 1) (y : Fin n → ℝ) (gp' : GPObj 1 1) (t : GPFit n 1 1) (h : (exGP (some s)).train exWorld X y = .ok (gp', t)) :
    gp'.kernel.param = pow10 (fun _ => -2) := by
  obtain ⟨hr, hs, theta, noise, h3, e1, h4, e2⟩ := train_ok_iff.mp h
  unfold GPObj.fitHyper at h3
  obtain ⟨x, hx, h5⟩ := Py.bind_ok.mp h3
  simp only [Except.ok.injEq, Prod.mk.injEq] at h5
  have := corner_search (x0 := fun _ => 0) hx
  rw [e1]
  show pow10 theta = _
  rw [← h5.1, this]
  rfl

/-- The hypotheses of C101 are met: a process trained on three samples and one trained on these and a fourth, with different responses. -/
example : ∃ a t b t' μ σ μ' σ', (exGP (some 0)).train exWorld exX exY = .ok (a, t) ∧
    (exGP (some 0)).train exWorld (fun i _ => ![0, 1, 1, 3] i : Samples 4 1) ![7, 2, 1, 5] = .ok (b, t') ∧
    predictStd a t (fun _ _ => 2 : Samples 5 1) = .ok (μ, σ) ∧ predictStd b t' (fun _ _ => 2 : Samples 5 1) = .ok (μ', σ') ∧
    (σ' 4 ^ 2 - t'.noise ^ 2) * (t.gls.sigma2 * std exY ^ 2) ≤ (σ 4 ^ 2 - t.noise ^ 2) * (t'.gls.sigma2 * std (![7, 2, 1, 5] : Fin 4 → ℝ) ^ 2) := by
  obtain ⟨a, t, h⟩ := exGP_trains (some 0) exX exY 0 2 exY_ne
  obtain ⟨b, t', h'⟩ := exGP_trains (some 0) (fun i _ => ![0, 1, 1, 3] i : Samples 4 1) ![7, 2, 1, 5] 0 1 (by norm_num)
  obtain ⟨μ, σ, _, h2, _⟩ := C100_best_linear_unbiased _ _ _ _ _ _ h (fun _ _ => 2 : Samples 5 1)
  obtain ⟨μ', σ', _, h2', _⟩ := C100_best_linear_unbiased _ _ _ _ _ _ h' (fun _ _ => 2 : Samples 5 1)
  refine ⟨a, t, b, t', μ, σ, μ', σ', h, h', h2, h2', ?_⟩
  refine (C101_more_samples _ _ _ _ _ _ _ _ _ _ _ _ h h' rfl rfl ?_ ?_ (Fin.succEmb 3) ?_ _ _ _ _ _ _ h2 h2' 4 4 (by decide) (by decide) rfl).2
  · rw [exGP_param 0 _ _ _ _ h, exGP_param 0 _ _ _ _ h']
  · obtain ⟨_, _, _, _, _, hno, _⟩ := trained_of_train h
    obtain ⟨_, _, _, _, _, hno', _⟩ := trained_of_train h'
    rw [hno 0 rfl, hno' 0 rfl, zero_div, zero_div]
  · intro i
    funext k
    fin_cases i <;> rfl

end Mfpml.Props
