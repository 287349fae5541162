import Verif.Props.EvaluatedMF
import Verif.Props.EvaluatedCK

/-!
# Standard deviations of Kriging and the noise level (C191)
-/

set_option linter.unusedSectionVars false

open scoped BigOperators Matrix

namespace Mfpml.Props

open Mfpml.GP Mfpml.Spec

variable {n m d q : ℕ}

/-- The mean squared error of any linear prediction, without nugget and noise, is not negative. -/
theorem predErr_bare_nonneg (param : Fin d → ℝ) (hp : ∀ k, 0 ≤ param k) (Xs : Fin n → Fin d → ℝ) (x : Fin d → ℝ) (w : Fin n → ℝ) :
    0 ≤ predErr 1 (fun i k => gaussCorr param (Xs i) (Xs k)) (fun i => gaussCorr param (Xs i) x) w := by
  have hg : ∀ a b, Real.exp (-(rbfDist param a b)) = gaussCorr param a b := fun a b => by
    unfold gaussCorr; rw [rbfDist_eq param hp]
  have hsym : ∀ a b, gaussCorr param a b = gaussCorr param b a := by
    intro a b; unfold gaussCorr; congr 2; exact Finset.sum_congr rfl (fun k _ => by ring)
  have hps := posSemidef_gauss param (fun o : Fin n ⊕ Fin 1 => Sum.elim Xs ![x] o)
  have h0 := hps.dotProduct_mulVec_nonneg (fun o : Fin n ⊕ Fin 1 => Sum.elim w ![-1] o)
  refine h0.trans (le_of_eq ?_)
  simp only [dotProduct, Matrix.mulVec, Fintype.sum_sum_type, Fin.sum_univ_one, Pi.star_apply, star_trivial, Matrix.of_apply, Sum.elim_inl, Sum.elim_inr,
    Matrix.cons_val_zero, hg, gaussCorr_self, mul_add, Finset.sum_add_distrib, Finset.mul_sum, hsym x]
  unfold predErr
  have e3 : ∑ i, ∑ k, w i * (gaussCorr param (Xs i) (Xs k) * w k) = ∑ i, ∑ k, w i * w k * gaussCorr param (Xs i) (Xs k) :=
    Finset.sum_congr rfl (fun i _ => Finset.sum_congr rfl (fun k _ => by ring))
  have e4 : ∑ i, w i * (gaussCorr param (Xs i) x * -1) = -∑ i, w i * gaussCorr param (Xs i) x := by
    rw [← Finset.sum_neg_distrib]; exact Finset.sum_congr rfl (fun i _ => by ring)
  have e5 : ∑ i, -1 * (gaussCorr param (Xs i) x * w i) = -∑ i, w i * gaussCorr param (Xs i) x := by
    rw [← Finset.sum_neg_distrib]; exact Finset.sum_congr rfl (fun i _ => by ring)
  rw [e3, e4, e5]
  ring

/-- With the nugget, which is added to the correlation with the sample of the same row number, it is not below `-1e-10`. -/
theorem predErr_nugget_ge (param : Fin d → ℝ) (hp : ∀ k, 0 ≤ param k) (Xs : Fin n → Fin d → ℝ) (x : Fin d → ℝ) {s : ℝ} (hs : 0 ≤ s) (j : ℕ) (w : Fin n → ℝ) :
    -1e-10 ≤ predErr 1 (fun i k => gaussCorr param (Xs i) (Xs k) + if i = k then 1e-10 + s else 0) (fun i => gaussCorr param (Xs i) x + if i.val = j then 1e-10 else 0) w := by
  have h1 := predErr_bare_nonneg param hp Xs x w
  have e1 : predErr 1 (fun i k => gaussCorr param (Xs i) (Xs k) + if i = k then 1e-10 + s else 0) (fun i => gaussCorr param (Xs i) x + if i.val = j then 1e-10 else 0) w =
      predErr 1 (fun i k => gaussCorr param (Xs i) (Xs k)) (fun i => gaussCorr param (Xs i) x) w + ((1e-10 + s) * ∑ i, w i ^ 2 - 2 * ∑ i : Fin n, if i.val = j then 1e-10 * w i else 0) := by
    unfold predErr
    simp only [mul_add, Finset.sum_add_distrib, mul_ite, mul_zero, Finset.sum_ite_eq, Finset.mem_univ, if_true]
    have e2 : ∑ i : Fin n, (if i.val = j then w i * 1e-10 else 0) = ∑ i : Fin n, if i.val = j then 1e-10 * w i else 0 := Finset.sum_congr rfl fun i _ => by split_ifs <;> ring
    have e3 : ∑ i : Fin n, w i * w i * 1e-10 + ∑ i : Fin n, w i * w i * s = (1e-10 + s) * ∑ i, w i ^ 2 := by
      rw [Finset.mul_sum, ← Finset.sum_add_distrib]; exact Finset.sum_congr rfl fun i _ => by ring
    rw [e2, e3]
    ring
  have hsum : ∀ i, w i ^ 2 ≤ ∑ i, w i ^ 2 := fun i => Finset.single_le_sum (f := fun i => w i ^ 2) (fun i _ => sq_nonneg _) (Finset.mem_univ i)
  have hS : 0 ≤ s * ∑ i, w i ^ 2 := mul_nonneg hs (Finset.sum_nonneg fun i _ => sq_nonneg _)
  have hS0 : 0 ≤ ∑ i, w i ^ 2 := Finset.sum_nonneg fun i _ => sq_nonneg _
  rw [e1]
  by_cases hj : j < n
  · have e4 : (∑ i : Fin n, if i.val = j then 1e-10 * w i else 0) = 1e-10 * w ⟨j, hj⟩ := by
      rw [Finset.sum_eq_single ⟨j, hj⟩]
      · simp
      · intro b _ hb
        rw [if_neg (fun h => hb (Fin.ext h))]
      · intro h; exact absurd (Finset.mem_univ _) h
    rw [e4]
    have := hsum ⟨j, hj⟩
    nlinarith [sq_nonneg (w ⟨j, hj⟩ - 1)]
  · have e4 : (∑ i : Fin n, if i.val = j then 1e-10 * w i else 0) = 0 := Finset.sum_eq_zero fun b _ => by
      have := b.isLt
      rw [if_neg (by omega)]
    rw [e4]
    nlinarith

/-- C191 (proved part).  The squared standard deviation that Kriging returns is not below the squared noise level minus `1e-10` process variances, in any row of any batch; from row `n` on (`n` samples) the standard deviation is not below
the noise level.  What is missing for C191 are the first `n` rows, where it can be below the noise level (`C191_own_row`, `C191_counterexample`). -/
theorem C191_floor_partial (gp : GPObj d q) (w : World d) (X : Samples n d) (y : Fin n → ℝ) (gp' : GPObj d q) (t : GPFit n d q) (h : gp.train w X y = .ok (gp', t)) (Xnew : Samples m d) :
    ∃ μ σ, GP.predictStd gp' t Xnew = .ok (μ, σ) ∧ ∀ j, t.noise ^ 2 - 1e-10 * (t.gls.sigma2 * std y ^ 2) ≤ σ j ^ 2 ∧ (n ≤ j.val → |t.noise| ≤ σ j) := by
  obtain ⟨μ, σ, _, hpred, hs2, hrow⟩ := C100_best_linear_unbiased gp w X y gp' t h Xnew
  obtain ⟨hT, _⟩ := trained_of_train h
  have hp := fun k => (hT.param k).le
  obtain ⟨_, σ', hpred', hσ0⟩ := (C35_std gp w X y gp' t h).1 m Xnew
  rw [hpred] at hpred'
  cases hpred'
  refine ⟨μ, σ, hpred, fun j => ?_⟩
  obtain ⟨wt, _, _, hσ, hbeyond⟩ := hrow j
  have hv : 0 ≤ t.gls.sigma2 * std y ^ 2 := mul_nonneg hs2 (sq_nonneg _)
  constructor
  · rw [hσ]
    refine le_trans ?_ (le_max_left _ _)
    have h1 := mul_le_mul_of_nonneg_left (predErr_nugget_ge gp'.kernel.param hp (fun i k => (X i k - gp.box.low k) / (gp.box.high k - gp.box.low k)) (fun k => (Xnew j k - gp.box.low k) / (gp.box.high k - gp.box.low k))
      (sq_nonneg (t.noise / std y)) j.val wt) hv
    linarith
  · intro hj
    obtain ⟨h1, h2⟩ := hbeyond hj
    refine abs_le_of_sq_le_sq ?_ (hσ0 j)
    rw [h2]
    have := mul_nonneg hv h1
    linarith

/-- **C191 fails at every training sample in its own row.**  If the noise is known to be smaller than `1e-5` standard deviations of the responses and the process variance is not zero, the standard deviation that Kriging returns for sample `i` in row
`i` of a batch is below the noise level (unless both are zero), for every trained model. -/
theorem C191_own_row (gp : GPObj d q) (w : World d) (X : Samples n d) (y : Fin n → ℝ) (gp' : GPObj d q) (t : GPFit n d q) (h : gp.train w X y = .ok (gp', t)) (hpos : 0 < t.gls.sigma2) (hnoise : t.noise ≠ 0)
    (hsmall : |t.noise| < 1e-5 * std y) (Xnew : Samples m d) (j : Fin m) (i : Fin n) (hij : j.val = i.val) (hx : Xnew j = X i) : ∃ μ σ, GP.predictStd gp' t Xnew = .ok (μ, σ) ∧ σ j < |t.noise| := by
  obtain ⟨μ, σ, _, hpred, hs2, hrow⟩ := C100_best_linear_unbiased gp w X y gp' t h Xnew
  obtain ⟨wt, hb, _, hσ, _⟩ := hrow j
  obtain ⟨hT, _, _, _, _, _, _, hstd, _⟩ := trained_of_train h
  have hspos : 0 < std y := hstd ▸ hT.stdpos
  refine ⟨μ, σ, hpred, ?_⟩
  have h1 := best_le hb (unbiased_pick _ _ i (by rw [hx]))
  rw [predErr_pick] at h1
  dsimp only at h1
  rw [hx, gaussCorr_self, if_pos rfl, if_pos hij.symm] at h1
  rw [hx] at hσ
  have h2 : (t.noise / std y) ^ 2 < 1e-10 := by
    rw [div_pow, div_lt_iff₀ (by positivity)]
    have := mul_self_lt_mul_self (abs_nonneg _) hsmall
    rw [abs_mul_abs_self] at this
    nlinarith
  have hn2 : 0 < t.noise ^ 2 := by positivity
  refine lt_of_pow_lt_pow_left₀ 2 (abs_nonneg _) ?_
  rw [hσ, sq_abs]
  refine max_lt ?_ hn2
  have hv : 0 < t.gls.sigma2 * std y ^ 2 := by positivity
  have := mul_neg_of_pos_of_neg hv (lt_of_le_of_lt h1 (by linarith))
  linarith

/-- C191 is false: three samples with responses 2, 2 and 5, noise `1e-6`: the standard deviation at the samples themselves is below `1e-6`. -/
theorem C191_counterexample : ∃ gp' t μ σ, (exGP (some 1e-6)).train exWorld exX exY = .ok (gp', t) ∧ t.noise = 1e-6 ∧ GP.predictStd gp' t exX = .ok (μ, σ) ∧ ∀ j, σ j < 1e-6 := by
  obtain ⟨gp', t, h⟩ := exGP_trains (some 1e-6) exX exY 0 2 exY_ne
  obtain ⟨hT, _, _, _, _, hno, _, hstd, _⟩ := trained_of_train h
  have hn : t.noise = 1e-6 := hno _ rfl
  obtain ⟨hys, hF, _, _, _, _, _, _, hpos⟩ := C33_gls _ _ _ _ _ _ h
  have hs : std exY ≠ 0 := hstd ▸ hT.stdpos.ne'
  have hsig : 0 < t.gls.sigma2 := by
    refine hpos fun b hb => ?_
    have h1 := congrFun hb 0
    have h2 := congrFun hb 2
    rw [hys, Matrix.mulVec, hF] at h1 h2
    have e : (exGP (some 1e-6)).regr (normPt (exGP (some 1e-6)).box (exX 0)) = (exGP (some 1e-6)).regr (normPt (exGP (some 1e-6)).box (exX 2)) := rfl
    rw [e] at h1
    have := h1.symm.trans h2
    exact exY_ne (by have := (div_left_inj' hs).mp this; linarith)
  have hbig : |t.noise| < 1e-5 * std exY := by
    rw [hn, abs_of_pos (by norm_num)]
    have h1 : (1:ℝ) ≤ std exY := by
      have hm : mean exY = 3 := by
        unfold mean
        rw [Fin.sum_univ_three]
        simp only [exY, Matrix.cons_val_zero, Matrix.cons_val_one, Matrix.cons_val]
        norm_num
      unfold std
      rw [Real.one_le_sqrt, hm, Fin.sum_univ_three]
      simp only [exY, Matrix.cons_val_zero, Matrix.cons_val_one, Matrix.cons_val]
      norm_num
    linarith
  obtain ⟨μ, σ, hpred, hσ⟩ := C191_own_row _ _ _ _ _ _ h hsig (by rw [hn]; norm_num) hbig exX 0 0 rfl rfl
  refine ⟨gp', t, μ, σ, h, hn, hpred, fun j => ?_⟩
  obtain ⟨μ', σ', hpred', hσ'⟩ := C191_own_row _ _ _ _ _ _ h hsig (by rw [hn]; norm_num) hbig exX j j rfl rfl
  rw [hpred] at hpred'
  cases hpred'
  rwa [hn, abs_of_pos (by norm_num)] at hσ'

/-- The hypotheses are met: the model trained with noise 1, asked for five points, of which the last two rows are beyond the three samples. -/
example : ∃ gp' t μ σ, (exGP (some 1)).train exWorld exX exY = .ok (gp', t) ∧ GP.predictStd gp' t (fun (j : Fin 5) (_ : Fin 1) => (j.val : ℝ)) = .ok (μ, σ) ∧ 1 ≤ σ 3 ∧ 1 ≤ σ 4 := by
  obtain ⟨gp', t, h⟩ := exGP_trains (some 1) exX exY 0 2 exY_ne
  obtain ⟨_, _, _, _, _, hno, _, _, _⟩ := trained_of_train h
  have hn : t.noise = 1 := hno _ rfl
  obtain ⟨μ, σ, hpred, hσ⟩ := C191_floor_partial _ _ _ _ _ _ h (fun (j : Fin 5) (_ : Fin 1) => (j.val : ℝ))
  have h3 := (hσ 3).2 (by decide)
  have h4 := (hσ 4).2 (by decide)
  rw [hn, abs_one] at h3 h4
  exact ⟨gp', t, μ, σ, h, hpred, h3, h4⟩

/-- C191 for scaled Kriging (proved part).  The squared standard deviation is not below `ρ² sl² + sd²`, with `sl` and `sd` the noise levels of the low-fidelity and of the discrepancy model, minus `1e-10` of the process variances (that of the low-fidelity
model times `ρ²`), in any row of any batch; in rows beyond the numbers of samples of both fidelities it is not below `ρ² sl² + sd²`. -/
theorem C191_sk_floor_partial {nh nl ql qd : ℕ} (sk : SKObj d ql qd) (w : SKWorld d) (Xh : Samples nh d) (yh : Fin nh → ℝ) (Xl : Samples nl d) (yl : Fin nl → ℝ)
    (sk' : SKObj d ql qd) (t : SKFit nh nl d ql qd) (h : sk.train w Xh yh Xl yl = .ok (sk', t)) (Xnew : Samples m d) :
    ∃ μ σ f, sk'.predictStd t Xnew = .ok (μ, σ) ∧ GP.predictMean sk'.lf t.lfFit Xh = .ok f ∧ ∀ j,
      sk'.rho ^ 2 * (t.lfFit.noise ^ 2 - 1e-10 * (t.lfFit.gls.sigma2 * std yl ^ 2)) + (t.discFit.noise ^ 2 - 1e-10 * (t.discFit.gls.sigma2 * std (fun a => yh a - sk'.rho * f a) ^ 2)) ≤ σ j ^ 2 ∧
      (nl ≤ j.val → nh ≤ j.val → sk'.rho ^ 2 * t.lfFit.noise ^ 2 + t.discFit.noise ^ 2 ≤ σ j ^ 2) := by
  obtain ⟨f, disc, h1, h2, h3, h4, hXh, hyh⟩ := skTrain_ok h
  obtain ⟨μl, σl, hl, hfl⟩ := C191_floor_partial sk.lf w.lf Xl yl sk'.lf t.lfFit h1 Xnew
  obtain ⟨μd, σd, hd, hfd⟩ := C191_floor_partial disc w.disc Xh _ sk'.disc t.discFit h4 Xnew
  refine ⟨_, _, f, Py.bind_ok.mpr ⟨_, hl, Py.bind_ok.mpr ⟨_, hd, rfl⟩⟩, h2, fun j => ?_⟩
  have hσj : Real.sqrt (sk'.rho ^ 2 * σl j ^ 2 + σd j ^ 2) ^ 2 = sk'.rho ^ 2 * σl j ^ 2 + σd j ^ 2 := Real.sq_sqrt (by positivity)
  rw [hσj]
  refine ⟨add_le_add (mul_le_mul_of_nonneg_left (hfl j).1 (sq_nonneg _)) (hfd j).1, fun jl jh => ?_⟩
  have e1 := pow_le_pow_left₀ (abs_nonneg _) ((hfl j).2 jl) 2
  have e2 := pow_le_pow_left₀ (abs_nonneg _) ((hfd j).2 jh) 2
  rw [sq_abs] at e1 e2
  exact add_le_add (mul_le_mul_of_nonneg_left e1 (sq_nonneg _)) e2

/-- The hypotheses are met by a trained model. -/
example : ∃ sk' t, (exSK true .error).train exSKWorld (fun i _ => ![0, 1, 2] i : Samples 3 1) ![0, 1, 5] (fun i _ => ![0, 1, 2] i : Samples 3 1) ![0, 1, 2] = .ok (sk', t) ∧
    ∃ μ σ, sk'.predictStd t (fun _ _ => 1 : Samples 5 1) = .ok (μ, σ) ∧ sk'.rho ^ 2 * t.lfFit.noise ^ 2 + t.discFit.noise ^ 2 ≤ σ 4 ^ 2 := by
  obtain ⟨sk', t, h, _⟩ := exSK_trains
  obtain ⟨μ, σ, _, hp, _, hf⟩ := C191_sk_floor_partial _ _ _ _ _ _ _ _ h (fun _ _ => 1 : Samples 5 1)
  exact ⟨sk', t, h, μ, σ, hp, (hf 4).2 (by decide) (by decide)⟩

/-- C191 for co-Kriging.  The first standard deviation after training is not below the noise level, which is `s std` with `s` the noise relative to the spread `std` of the high-fidelity responses, in any row of any batch: `CoKriging.predict` clamps the
variance of the process before it adds the noise. -/
theorem C191_ck_floor {nh nl : ℕ} (ck : CKObj d q) (w : CKWorld d) (Xh : Samples nh d) (yh : Fin nh → ℝ) (Xl : Samples nl d) (yl : Fin nl → ℝ)
    (ck' : CKObj d q) (t : CKFit nh nl d q) (h : ck.train w Xh yh Xl yl = .ok (ck', t)) (Xnew : Samples m d) :
    ∃ ck'' μ σ s, ck'.predictStd t Xnew = .ok (ck'', μ, σ) ∧ ck'.noise = some s ∧ ∀ j, |s * std yh| ≤ σ j := by
  obtain ⟨μ, σ, ck'', s, _, hpred, hs, hall⟩ := C102_ck_prediction_partial ck w Xh yh Xl yl ck' t h Xnew
  refine ⟨ck'', μ, σ, s, hpred, hs, fun j => ?_⟩
  obtain ⟨wt, _, _, hσ, _⟩ := hall j
  have hnn : 0 ≤ σ j := by
    obtain ⟨_, _, h1⟩ := Py.bind_ok.mp hpred
    obtain ⟨_, _, h2⟩ := Py.bind_ok.mp h1
    obtain ⟨_, _, h3⟩ := Py.bind_ok.mp h2
    rw [hs] at h3
    have h4 := congrArg (fun x => x.2.2 j) (Except.ok.inj h3)
    exact le_of_le_of_eq (Real.sqrt_nonneg _) h4
  refine abs_le_of_sq_le_sq ?_ hnn
  rw [hσ]
  exact le_add_of_nonneg_left (by positivity)

/-- The hypotheses are met by a trained model. -/
example : ∃ ck' t, (exCK (some 1)).train exCKWorld exX exY exX exY = .ok (ck', t) ∧ ∃ ck'' μ σ s, ck'.predictStd t (fun _ => exX 1 : Samples 5 1) = .ok (ck'', μ, σ) ∧ ck'.noise = some s ∧ |s * std exY| ≤ σ 1 := by
  obtain ⟨ck', t, h⟩ := exCK_trains (some 1) (by simp) exX exY exX exY 0 2 exY_ne (by norm_num)
  obtain ⟨ck'', μ, σ, s, hp, hs, hf⟩ := C191_ck_floor _ _ _ _ _ _ _ _ h (fun _ => exX 1 : Samples 5 1)
  exact ⟨ck', t, h, ck'', μ, σ, s, hp, hs, hf 1⟩

end Mfpml.Props
