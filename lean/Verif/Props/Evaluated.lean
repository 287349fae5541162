import Verif.Props.BestPrediction
import Verif.Props.Batch

/-!
# Predictions at and near evaluated points, whatever the batch (C114, C115)
-/

set_option linter.unusedSectionVars false

open scoped BigOperators Matrix

namespace Mfpml.Props

open Mfpml.GP Mfpml.Spec
open Mfpml.EA (Box)

variable {nh nl n m d q : ℕ}

/-- The weights that take observation `i` and nothing else. -/
def pickWeights (i : Fin n) : Fin n → ℝ := fun a => if a = i then 1 else 0

theorem predErr_pick (C : Fin n → Fin n → ℝ) (c : Fin n → ℝ) (i : Fin n) : predErr 1 C c (pickWeights i) = 1 - 2 * c i + C i i := by
  simp [predErr, pickWeights]

theorem unbiased_pick (F : Fin n → Fin q → ℝ) (f : Fin q → ℝ) (i : Fin n) (hf : f = F i) : UnbiasedWeights F f (pickWeights i) := by
  intro b
  subst hf
  simp [pickWeights]

theorem best_le {C : Fin n → Fin n → ℝ} {c : Fin n → ℝ} {F : Fin n → Fin q → ℝ} {f : Fin q → ℝ} {wt w : Fin n → ℝ} (hb : BestLinearUnbiased C c F f wt)
    (hw : UnbiasedWeights F f w) : predErr 1 C c wt ≤ predErr 1 C c w := by
  by_cases h : w = wt
  · rw [h]
  · exact (hb.best w hw h 1).le

theorem gaussCorr_self (θ x : Fin d → ℝ) : gaussCorr θ x x = 1 := by simp [gaussCorr]

/-- Increments of the kernel expansion are bounded by its norm. -/
theorem kernel_increment (param : Fin d → ℝ) (hp : ∀ k, 0 ≤ param k) (Xs : Samples n d) (γ : Fin n → ℝ) (x x' : Fin d → ℝ) :
    (∑ i, (gaussCorr param (Xs i) x - gaussCorr param (Xs i) x') * γ i) ^ 2 ≤
      (∑ i, ∑ k, γ i * γ k * gaussCorr param (Xs i) (Xs k)) * (2 * (1 - gaussCorr param x x')) := by
  have hsym : ∀ a b, gaussCorr param a b = gaussCorr param b a := by
    intro a b; unfold gaussCorr; congr 2; exact Finset.sum_congr rfl (fun k _ => by ring)
  have hg : ∀ a b, Real.exp (-(rbfDist param a b)) = gaussCorr param a b := fun a b => by
    unfold gaussCorr; rw [rbfDist_eq param hp]
  have hps := posSemidef_gauss param (fun o : Fin n ⊕ Fin 2 => Sum.elim Xs ![x, x'] o)
  have key : ∀ a : ℝ, 0 ≤ (2 * (1 - gaussCorr param x x')) * (a * a) + (2 * ∑ i, (gaussCorr param (Xs i) x - gaussCorr param (Xs i) x') * γ i) * a +
      ∑ i, ∑ k, γ i * γ k * gaussCorr param (Xs i) (Xs k) := by
    intro a
    have h0 := hps.dotProduct_mulVec_nonneg (fun o : Fin n ⊕ Fin 2 => Sum.elim γ ![a, -a] o)
    refine h0.trans (le_of_eq ?_)
    simp only [dotProduct, Matrix.mulVec, Fintype.sum_sum_type, Fin.sum_univ_two, Pi.star_apply, star_trivial, Matrix.of_apply, Sum.elim_inl, Sum.elim_inr,
      Matrix.cons_val_zero, Matrix.cons_val_one, hg, gaussCorr_self, mul_add, Finset.sum_add_distrib, Finset.mul_sum, sub_mul, Finset.sum_sub_distrib]
    have e1 : ∀ i, gaussCorr param x (Xs i) = gaussCorr param (Xs i) x := fun i => hsym _ _
    have e2 : ∀ i, gaussCorr param x' (Xs i) = gaussCorr param (Xs i) x' := fun i => hsym _ _
    simp only [e1, e2, hsym x' x]
    have e3 : ∑ i, ∑ k, γ i * (gaussCorr param (Xs i) (Xs k) * γ k) = ∑ i, ∑ k, γ i * γ k * gaussCorr param (Xs i) (Xs k) :=
      Finset.sum_congr rfl (fun i _ => Finset.sum_congr rfl (fun k _ => by ring))
    have e4 : ∀ z : Fin d → ℝ, ∑ i, γ i * (gaussCorr param (Xs i) z * a) = (∑ i, gaussCorr param (Xs i) z * γ i) * a := fun z => by
      rw [Finset.sum_mul]; exact Finset.sum_congr rfl (fun i _ => by ring)
    have e5 : ∀ z : Fin d → ℝ, ∑ i, γ i * (gaussCorr param (Xs i) z * -a) = -((∑ i, gaussCorr param (Xs i) z * γ i) * a) := fun z => by
      rw [Finset.sum_mul, ← Finset.sum_neg_distrib]; exact Finset.sum_congr rfl (fun i _ => by ring)
    have e6 : ∀ z : Fin d → ℝ, ∑ i, a * (gaussCorr param (Xs i) z * γ i) = (∑ i, gaussCorr param (Xs i) z * γ i) * a := fun z => by
      rw [Finset.sum_mul]; exact Finset.sum_congr rfl (fun i _ => by ring)
    have e7 : ∀ z : Fin d → ℝ, ∑ i, -a * (gaussCorr param (Xs i) z * γ i) = -((∑ i, gaussCorr param (Xs i) z * γ i) * a) := fun z => by
      rw [Finset.sum_mul, ← Finset.sum_neg_distrib]; exact Finset.sum_congr rfl (fun i _ => by ring)
    rw [e3, e4, e5, e6, e7]
    ring_nf
  have := discrim_le_zero key
  unfold discrim at this
  nlinarith

/-- The size of the fitted weights: nugget and noise on the diagonal keep them small. -/
theorem weights_size {gp : GPObj d q} {t : GPFit n d q} (hT : Trained gp t) :
    (∑ i, ∑ k, t.gls.gamma i * t.gls.gamma k * gaussCorr gp.kernel.param (t.Xs i) (t.Xs k)) +
      (1e-10 + (t.noise / t.yStd) ^ 2) * ∑ i, t.gls.gamma i ^ 2 = n * t.gls.sigma2 := by
  have hp := fun k => (hT.param k).le
  have h1 : (n : ℝ) * t.gls.sigma2 = t.gls.gamma ⬝ᵥ (t.K *ᵥ t.gls.gamma) := by
    have hn : (n : ℝ) ≠ 0 := by exact_mod_cast hT.gls.pos.ne'
    rw [hT.gls.sigma2, hT.gls.K_gamma, dotProduct_comm, mul_div_cancel₀ _ hn]
  rw [h1, hT.K, covTrain_apply _ hp]
  simp only [dotProduct, Matrix.mulVec, add_mul, Finset.sum_add_distrib, Finset.mul_sum, mul_add]
  congr 1
  · exact Finset.sum_congr rfl (fun i _ => Finset.sum_congr rfl (fun k _ => by ring))
  · rw [← Finset.sum_add_distrib]
    refine Finset.sum_congr rfl (fun i _ => ?_)
    simp only [ite_mul, zero_mul, mul_ite, mul_zero, Finset.sum_ite_eq, Finset.mem_univ, if_true]
    ring

theorem gauss_quad_nonneg (param : Fin d → ℝ) (hp : ∀ k, 0 ≤ param k) (Xs : Samples n d) (γ : Fin n → ℝ) :
    0 ≤ ∑ i, ∑ k, γ i * γ k * gaussCorr param (Xs i) (Xs k) := by
  have h := (posSemidef_gauss param Xs).dotProduct_mulVec_nonneg γ
  refine h.trans (le_of_eq ?_)
  simp only [dotProduct, Matrix.mulVec, Pi.star_apply, star_trivial, Matrix.of_apply, Finset.mul_sum]
  refine Finset.sum_congr rfl (fun i _ => Finset.sum_congr rfl (fun k _ => ?_))
  unfold gaussCorr
  rw [rbfDist_eq param hp]
  ring

/-- The mean of a trained process, row by row. -/
theorem mean_row {gp : GPObj d q} {t : GPFit n d q} (hT : Trained gp t) (Xnew : Samples m d) :
    GP.predictMean gp t Xnew = .ok (fun j => (gp.regr (normPt gp.box (Xnew j)) ⬝ᵥ t.gls.beta +
      ∑ i, (gaussCorr gp.kernel.param (t.Xs i) (normPt gp.box (Xnew j)) + if i.val = j.val then 1e-10 else 0) * t.gls.gamma i) * t.yStd + t.yMean) := by
  rw [predictMean_eq hT]
  congr 1
  funext j
  have e2 : ((rbfMatrix gp.kernel.param t.Xs (fun i => normPt gp.box (Xnew i)))ᵀ *ᵥ t.gls.gamma) j =
      (fun i => rbfMatrix gp.kernel.param t.Xs (fun i => normPt gp.box (Xnew i)) i j) ⬝ᵥ t.gls.gamma := rfl
  rw [Pi.add_apply, e2, rbfMatrix_col _ (fun k => (hT.param k).le)]
  rfl

theorem mean_at_sample {gp' : GPObj d q} {t : GPFit n d q} (hT : Trained gp' t) (Xnew : Samples m d) (j : Fin m) (i : Fin n) (hx : Xnew j = t.X i) (μ : Fin m → ℝ)
    (hμ : GP.predictMean gp' t Xnew = .ok μ) : (μ j - t.y i) ^ 2 ≤ 2 * n * (t.gls.sigma2 * (1e-10 * t.yStd ^ 2 + t.noise ^ 2)) := by
  have hp := fun k => (hT.param k).le
  rw [mean_row hT] at hμ
  have hμj := congrFun (Except.ok.inj hμ) j
  have hxi : normPt gp'.box (Xnew j) = t.Xs i := by rw [hT.Xs, hx]
  have hrow : gp'.regr (t.Xs i) ⬝ᵥ t.gls.beta + (∑ a, (gaussCorr gp'.kernel.param (t.Xs a) (t.Xs i)) * t.gls.gamma a) +
      (1e-10 + (t.noise / t.yStd) ^ 2) * t.gls.gamma i = t.ys i := by
    have := congrFun (mean_train hT.gls) i
    rw [← this, hT.gls.symmK, hT.K, covTrain_apply _ hp, hT.F, add_assoc, Pi.add_apply]
    congr 1
    simp only [Matrix.mulVec, dotProduct, add_mul, Finset.sum_add_distrib, ite_mul, zero_mul, Finset.sum_ite_eq, Finset.mem_univ, if_true]
    congr 1
    refine Finset.sum_congr rfl (fun a _ => ?_)
    congr 1
    unfold gaussCorr; congr 2; exact Finset.sum_congr rfl (fun k _ => by ring)
  have hsum : ∑ a, (gaussCorr gp'.kernel.param (t.Xs a) (t.Xs i) + if a.val = j.val then (1e-10 : ℝ) else 0) * t.gls.gamma a =
      (∑ a, (gaussCorr gp'.kernel.param (t.Xs a) (t.Xs i)) * t.gls.gamma a) + if hj : j.val < n then 1e-10 * t.gls.gamma ⟨j.val, hj⟩ else 0 := by
    simp only [add_mul, Finset.sum_add_distrib]
    congr 1
    split
    · rename_i hj
      rw [Finset.sum_eq_single ⟨j.val, hj⟩]
      · simp
      · intro b _ hb
        rw [if_neg (fun hbj => hb (Fin.ext hbj))]; simp
      · intro hh; exact absurd (Finset.mem_univ _) hh
    · rename_i hj
      apply Finset.sum_eq_zero
      intro b _
      have := b.isLt
      rw [if_neg (by omega)]; simp
  have hsize := weights_size hT
  have hq := gauss_quad_nonneg gp'.kernel.param hp t.Xs t.gls.gamma
  set s2 : ℝ := (t.noise / t.yStd) ^ 2 with hs2def
  have hs2nn : 0 ≤ s2 := sq_nonneg _
  have hγi : t.gls.gamma i ^ 2 ≤ ∑ a, t.gls.gamma a ^ 2 := Finset.single_le_sum (f := fun a => t.gls.gamma a ^ 2) (fun a _ => sq_nonneg _) (Finset.mem_univ i)
  have hbound : (1e-10 + s2) * ∑ a, t.gls.gamma a ^ 2 ≤ n * t.gls.sigma2 := by linarith
  have hyi := hT.ys i
  have hv : t.noise ^ 2 = s2 * t.yStd ^ 2 := by
    rw [hs2def, div_pow, div_mul_cancel₀ _ (pow_ne_zero 2 hT.stdpos.ne')]
  have hfin : ∀ e : ℝ, e ^ 2 ≤ 2 * (1e-10 + s2) ^ 2 * ∑ a, t.gls.gamma a ^ 2 → (e * t.yStd) ^ 2 ≤ 2 * n * (t.gls.sigma2 * (1e-10 * t.yStd ^ 2 + t.noise ^ 2)) := by
    intro e he
    rw [hv]
    have h1 : e ^ 2 ≤ 2 * (1e-10 + s2) * (n * t.gls.sigma2) := by
      refine he.trans ?_
      have := mul_le_mul_of_nonneg_left hbound (by positivity : 0 ≤ 2 * (1e-10 + s2))
      refine le_trans (le_of_eq ?_) this
      ring
    have := mul_le_mul_of_nonneg_right h1 (sq_nonneg t.yStd)
    rw [mul_pow]
    refine this.trans (le_of_eq ?_)
    ring
  rw [hxi, hsum] at hμj
  by_cases hj : j.val < n
  · rw [dif_pos hj] at hμj
    have herr : μ j - t.y i = (1e-10 * t.gls.gamma ⟨j.val, hj⟩ - (1e-10 + s2) * t.gls.gamma i) * t.yStd := by
      rw [← hyi, ← hrow, ← hμj]; ring
    rw [herr]
    apply hfin
    by_cases hij : (⟨j.val, hj⟩ : Fin n) = i
    · rw [hij]
      have : (1e-10 * t.gls.gamma i - (1e-10 + s2) * t.gls.gamma i) ^ 2 = s2 ^ 2 * t.gls.gamma i ^ 2 := by ring
      rw [this]
      have h2 : s2 ^ 2 ≤ 2 * (1e-10 + s2) ^ 2 := by nlinarith
      exact mul_le_mul h2 hγi (sq_nonneg _) (by positivity)
    · have h2 : t.gls.gamma ⟨j.val, hj⟩ ^ 2 + t.gls.gamma i ^ 2 ≤ ∑ a, t.gls.gamma a ^ 2 := by
        rw [← Finset.sum_pair (f := fun a => t.gls.gamma a ^ 2) hij]
        exact Finset.sum_le_sum_of_subset_of_nonneg (Finset.subset_univ _) (fun a _ _ => sq_nonneg _)
      have h3 : (1e-10 * t.gls.gamma ⟨j.val, hj⟩ - (1e-10 + s2) * t.gls.gamma i) ^ 2 ≤
          2 * (1e-10 + s2) ^ 2 * (t.gls.gamma ⟨j.val, hj⟩ ^ 2 + t.gls.gamma i ^ 2) := by
        have h4 : (1e-10 : ℝ) ^ 2 ≤ (1e-10 + s2) ^ 2 := by nlinarith
        have h5 := mul_le_mul_of_nonneg_right h4 (sq_nonneg (t.gls.gamma ⟨j.val, hj⟩))
        nlinarith [sq_nonneg (1e-10 * t.gls.gamma ⟨j.val, hj⟩ + (1e-10 + s2) * t.gls.gamma i)]
      exact h3.trans (mul_le_mul_of_nonneg_left h2 (by positivity))
  · rw [dif_neg hj] at hμj
    have herr : μ j - t.y i = (-((1e-10 + s2) * t.gls.gamma i)) * t.yStd := by
      rw [← hyi, ← hrow, ← hμj]; ring
    rw [herr]
    apply hfin
    have : (-((1e-10 + s2) * t.gls.gamma i)) ^ 2 = (1e-10 + s2) ^ 2 * t.gls.gamma i ^ 2 := by ring
    rw [this]
    have h2 : (1e-10 + s2) ^ 2 ≤ 2 * (1e-10 + s2) ^ 2 := by nlinarith [sq_nonneg (1e-10 + s2)]
    exact mul_le_mul h2 hγi (sq_nonneg _) (by positivity)

/-- C114 (Kriging). In every batch and every row of it, the prediction at a sample `X i` misses its response by at most `sqrt (2 n v)` with `v = σ² (1e-10 s² + noise²)`, where `σ²` is the fitted
process variance (relative to `s²`) and `s` the spread of the responses; the standard deviation is at most `sqrt (v + noise²)`.  Without noise these are `1e-5 sqrt (2 n)` and `1e-5` times the standard
deviation of the process. -/
theorem C114_gp_evaluated (gp : GPObj d q) (w : World d) (X : Samples n d) (y : Fin n → ℝ) (gp' : GPObj d q) (t : GPFit n d q)
    (h : gp.train w X y = .ok (gp', t)) (Xnew : Samples m d) (j : Fin m) (i : Fin n) (hx : Xnew j = X i) :
    ∃ μ σ, GP.predictStd gp' t Xnew = .ok (μ, σ) ∧
      (μ j - y i) ^ 2 ≤ 2 * n * (t.gls.sigma2 * (1e-10 * std y ^ 2 + t.noise ^ 2)) ∧
      σ j ^ 2 ≤ t.gls.sigma2 * (1e-10 * std y ^ 2 + t.noise ^ 2) + t.noise ^ 2 := by
  obtain ⟨μ, σ, hμ, hpred, hs2, hrow⟩ := C100_best_linear_unbiased gp w X y gp' t h Xnew
  obtain ⟨wt, hb, _, hσ, _⟩ := hrow j
  obtain ⟨hT, hX, hy, hbox, hregr, hno, hmn, hstd, hys⟩ := trained_of_train h
  have hp := fun k => (hT.param k).le
  have hspos : 0 < std y := hstd ▸ hT.stdpos
  refine ⟨μ, σ, hpred, ?_, ?_⟩
  · have := mean_at_sample hT Xnew j i (by rw [hx, hX]) μ hμ
    rwa [hy, hstd] at this
  · have hvv : t.noise ^ 2 = (t.noise / std y) ^ 2 * std y ^ 2 := by
      rw [div_pow, div_mul_cancel₀ _ (pow_ne_zero 2 hspos.ne')]
    have hgen : ∀ P : ℝ, P ≤ 1e-10 + (t.noise / std y) ^ 2 →
        max (t.gls.sigma2 * std y ^ 2 * P + t.noise ^ 2) 0 ≤ t.gls.sigma2 * (1e-10 * std y ^ 2 + t.noise ^ 2) + t.noise ^ 2 := by
      intro P hP
      refine max_le ?_ (by positivity)
      have h3 := mul_le_mul_of_nonneg_left hP (mul_nonneg hs2 (sq_nonneg (std y)))
      have h4 : t.gls.sigma2 * std y ^ 2 * (1e-10 + (t.noise / std y) ^ 2) = t.gls.sigma2 * (1e-10 * std y ^ 2 + t.noise ^ 2) := by
        conv_rhs => rw [hvv]
        ring
      linarith
    rw [hσ]
    refine hgen _ ((best_le hb (unbiased_pick _ _ i (by rw [hx]))).trans ?_)
    rw [predErr_pick]
    dsimp only
    rw [hx, gaussCorr_self, if_pos rfl]
    split <;> linarith

/-- C114 (Kriging without noise). The same without noise: within `1e-5 sqrt (2 n)` standard deviations of the process, and with a standard deviation of at most `1e-5` of it. -/
theorem C114_gp_noise_free (gp : GPObj d q) (w : World d) (X : Samples n d) (y : Fin n → ℝ) (hnoise : gp.noise = some 0) (gp' : GPObj d q) (t : GPFit n d q)
    (h : gp.train w X y = .ok (gp', t)) (Xnew : Samples m d) (j : Fin m) (i : Fin n) (hx : Xnew j = X i) :
    ∃ μ σ, GP.predictStd gp' t Xnew = .ok (μ, σ) ∧ |μ j - y i| ≤ 1e-5 * Real.sqrt (2 * n) * (Real.sqrt t.gls.sigma2 * std y) ∧
      σ j ≤ 1e-5 * (Real.sqrt t.gls.sigma2 * std y) := by
  obtain ⟨μ, σ, hpred, h1, h2⟩ := C114_gp_evaluated gp w X y gp' t h Xnew j i hx
  obtain ⟨hT, _, _, _, _, hno, _⟩ := trained_of_train h
  rw [hno 0 hnoise] at h1 h2
  have hs2 := hT.gls.sigma2_nonneg
  have hs := std_nonneg y
  refine ⟨μ, σ, hpred, ?_, ?_⟩
  · apply abs_le_of_sq_le_sq _ (by positivity)
    refine h1.trans (le_of_eq ?_)
    rw [mul_pow, mul_pow, mul_pow, Real.sq_sqrt (by positivity), Real.sq_sqrt hs2]
    ring
  · refine le_trans (le_abs_self _) (abs_le_of_sq_le_sq ?_ (by positivity))
    refine h2.trans (le_of_eq ?_)
    rw [mul_pow, mul_pow, Real.sq_sqrt hs2]
    ring

/-- The hypotheses of C114 are met: the second sample, in the first row of a batch (the row number of another sample) and in the fifth (no sample's). -/
example : ∃ gp' t, (exGP (some 0)).train exWorld exX exY = .ok (gp', t) ∧ ∃ μ σ, GP.predictStd gp' t (fun _ => exX 1 : Samples 5 1) = .ok (μ, σ) ∧
    |μ 0 - exY 1| ≤ 1e-5 * Real.sqrt (2 * 3) * (Real.sqrt t.gls.sigma2 * std exY) ∧ |μ 4 - exY 1| ≤ 1e-5 * Real.sqrt (2 * 3) * (Real.sqrt t.gls.sigma2 * std exY) := by
  obtain ⟨gp', t, h⟩ := exGP_trains (some 0) exX exY 0 2 exY_ne
  obtain ⟨μ, σ, hp, h1, _⟩ := C114_gp_noise_free _ _ _ _ rfl _ _ h (fun _ => exX 1 : Samples 5 1) 0 1 rfl
  obtain ⟨μ', σ', hp', h1', _⟩ := C114_gp_noise_free _ _ _ _ rfl _ _ h (fun _ => exX 1 : Samples 5 1) 4 1 rfl
  rw [hp] at hp'
  cases hp'
  exact ⟨gp', t, h, μ, σ, hp, h1, h1'⟩

/-! ## C115: predictions vary slowly -/

theorem gaussCorr_ge (θ x x' : Fin d → ℝ) : 1 - gaussCorr θ x x' ≤ ∑ k, θ k * (x k - x' k) ^ 2 := by
  have := Real.add_one_le_exp (-∑ k, θ k * (x k - x' k) ^ 2)
  unfold gaussCorr
  linarith

/-- The nugget that a row of a batch gets if its number is a sample's moves the prediction little. -/
theorem nugget_row {gp : GPObj d q} {t : GPFit n d q} (hT : Trained gp t) (k : ℕ) (z : Fin d → ℝ) :
    ∃ e : ℝ, |e| ≤ 1e-5 * Real.sqrt (n * t.gls.sigma2) ∧
      ∑ i : Fin n, (gaussCorr gp.kernel.param (t.Xs i) z + if i.val = k then (1e-10 : ℝ) else 0) * t.gls.gamma i = ∑ i, gaussCorr gp.kernel.param (t.Xs i) z * t.gls.gamma i + e := by
  have hsize := weights_size hT
  have hq := gauss_quad_nonneg gp.kernel.param (fun k => (hT.param k).le) t.Xs t.gls.gamma
  have hs : 0 ≤ (t.noise / t.yStd) ^ 2 * ∑ i, t.gls.gamma i ^ 2 := mul_nonneg (sq_nonneg _) (Finset.sum_nonneg fun i _ => sq_nonneg _)
  have hnn : 0 ≤ (n : ℝ) * t.gls.sigma2 := mul_nonneg (Nat.cast_nonneg n) hT.gls.sigma2_nonneg
  by_cases hk : k < n
  · refine ⟨1e-10 * t.gls.gamma ⟨k, hk⟩, ?_, ?_⟩
    · apply abs_le_of_sq_le_sq _ (by positivity)
      have hγ : t.gls.gamma ⟨k, hk⟩ ^ 2 ≤ ∑ a, t.gls.gamma a ^ 2 := Finset.single_le_sum (f := fun a => t.gls.gamma a ^ 2) (fun a _ => sq_nonneg _) (Finset.mem_univ _)
      rw [mul_pow, mul_pow, Real.sq_sqrt hnn]
      nlinarith
    · simp only [add_mul, Finset.sum_add_distrib]
      congr 1
      rw [Finset.sum_eq_single ⟨k, hk⟩]
      · simp
      · intro b _ hb
        rw [if_neg (fun hbj => hb (Fin.ext hbj))]; simp
      · intro hh; exact absurd (Finset.mem_univ _) hh
  · refine ⟨0, by simpa using by positivity, ?_⟩
    rw [add_zero]
    refine Finset.sum_congr rfl (fun i _ => ?_)
    have := i.isLt
    rw [if_neg (by omega), add_zero]

/-- C115 (mean). For a trained process whose basis is constant (the default), the predictions at two points, in any rows of any batches, differ by at most `(sqrt (2 n σ² D) + 2e-5 sqrt (n σ²)) s`, where
`D = ∑ θ_k (u_k - u'_k)²` is the squared distance of the two points scaled to the unit box, weighted with the trained length scales. -/
theorem C115_gp_mean (gp : GPObj d q) (w : World d) (X : Samples n d) (y : Fin n → ℝ) (gp' : GPObj d q) (t : GPFit n d q)
    (h : gp.train w X y = .ok (gp', t)) (hconst : ∀ x x', gp.regr x = gp.regr x') {m' : ℕ} (Xa : Samples m d) (Xb : Samples m' d) (ja : Fin m) (jb : Fin m') :
    ∃ μa μb, GP.predictMean gp' t Xa = .ok μa ∧ GP.predictMean gp' t Xb = .ok μb ∧
      |μa ja - μb jb| ≤ (Real.sqrt (2 * n * t.gls.sigma2 *
        ∑ k, gp'.kernel.param k * ((Xa ja k - gp.box.low k) / (gp.box.high k - gp.box.low k) - (Xb jb k - gp.box.low k) / (gp.box.high k - gp.box.low k)) ^ 2) +
        2e-5 * Real.sqrt (n * t.gls.sigma2)) * std y := by
  obtain ⟨hT, hX, hy, hbox, hregr, hno, hmn, hstd, hys⟩ := trained_of_train h
  have hp := fun k => (hT.param k).le
  refine ⟨_, _, mean_row hT Xa, mean_row hT Xb, ?_⟩
  obtain ⟨ea, hea, ea'⟩ := nugget_row hT ja.val (normPt gp'.box (Xa ja))
  obtain ⟨eb, heb, eb'⟩ := nugget_row hT jb.val (normPt gp'.box (Xb jb))
  rw [ea', eb', hregr, hconst (normPt gp'.box (Xa ja)) (normPt gp'.box (Xb jb))]
  have hdiff := kernel_increment gp'.kernel.param hp t.Xs t.gls.gamma (normPt gp'.box (Xa ja)) (normPt gp'.box (Xb jb))
  have hsize := weights_size hT
  have hq := gauss_quad_nonneg gp'.kernel.param hp t.Xs t.gls.gamma
  have hle : (∑ i, ∑ k, t.gls.gamma i * t.gls.gamma k * gaussCorr gp'.kernel.param (t.Xs i) (t.Xs k)) ≤ n * t.gls.sigma2 := by
    have : 0 ≤ (1e-10 + (t.noise / t.yStd) ^ 2) * ∑ i, t.gls.gamma i ^ 2 :=
      mul_nonneg (by positivity) (Finset.sum_nonneg (fun i _ => sq_nonneg _))
    linarith
  have hg := gaussCorr_ge gp'.kernel.param (normPt gp'.box (Xa ja)) (normPt gp'.box (Xb jb))
  have hg0 : gaussCorr gp'.kernel.param (normPt gp'.box (Xa ja)) (normPt gp'.box (Xb jb)) ≤ 1 := by
    unfold gaussCorr
    rw [Real.exp_le_one_iff, neg_nonpos]
    exact Finset.sum_nonneg (fun k _ => mul_nonneg (hp k) (sq_nonneg _))
  have h1 := hdiff.trans (mul_le_mul hle (mul_le_mul_of_nonneg_left hg (by norm_num : (0:ℝ) ≤ 2)) (by linarith)
    (mul_nonneg (Nat.cast_nonneg n) hT.gls.sigma2_nonneg))
  rw [show (n : ℝ) * t.gls.sigma2 * (2 * ∑ k, gp'.kernel.param k * (normPt gp'.box (Xa ja) k - normPt gp'.box (Xb jb) k) ^ 2) = 2 * n * t.gls.sigma2 *
    ∑ k, gp'.kernel.param k * (normPt gp'.box (Xa ja) k - normPt gp'.box (Xb jb) k) ^ 2 by ring] at h1
  have h2 := Real.abs_le_sqrt h1
  have hs0 := std_nonneg y
  rw [hstd, hbox] at *
  set A := ∑ i, gaussCorr gp'.kernel.param (t.Xs i) (normPt gp.box (Xa ja)) * t.gls.gamma i with hA
  set B := ∑ i, gaussCorr gp'.kernel.param (t.Xs i) (normPt gp.box (Xb jb)) * t.gls.gamma i with hB
  simp only [sub_mul, Finset.sum_sub_distrib] at h2
  rw [← hA, ← hB] at h2
  set c := gp.regr (normPt gp.box (Xb jb)) ⬝ᵥ t.gls.beta
  rw [show (c + (A + ea)) * std y + t.yMean - ((c + (B + eb)) * std y + t.yMean) = ((A - B) + (ea - eb)) * std y by ring, abs_mul, abs_of_nonneg hs0]
  refine mul_le_mul_of_nonneg_right ?_ hs0
  refine (abs_add_le _ _).trans (add_le_add h2 ((abs_sub _ _).trans ?_))
  linarith

/-- C115 (standard deviation). For a constant basis, the squared standard deviation at a point exceeds that bound at an evaluated point (C114) by at most `2 σ² s² D`, with the same weighted
squared distance `D` between the point and the sample. -/
theorem C115_gp_std (gp : GPObj d q) (w : World d) (X : Samples n d) (y : Fin n → ℝ) (gp' : GPObj d q) (t : GPFit n d q)
    (h : gp.train w X y = .ok (gp', t)) (hconst : ∀ x x', gp.regr x = gp.regr x') (Xnew : Samples m d) (j : Fin m) (i : Fin n) :
    ∃ μ σ, GP.predictStd gp' t Xnew = .ok (μ, σ) ∧
      σ j ^ 2 ≤ t.gls.sigma2 * (1e-10 * std y ^ 2 + t.noise ^ 2) + t.noise ^ 2 + 2 * (t.gls.sigma2 * std y ^ 2) *
        ∑ k, gp'.kernel.param k * ((X i k - gp.box.low k) / (gp.box.high k - gp.box.low k) - (Xnew j k - gp.box.low k) / (gp.box.high k - gp.box.low k)) ^ 2 := by
  obtain ⟨μ, σ, hμ, hpred, hs2, hrow⟩ := C100_best_linear_unbiased gp w X y gp' t h Xnew
  obtain ⟨wt, hb, _, hσ, _⟩ := hrow j
  obtain ⟨hT, hX, hy, hbox, hregr, hno, hmn, hstd, hys⟩ := trained_of_train h
  have hp := fun k => (hT.param k).le
  have hspos : 0 < std y := hstd ▸ hT.stdpos
  refine ⟨μ, σ, hpred, ?_⟩
  have hvv : t.noise ^ 2 = (t.noise / std y) ^ 2 * std y ^ 2 := by
    rw [div_pow, div_mul_cancel₀ _ (pow_ne_zero 2 hspos.ne')]
  have hg := gaussCorr_ge gp'.kernel.param (fun k => (X i k - gp.box.low k) / (gp.box.high k - gp.box.low k)) (fun k => (Xnew j k - gp.box.low k) / (gp.box.high k - gp.box.low k))
  have hD : 0 ≤ ∑ k, gp'.kernel.param k * ((X i k - gp.box.low k) / (gp.box.high k - gp.box.low k) - (Xnew j k - gp.box.low k) / (gp.box.high k - gp.box.low k)) ^ 2 :=
    Finset.sum_nonneg (fun k _ => mul_nonneg (hp k) (sq_nonneg _))
  set D := ∑ k, gp'.kernel.param k * ((X i k - gp.box.low k) / (gp.box.high k - gp.box.low k) - (Xnew j k - gp.box.low k) / (gp.box.high k - gp.box.low k)) ^ 2 with hDdef
  have hgen : ∀ P : ℝ, P ≤ 1e-10 + (t.noise / std y) ^ 2 + 2 * D →
      max (t.gls.sigma2 * std y ^ 2 * P + t.noise ^ 2) 0 ≤ t.gls.sigma2 * (1e-10 * std y ^ 2 + t.noise ^ 2) + t.noise ^ 2 + 2 * (t.gls.sigma2 * std y ^ 2) * D := by
    intro P hP
    refine max_le ?_ (by positivity)
    have h3 := mul_le_mul_of_nonneg_left hP (mul_nonneg hs2 (sq_nonneg (std y)))
    have h4 : t.gls.sigma2 * std y ^ 2 * (1e-10 + (t.noise / std y) ^ 2 + 2 * D) = t.gls.sigma2 * (1e-10 * std y ^ 2 + t.noise ^ 2) + 2 * (t.gls.sigma2 * std y ^ 2) * D := by
      conv_rhs => rw [hvv]
      ring
    linarith
  rw [hσ]
  refine hgen _ ((best_le hb (unbiased_pick _ _ i (hconst _ _))).trans ?_)
  rw [predErr_pick]
  dsimp only
  rw [gaussCorr_self, if_pos rfl]
  split <;> linarith

/-- The hypotheses of C115 are met by the example process (its basis is the constant one). -/
example : ∃ gp' t, (exGP (some 0)).train exWorld exX exY = .ok (gp', t) ∧ (∀ x x', (exGP (some 0)).regr x = (exGP (some 0)).regr x') :=
  let ⟨gp', t, h⟩ := exGP_trains (some 0) exX exY 0 2 exY_ne
  ⟨gp', t, h, fun _ _ => rfl⟩

end Mfpml.Props
