import Verif.Model.RoundedCoKriging
import Verif.Spec.RoundedCoKriging
import Verif.Lemmas.RoundedCoKriging
import Verif.Lemmas.CoKriging
import Verif.Props.RoundedCholesky

/-!
# The joint covariance matrix of co-Kriging in floating-point arithmetic (C182)

`R` ranges over all roundings to nearest with `p` significant bits (`float64`: `p = 53`, `emin = -1074`).
-/

set_option linter.unusedSectionVars false

open scoped BigOperators Matrix

namespace Mfpml.Props

open Mfpml.Rounded Mfpml.GP Mfpml.Spec

variable {p : ℕ} {emin : ℤ} {R : Rounding p emin} {n m nl nh d : ℕ}

/-- Exact correlations are at most one, and the nugget is small. -/
theorem abs_rbfMatrix_le {par : Fin d → ℝ} (hpar : ∀ k, 0 ≤ par k) (X : Fin n → Fin d → ℝ) (Y : Fin m → Fin d → ℝ) (i : Fin n) (j : Fin m) : |rbfMatrix par X Y i j| ≤ 1.01 := by
  unfold rbfMatrix
  have h3 := Real.exp_pos (-(rbfDist par (X i) (Y j)))
  have h4 : Real.exp (-(rbfDist par (X i) (Y j))) ≤ 1 := Real.exp_le_one_iff.mpr (neg_nonpos.mpr (rbfDist_nonneg _ hpar _ _))
  have h5 : nugget = 1e-10 := by unfold nugget; norm_num
  rw [h5, abs_of_nonneg (by split <;> norm_num <;> linarith)]
  split <;> norm_num <;> linarith

/-- The accuracy of a covariance matrix with noise. -/
theorem covTrain_near (hp : 1 ≤ p) (he : emin ≤ 0) {param : Fin d → Fl R} (hparam : ∀ k, 0 ≤ (param k).val) {X : Fin n → Fin d → Fl R} {K : Fin n → Fin n → Fl R} {ε : ℝ}
    (hu1 : (2 : ℝ) ^ (-(p : ℤ)) ≤ 1 / 1000) (ht1 : (2 : ℝ) ^ (emin + p - 1) ≤ 1 / 1000) (hε1 : ε ≤ 1 / 1000) (sigma : Fl R) (i j : Fin n)
    (hK : |(K i j).val - rbfMatrix (fun k => (param k).val) (vals X) (vals X) i j| ≤ ε) :
    |(K i j + (if i = j then 1 else 0) * (sigma * sigma)).val - covTrain (fun k => (param k).val) (vals X) sigma.val i j| ≤ ε + 2.2 * 2 ^ (-(p : ℤ)) * (1 + sigma.val ^ 2) ∧
      |covTrain (fun k => (param k).val) (vals X) sigma.val i j| ≤ 1.01 * (1 + sigma.val ^ 2) := by
  have hu0 : (0 : ℝ) < 2 ^ (-(p : ℤ)) := two_zpow_pos _
  have ht0 : (0 : ℝ) < 2 ^ (emin + (p : ℤ) - 1) := two_zpow_pos _
  have hone : (1 : Fl R).val = 1 := R.fl_of_isFloat (isFloat_one hp he)
  have hle := abs_rbfMatrix_le (par := fun k => (param k).val) hparam (vals X) (vals X) i j
  have hs := sq_nonneg sigma.val
  unfold covTrain
  by_cases hij : i = j
  · subst hij
    rw [if_pos rfl]
    have e : (rbfMatrix (fun k => (param k).val) (vals X) (vals X) + sigma.val ^ 2 • (1 : Matrix (Fin n) (Fin n) ℝ)) i i = rbfMatrix (fun k => (param k).val) (vals X) (vals X) i i + sigma.val ^ 2 := by
      simp [Matrix.add_apply, Matrix.smul_apply]
    rw [e]
    constructor
    · have h := near_cov (f := R.fl) (fl_error hp R) hu0.le hu1 ht0.le ht1 hε1 hK hle (σ := sigma.val) (by rw [one_mul]; exact R.fl_of_isFloat (Fl.isFloat (sigma * sigma)))
      have e2 : (K i i + 1 * (sigma * sigma)).val = R.fl ((K i i).val + R.fl (1 * R.fl (sigma.val * sigma.val))) := by
        change R.fl ((K i i).val + R.fl ((1 : Fl R).val * R.fl (sigma.val * sigma.val))) = _
        rw [hone]
      rw [e2]
      exact h
    · refine (abs_add_le _ _).trans ?_
      rw [abs_of_nonneg hs]
      linarith
  · rw [if_neg hij]
    have e : (rbfMatrix (fun k => (param k).val) (vals X) (vals X) + sigma.val ^ 2 • (1 : Matrix (Fin n) (Fin n) ℝ)) i j = rbfMatrix (fun k => (param k).val) (vals X) (vals X) i j := by
      simp [Matrix.add_apply, Matrix.smul_apply, Matrix.one_apply_ne hij]
    rw [e]
    have e2 : (K i j + 0 * (sigma * sigma)).val = (K i j).val := by
      change R.fl ((K i j).val + R.fl (0 * R.fl (sigma.val * sigma.val))) = _
      rw [zero_mul, R.fl_of_isFloat isFloat_zero, add_zero, R.fl_of_isFloat (Fl.isFloat _)]
    rw [e2]
    constructor
    · have : 0 ≤ 2.2 * (2 : ℝ) ^ (-(p : ℤ)) * (1 + sigma.val ^ 2) := by positivity
      linarith
    · linarith

/-- The last steps of the estimate for the high-fidelity block. -/
theorem corner_arith {u t ε P Q rs s q : ℝ} (hu : 0 ≤ u) (hu1 : u ≤ 1 / 1000) (ht : 0 ≤ t) (ht1 : t ≤ 1 / 1000) (hε : 0 ≤ ε) (hε1 : ε ≤ 1 / 1000) (hrs0 : 0 ≤ rs) (hs0 : 0 ≤ s) (hq0 : 0 ≤ q)
    (hrs : rs ≤ P) (hs : s ≤ P) (hq : q ≤ Q) :
    rs * (ε + 3.5 * u) + 1.3 * (u * t) * s + 2.1 * (u * t) + (q * (ε + 3.3 * u) + u * t) +
      u * (1.01 * rs + 1.01 * q + (rs * (ε + 3.5 * u) + 1.3 * (u * t) * s + 2.1 * (u * t) + (q * (ε + 3.3 * u) + u * t)) + t) ≤ (1 + P + Q) * (ε + 4.8 * u) := by
  have hut : 0 ≤ u * t := by positivity
  have hut1 : u * t ≤ u * (1 / 1000) := mul_le_mul_of_nonneg_left ht1 hu
  have hP : 0 ≤ P := hs0.trans hs
  have hQ : 0 ≤ Q := hq0.trans hq
  have h1 : rs * (ε + 3.5 * u) ≤ P * (ε + 3.5 * u) := mul_le_mul_of_nonneg_right hrs (by positivity)
  have h2 : q * (ε + 3.3 * u) ≤ Q * (ε + 3.3 * u) := mul_le_mul_of_nonneg_right hq (by positivity)
  have h3 : (u * t) * s ≤ (u * (1 / 1000)) * P := mul_le_mul hut1 hs hs0 (by positivity)
  have huP : 0 ≤ u * P := by positivity
  have huQ : 0 ≤ u * Q := by positivity
  set T := rs * (ε + 3.5 * u) + 1.3 * (u * t) * s + 2.1 * (u * t) + (q * (ε + 3.3 * u) + u * t) with hT
  have hT1 : T ≤ (P + Q) * ε + 3.502 * (u * P) + 3.3 * (u * Q) + 0.0031 * u := by rw [hT]; nlinarith
  have hPε : P * ε ≤ P * (1 / 1000) := mul_le_mul_of_nonneg_left hε1 hP
  have hQε : Q * ε ≤ Q * (1 / 1000) := mul_le_mul_of_nonneg_left hε1 hQ
  have huP1 : u * P ≤ 1 / 1000 * P := mul_le_mul_of_nonneg_right hu1 hP
  have huQ1 : u * Q ≤ 1 / 1000 * Q := mul_le_mul_of_nonneg_right hu1 hQ
  have hT2 : T ≤ 0.01 * P + 0.01 * Q + 0.01 := by linarith
  have h4 : u * (1.01 * rs + 1.01 * q + T + t) ≤ u * (1.02 * P + 1.02 * Q + 0.02) := mul_le_mul_of_nonneg_left (by linarith) hu
  nlinarith

/-- Every entry before the jitter is added. -/
theorem jointEntry_near (hp : 1 ≤ p) (he : emin ≤ 0) {paramL param : Fin d → Fl R} (hparamL : ∀ k, 0 ≤ (paramL k).val) (hparam : ∀ k, 0 ≤ (param k).val) {Xl : Fin nl → Fin d → Fl R} {Xh : Fin nh → Fin d → Fl R}
    {ε : ℝ} (hu1 : (2 : ℝ) ^ (-(p : ℤ)) ≤ 1 / 1000) (ht1 : (2 : ℝ) ^ (emin + p - 1) ≤ 1 / 1000) (hε : 0 ≤ ε) (hε1 : ε ≤ 1 / 1000) {sigmaL sigma rho s2L s2 : Fl R} (hs : 0 ≤ s2L.val) (hs2 : 0 ≤ s2.val)
    {Kl : Fin nl → Fin nl → Fl R} {Klh : Fin nl → Fin nh → Fl R} {Khl : Fin nh → Fin nl → Fl R} {Khh K : Fin nh → Fin nh → Fl R}
    (hl : ∀ i j, |(Kl i j).val - rbfMatrix (fun k => (paramL k).val) (vals Xl) (vals Xl) i j| ≤ ε) (hlh : ∀ i j, |(Klh i j).val - rbfMatrix (fun k => (paramL k).val) (vals Xl) (vals Xh) i j| ≤ ε)
    (hhl : ∀ i j, |(Khl i j).val - rbfMatrix (fun k => (paramL k).val) (vals Xh) (vals Xl) i j| ≤ ε) (hhh : ∀ i j, |(Khh i j).val - rbfMatrix (fun k => (paramL k).val) (vals Xh) (vals Xh) i j| ≤ ε)
    (hK : ∀ i j, |(K i j).val - rbfMatrix (fun k => (param k).val) (vals Xh) (vals Xh) i j| ≤ ε) (a b : Fin nl ⊕ Fin nh) :
    |(jointEntry rho s2L s2 (fun i j => Kl i j + (if i = j then 1 else 0) * (sigmaL * sigmaL)) Klh Khl Khh (fun i j => K i j + (if i = j then 1 else 0) * (sigma * sigma)) a b).val -
        ckCov (covTrain (fun k => (paramL k).val) (vals Xl) sigmaL.val) (fun k => (paramL k).val) s2L.val rho.val s2.val (covTrain (fun k => (param k).val) (vals Xh) sigma.val) (vals Xl) (vals Xh) a b| ≤
      jointSize sigmaL sigma rho s2L s2 * (ε + 4.8 * 2 ^ (-(p : ℤ))) ∧
    |ckCov (covTrain (fun k => (paramL k).val) (vals Xl) sigmaL.val) (fun k => (paramL k).val) s2L.val rho.val s2.val (covTrain (fun k => (param k).val) (vals Xh) sigma.val) (vals Xl) (vals Xh) a b| ≤
      1.01 * jointSize sigmaL sigma rho s2L s2 := by
  have hu0 : (0 : ℝ) < 2 ^ (-(p : ℤ)) := two_zpow_pos _
  have ht0 : (0 : ℝ) < 2 ^ (emin + (p : ℤ) - 1) := two_zpow_pos _
  have hf := fl_error hp R
  have hcl := fun i j => covTrain_near hp he hparamL hu1 ht1 hε1 sigmaL i j (hl i j)
  have hch := fun i j => covTrain_near hp he hparam hu1 ht1 hε1 sigma i j (hK i j)
  have hsL := sq_nonneg sigmaL.val
  have hsH := sq_nonneg sigma.val
  have hr := sq_nonneg rho.val
  have hwL : (1 : ℝ) ≤ 1 + sigmaL.val ^ 2 := by linarith
  have hwH : (1 : ℝ) ≤ 1 + sigma.val ^ 2 := by linarith
  set P := s2L.val * (1 + rho.val ^ 2) * (1 + sigmaL.val ^ 2) with hP
  set Q := s2.val * (1 + sigma.val ^ 2) with hQ
  have hQ0 : 0 ≤ Q := by positivity
  have hPs : s2L.val * (1 + sigmaL.val ^ 2) ≤ P := by
    rw [hP]
    nlinarith [mul_nonneg (mul_nonneg hs hr) (by linarith : (0 : ℝ) ≤ 1 + sigmaL.val ^ 2)]
  have hPr : s2L.val * (1 + rho.val ^ 2) ≤ P := by
    rw [hP]
    nlinarith [mul_nonneg (mul_nonneg hs (by linarith : (0 : ℝ) ≤ 1 + rho.val ^ 2)) hsL]
  have hPs0 : 0 ≤ s2L.val * (1 + sigmaL.val ^ 2) := by positivity
  have hsr : 0 ≤ s2L.val * rho.val ^ 2 := by positivity
  have hrabs : |rho.val| * s2L.val ≤ P := by
    have h1 : |rho.val| ≤ 1 + rho.val ^ 2 := by nlinarith [sq_abs rho.val, sq_nonneg (|rho.val| - 1), abs_nonneg rho.val]
    nlinarith [mul_le_mul_of_nonneg_right h1 hs]
  have hP0 : 0 ≤ P := hPs0.trans hPs
  have hG : jointSize sigmaL sigma rho s2L s2 = 1 + P + Q := rfl
  have hsP : s2L.val ≤ P := by linarith
  have hrsP : rho.val ^ 2 * s2L.val ≤ P := by linarith
  rw [hG]
  generalize (2 : ℝ) ^ (-(p : ℤ)) = u at *
  generalize (2 : ℝ) ^ (emin + (p : ℤ) - 1) = t at *
  have hut1 : u * t ≤ u * (1 / 1000) := mul_le_mul_of_nonneg_left ht1 hu0.le
  have huP : 0 ≤ u * P := by positivity
  have huQ : 0 ≤ u * Q := by positivity
  have hεQ : 0 ≤ ε * Q := by positivity
  -- off-diagonal blocks
  have hcross : ∀ {k' k : ℝ}, |k' - k| ≤ ε → |k| ≤ 1.01 →
      |R.fl (R.fl (rho.val * s2L.val) * k') - rho.val * s2L.val * k| ≤ (1 + P + Q) * (ε + 4.8 * u) ∧ |rho.val * s2L.val * k| ≤ 1.01 * (1 + P + Q) := fun {k' k} h1 h2 => by
    constructor
    · refine (near_cross hf hu0.le hu1 ht0.le hs hε hε1 h1 h2).trans ?_
      have h3 : |rho.val| * s2L.val * (ε + 2.2 * u) ≤ P * (ε + 2.2 * u) := mul_le_mul_of_nonneg_right hrabs (by positivity)
      nlinarith
    · rw [abs_mul, abs_mul, abs_of_nonneg hs]
      have h3 := mul_le_mul hrabs h2 (abs_nonneg _) hP0
      linarith
  rcases a with i | i <;> rcases b with j | j
  · obtain ⟨h1, h2⟩ := hcl i j
    change |R.fl (s2L.val * (Kl i j + (if i = j then 1 else 0) * (sigmaL * sigmaL)).val) - s2L.val * covTrain (fun k => (paramL k).val) (vals Xl) sigmaL.val i j| ≤ _ ∧
      |s2L.val * covTrain (fun k => (paramL k).val) (vals Xl) sigmaL.val i j| ≤ _
    constructor
    · refine (near_scaled hf hu0.le hu1 hs hε hε1 hwL h1 h2).trans ?_
      have h3 : s2L.val * (1 + sigmaL.val ^ 2) * (ε + 3.3 * u) ≤ P * (ε + 3.3 * u) := mul_le_mul_of_nonneg_right hPs (by positivity)
      nlinarith
    · rw [abs_mul, abs_of_nonneg hs]
      have h3 := mul_le_mul_of_nonneg_left h2 hs
      linarith
  · exact hcross (hlh i j) (abs_rbfMatrix_le hparamL _ _ i j)
  · exact hcross (hhl i j) (abs_rbfMatrix_le hparamL _ _ i j)
  · obtain ⟨h1, h2⟩ := hch i j
    have hkk := abs_rbfMatrix_le (par := fun k => (paramL k).val) hparamL (vals Xh) (vals Xh) i j
    change |R.fl (R.fl (R.fl (R.fl (rho.val * rho.val) * s2L.val) * (Khh i j).val) + R.fl (s2.val * (K i j + (if i = j then 1 else 0) * (sigma * sigma)).val)) -
        (rho.val ^ 2 * s2L.val * rbfMatrix (fun k => (paramL k).val) (vals Xh) (vals Xh) i j + s2.val * covTrain (fun k => (param k).val) (vals Xh) sigma.val i j)| ≤ _ ∧
      |rho.val ^ 2 * s2L.val * rbfMatrix (fun k => (paramL k).val) (vals Xh) (vals Xh) i j + s2.val * covTrain (fun k => (param k).val) (vals Xh) sigma.val i j| ≤ _
    have ha := near_corner hf hu0.le hu1 ht0.le (ρ := rho.val) hs hε hε1 (hhh i j) hkk
    have hb := near_scaled hf hu0.le hu1 hs2 hε hε1 hwH h1 h2
    have hwa : |rho.val ^ 2 * s2L.val * rbfMatrix (fun k => (paramL k).val) (vals Xh) (vals Xh) i j| ≤ 1.01 * (rho.val ^ 2 * s2L.val) := by
      rw [abs_mul, abs_of_nonneg (by positivity : 0 ≤ rho.val ^ 2 * s2L.val), mul_comm]
      exact mul_le_mul_of_nonneg_right hkk (by positivity)
    have hwb : |s2.val * covTrain (fun k => (param k).val) (vals Xh) sigma.val i j| ≤ 1.01 * Q := by
      rw [abs_mul, abs_of_nonneg hs2]
      have h3 := mul_le_mul_of_nonneg_left h2 hs2
      linarith
    constructor
    · refine (near_sum hf hu0.le ha hb hwa hwb).trans ?_
      exact corner_arith hu0.le hu1 ht0.le ht1 hε hε1 (by positivity) hs hQ0 hrsP hsP le_rfl
    · refine (abs_add_le _ _).trans ?_
      linarith

/-- The jitter is added to the diagonal. -/
theorem jitter_near (hp : 1 ≤ p) (he : emin ≤ 0) (hu1 : (2 : ℝ) ^ (-(p : ℤ)) ≤ 1 / 1000) (ht1 : (2 : ℝ) ^ (emin + p - 1) ≤ 1 / 1000) {x : Fl R} {y G ε : ℝ} (hG : 1 ≤ G) (hε : 0 ≤ ε) (hε1 : ε ≤ 1 / 1000)
    (hx : |x.val - y| ≤ G * (ε + 4.8 * 2 ^ (-(p : ℤ)))) (hy : |y| ≤ 1.01 * G) (P : Prop) [Decidable P] :
    |(x + (if P then 1 else 0) * Fl.ofReal R (10 ^ (-10 : ℤ))).val - (y + if P then 1e-10 else 0)| ≤ G * (ε + 7 * 2 ^ (-(p : ℤ))) := by
  have hu0 : (0 : ℝ) < 2 ^ (-(p : ℤ)) := two_zpow_pos _
  have ht0 : (0 : ℝ) < 2 ^ (emin + (p : ℤ) - 1) := two_zpow_pos _
  have hone : (1 : Fl R).val = 1 := R.fl_of_isFloat (isFloat_one hp he)
  have hf := fl_error hp R
  by_cases h : P
  · rw [if_pos h, if_pos h]
    have e : (x + 1 * Fl.ofReal R (10 ^ (-10 : ℤ))).val = R.fl (x.val + R.fl (1e-10 : ℝ)) := by
      change R.fl (x.val + R.fl ((1 : Fl R).val * R.fl (10 ^ (-10 : ℤ)))) = _
      have hff : R.fl (R.fl (10 ^ (-10 : ℤ))) = R.fl (10 ^ (-10 : ℤ)) := R.fl_of_isFloat (R.isFloat _)
      rw [hone, one_mul, hff]
      norm_num
    rw [e]
    have hj := hf 1e-10
    generalize (2 : ℝ) ^ (-(p : ℤ)) = u at *
    generalize (2 : ℝ) ^ (emin + (p : ℤ) - 1) = t at *
    refine (near_sum hf hu0.le hx hj hy le_rfl).trans ?_
    have habs : |(1e-10 : ℝ)| = 1e-10 := abs_of_nonneg (by norm_num)
    rw [habs]
    have hut1 : u * t ≤ u * (1 / 1000) := mul_le_mul_of_nonneg_left ht1 hu0.le
    have huG : u ≤ u * G := by nlinarith
    have h1 : G * (ε + 4.8 * u) ≤ G * 0.01 := mul_le_mul_of_nonneg_left (by linarith) (by linarith)
    have h2 : u * (1e-10 + t) ≤ u * 0.01 := mul_le_mul_of_nonneg_left (by norm_num; linarith) hu0.le
    have h3 : u * (1.01 * G + 1e-10 + (G * (ε + 4.8 * u) + u * (1e-10 + t)) + t) ≤ u * (1.1 * G) := mul_le_mul_of_nonneg_left (by norm_num at *; linarith) hu0.le
    nlinarith
  · rw [if_neg h, if_neg h]
    have e : (x + 0 * Fl.ofReal R (10 ^ (-10 : ℤ))).val = x.val := by
      change R.fl (x.val + R.fl (0 * R.fl (10 ^ (-10 : ℤ)))) = _
      rw [zero_mul, R.fl_of_isFloat isFloat_zero, add_zero, R.fl_of_isFloat (Fl.isFloat _)]
    rw [e, add_zero]
    refine hx.trans (mul_le_mul_of_nonneg_left ?_ (by linarith))
    linarith

theorem kernelAccuracy_nonneg {ex : ExpFn R} {δ : ℝ} (hex : ExpAccurate ex δ) {param : Fin d → Fl R} (hparam : ∀ k, 0 ≤ (param k).val) : 0 ≤ kernelAccuracy param δ := by
  have hδ : 0 ≤ δ := by
    by_contra h
    have h1 := (abs_nonneg _).trans (hex 0)
    have h2 : 0 < max 1 (Real.exp (0 : Fl R).val) := lt_max_of_lt_left one_pos
    have := mul_neg_of_neg_of_pos (not_le.mp h) h2
    linarith
  have hS : (0 : ℝ) ≤ ∑ k, (param k).val := Finset.sum_nonneg fun k _ => hparam k
  have hu0 : (0 : ℝ) < 2 ^ (-(p : ℤ)) := two_zpow_pos _
  unfold kernelAccuracy
  positivity

theorem one_le_jointSize {sigmaL sigma rho s2L s2 : Fl R} (hs : 0 ≤ s2L.val) (hs2 : 0 ≤ s2.val) : 1 ≤ jointSize sigmaL sigma rho s2L s2 := by
  unfold jointSize
  have h1 : 0 ≤ s2L.val * (1 + rho.val ^ 2) * (1 + sigmaL.val ^ 2) := by positivity
  have h2 : 0 ≤ s2.val * (1 + sigma.val ^ 2) := by positivity
  linarith

/-- **C182 (accuracy).**  Every entry of the joint covariance matrix computed in floating-point arithmetic, in whatever order sums are added, differs from the exact entry (with the jitter `1e-10` on the
diagonal) by at most the accuracy of the correlations plus seven roundings, relative to the size of the entries. -/
theorem C182_accuracy (hp : 1 ≤ p) (he : emin + 2 * p ≤ 1) {ex : ExpFn R} {δ : ℝ} (hex : ExpAccurate ex δ) (hδ : δ ≤ 1 / 20) {paramL param : Fin d → Fl R} (hparamL : ∀ k, 0 ≤ (paramL k).val)
    (hparam : ∀ k, 0 ≤ (param k).val) {low high : Fin d → Fl R} (_hb : ∀ k, low k < high k) {Xl : Fin nl → Fin d → Fl R} (hXl : ∀ i k, low k ≤ Xl i k ∧ Xl i k ≤ high k) {Xh : Fin nh → Fin d → Fl R}
    (hXh : ∀ i k, low k ≤ Xh i k ∧ Xh i k ≤ high k) (hu1 : (2 : ℝ) ^ (-(p : ℤ)) ≤ 1 / 1000) (hε1 : kernelAccuracy paramL δ + kernelAccuracy param δ ≤ 1 / 1000)
    {sigmaL sigma rho s2L s2 : Fl R} (hs : 0 ≤ s2L.val) (hs2 : 0 ≤ s2.val) {C : Fin (nl + nh) → Fin (nl + nh) → Fl R}
    (hC : IsJointCov ex paramL param (normalizeFl low high Xl) (normalizeFl low high Xh) sigmaL sigma rho s2L s2 C) (a b : Fin (nl + nh)) :
    |(C a b).val - (flat (ckCov (covTrain (fun k => (paramL k).val) (vals (normalizeFl low high Xl)) sigmaL.val) (fun k => (paramL k).val) s2L.val rho.val s2.val
        (covTrain (fun k => (param k).val) (vals (normalizeFl low high Xh)) sigma.val) (vals (normalizeFl low high Xl)) (vals (normalizeFl low high Xh))) a b + if a = b then 1e-10 else 0)| ≤
      jointSize sigmaL sigma rho s2L s2 * (kernelAccuracy paramL δ + kernelAccuracy param δ + 7 * 2 ^ (-(p : ℤ))) ∧
    |(C a b).val| ≤ 1.1 * jointSize sigmaL sigma rho s2L s2 := by
  obtain ⟨Kl, Klh, Khl, Khh, K, ⟨Kl0, hKl0, hKl⟩, hKlh, hKhl, hKhh, ⟨K0, hK0, hK⟩, hCe⟩ := hC
  have he0 : emin ≤ 0 := by omega
  have hu0 : (0 : ℝ) < 2 ^ (-(p : ℤ)) := two_zpow_pos _
  have htu : (2 : ℝ) ^ (emin + (p : ℤ) - 1) ≤ 2 ^ (-(p : ℤ)) := zpow_le_zpow_right₀ (by norm_num) (by omega)
  have hεL := kernelAccuracy_nonneg hex hparamL
  have hεH := kernelAccuracy_nonneg hex hparam
  have hδ0 : 0 ≤ δ := by
    by_contra h
    have h1 := (abs_nonneg _).trans (hex 0)
    have h2 : 0 < max 1 (Real.exp (0 : Fl R).val) := lt_max_of_lt_left one_pos
    have := mul_neg_of_neg_of_pos (not_le.mp h) h2
    linarith
  have hsize : ∀ {q : Fin d → Fl R}, kernelAccuracy q δ ≤ 1 / 1000 → (∀ k, 0 ≤ (q k).val) → 5 * (d + 6) * (1 + ∑ k, (q k).val) * (2 : ℝ) ^ (-(p : ℤ)) ≤ 1 / 20 := fun {q} h hq => by
    unfold kernelAccuracy at h
    have hS : (0 : ℝ) ≤ ∑ k, (q k).val := Finset.sum_nonneg fun k _ => hq k
    have : 0 ≤ (d + 6) * (1 + ∑ k, (q k).val) * (2 : ℝ) ^ (-(p : ℤ)) := by positivity
    nlinarith
  have hl := normalizeFl_unit hp he0 hXl
  have hh := normalizeFl_unit hp he0 hXh
  have hl1 : ∀ i k, |(normalizeFl low high Xl i k).val| ≤ 1 := fun i k => by rw [abs_of_nonneg (hl i k).1]; exact (hl i k).2
  have hh1 : ∀ i k, |(normalizeFl low high Xh i k).val| ≤ 1 := fun i k => by rw [abs_of_nonneg (hh i k).1]; exact (hh i k).2
  have hsL := hsize (by linarith) hparamL
  have hsH := hsize (q := param) (by linarith) hparam
  have a1 := C176_accuracy_partial hp he hex hδ hparamL hl1 hl1 hsL hKl0
  have a2 := C176_accuracy_partial hp he hex hδ hparamL hl1 hh1 hsL hKlh
  have a3 := C176_accuracy_partial hp he hex hδ hparamL hh1 hl1 hsL hKhl
  have a4 := C176_accuracy_partial hp he hex hδ hparamL hh1 hh1 hsL hKhh
  have a5 := C176_accuracy_partial hp he hex hδ hparam hh1 hh1 hsH hK0
  set ε := kernelAccuracy paramL δ + kernelAccuracy param δ with hε
  have hKl' : Kl = fun i j => Kl0 i j + (if i = j then 1 else 0) * (sigmaL * sigmaL) := funext fun i => funext fun j => hKl i j
  have hK' : K = fun i j => K0 i j + (if i = j then 1 else 0) * (sigma * sigma) := funext fun i => funext fun j => hK i j
  obtain ⟨h1, h2⟩ := jointEntry_near (sigmaL := sigmaL) (sigma := sigma) (rho := rho) hp he0 hparamL hparam hu1 (htu.trans hu1) (by linarith : 0 ≤ ε) hε1 hs hs2 (fun i j => (a1 i j).trans (by linarith))
    (fun i j => (a2 i j).trans (by linarith)) (fun i j => (a3 i j).trans (by linarith)) (fun i j => (a4 i j).trans (by linarith)) (fun i j => (a5 i j).trans (by linarith)) (finSumFinEquiv.symm a) (finSumFinEquiv.symm b)
  rw [← hKl', ← hK'] at h1
  have hG := one_le_jointSize (sigmaL := sigmaL) (sigma := sigma) (rho := rho) hs hs2
  have h3 := jitter_near hp he0 hu1 (htu.trans hu1) hG (by linarith : 0 ≤ ε) hε1 h1 h2 (a = b)
  rw [← hCe] at h3
  refine ⟨h3, ?_⟩
  have h4 := near_size h3 (w := 1.01 * jointSize sigmaL sigma rho s2L s2 + 1e-10) ((abs_add_le _ _).trans (add_le_add h2 (by split <;> norm_num)))
  have h5 : jointSize sigmaL sigma rho s2L s2 * (ε + 7 * 2 ^ (-(p : ℤ))) ≤ jointSize sigmaL sigma rho s2L s2 * 0.01 := mul_le_mul_of_nonneg_left (by linarith) (by linarith)
  refine h4.trans ?_
  norm_num at *
  linarith

/-- C182 (proved part).  If the process variances, the scale factor, the noise and the number of samples are not too large for the jitter `1e-10`, the joint covariance matrix of co-Kriging, computed in floating-point
arithmetic from samples in the design space, is factorised whatever the order of the operations: no pivot fails, and the factor reproduces the matrix up to rounding.  What is missing for C182 is the case of large process
variances, where the factorisation can fail (`C182_counterexample`). -/
theorem C182_factorised_partial (hp : 1 ≤ p) (he : emin + 2 * p ≤ 1) {ex : ExpFn R} {δ : ℝ} (hex : ExpAccurate ex δ) (hδ : δ ≤ 1 / 20) {paramL param : Fin d → Fl R} (hparamL : ∀ k, 0 ≤ (paramL k).val)
    (hparam : ∀ k, 0 ≤ (param k).val) {low high : Fin d → Fl R} (hb : ∀ k, low k < high k) {Xl : Fin nl → Fin d → Fl R} (hXl : ∀ i k, low k ≤ Xl i k ∧ Xl i k ≤ high k) {Xh : Fin nh → Fin d → Fl R}
    (hXh : ∀ i k, low k ≤ Xh i k ∧ Xh i k ≤ high k) (hN : 0 < nl + nh) {sigmaL sigma rho s2L s2 : Fl R} (hs : 0 ≤ s2L.val) (hs2 : 0 ≤ s2.val)
    (hn : (nl + nh) * jointSize sigmaL sigma rho s2L s2 * (kernelAccuracy paramL δ + kernelAccuracy param δ + 4 * (nl + nh + 6) * (2 : ℝ) ^ (-(p : ℤ))) < 1e-10) {C : Fin (nl + nh) → Fin (nl + nh) → Fl R}
    (hC : IsJointCov ex paramL param (normalizeFl low high Xl) (normalizeFl low high Xh) sigmaL sigma rho s2L s2 C) :
    ¬ CholFails C ∧ (∃ L, CholReturns C L) ∧
      ∀ L, CholReturns C L → (∀ i, 0 < lowerTri L i i) ∧ ∀ i j, |(lowerTri L * (lowerTri L)ᵀ) i j - lowerOf C i j| ≤ cholAccuracy p (nl + nh) (1.1 * jointSize sigmaL sigma rho s2L s2) := by
  have hu0 : (0 : ℝ) < 2 ^ (-(p : ℤ)) := two_zpow_pos _
  have ht0 : (0 : ℝ) < 2 ^ (emin + (p : ℤ) - 1) := two_zpow_pos _
  have htu : (2 : ℝ) ^ (emin + (p : ℤ) - 1) ≤ 2 ^ (-(p : ℤ)) := zpow_le_zpow_right₀ (by norm_num) (by omega)
  have hεL := kernelAccuracy_nonneg hex hparamL
  have hεH := kernelAccuracy_nonneg hex hparam
  have hG := one_le_jointSize (sigmaL := sigmaL) (sigma := sigma) (rho := rho) hs hs2
  have hN1 : (1 : ℝ) ≤ (nl : ℝ) + nh := by exact_mod_cast hN
  have hcast : ((nl + nh : ℕ) : ℝ) = (nl : ℝ) + nh := by push_cast; rfl
  set G := jointSize sigmaL sigma rho s2L s2 with hGdef
  set ε := kernelAccuracy paramL δ + kernelAccuracy param δ with hε
  have hε0 : 0 ≤ ε := by linarith
  have hNG : 1 ≤ ((nl : ℝ) + nh) * G := by nlinarith
  have hA0 : 0 ≤ ε + 4 * (nl + nh + 6) * (2 : ℝ) ^ (-(p : ℤ)) := by positivity
  have hsmall : ε + 4 * (nl + nh + 6) * (2 : ℝ) ^ (-(p : ℤ)) < 1e-10 := lt_of_le_of_lt (by nlinarith) hn
  have hNu : ((nl : ℝ) + nh) * 2 ^ (-(p : ℤ)) ≥ 0 := by positivity
  have hε1 : ε ≤ 1 / 1000 := by norm_num at hsmall ⊢; nlinarith
  have hu1 : (2 : ℝ) ^ (-(p : ℤ)) ≤ 1 / 1000 := by norm_num at hsmall ⊢; nlinarith
  have hacc := C182_accuracy hp he hex hδ hparamL hparam hb hXl hXh hu1 hε1 hs hs2 hC
  rw [← hGdef, ← hε] at hacc
  set A := flat (ckCov (covTrain (fun k => (paramL k).val) (vals (normalizeFl low high Xl)) sigmaL.val) (fun k => (paramL k).val) s2L.val rho.val s2.val
        (covTrain (fun k => (param k).val) (vals (normalizeFl low high Xh)) sigma.val) (vals (normalizeFl low high Xl)) (vals (normalizeFl low high Xh))) with hAd
  have hpsd : A.PosSemidef := posSemidef_flat (posSemidef_ckCov _ _ _ _ _ _ _ hs hs2)
  have hsymm : ∀ i j, A i j = A j i := fun i j => by
    have := congrFun (congrFun hpsd.isHermitian.eq j) i
    simpa [Matrix.conjTranspose_apply] using this
  set E := G * (ε + 7 * 2 ^ (-(p : ℤ))) with hE
  have hlam : ∀ v : Fin (nl + nh) → ℝ, (1e-10 - ((nl : ℝ) + nh) * E) * ∑ i, v i ^ 2 ≤ v ⬝ᵥ (lowerOf C *ᵥ v) := fun v => by
    set D : Fin (nl + nh) → Fin (nl + nh) → ℝ := fun i j => lowerOf C i j - (A i j + if i = j then 1e-10 else 0) with hD
    have hDE : ∀ i j, |D i j| ≤ E := fun i j => by
      rw [hD]
      dsimp only
      unfold lowerOf
      split
      · exact (hacc i j).1
      · rw [hsymm i j]
        simp only [eq_comm (a := i) (b := j)]
        exact (hacc j i).1
    have h1 := (abs_le.mp (abs_quad_le hDE v)).1
    rw [hcast] at h1
    have h2 : (0 : ℝ) ≤ ∑ i, ∑ j, v i * A i j * v j := by
      have := hpsd.dotProduct_mulVec_nonneg v
      simp only [dotProduct, Matrix.mulVec, Pi.star_apply, star_trivial, Finset.mul_sum, mul_assoc] at this
      simpa only [mul_assoc] using this
    have h3 : v ⬝ᵥ (lowerOf C *ᵥ v) = ∑ i, ∑ j, v i * lowerOf C i j * v j := by
      simp only [dotProduct, Matrix.mulVec, Finset.mul_sum, mul_assoc]
    have h6 : ∑ i, ∑ j, v i * (if i = j then (1e-10 : ℝ) else 0) * v j = 1e-10 * ∑ i, v i ^ 2 := by
      rw [Finset.mul_sum]
      refine Finset.sum_congr rfl fun i _ => ?_
      rw [Finset.sum_eq_single i]
      · rw [if_pos rfl]; ring
      · intro j _ hji
        rw [if_neg (Ne.symm hji)]
        ring
      · intro h; exact absurd (Finset.mem_univ i) h
    have h5 : ∑ i, ∑ j, v i * lowerOf C i j * v j = ∑ i, ∑ j, v i * D i j * v j + (∑ i, ∑ j, v i * A i j * v j + 1e-10 * ∑ i, v i ^ 2) := by
      rw [← h6, ← Finset.sum_add_distrib, ← Finset.sum_add_distrib]
      refine Finset.sum_congr rfl fun i _ => ?_
      rw [← Finset.sum_add_distrib, ← Finset.sum_add_distrib]
      refine Finset.sum_congr rfl fun j _ => ?_
      rw [hD]
      ring
    rw [h3, h5]
    linarith
  have hGu : G * (2 : ℝ) ^ (-(p : ℤ)) ≤ 1e-10 := by
    have h1 : (0 : ℝ) ≤ G * ε := by positivity
    have h2 : (0 : ℝ) ≤ G * (2 : ℝ) ^ (-(p : ℤ)) := by positivity
    have h4 : 0 ≤ ((nl : ℝ) + nh) * (G * 2 ^ (-(p : ℤ))) := by positivity
    have h5 : G * (2 : ℝ) ^ (-(p : ℤ)) ≤ ((nl : ℝ) + nh) * G * (ε + 4 * (nl + nh + 6) * (2 : ℝ) ^ (-(p : ℤ))) := by
      have h6 : G * 2 ^ (-(p : ℤ)) ≤ ((nl : ℝ) + nh) * (G * 2 ^ (-(p : ℤ))) := by nlinarith
      have h7 : 0 ≤ ((nl : ℝ) + nh) * (G * ε) := by positivity
      have h8 : 0 ≤ ((nl : ℝ) + nh) * (((nl : ℝ) + nh) * (G * 2 ^ (-(p : ℤ)))) := by positivity
      have h9 : ((nl : ℝ) + nh) * G * (ε + 4 * (nl + nh + 6) * (2 : ℝ) ^ (-(p : ℤ))) = ((nl : ℝ) + nh) * (G * ε) + 4 * (((nl : ℝ) + nh) * (((nl : ℝ) + nh) * (G * 2 ^ (-(p : ℤ))))) + 24 * (((nl : ℝ) + nh) * (G * 2 ^ (-(p : ℤ)))) := by ring
      rw [h9]
      linarith
    linarith
  refine C179_cholesky hp he (M := 1.1 * G) (lam := 1e-10 - ((nl : ℝ) + nh) * E) (by linarith) ?_ (fun i j => ?_) hlam ?_ ?_
  · have : G * (2 : ℝ) ^ (emin + (p : ℤ) - 1) ≤ G * 2 ^ (-(p : ℤ)) := mul_le_mul_of_nonneg_left htu (by linarith)
    have h1 : G * (2 : ℝ) ^ (-(p : ℤ)) ≤ 1 / 10 := hGu.trans (by norm_num)
    linarith
  · unfold lowerOf
    split
    · exact (hacc i j).2
    · exact (hacc j i).2
  · rw [hcast]
    norm_num at hsmall ⊢
    nlinarith
  · rw [hcast]
    unfold cholAccuracy
    rw [hcast, hE]
    have h4 : 0 ≤ ((nl : ℝ) + nh) * (G * 2 ^ (-(p : ℤ))) := by positivity
    have h8 : 0 ≤ ((nl : ℝ) + nh) * (((nl : ℝ) + nh) * (G * 2 ^ (-(p : ℤ)))) := by positivity
    have h9 : ((nl : ℝ) + nh) * G * (ε + 4 * (nl + nh + 6) * (2 : ℝ) ^ (-(p : ℤ))) = ((nl : ℝ) + nh) * (G * ε) + 4 * (((nl : ℝ) + nh) * (((nl : ℝ) + nh) * (G * 2 ^ (-(p : ℤ))))) + 24 * (((nl : ℝ) + nh) * (G * 2 ^ (-(p : ℤ)))) := by ring
    rw [h9] at hn
    have h10 : ((nl : ℝ) + nh) * (3 * ((nl : ℝ) + nh + 4) * 2 ^ (-(p : ℤ)) * (1.1 * G)) = 3.3 * (((nl : ℝ) + nh) * (((nl : ℝ) + nh) * (G * 2 ^ (-(p : ℤ))))) + 13.2 * (((nl : ℝ) + nh) * (G * 2 ^ (-(p : ℤ)))) := by ring
    have h11 : ((nl : ℝ) + nh) * (G * (ε + 7 * 2 ^ (-(p : ℤ)))) = ((nl : ℝ) + nh) * (G * ε) + 7 * (((nl : ℝ) + nh) * (G * 2 ^ (-(p : ℤ)))) := by ring
    rw [h10, h11]
    linarith

/-! ### large process variances -/

theorem SubDot.single_eq {a : Fl R} {l : List (Fl R × Fl R)} {s : Fl R} (h : SubDot R a l s) :
    (l = [] → s = a) ∧ ∀ xy, l = [xy] → s.val = R.fl (a.val - R.fl (xy.1.val * xy.2.val)) ∨ s.val = R.fl (a.val - xy.1.val * xy.2.val) := by
  have hz : ∀ b : Fl R, b - 0 = b := fun b => Fl.val_injective (by
    change R.fl (b.val - 0) = b.val
    rw [sub_zero, R.fl_of_isFloat (Fl.isFloat _)])
  induction h with
  | start => exact ⟨fun _ => rfl, fun _ h => by cases h⟩
  | sub _ hd ih =>
    constructor
    · intro h
      rw [List.append_eq_nil_iff] at h
      rw [ih.1 h.1, (DotOf.single_eq (ab := (0, 0)) hd).1 h.2, hz]
    · intro xy h
      rcases List.append_eq_singleton_iff.mp h with ⟨e1, e2⟩ | ⟨e1, e2⟩
      · left
        rw [ih.1 e1, (DotOf.single_eq hd).2 e2]
        rfl
      · rw [(DotOf.single_eq (ab := (0, 0)) hd).1 e2, hz]
        exact ih.2 xy e1
  | fnma x y _ ih =>
    refine ⟨(fun h => by cases h), fun xy h => ?_⟩
    cases h
    right
    rw [ih.1 rfl]
    rfl
  | perm hp _ ih =>
    exact ⟨fun h => ih.1 (by rw [h] at hp; exact hp.eq_nil), fun xy h => ih.2 xy (by rw [h] at hp; exact List.perm_singleton.mp hp)⟩

/-- A matrix whose four entries are `2 ^ 30` cannot be factorised. -/
theorem constant_not_factorised (R : Rounding 53 (-1074)) {A : Fin 2 → Fin 2 → Fl R} (hA : ∀ i j, (A i j).val = 2 ^ 30) : CholFails A ∧ ¬ ∃ L, CholReturns A L := by
  have f30 : IsFloat 53 (-1074) ((2 : ℝ) ^ 30) := ⟨1, 30, by norm_num, by norm_num, by norm_num⟩
  have f15 : IsFloat 53 (-1074) ((2 : ℝ) ^ 15) := ⟨1, 15, by norm_num, by norm_num, by norm_num⟩
  have f15' : IsFloat 53 (-1074) (1 / (2 : ℝ) ^ 15) := ⟨1, -15, by norm_num, by norm_num, by norm_num⟩
  have f1 : IsFloat 53 (-1074) (1 : ℝ) := ⟨1, 0, by norm_num, by norm_num, by norm_num⟩
  have hno : ¬ ∃ L, CholReturns A L := by
    rintro ⟨L, S, h⟩
    have h00 := h 0 0 (by norm_num) (by norm_num) le_rfl
    have h10 := h 1 0 (by norm_num) (by norm_num) (by decide)
    have h11 := h 1 1 (by norm_num) (by norm_num) le_rfl
    have s00 : (S 0 0).val = 2 ^ 30 := by rw [(SubDot.single_eq h00.1).1 (by simp [rowPairs]), hA]
    have s10 : (S 1 0).val = 2 ^ 30 := by rw [(SubDot.single_eq h10.1).1 (by simp [rowPairs]), hA]
    have l00 : (L 0 0).val = 2 ^ 15 := by
      rw [h00.2.2.1 rfl]
      change R.fl (Real.sqrt (S 0 0).val) = _
      rw [s00, show ((2 : ℝ) ^ 30) = (2 ^ 15) ^ 2 by norm_num, Real.sqrt_sq (by norm_num), R.fl_of_isFloat f15]
    have l10 : (L 1 0).val = 2 ^ 15 := by
      rcases h10.2.2.2 (by decide) with e | e
      · rw [e]
        change R.fl ((S 1 0).val / (L 0 0).val) = _
        rw [s10, l00, show ((2 : ℝ) ^ 30) / 2 ^ 15 = 2 ^ 15 by norm_num, R.fl_of_isFloat f15]
      · rw [e]
        change R.fl ((S 1 0).val * R.fl ((1 : Fl R).val / (L 0 0).val)) = _
        rw [s10, l00, show (1 : Fl R).val = 1 from R.fl_of_isFloat f1, R.fl_of_isFloat f15', show ((2 : ℝ) ^ 30) * (1 / 2 ^ 15) = 2 ^ 15 by norm_num, R.fl_of_isFloat f15]
    have s11 : (S 1 1).val = 0 := by
      have := (SubDot.single_eq h11.1).2 (L 1 0, L 1 0) (by simp [rowPairs])
      simp only [hA, l10] at this
      rw [show ((2 : ℝ) ^ 15 * 2 ^ 15) = 2 ^ 30 by norm_num, R.fl_of_isFloat f30, sub_self, R.fl_of_isFloat isFloat_zero, or_self] at this
      exact this
    exact absurd h11.2.1 (by rw [s11]; exact lt_irrefl _)
  refine ⟨?_, hno⟩
  by_contra hf
  obtain ⟨L, S, h⟩ := cholCols_exists hf 2 le_rfl
  exact hno ⟨L, S, h⟩

/-- Numbers near `2 ^ 30` are rounded to it. -/
theorem fl_near (R : Rounding 53 (-1074)) {x : ℝ} (h : 2 * |x - 2 ^ 30| < 2 ^ (-23 : ℤ)) : R.fl x = 2 ^ 30 := by
  have f30 : IsFloat 53 (-1074) ((2 : ℝ) ^ 30) := ⟨1, 30, by norm_num, by norm_num, by norm_num⟩
  have h1 := R.nearest x _ f30
  have h2 : |R.fl x - 2 ^ 30| < 2 ^ (-23 : ℤ) := by
    calc |R.fl x - 2 ^ 30| = |(x - 2 ^ 30) - (x - R.fl x)| := by congr 1; ring
      _ ≤ |x - 2 ^ 30| + |x - R.fl x| := abs_sub _ _
      _ < 2 ^ (-23 : ℤ) := by linarith
  have h3 := abs_lt.mp h2
  have h4 := no_float_between (p := 53) (by norm_num) (m := 2 ^ 53) (e := -23) (by norm_num) (R.isFloat x) (by norm_num at h3 ⊢; linarith)
  refine le_antisymm ?_ (by norm_num at h4 ⊢; linarith)
  by_contra hc
  have h5 := no_float_between (p := 53) (by norm_num) (m := 2 ^ 53 + 1) (e := -23) (by norm_num) (R.isFloat x) (by norm_num at hc ⊢; linarith)
  norm_num at h5 h3
  linarith

/-- The correlation of a point at the lower bounds with itself, in double precision. -/
theorem corner_correlation (R : Rounding 53 (-1074)) {ex : ExpFn R} (hex : (ex 0).val = 1) (param low high : Fin 1 → Fl R) {K : Fin 1 → Fin 1 → Fl R}
    (hK : IsKernelMatrix ex param (normalizeFl low high fun _ => low) (normalizeFl low high fun _ => low) K) : (K 0 0).val = (4503599627820856 : ℤ) * 2 ^ (-52 : ℤ) := by
  obtain ⟨D, ⟨xsq, ysq, xy, h1, h2, h3, h4⟩, h5⟩ := hK
  have f1 : IsFloat 53 (-1074) (1 : ℝ) := ⟨1, 0, by norm_num, by norm_num, by norm_num⟩
  have hx : ∀ i k, normalizeFl low high (fun _ : Fin 1 => low) i k = 0 := fun i k => by
    apply Fl.val_injective
    change R.fl (R.fl ((low k).val - (low k).val) / _) = 0
    rw [sub_self, R.fl_of_isFloat isFloat_zero, zero_div, R.fl_of_isFloat isFloat_zero]
  have e1 : (xsq 0).val = 0 := by
    rw [(SumOf.single_eq (a := (0 : Fl R) * 0 * param 0) (h1 0)).2 (by simp [hx])]
    change R.fl (R.fl (0 * 0) * (param 0).val) = 0
    rw [mul_zero, R.fl_of_isFloat isFloat_zero, zero_mul, R.fl_of_isFloat isFloat_zero]
  have e2 : (ysq 0).val = 0 := by
    rw [(SumOf.single_eq (a := (0 : Fl R) * 0 * param 0) (h2 0)).2 (by simp [hx])]
    change R.fl (R.fl (0 * 0) * (param 0).val) = 0
    rw [mul_zero, R.fl_of_isFloat isFloat_zero, zero_mul, R.fl_of_isFloat isFloat_zero]
  have e3 : (xy 0 0).val = 0 := by
    rw [(DotOf.single_eq (ab := ((param 0).sqrt * 0, (param 0).sqrt * 0)) (h3 0 0)).2 (by simp [hx])]
    change R.fl (R.fl ((param 0).sqrt.val * 0) * R.fl ((param 0).sqrt.val * 0)) = 0
    rw [mul_zero, R.fl_of_isFloat isFloat_zero, mul_zero, R.fl_of_isFloat isFloat_zero]
  have eD : -(D 0 0) = 0 := by
    apply Fl.val_injective
    rw [h4]
    change R.fl (-R.fl (R.fl ((xsq 0).val + (ysq 0).val) - R.fl (R.fl 2 * (xy 0 0).val))) = 0
    rw [e1, e2, e3, add_zero, mul_zero, R.fl_of_isFloat isFloat_zero, sub_zero, R.fl_of_isFloat isFloat_zero, neg_zero, R.fl_of_isFloat isFloat_zero]
  have hj : R.fl (10 ^ (-10 : ℤ)) = (7737125245533627 : ℤ) * 2 ^ (-86 : ℤ) := by
    refine fl_eq (by norm_num) R (by norm_num) (by norm_num) (by norm_num) ?_
    push_cast
    norm_num [abs_of_pos, abs_of_neg]
  rw [h5, eD, if_pos rfl]
  change R.fl ((ex 0).val + R.fl ((1 : Fl R).val * R.fl (10 ^ (-10 : ℤ)))) = _
  rw [hex, show (1 : Fl R).val = 1 from R.fl_of_isFloat f1, one_mul, R.fl_of_isFloat (R.isFloat _), hj]
  refine fl_eq (by norm_num) R (by norm_num) (by norm_num) (by norm_num) ?_
  push_cast
  norm_num [abs_of_pos, abs_of_neg]

/-- C182 is false in double precision, whatever the tie rule, the kernel parameters and the design space: with one low-fidelity and one high-fidelity sample at the same point, scale factor one, no noise, a low-fidelity
process variance near `2 ^ 30` and a process variance of the difference of at most `2 ^ (-30)` (for example zero), the jitter `1e-10` is lost in the rounding and the factorisation always fails, although the exact matrix is
positive definite. -/
theorem C182_counterexample (R : Rounding 53 (-1074)) {ex : ExpFn R} (hex : (ex 0).val = 1) (paramL param low high : Fin 1 → Fl R) {rho s2L s2 : Fl R} (hrho : rho.val = 1)
    (hs2L : s2L.val = 9007199253840272 * 2 ^ (-23 : ℤ)) (hs2 : 0 ≤ s2.val) (hs2' : s2.val ≤ 2 ^ (-30 : ℤ)) {C : Fin (1 + 1) → Fin (1 + 1) → Fl R}
    (hC : IsJointCov ex paramL param (normalizeFl low high fun _ => low) (normalizeFl low high fun _ => low) 0 0 rho s2L s2 C) :
    (flat (ckCov (covTrain (fun k => (paramL k).val) (vals (normalizeFl low high fun _ => low)) 0) (fun k => (paramL k).val) s2L.val rho.val s2.val
        (covTrain (fun k => (param k).val) (vals (normalizeFl low high fun _ => low)) 0) (vals (normalizeFl low high fun _ => low)) (vals (normalizeFl low high fun _ => low))) +
      (1e-10 : ℝ) • (1 : Matrix (Fin (1 + 1)) (Fin (1 + 1)) ℝ)).PosDef ∧ CholFails C ∧ ¬ ∃ L, CholReturns C L := by
  constructor
  · have hpsd := posSemidef_flat (posSemidef_ckCov (fun k => (paramL k).val) (fun k => (param k).val) (vals (normalizeFl low high fun _ : Fin 1 => low)) (vals (normalizeFl low high fun _ : Fin 1 => low)) 0 0 rho.val
      (by rw [hs2L]; norm_num : 0 ≤ s2L.val) hs2)
    exact (posDef_smul_one (by norm_num)).posSemidef_add hpsd
  obtain ⟨Kl, Klh, Khl, Khh, K, ⟨Kl0, hKl0, hKl⟩, hKlh, hKhl, hKhh, ⟨K0, hK0, hK⟩, hCe⟩ := hC
  refine constant_not_factorised R fun a b => ?_
  set k : ℝ := (4503599627820856 : ℤ) * 2 ^ (-52 : ℤ) with hk
  have f1 : IsFloat 53 (-1074) (1 : ℝ) := ⟨1, 0, by norm_num, by norm_num, by norm_num⟩
  have hone : (1 : Fl R).val = 1 := R.fl_of_isFloat f1
  have c1 := corner_correlation R hex paramL low high hKl0
  have c2 := corner_correlation R hex paramL low high hKlh
  have c3 := corner_correlation R hex paramL low high hKhl
  have c4 := corner_correlation R hex paramL low high hKhh
  have c5 := corner_correlation R hex param low high hK0
  have hcov : ∀ x : Fl R, (x + 1 * (0 * 0)).val = x.val := fun x => by
    change R.fl (x.val + R.fl ((1 : Fl R).val * R.fl (0 * 0))) = _
    rw [mul_zero, R.fl_of_isFloat isFloat_zero, mul_zero, R.fl_of_isFloat isFloat_zero, add_zero, R.fl_of_isFloat (Fl.isFloat _)]
  have c1' : (Kl 0 0).val = k := by rw [hKl, if_pos rfl, hcov, c1]
  have c5' : (K 0 0).val = k := by rw [hK, if_pos rfl, hcov, c5]
  have hprod : R.fl (s2L.val * k) = 2 ^ 30 := by
    refine fl_near R ?_
    rw [hs2L, hk]
    push_cast
    norm_num [abs_of_pos, abs_of_neg]
  -- what is added is too small to be seen
  have habsorb : ∀ x : ℝ, 0 ≤ x → x ≤ 2 ^ (-29 : ℤ) → R.fl (2 ^ 30 + x) = 2 ^ 30 := fun x h0 h1 => by
    refine fl_near R ?_
    rw [add_sub_cancel_left, abs_of_nonneg h0]
    norm_num at h1 ⊢
    linarith
  have hsk0 : 0 ≤ R.fl (s2.val * k) := R.le_fl isFloat_zero (mul_nonneg hs2 (by rw [hk]; norm_num))
  have hsk1 : R.fl (s2.val * k) ≤ 2 ^ (-29 : ℤ) := by
    refine R.fl_le ⟨1, -29, by norm_num, by norm_num, by norm_num⟩ ?_
    have h1 : k ≤ 2 := by rw [hk]; norm_num
    have h2 := mul_le_mul hs2' h1 (by rw [hk]; norm_num) (by norm_num)
    refine h2.trans (by norm_num)
  have hrs : R.fl (rho.val * s2L.val) = s2L.val := by rw [hrho, one_mul, R.fl_of_isFloat (Fl.isFloat _)]
  have hentry : ∀ a b, (jointEntry rho s2L s2 Kl Klh Khl Khh K a b).val = 2 ^ 30 := by
    rintro (i | i) (j | j) <;> rw [Subsingleton.elim i 0, Subsingleton.elim j 0]
    · change R.fl (s2L.val * (Kl 0 0).val) = _
      rw [c1', hprod]
    · change R.fl (R.fl (rho.val * s2L.val) * (Klh 0 0).val) = _
      rw [hrs, c2, hprod]
    · change R.fl (R.fl (rho.val * s2L.val) * (Khl 0 0).val) = _
      rw [hrs, c3, hprod]
    · change R.fl (R.fl (R.fl (R.fl (rho.val * rho.val) * s2L.val) * (Khh 0 0).val) + R.fl (s2.val * (K 0 0).val)) = _
      rw [hrho, one_mul, R.fl_of_isFloat f1, one_mul, R.fl_of_isFloat (Fl.isFloat _), c4, hprod, c5', habsorb _ hsk0 hsk1]
  rw [hCe]
  change R.fl ((jointEntry rho s2L s2 Kl Klh Khl Khh K (finSumFinEquiv.symm a) (finSumFinEquiv.symm b)).val + R.fl ((if a = b then (1 : Fl R) else 0).val * R.fl (10 ^ (-10 : ℤ)))) = _
  rw [hentry]
  have hj0 : 0 ≤ R.fl (10 ^ (-10 : ℤ)) := R.le_fl isFloat_zero (by norm_num)
  have hj1 : R.fl (10 ^ (-10 : ℤ)) ≤ 2 ^ (-29 : ℤ) := R.fl_le ⟨1, -29, by norm_num, by norm_num, by norm_num⟩ (by norm_num)
  split
  · rw [hone, one_mul, R.fl_of_isFloat (R.isFloat _)]
    exact habsorb _ hj0 hj1
  · change R.fl (2 ^ 30 + R.fl (0 * R.fl (10 ^ (-10 : ℤ)))) = _
    rw [zero_mul, R.fl_of_isFloat isFloat_zero]
    exact habsorb 0 le_rfl (by norm_num)

/-! ### The hypotheses can be met -/

/-- Joint covariance matrices can be computed for all arrays. -/
theorem jointCov_exists (ex : ExpFn R) (paramL param : Fin d → Fl R) (Xl : Fin nl → Fin d → Fl R) (Xh : Fin nh → Fin d → Fl R) (sigmaL sigma rho s2L s2 : Fl R) :
    ∃ C, IsJointCov ex paramL param Xl Xh sigmaL sigma rho s2L s2 C := by
  obtain ⟨K1, h1⟩ := kernelMatrix_exists ex paramL Xl Xl
  obtain ⟨K2, h2⟩ := kernelMatrix_exists ex paramL Xl Xh
  obtain ⟨K3, h3⟩ := kernelMatrix_exists ex paramL Xh Xl
  obtain ⟨K4, h4⟩ := kernelMatrix_exists ex paramL Xh Xh
  obtain ⟨K5, h5⟩ := kernelMatrix_exists ex param Xh Xh
  exact ⟨_, _, K2, K3, K4, _, ⟨K1, h1, fun _ _ => rfl⟩, h2, h3, h4, ⟨K5, h5, fun _ _ => rfl⟩, fun _ _ => rfl⟩

/-- Twenty low-fidelity and five high-fidelity samples of two variables in double precision, wherever they lie in the unit square (also if high-fidelity samples are among the low-fidelity ones), with all kernel
parameters `10`, scale factor and process variances `1` and noise `0`: the factorisation succeeds. -/
example (Xl : Fin 20 → Fin 2 → Double) (Xh : Fin 5 → Fin 2 → Double) (hXl : ∀ i k, 0 ≤ Xl i k ∧ Xl i k ≤ oneD) (hXh : ∀ i k, 0 ≤ Xh i k ∧ Xh i k ≤ oneD) (ten : Double) (hten : ten.val = 10) :
    let ex : ExpFn (nearestRounding 53 (-1074) (by norm_num)) := fun a => Fl.ofReal _ (Real.exp a.val)
    ∃ C, IsJointCov ex (fun _ => ten) (fun _ => ten) (normalizeFl (fun _ => 0) (fun _ => oneD) Xl) (normalizeFl (fun _ => 0) (fun _ => oneD) Xh) 0 0 oneD oneD oneD C ∧ ¬ CholFails C ∧ ∃ L, CholReturns C L := by
  intro ex
  obtain ⟨C, hC⟩ := jointCov_exists ex (fun _ : Fin 2 => ten) (fun _ => ten) (normalizeFl (fun _ => 0) (fun _ => oneD) Xl) (normalizeFl (fun _ => 0) (fun _ => oneD) Xh) 0 0 oneD oneD oneD
  have hz : (0 : Double).val = 0 := rfl
  have ho : oneD.val = 1 := rfl
  obtain ⟨h1, h2, -⟩ := C182_factorised_partial (by norm_num) (by norm_num) (expAccurate_rounded (by norm_num) (by norm_num)) (by norm_num) (fun _ => by rw [hten]; norm_num) (fun _ => by rw [hten]; norm_num)
    (fun _ => (zero_lt_one : (0 : ℝ) < 1)) hXl hXh (by norm_num) (by rw [ho]; norm_num) (by rw [ho]; norm_num)
    (by simp only [jointSize, kernelAccuracy, hten, hz, ho, Finset.sum_const, Finset.card_univ, Fintype.card_fin]; norm_num) hC
  exact ⟨C, hC, h1, h2⟩

/-- The computation of `C182_counterexample` can be made. -/
example : ∃ (ex : ExpFn (nearestRounding 53 (-1074) (by norm_num))) (s2L : Double) (C : Fin (1 + 1) → Fin (1 + 1) → Double), (ex 0).val = 1 ∧ s2L.val = 9007199253840272 * 2 ^ (-23 : ℤ) ∧
    IsJointCov ex (fun _ => oneD) (fun _ => oneD) (normalizeFl (fun _ => 0) (fun _ => oneD) fun _ => fun _ => 0) (normalizeFl (fun _ => 0) (fun _ => oneD) fun _ => fun _ : Fin 1 => 0) 0 0 oneD s2L 0 C := by
  obtain ⟨C, hC⟩ := jointCov_exists (R := nearestRounding 53 (-1074) (by norm_num)) (fun a => Fl.ofReal _ (Real.exp a.val)) (fun _ : Fin 1 => oneD) (fun _ => oneD)
    (normalizeFl (fun _ => 0) (fun _ => oneD) fun _ : Fin 1 => fun _ => 0) (normalizeFl (fun _ => 0) (fun _ => oneD) fun _ : Fin 1 => fun _ => 0) 0 0 oneD
    ⟨9007199253840272 * 2 ^ (-23 : ℤ), 1125899906730034, -20, by norm_num, by norm_num, by norm_num⟩ 0
  refine ⟨_, _, C, ?_, rfl, hC⟩
  change (nearestRounding 53 (-1074) (by norm_num)).fl (Real.exp 0) = 1
  rw [Real.exp_zero]
  exact Rounding.fl_of_isFloat _ ⟨1, 0, by norm_num, by norm_num, by norm_num⟩

end Mfpml.Props
