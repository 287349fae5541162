import Verif.Model.RoundedCKPredict
import Verif.Spec.RoundedCKPredict
import Verif.Props.RoundedPredict
import Verif.Props.RoundedCoKriging

/-!
# The predicted mean of co-Kriging in floating-point arithmetic (C190)

`R` ranges over all roundings to nearest with `p` significant bits (`float64`: `p = 53`, `emin = -1074`).
-/

open scoped BigOperators

set_option linter.unusedSectionVars false

namespace Mfpml.Props

open Mfpml.Rounded Mfpml.GP Mfpml.Spec

variable {p : ℕ} {emin : ℤ} {R : Rounding p emin} {n r r' nl nh d : ℕ}

/-- A scalar product of nearby numbers of size at most `W` with given coefficients. -/
theorem dot_near_size (hp : 1 ≤ p) {a b : Fin n → Fl R} {s : Fl R} (h : DotOf R (List.ofFn fun i => (a i, b i)) s) {A : Fin n → ℝ} {ε W : ℝ} (hW : 0 ≤ W) (hA : ∀ i, |(a i).val - A i| ≤ W * ε) (hA1 : ∀ i, |A i| ≤ W) (hε : ε ≤ 1 / 5)
    (hn : n * (2 : ℝ) ^ (-(p : ℤ)) ≤ 1 / 100) :
    |s.val - ∑ i, A i * (b i).val| ≤ (ε + 1.3 * (n * 2 ^ (-(p : ℤ)))) * (W * ∑ i, |(b i).val|) + 1.1 * ((n * 2 ^ (-(p : ℤ))) * (n * 2 ^ (emin + p - 1))) := by
  have hu : (0 : ℝ) < 2 ^ (-(p : ℤ)) := two_zpow_pos _
  have ht : (0 : ℝ) < 2 ^ (emin + p - 1) := two_zpow_pos _
  obtain ⟨h1, -, -⟩ := DotOf.acc hp (k := 0) h (List.ofFn fun i => ((a i).val * (b i).val, |(a i).val * (b i).val| + 2 ^ (emin + p - 1))) (forall₂_ofFn fun i => ⟨acc_exact _ _, le_rfl⟩)
  rw [List.map_ofFn, List.map_ofFn, List.sum_ofFn, List.sum_ofFn, List.length_ofFn, Nat.zero_add] at h1
  unfold Rounded.Acc at h1
  simp only [Function.comp] at h1
  rw [Finset.sum_add_distrib, Finset.sum_const, Finset.card_univ, Fintype.card_fin, nsmul_eq_mul] at h1
  have h2 := one_add_pow_le hu.le n hn
  have hB : 0 ≤ ∑ i, |(b i).val| := Finset.sum_nonneg fun i _ => abs_nonneg _
  have hεW : W * ε ≤ W * (1 / 5) := mul_le_mul_of_nonneg_left hε hW
  have h3 : ∑ i, |(a i).val * (b i).val| ≤ 1.2 * (W * ∑ i, |(b i).val|) := by
    rw [Finset.mul_sum, Finset.mul_sum]
    refine Finset.sum_le_sum fun i _ => ?_
    rw [abs_mul, ← mul_assoc]
    exact mul_le_mul_of_nonneg_right ((near_size (hA i) (hA1 i)).trans (by linarith)) (abs_nonneg _)
  have h4 : |∑ i, (a i).val * (b i).val - ∑ i, A i * (b i).val| ≤ ε * (W * ∑ i, |(b i).val|) := by
    rw [← Finset.sum_sub_distrib, ← mul_assoc, mul_comm ε, Finset.mul_sum]
    refine (Finset.abs_sum_le_sum_abs _ _).trans (Finset.sum_le_sum fun i _ => ?_)
    rw [← sub_mul, abs_mul]
    exact mul_le_mul_of_nonneg_right (hA i) (abs_nonneg _)
  have h5 : |s.val - ∑ i, A i * (b i).val| ≤ |s.val - ∑ i, (a i).val * (b i).val| + |∑ i, (a i).val * (b i).val - ∑ i, A i * (b i).val| := abs_sub_le _ _ _
  have hnt : 0 ≤ n * (2 : ℝ) ^ (emin + (p : ℤ) - 1) := by positivity
  have hnu : 0 ≤ n * (2 : ℝ) ^ (-(p : ℤ)) := by positivity
  have hWB : 0 ≤ W * ∑ i, |(b i).val| := mul_nonneg hW hB
  have h6 : ((1 + (2 : ℝ) ^ (-(p : ℤ))) ^ n - 1) * (∑ i, |(a i).val * (b i).val| + n * 2 ^ (emin + (p : ℤ) - 1)) ≤
      1.02 * (n * 2 ^ (-(p : ℤ))) * (1.2 * (W * ∑ i, |(b i).val|) + n * 2 ^ (emin + (p : ℤ) - 1)) :=
    mul_le_mul h2 (by linarith) (add_nonneg (Finset.sum_nonneg fun i _ => abs_nonneg _) hnt) (by positivity)
  generalize (2 : ℝ) ^ (-(p : ℤ)) = u at *
  generalize (2 : ℝ) ^ (emin + (p : ℤ) - 1) = t at *
  generalize W * ∑ i, |(b i).val| = B at *
  have e1 : 1.02 * (n * u) * (1.2 * B + n * t) = 1.224 * (n * u * B) + 1.02 * (n * u * (n * t)) := by ring
  have e2 : (ε + 1.3 * (n * u)) * B = ε * B + 1.3 * (n * u * B) := by ring
  have h7 : 0 ≤ n * u * B := by positivity
  have h8 : 0 ≤ n * u * (n * t) := by positivity
  rw [e1] at h6
  rw [e2]
  linarith

/-- A small kernel accuracy bounds the size of the parameters. -/
theorem kernelAccuracy_size {ex : ExpFn R} {δ : ℝ} (hex : ExpAccurate ex δ) {param : Fin d → Fl R} (hparam : ∀ k, 0 ≤ (param k).val) (h : kernelAccuracy param δ ≤ 1 / 1000) :
    5 * (d + 6) * (1 + ∑ k, (param k).val) * (2 : ℝ) ^ (-(p : ℤ)) ≤ 1 / 20 := by
  have hδ0 : 0 ≤ δ := by
    by_contra h
    have h1 := (abs_nonneg _).trans (hex 0)
    have h2 : 0 < max 1 (Real.exp (0 : Fl R).val) := lt_max_of_lt_left one_pos
    have := mul_neg_of_neg_of_pos (not_le.mp h) h2
    linarith
  unfold kernelAccuracy at h
  have hS : (0 : ℝ) ≤ ∑ k, (param k).val := Finset.sum_nonneg fun k _ => hparam k
  have : 0 ≤ (d + 6) * (1 + ∑ k, (param k).val) * (2 : ℝ) ^ (-(p : ℤ)) := by positivity
  nlinarith

/-- The exact covariance of the high-fidelity response at the scaled point `z` with the response at a sample. -/
noncomputable def exactCross (thetaL theta : Fin d → ℝ) (Xl : Fin nl → Fin d → ℝ) (Xh : Fin nh → Fin d → ℝ) (rho s2L s2 : ℝ) (z : Fin d → ℝ) : Fin nl ⊕ Fin nh → ℝ
  | .inl i => rho * s2L * Real.exp (-∑ k, thetaL k * (Xl i k - z k) ^ 2)
  | .inr i => rho ^ 2 * s2L * Real.exp (-∑ k, thetaL k * (Xh i k - z k) ^ 2) + s2 * Real.exp (-∑ k, theta k * (Xh i k - z k) ^ 2)

theorem coKrigingMean_eq (thetaL theta : Fin d → ℝ) (Xl : Fin nl → Fin d → ℝ) (Xh : Fin nh → Fin d → ℝ) (rho s2L s2 mu : ℝ) (w : Fin (nl + nh) → ℝ) (m s : ℝ) (z : Fin d → ℝ) :
    coKrigingMean thetaL theta Xl Xh rho s2L s2 mu (fun i => w (Fin.castAdd nh i)) (fun i => w (Fin.natAdd nl i)) m s z =
      s * (mu + ∑ a, exactCross thetaL theta Xl Xh rho s2L s2 z (finSumFinEquiv.symm a) * w a) + m := by
  rw [Fin.sum_univ_add]
  simp only [finSumFinEquiv_symm_apply_castAdd, finSumFinEquiv_symm_apply_natAdd]
  rfl

/-- Computed covariances are close to exact ones. -/
theorem crossEntry_near (hp : 1 ≤ p) {ε : ℝ} (hu1 : (2 : ℝ) ^ (-(p : ℤ)) ≤ 1 / 1000) (ht1 : (2 : ℝ) ^ (emin + p - 1) ≤ 1 / 1000) (hε : 0 ≤ ε) (hε1 : ε ≤ 1 / 1000) {rho s2L s2 : Fl R} (hs : 0 ≤ s2L.val) (hs2 : 0 ≤ s2.val)
    {thetaL theta : Fin d → ℝ} {Xl : Fin nl → Fin d → ℝ} {Xh : Fin nh → Fin d → ℝ} {z : Fin d → ℝ} {Kl : Fin nl → Fin r → Fl R} {Kh K : Fin nh → Fin r → Fl R} {j : Fin r}
    (hl : ∀ i, |(Kl i j).val - Real.exp (-∑ k, thetaL k * (Xl i k - z k) ^ 2)| ≤ ε ∧ |Real.exp (-∑ k, thetaL k * (Xl i k - z k) ^ 2)| ≤ 1)
    (hh : ∀ i, |(Kh i j).val - Real.exp (-∑ k, thetaL k * (Xh i k - z k) ^ 2)| ≤ ε ∧ |Real.exp (-∑ k, thetaL k * (Xh i k - z k) ^ 2)| ≤ 1)
    (hK : ∀ i, |(K i j).val - Real.exp (-∑ k, theta k * (Xh i k - z k) ^ 2)| ≤ ε ∧ |Real.exp (-∑ k, theta k * (Xh i k - z k) ^ 2)| ≤ 1) (a : Fin nl ⊕ Fin nh) :
    |(crossEntry rho s2L s2 Kl Kh K j a).val - exactCross thetaL theta Xl Xh rho.val s2L.val s2.val z a| ≤ crossSize rho s2L s2 * (ε + 4.8 * 2 ^ (-(p : ℤ))) ∧
      |exactCross thetaL theta Xl Xh rho.val s2L.val s2.val z a| ≤ crossSize rho s2L s2 := by
  have hu0 : (0 : ℝ) < 2 ^ (-(p : ℤ)) := two_zpow_pos _
  have ht0 : (0 : ℝ) < 2 ^ (emin + (p : ℤ) - 1) := two_zpow_pos _
  have hf := fl_error hp R
  have hr := sq_nonneg rho.val
  have hG : crossSize rho s2L s2 = 1 + s2L.val * (1 + rho.val ^ 2) + s2.val := rfl
  have hsr : 0 ≤ s2L.val * rho.val ^ 2 := by positivity
  have hrabs : |rho.val| * s2L.val ≤ s2L.val * (1 + rho.val ^ 2) := by
    have h1 : |rho.val| ≤ 1 + rho.val ^ 2 := by nlinarith [sq_abs rho.val, sq_nonneg (|rho.val| - 1), abs_nonneg rho.val]
    nlinarith [mul_le_mul_of_nonneg_right h1 hs]
  have hsP : s2L.val ≤ s2L.val * (1 + rho.val ^ 2) := by linarith
  have hrsP : rho.val ^ 2 * s2L.val ≤ s2L.val * (1 + rho.val ^ 2) := by linarith
  rw [hG]
  generalize s2L.val * (1 + rho.val ^ 2) = P at *
  have hP0 : 0 ≤ P := hs.trans hsP
  generalize (2 : ℝ) ^ (-(p : ℤ)) = u at *
  generalize (2 : ℝ) ^ (emin + (p : ℤ) - 1) = t at *
  have hut1 : u * t ≤ u * (1 / 1000) := mul_le_mul_of_nonneg_left ht1 hu0.le
  have huP : 0 ≤ u * P := by positivity
  have huQ : 0 ≤ u * s2.val := by positivity
  have hεQ : 0 ≤ ε * s2.val := by positivity
  rcases a with i | i
  · obtain ⟨h1, h2⟩ := hl i
    change |R.fl (R.fl (rho.val * s2L.val) * (Kl i j).val) - rho.val * s2L.val * Real.exp (-∑ k, thetaL k * (Xl i k - z k) ^ 2)| ≤ _ ∧ |rho.val * s2L.val * Real.exp (-∑ k, thetaL k * (Xl i k - z k) ^ 2)| ≤ _
    constructor
    · refine (near_cross hf hu0.le hu1 ht0.le hs hε hε1 h1 (h2.trans (by norm_num))).trans ?_
      have h3 : |rho.val| * s2L.val * (ε + 2.2 * u) ≤ P * (ε + 2.2 * u) := mul_le_mul_of_nonneg_right hrabs (by positivity)
      nlinarith
    · rw [abs_mul, abs_mul, abs_of_nonneg hs]
      have h3 := mul_le_mul hrabs h2 (abs_nonneg _) hP0
      linarith
  · obtain ⟨h1, h2⟩ := hh i
    obtain ⟨h3, h4⟩ := hK i
    change |R.fl (R.fl (R.fl (R.fl (rho.val * rho.val) * s2L.val) * (Kh i j).val) + R.fl (s2.val * (K i j).val)) -
        (rho.val ^ 2 * s2L.val * Real.exp (-∑ k, thetaL k * (Xh i k - z k) ^ 2) + s2.val * Real.exp (-∑ k, theta k * (Xh i k - z k) ^ 2))| ≤ _ ∧
      |rho.val ^ 2 * s2L.val * Real.exp (-∑ k, thetaL k * (Xh i k - z k) ^ 2) + s2.val * Real.exp (-∑ k, theta k * (Xh i k - z k) ^ 2)| ≤ _
    generalize Real.exp (-∑ k, thetaL k * (Xh i k - z k) ^ 2) = A at *
    generalize Real.exp (-∑ k, theta k * (Xh i k - z k) ^ 2) = B at *
    have ha := near_corner hf hu0.le hu1 ht0.le (ρ := rho.val) hs hε hε1 h1 (h2.trans (by norm_num))
    have hb := near_scaled hf hu0.le hu1 hs2 hε hε1 (w := 1) le_rfl (h3.trans (by linarith)) (h4.trans (by norm_num))
    rw [mul_one] at hb
    have hwa : |rho.val ^ 2 * s2L.val * A| ≤ rho.val ^ 2 * s2L.val := by
      rw [abs_mul, abs_of_nonneg (by positivity : 0 ≤ rho.val ^ 2 * s2L.val)]
      exact mul_le_of_le_one_right (by positivity) h2
    have hwb : |s2.val * B| ≤ s2.val := by
      rw [abs_mul, abs_of_nonneg hs2]
      exact mul_le_of_le_one_right hs2 h4
    have hrs0 : 0 ≤ rho.val ^ 2 * s2L.val := by positivity
    constructor
    · refine (near_sum hf hu0.le ha hb (hwa.trans (by linarith : _ ≤ 1.01 * (rho.val ^ 2 * s2L.val))) (hwb.trans (by linarith : _ ≤ 1.01 * s2.val))).trans ?_
      exact corner_arith hu0.le hu1 ht0.le ht1 hε hε1 hrs0 hs hs2 hrsP hsP le_rfl
    · refine (abs_add_le _ _).trans ?_
      linarith

/-- **C190 (accuracy).**  The mean that `CoKriging.predict` computes for a point of the design space is the value of the textbook formula with the trained parameters and the weights from the solver, at the scaled point, up to
`coKrigingAccuracy` relative to the size of the terms; whatever the other points of the batch are and in whatever order sums are computed. -/
theorem C190_mean (hp : 1 ≤ p) (he : emin + 2 * p ≤ 1) {ex : ExpFn R} {δ : ℝ} (hex : ExpAccurate ex δ) (hδ : δ ≤ 1 / 20) {paramL param : Fin d → Fl R} (hparamL : ∀ k, 0 ≤ (paramL k).val) (hparam : ∀ k, 0 ≤ (param k).val)
    {low high : Fin d → Fl R} {Xl : Fin nl → Fin d → Fl R} (hXl : ∀ i k, low k ≤ Xl i k ∧ Xl i k ≤ high k) {Xh : Fin nh → Fin d → Fl R} (hXh : ∀ i k, low k ≤ Xh i k ∧ Xh i k ≤ high k)
    {Z : Fin r → Fin d → Fl R} (hZ : ∀ j k, low k ≤ Z j k ∧ Z j k ≤ high k) (hu1 : (2 : ℝ) ^ (-(p : ℤ)) ≤ 1 / 1000) (hε1 : kernelAccuracy paramL δ + kernelAccuracy param δ ≤ 1 / 2000)
    (hn : (nl + nh + 1) * (2 : ℝ) ^ (-(p : ℤ)) ≤ 1 / 100) {rho s2L s2 mu : Fl R} (hs : 0 ≤ s2L.val) (hs2 : 0 ≤ s2.val) {w : Fin (nl + nh) → Fl R} {m s : Fl R} {F : Fin r → Fl R}
    (hF : IsCKMeanPrediction ex low high paramL param Xl Xh rho s2L s2 mu w m s Z F) (j : Fin r) :
    |(F j).val - coKrigingMean (fun k => (paramL k).val) (fun k => (param k).val) (vals (normalizeFl low high Xl)) (vals (normalizeFl low high Xh)) rho.val s2L.val s2.val mu.val (fun i => (w (Fin.castAdd nh i)).val)
        (fun i => (w (Fin.natAdd nl i)).val) m.val s.val (vals (normalizeFl low high Z) j)| ≤
      coKrigingAccuracy (nl + nh) paramL param δ * coKrigingSize rho s2L s2 mu w * |s.val| + 2 ^ (-(p : ℤ)) * (|m.val| + 3 * 2 ^ (emin + p - 1)) := by
  obtain ⟨Kl, Kh, K, cw, hKl, hKh, hK, hcw, hFe⟩ := hF
  have he0 : emin ≤ 0 := by omega
  have hu : (0 : ℝ) < 2 ^ (-(p : ℤ)) := two_zpow_pos _
  have ht : (0 : ℝ) < 2 ^ (emin + (p : ℤ) - 1) := two_zpow_pos _
  have htu : (2 : ℝ) ^ (emin + (p : ℤ) - 1) ≤ 2 ^ (-(p : ℤ)) := zpow_le_zpow_right₀ (by norm_num) (by omega)
  have h10 : (1e-10 : ℝ) ≤ 1 / 1000 := by norm_num
  have hεL := kernelAccuracy_nonneg hex hparamL
  have hεH := kernelAccuracy_nonneg hex hparam
  have hn0 : (0 : ℝ) ≤ ((nl + nh : ℕ) : ℝ) := Nat.cast_nonneg _
  have hn1 : (((nl + nh : ℕ) : ℝ) + 1) * (2 : ℝ) ^ (-(p : ℤ)) ≤ 1 / 100 := by push_cast; exact hn
  have hn2 : ((nl + nh : ℕ) : ℝ) * (2 : ℝ) ^ (-(p : ℤ)) ≤ 1 / 100 := le_trans (mul_le_mul_of_nonneg_right (by linarith) hu.le) hn1
  have habs : ∀ {k' : ℕ} {Y : Fin k' → Fin d → Fl R}, (∀ i k, low k ≤ Y i k ∧ Y i k ≤ high k) → ∀ i k, |(normalizeFl low high Y i k).val| ≤ 1 := fun hY i k => by
    have := normalizeFl_unit hp he0 hY i k
    rw [abs_of_nonneg this.1]; exact this.2
  have hsL := kernelAccuracy_size hex hparamL (by linarith)
  have hsH := kernelAccuracy_size hex hparam (by linarith)
  have a1 := C176_accuracy_partial hp he hex hδ hparamL (habs hXl) (habs hZ) hsL hKl
  have a2 := C176_accuracy_partial hp he hex hδ hparamL (habs hXh) (habs hZ) hsL hKh
  have a3 := C176_accuracy_partial hp he hex hδ hparam (habs hXh) (habs hZ) hsH hK
  have c1 := fun i => correlation_near hparamL (a1 i j)
  have c2 := fun i => correlation_near hparamL (a2 i j)
  have c3 := fun i => correlation_near hparam (a3 i j)
  have hent := fun a => crossEntry_near (rho := rho) (ε := kernelAccuracy paramL δ + kernelAccuracy param δ + 1e-10) (thetaL := fun k => (paramL k).val) (theta := fun k => (param k).val) hp hu1 (htu.trans hu1)
    (by norm_num; linarith) (by norm_num; linarith) hs hs2 (fun i => ⟨(c1 i).1.trans (by linarith), (c1 i).2⟩) (fun i => ⟨(c2 i).1.trans (by linarith), (c2 i).2⟩) (fun i => ⟨(c3 i).1.trans (by linarith), (c3 i).2⟩) a
  have hW0 : 0 ≤ crossSize rho s2L s2 := by unfold crossSize; positivity
  have hg := dot_near_size hp (hcw j) hW0 (fun a => (hent (finSumFinEquiv.symm a)).1) (fun a => (hent (finSumFinEquiv.symm a)).2) (by linarith) hn2
  have hS : 0 ≤ ∑ a, |(w a).val| := Finset.sum_nonneg fun a _ => abs_nonneg _
  have hβ : |∑ a, exactCross (fun k => (paramL k).val) (fun k => (param k).val) (vals (normalizeFl low high Xl)) (vals (normalizeFl low high Xh)) rho.val s2L.val s2.val (vals (normalizeFl low high Z) j) (finSumFinEquiv.symm a) * (w a).val| ≤
      crossSize rho s2L s2 * ∑ a, |(w a).val| := by
    rw [Finset.mul_sum]
    refine (Finset.abs_sum_le_sum_abs _ _).trans (Finset.sum_le_sum fun a _ => ?_)
    rw [abs_mul]
    exact mul_le_mul_of_nonneg_right (hent (finSumFinEquiv.symm a)).2 (abs_nonneg _)
  have hmean := near_mean (f := R.fl) (fl_error hp R) hu ht (by linarith) hn0 (Q := 0) le_rfl (by rw [add_zero]; exact hn1) (a := mu.val) (α := mu.val) (B := |mu.val|)
    (ε' := kernelAccuracy paramL δ + kernelAccuracy param δ + 1e-10 + 4.8 * 2 ^ (-(p : ℤ))) (by positivity) (by linarith) (abs_nonneg _) (mul_nonneg hW0 hS)
    (by rw [sub_self, abs_zero]; positivity) hg le_rfl hβ (s := s.val) (m := m.val)
  rw [coKrigingMean_eq _ _ _ _ _ _ _ _ (fun a => (w a).val), hFe]
  refine le_trans hmean ?_
  refine add_le_add ?_ le_rfl
  refine mul_le_mul_of_nonneg_right ?_ (abs_nonneg _)
  unfold coKrigingAccuracy coKrigingSize
  rw [add_zero]
  refine mul_le_mul_of_nonneg_right ?_ (by positivity)
  rw [show (2 : ℝ) * (((nl + nh : ℕ) : ℝ) + 7) * 2 ^ (-(p : ℤ)) = 2 * (((nl + nh : ℕ) : ℝ) + 4) * 2 ^ (-(p : ℤ)) + 6 * 2 ^ (-(p : ℤ)) by ring]
  linarith

/-- **C190 (batches).**  Predictions for the same point in different batches, or computed in a different order, agree up to twice this accuracy. -/
theorem C190_batch (hp : 1 ≤ p) (he : emin + 2 * p ≤ 1) {ex : ExpFn R} {δ : ℝ} (hex : ExpAccurate ex δ) (hδ : δ ≤ 1 / 20) {paramL param : Fin d → Fl R} (hparamL : ∀ k, 0 ≤ (paramL k).val) (hparam : ∀ k, 0 ≤ (param k).val)
    {low high : Fin d → Fl R} {Xl : Fin nl → Fin d → Fl R} (hXl : ∀ i k, low k ≤ Xl i k ∧ Xl i k ≤ high k) {Xh : Fin nh → Fin d → Fl R} (hXh : ∀ i k, low k ≤ Xh i k ∧ Xh i k ≤ high k)
    {Z : Fin r → Fin d → Fl R} (hZ : ∀ j k, low k ≤ Z j k ∧ Z j k ≤ high k) {Z' : Fin r' → Fin d → Fl R} (hZ' : ∀ j k, low k ≤ Z' j k ∧ Z' j k ≤ high k) (hu1 : (2 : ℝ) ^ (-(p : ℤ)) ≤ 1 / 1000)
    (hε1 : kernelAccuracy paramL δ + kernelAccuracy param δ ≤ 1 / 2000) (hn : (nl + nh + 1) * (2 : ℝ) ^ (-(p : ℤ)) ≤ 1 / 100) {rho s2L s2 mu : Fl R} (hs : 0 ≤ s2L.val) (hs2 : 0 ≤ s2.val) {w : Fin (nl + nh) → Fl R} {m s : Fl R}
    {F : Fin r → Fl R} {F' : Fin r' → Fl R} (hF : IsCKMeanPrediction ex low high paramL param Xl Xh rho s2L s2 mu w m s Z F) (hF' : IsCKMeanPrediction ex low high paramL param Xl Xh rho s2L s2 mu w m s Z' F') {j : Fin r} {j' : Fin r'}
    (hj : Z j = Z' j') :
    |(F j).val - (F' j').val| ≤ 2 * (coKrigingAccuracy (nl + nh) paramL param δ * coKrigingSize rho s2L s2 mu w * |s.val| + 2 ^ (-(p : ℤ)) * (|m.val| + 3 * 2 ^ (emin + p - 1))) := by
  have h1 := C190_mean hp he hex hδ hparamL hparam hXl hXh hZ hu1 hε1 hn hs hs2 hF j
  have h2 := C190_mean hp he hex hδ hparamL hparam hXl hXh hZ' hu1 hε1 hn hs hs2 hF' j'
  have h3 : vals (normalizeFl low high Z) j = vals (normalizeFl low high Z') j' := by
    funext k
    simp only [vals, normalizeFl, hj]
  rw [h3] at h1
  rw [abs_sub_comm] at h2
  exact (abs_sub_le _ _ _).trans (by linarith)

/-- Normalising a response and scaling it back. -/
theorem denormalize_back (hp : 1 ≤ p) (hu : (0 : ℝ) < 2 ^ (-(p : ℤ))) (hu1 : (2 : ℝ) ^ (-(p : ℤ)) ≤ 1 / 100) (ht : (0 : ℝ) < 2 ^ (emin + (p : ℤ) - 1)) {m s y z : Fl R} (hs : 0 < s.val) (hz : normalizedOut m s y = some z) :
    |s.val * z.val + m.val - y.val| ≤ 2 ^ (-(p : ℤ)) * (3 * |y.val - m.val| + 2 * (1 + s.val) * 2 ^ (emin + (p : ℤ) - 1)) := by
  have hzi := hz
  unfold normalizedOut at hzi
  rw [if_neg hs.ne', Option.some_inj] at hzi
  have e1 : z.val = R.fl (R.fl (y.val - m.val) / s.val) := by rw [← hzi]; rfl
  rw [e1]
  have f1 := fl_error hp R (y.val - m.val)
  have f2 := fl_error hp R (R.fl (y.val - m.val) / s.val)
  rw [show s.val * R.fl (R.fl (y.val - m.val) / s.val) + m.val - y.val = s.val * (R.fl (R.fl (y.val - m.val) / s.val) - R.fl (y.val - m.val) / s.val) + (R.fl (y.val - m.val) - (y.val - m.val)) by
    field_simp; ring]
  have f3 : s.val * |R.fl (y.val - m.val) / s.val| = |R.fl (y.val - m.val)| := by
    rw [abs_div, abs_of_pos hs]; field_simp
  have f4 := near_size f1 le_rfl
  refine (abs_add_le _ _).trans ?_
  rw [abs_mul, abs_of_pos hs]
  have f5 := mul_le_mul_of_nonneg_left f2 hs.le
  generalize R.fl (R.fl (y.val - m.val) / s.val) - R.fl (y.val - m.val) / s.val = D at *
  generalize R.fl (y.val - m.val) = w at *
  generalize |w / s.val| = v at *
  have hD0 := abs_nonneg (y.val - m.val)
  generalize |y.val - m.val| = y0 at *
  generalize (2 : ℝ) ^ (-(p : ℤ)) = u at *
  generalize (2 : ℝ) ^ (emin + (p : ℤ) - 1) = t at *
  have e2 : s.val * (u * (v + t)) = u * (s.val * v) + u * (s.val * t) := by ring
  rw [e2, f3] at f5
  have f6 : u * |w| ≤ u * (y0 + u * (y0 + t)) := mul_le_mul_of_nonneg_left f4 hu.le
  have f7 : u * (u * y0) ≤ 1 / 100 * (u * y0) := mul_le_mul_of_nonneg_right hu1 (by positivity)
  have f8 : u * (u * t) ≤ 1 / 100 * (u * t) := mul_le_mul_of_nonneg_right hu1 (by positivity)
  have f9 : 0 ≤ u * y0 := by positivity
  have f10 : 0 ≤ u * t := by positivity
  have f11 : 0 ≤ u * (s.val * t) := by positivity
  have e3 : u * (y0 + u * (y0 + t)) = u * y0 + u * (u * y0) + u * (u * t) := by ring
  have e4 : u * (3 * y0 + 2 * (1 + s.val) * t) = 3 * (u * y0) + 2 * (u * t) + 2 * (u * (s.val * t)) := by ring
  have e5 : u * (y0 + t) = u * y0 + u * t := by ring
  rw [e3] at f6
  rw [e5] at f1
  rw [e4]
  linarith

/-- Exact covariances with a sample, compared with a row of the joint covariance matrix. -/
theorem cov_row_near {thetaL theta : Fin d → ℝ} (hL : ∀ k, 0 ≤ thetaL k) (hH : ∀ k, 0 ≤ theta k) (Xl : Fin nl → Fin d → ℝ) (Xh : Fin nh → Fin d → ℝ) {rho s2L s2 sigmaL sigma : ℝ} (hs : 0 ≤ s2L) (hs2 : 0 ≤ s2) (i : Fin nh) (b : Fin nl ⊕ Fin nh) :
    |ckCov (covTrain thetaL Xl sigmaL) thetaL s2L rho s2 (covTrain theta Xh sigma) Xl Xh (.inr i) b - exactCross thetaL theta Xl Xh rho s2L s2 (Xh i) b| ≤
      (s2L * (1 + rho ^ 2) + s2) * 1e-10 + if b = .inr i then s2 * sigma ^ 2 else 0 := by
  have hr := sq_nonneg rho
  have hrabs : |rho| * s2L ≤ s2L * (1 + rho ^ 2) := by
    have h1 : |rho| ≤ 1 + rho ^ 2 := by nlinarith [sq_abs rho, sq_nonneg (|rho| - 1), abs_nonneg rho]
    nlinarith [mul_le_mul_of_nonneg_right h1 hs]
  have hrs : rho ^ 2 * s2L ≤ s2L * (1 + rho ^ 2) := by nlinarith
  have hcorr : ∀ {n' : ℕ} {th : Fin d → ℝ}, (∀ k, 0 ≤ th k) → ∀ (Y : Fin n' → Fin d → ℝ) (j : Fin n'), |rbfMatrix th Xh Y i j - Real.exp (-∑ k, th k * (Y j k - Xh i k) ^ 2)| ≤ 1e-10 := fun {n' th} h Y j => by
    have h1 := (correlation_near h (X := Xh) (Y := Y) (i := i) (j := j) (K := rbfMatrix th Xh Y i j) (ε := 0) (by simp)).1
    rw [zero_add] at h1
    have e : ∑ k, th k * (Y j k - Xh i k) ^ 2 = ∑ k, th k * (Xh i k - Y j k) ^ 2 := Finset.sum_congr rfl fun k _ => by ring
    rwa [e]
  rcases b with j | j
  · rw [if_neg (by simp), add_zero]
    change |rho * s2L * rbfMatrix thetaL Xh Xl i j - rho * s2L * Real.exp (-∑ k, thetaL k * (Xl j k - Xh i k) ^ 2)| ≤ _
    rw [← mul_sub, abs_mul, abs_mul, abs_of_nonneg hs]
    have h1 := mul_le_mul hrabs (hcorr hL Xl j) (abs_nonneg _) (by positivity)
    have h2 : 0 ≤ s2 * 1e-10 := by positivity
    linarith
  · have e1 : covTrain theta Xh sigma i j = rbfMatrix theta Xh Xh i j + if (Sum.inr j : Fin nl ⊕ Fin nh) = .inr i then sigma ^ 2 else 0 := by
      unfold covTrain
      by_cases h : i = j
      · subst h; simp
      · simp [h, Ne.symm h]
    change |rho ^ 2 * s2L * rbfMatrix thetaL Xh Xh i j + s2 * covTrain theta Xh sigma i j -
      (rho ^ 2 * s2L * Real.exp (-∑ k, thetaL k * (Xh j k - Xh i k) ^ 2) + s2 * Real.exp (-∑ k, theta k * (Xh j k - Xh i k) ^ 2))| ≤ _
    rw [e1]
    have h1 := hcorr hL Xh j
    have h2 := hcorr hH Xh j
    generalize rbfMatrix thetaL Xh Xh i j = A at *
    generalize rbfMatrix theta Xh Xh i j = B at *
    generalize Real.exp (-∑ k, thetaL k * (Xh j k - Xh i k) ^ 2) = A' at *
    generalize Real.exp (-∑ k, theta k * (Xh j k - Xh i k) ^ 2) = B' at *
    have e2 : s2 * (if (Sum.inr j : Fin nl ⊕ Fin nh) = .inr i then sigma ^ 2 else 0) = if (Sum.inr j : Fin nl ⊕ Fin nh) = .inr i then s2 * sigma ^ 2 else 0 := by split_ifs <;> simp
    have e3 : 0 ≤ if (Sum.inr j : Fin nl ⊕ Fin nh) = .inr i then s2 * sigma ^ 2 else 0 := by split_ifs <;> positivity
    rw [mul_add, e2]
    generalize (if (Sum.inr j : Fin nl ⊕ Fin nh) = .inr i then s2 * sigma ^ 2 else 0) = E at *
    rw [show rho ^ 2 * s2L * A + (s2 * B + E) - (rho ^ 2 * s2L * A' + s2 * B') = rho ^ 2 * s2L * (A - A') + s2 * (B - B') + E by ring]
    refine (abs_add_three _ _ _).trans ?_
    rw [abs_mul (rho ^ 2 * s2L), abs_mul s2, abs_of_nonneg hs2, abs_of_nonneg (by positivity : 0 ≤ rho ^ 2 * s2L), abs_of_nonneg e3]
    have h3 := mul_le_mul hrs h1 (abs_nonneg _) (by positivity)
    have h4 := mul_le_mul_of_nonneg_left h2 hs2
    linarith

/-- **C190 (samples).**  At a high-fidelity sample, wherever it is in the batch, the mean that `CoKriging.predict` computes is the response, up to: the residual of the linear solve, the weight of the sample times its noise and the jitter, the
accuracy of the covariance matrix and of the mean, and a few roundings of the response. -/
theorem C190_samples (hp : 1 ≤ p) (he : emin + 2 * p ≤ 1) {ex : ExpFn R} {δ : ℝ} (hex : ExpAccurate ex δ) (hδ : δ ≤ 1 / 20) {paramL param : Fin d → Fl R} (hparamL : ∀ k, 0 ≤ (paramL k).val) (hparam : ∀ k, 0 ≤ (param k).val)
    {low high : Fin d → Fl R} (hb : ∀ k, low k < high k) {Xl : Fin nl → Fin d → Fl R} (hXl : ∀ i k, low k ≤ Xl i k ∧ Xl i k ≤ high k) {Xh : Fin nh → Fin d → Fl R} (hXh : ∀ i k, low k ≤ Xh i k ∧ Xh i k ≤ high k)
    {Z : Fin r → Fin d → Fl R} (hZ : ∀ j k, low k ≤ Z j k ∧ Z j k ≤ high k) (hu1 : (2 : ℝ) ^ (-(p : ℤ)) ≤ 1 / 1000) (hε1 : kernelAccuracy paramL δ + kernelAccuracy param δ ≤ 1 / 2000)
    (hn : (nl + nh + 1) * (2 : ℝ) ^ (-(p : ℤ)) ≤ 1 / 100) {sigmaL sigma rho s2L s2 mu : Fl R} (hs0 : 0 ≤ s2L.val) (hs2 : 0 ≤ s2.val) {w : Fin (nl + nh) → Fl R} {m s : Fl R} (hs : 0 < s.val)
    {y z : Fin nh → Fl R} (hz : ∀ i, normalizedOut m s (y i) = some (z i)) {C : Fin (nl + nh) → Fin (nl + nh) → Fl R}
    (hC : IsJointCov ex paramL param (normalizeFl low high Xl) (normalizeFl low high Xh) sigmaL sigma rho s2L s2 C) {ρ : ℝ}
    (hρ : ∀ i, |∑ b, (C (Fin.natAdd nl i) b).val * (w b).val - ((z i).val - mu.val)| ≤ ρ) {F : Fin r → Fl R} (hF : IsCKMeanPrediction ex low high paramL param Xl Xh rho s2L s2 mu w m s Z F) {i : Fin nh} {j : Fin r} (hij : Z j = Xh i) :
    |(F j).val - (y i).val| ≤
      s.val * (ρ + (s2.val * sigma.val ^ 2 + 1e-10) * |(w (Fin.natAdd nl i)).val| + jointSize sigmaL sigma rho s2L s2 * (kernelAccuracy paramL δ + kernelAccuracy param δ + 1e-10 + 7 * 2 ^ (-(p : ℤ))) * ∑ b, |(w b).val| +
        coKrigingAccuracy (nl + nh) paramL param δ * coKrigingSize rho s2L s2 mu w) +
      2 ^ (-(p : ℤ)) * (|m.val| + 3 * |(y i).val - m.val| + 5 * (1 + s.val) * 2 ^ (emin + p - 1)) := by
  have hu : (0 : ℝ) < 2 ^ (-(p : ℤ)) := two_zpow_pos _
  have ht : (0 : ℝ) < 2 ^ (emin + (p : ℤ) - 1) := two_zpow_pos _
  have hεL := kernelAccuracy_nonneg hex hparamL
  have hεH := kernelAccuracy_nonneg hex hparam
  have h1 := C190_mean hp he hex hδ hparamL hparam hXl hXh hZ hu1 hε1 hn hs0 hs2 hF j
  have h2 : vals (normalizeFl low high Z) j = vals (normalizeFl low high Xh) i := by
    funext k
    simp only [vals, normalizeFl, hij]
  rw [h2, coKrigingMean_eq _ _ _ _ _ _ _ _ (fun a => (w a).val)] at h1
  have hrow : ∀ b, |(C (Fin.natAdd nl i) b).val - exactCross (fun k => (paramL k).val) (fun k => (param k).val) (vals (normalizeFl low high Xl)) (vals (normalizeFl low high Xh)) rho.val s2L.val s2.val (vals (normalizeFl low high Xh) i)
        (finSumFinEquiv.symm b)| ≤ jointSize sigmaL sigma rho s2L s2 * (kernelAccuracy paramL δ + kernelAccuracy param δ + 1e-10 + 7 * 2 ^ (-(p : ℤ))) + if b = Fin.natAdd nl i then s2.val * sigma.val ^ 2 + 1e-10 else 0 := fun b => by
    have c1 := (C182_accuracy hp he hex hδ hparamL hparam hb hXl hXh hu1 (by linarith) hs0 hs2 hC (Fin.natAdd nl i) b).1
    have c2 := cov_row_near (fun k => hparamL k) (fun k => hparam k) (vals (normalizeFl low high Xl)) (vals (normalizeFl low high Xh)) (rho := rho.val) (sigmaL := sigmaL.val) (sigma := sigma.val) hs0 hs2 i (finSumFinEquiv.symm b)
    have e1 : flat (ckCov (covTrain (fun k => (paramL k).val) (vals (normalizeFl low high Xl)) sigmaL.val) (fun k => (paramL k).val) s2L.val rho.val s2.val
        (covTrain (fun k => (param k).val) (vals (normalizeFl low high Xh)) sigma.val) (vals (normalizeFl low high Xl)) (vals (normalizeFl low high Xh))) (Fin.natAdd nl i) b =
        ckCov (covTrain (fun k => (paramL k).val) (vals (normalizeFl low high Xl)) sigmaL.val) (fun k => (paramL k).val) s2L.val rho.val s2.val
        (covTrain (fun k => (param k).val) (vals (normalizeFl low high Xh)) sigma.val) (vals (normalizeFl low high Xl)) (vals (normalizeFl low high Xh)) (.inr i) (finSumFinEquiv.symm b) := by
      unfold flat
      rw [Matrix.submatrix_apply, finSumFinEquiv_symm_apply_natAdd]
    rw [e1] at c1
    have e2 : (finSumFinEquiv.symm b = Sum.inr i) = (b = Fin.natAdd nl i) := propext (by
      rw [Equiv.symm_apply_eq, finSumFinEquiv_apply_right])
    have e3 : (Fin.natAdd nl i = b) = (b = Fin.natAdd nl i) := propext eq_comm
    simp only [e2] at c2
    simp only [e3] at c1
    have hJ : s2L.val * (1 + rho.val ^ 2) + s2.val ≤ jointSize sigmaL sigma rho s2L s2 := by
      unfold jointSize
      have g1 : 0 ≤ s2L.val * (1 + rho.val ^ 2) * sigmaL.val ^ 2 := by positivity
      have g2 : 0 ≤ s2.val * sigma.val ^ 2 := by positivity
      nlinarith
    have hJ2 := mul_le_mul_of_nonneg_right hJ (by norm_num : (0 : ℝ) ≤ 1e-10)
    generalize ckCov (covTrain (fun k => (paramL k).val) (vals (normalizeFl low high Xl)) sigmaL.val) (fun k => (paramL k).val) s2L.val rho.val s2.val
        (covTrain (fun k => (param k).val) (vals (normalizeFl low high Xh)) sigma.val) (vals (normalizeFl low high Xl)) (vals (normalizeFl low high Xh)) (.inr i) (finSumFinEquiv.symm b) = c at *
    generalize exactCross (fun k => (paramL k).val) (fun k => (param k).val) (vals (normalizeFl low high Xl)) (vals (normalizeFl low high Xh)) rho.val s2L.val s2.val (vals (normalizeFl low high Xh) i) (finSumFinEquiv.symm b) = x at *
    have c3 : |(C (Fin.natAdd nl i) b).val - x| ≤ |(C (Fin.natAdd nl i) b).val - (c + if b = Fin.natAdd nl i then 1e-10 else 0)| + |c - x| + |if b = Fin.natAdd nl i then (1e-10 : ℝ) else 0| := by
      rw [show (C (Fin.natAdd nl i) b).val - x = ((C (Fin.natAdd nl i) b).val - (c + if b = Fin.natAdd nl i then 1e-10 else 0)) + (c - x) + (if b = Fin.natAdd nl i then (1e-10 : ℝ) else 0) by ring]
      exact abs_add_three _ _ _
    have e4 : |if b = Fin.natAdd nl i then (1e-10 : ℝ) else 0| = if b = Fin.natAdd nl i then 1e-10 else 0 := abs_of_nonneg (by split_ifs <;> norm_num)
    have e5 : (if b = Fin.natAdd nl i then s2.val * sigma.val ^ 2 + 1e-10 else 0) = (if b = Fin.natAdd nl i then s2.val * sigma.val ^ 2 else 0) + if b = Fin.natAdd nl i then 1e-10 else 0 := by split_ifs <;> simp
    rw [e4] at c3
    rw [e5]
    linarith
  have hsum : |∑ b, (C (Fin.natAdd nl i) b).val * (w b).val - ∑ b, exactCross (fun k => (paramL k).val) (fun k => (param k).val) (vals (normalizeFl low high Xl)) (vals (normalizeFl low high Xh)) rho.val s2L.val s2.val
        (vals (normalizeFl low high Xh) i) (finSumFinEquiv.symm b) * (w b).val| ≤
      jointSize sigmaL sigma rho s2L s2 * (kernelAccuracy paramL δ + kernelAccuracy param δ + 1e-10 + 7 * 2 ^ (-(p : ℤ))) * ∑ b, |(w b).val| + (s2.val * sigma.val ^ 2 + 1e-10) * |(w (Fin.natAdd nl i)).val| := by
    have e3 : (s2.val * sigma.val ^ 2 + 1e-10) * |(w (Fin.natAdd nl i)).val| = ∑ b, (if b = Fin.natAdd nl i then s2.val * sigma.val ^ 2 + 1e-10 else 0) * |(w b).val| := by
      simp [ite_mul]
    rw [e3, Finset.mul_sum, ← Finset.sum_add_distrib, ← Finset.sum_sub_distrib]
    refine (Finset.abs_sum_le_sum_abs _ _).trans (Finset.sum_le_sum fun b _ => ?_)
    rw [← sub_mul, abs_mul, ← add_mul]
    exact mul_le_mul_of_nonneg_right (hrow b) (abs_nonneg _)
  have hback := denormalize_back hp hu (by linarith) ht hs (hz i)
  have hres := hρ i
  generalize ∑ b, exactCross (fun k => (paramL k).val) (fun k => (param k).val) (vals (normalizeFl low high Xl)) (vals (normalizeFl low high Xh)) rho.val s2L.val s2.val (vals (normalizeFl low high Xh) i) (finSumFinEquiv.symm b) * (w b).val = M at *
  generalize ∑ b, (C (Fin.natAdd nl i) b).val * (w b).val = N at *
  generalize jointSize sigmaL sigma rho s2L s2 * (kernelAccuracy paramL δ + kernelAccuracy param δ + 1e-10 + 7 * 2 ^ (-(p : ℤ))) * ∑ b, |(w b).val| = A at *
  generalize (s2.val * sigma.val ^ 2 + 1e-10) * |(w (Fin.natAdd nl i)).val| = B at *
  generalize coKrigingAccuracy (nl + nh) paramL param δ * coKrigingSize rho s2L s2 mu w = D at *
  have hM : |mu.val + M - (z i).val| ≤ ρ + A + B := by
    rw [show mu.val + M - (z i).val = (N - ((z i).val - mu.val)) + -(N - M) by ring]
    refine (abs_add_le _ _).trans ?_
    rw [abs_neg]
    linarith
  have hM2 := mul_le_mul_of_nonneg_left hM hs.le
  rw [← abs_of_pos hs, ← abs_mul, abs_of_pos hs] at hM2
  rw [abs_of_pos hs] at h1
  have hfin : |(F j).val - (y i).val| ≤ |(F j).val - (s.val * (mu.val + M) + m.val)| + |s.val * (mu.val + M - (z i).val)| + |s.val * (z i).val + m.val - (y i).val| := by
    rw [show (F j).val - (y i).val = ((F j).val - (s.val * (mu.val + M) + m.val)) + s.val * (mu.val + M - (z i).val) + (s.val * (z i).val + m.val - (y i).val) by ring]
    exact abs_add_three _ _ _
  generalize (2 : ℝ) ^ (-(p : ℤ)) = u at *
  generalize (2 : ℝ) ^ (emin + (p : ℤ) - 1) = t at *
  have hst : 0 ≤ u * (s.val * t) := by positivity
  have e1 : u * (|m.val| + 3 * |(y i).val - m.val| + 5 * (1 + s.val) * t) = u * (|m.val| + 3 * t) + u * (3 * |(y i).val - m.val| + 2 * (1 + s.val) * t) + 3 * (u * (s.val * t)) := by ring
  rw [e1]
  linarith

/-! ### The hypotheses can be met -/

/-- A mean can be computed for all inputs. -/
theorem ckMeanPrediction_exists (ex : ExpFn R) (low high paramL param : Fin d → Fl R) (Xl : Fin nl → Fin d → Fl R) (Xh : Fin nh → Fin d → Fl R) (rho s2L s2 mu : Fl R) (w : Fin (nl + nh) → Fl R) (m s : Fl R) (Z : Fin r → Fin d → Fl R) :
    ∃ F, IsCKMeanPrediction ex low high paramL param Xl Xh rho s2L s2 mu w m s Z F := by
  obtain ⟨Kl, h1⟩ := kernelMatrix_exists ex paramL (normalizeFl low high Xl) (normalizeFl low high Z)
  obtain ⟨Kh, h2⟩ := kernelMatrix_exists ex paramL (normalizeFl low high Xh) (normalizeFl low high Z)
  obtain ⟨K, h3⟩ := kernelMatrix_exists ex param (normalizeFl low high Xh) (normalizeFl low high Z)
  choose cw hcw using fun j => Props.dotOf_exists (R := R) (List.ofFn fun a => (crossEntry rho s2L s2 Kl Kh K j (finSumFinEquiv.symm a), w a))
  exact ⟨_, Kl, Kh, K, cw, h1, h2, h3, hcw, fun j => rfl⟩

/-- In double precision: 50 low-fidelity and 10 high-fidelity samples of two variables, the parameters of each kernel adding up to at most 20, the exponential correctly rounded, scale factor, process variances and trained mean of at most 2 in
absolute value, weights adding up to at most 1000, responses between -100 and 100: the computed mean is accurate to `1.6e-4` (most of it is the nugget of the kernel). -/
example (Xl : Fin 50 → Fin 2 → Double) (Xh : Fin 10 → Fin 2 → Double) (Z : Fin r → Fin 2 → Double) (low high paramL param : Fin 2 → Double) (hXl : ∀ i k, low k ≤ Xl i k ∧ Xl i k ≤ high k) (hXh : ∀ i k, low k ≤ Xh i k ∧ Xh i k ≤ high k)
    (hZ : ∀ j k, low k ≤ Z j k ∧ Z j k ≤ high k) (hparamL : ∀ k, 0 ≤ (paramL k).val) (hparL : ∑ k, (paramL k).val ≤ 20) (hparam : ∀ k, 0 ≤ (param k).val) (hpar : ∑ k, (param k).val ≤ 20) (rho s2L s2 mu : Double) (hrho : |rho.val| ≤ 2)
    (hs0 : 0 ≤ s2L.val) (hs0' : s2L.val ≤ 2) (hs2 : 0 ≤ s2.val) (hs2' : s2.val ≤ 2) (hmu : |mu.val| ≤ 2) (w : Fin (50 + 10) → Double) (hw : ∑ a, |(w a).val| ≤ 1000) (m s : Double) (hm : |m.val| ≤ 100) (hs : |s.val| ≤ 100)
    (F : Fin r → Double) (hF : IsCKMeanPrediction (fun a => Fl.ofReal _ (Real.exp a.val)) low high paramL param Xl Xh rho s2L s2 mu w m s Z F) (j : Fin r) :
    |(F j).val - coKrigingMean (fun k => (paramL k).val) (fun k => (param k).val) (vals (normalizeFl low high Xl)) (vals (normalizeFl low high Xh)) rho.val s2L.val s2.val mu.val (fun i => (w (Fin.castAdd 10 i)).val)
        (fun i => (w (Fin.natAdd 50 i)).val) m.val s.val (vals (normalizeFl low high Z) j)| ≤ 1.6e-4 := by
  have hSL : (0 : ℝ) ≤ ∑ k, (paramL k).val := Finset.sum_nonneg fun k _ => hparamL k
  have hS : (0 : ℝ) ≤ ∑ k, (param k).val := Finset.sum_nonneg fun k _ => hparam k
  have hu : (2 : ℝ) ^ (-((53 : ℕ) : ℤ)) ≤ 1.2e-16 := by norm_num
  have hu0 : (0 : ℝ) < 2 ^ (-((53 : ℕ) : ℤ)) := two_zpow_pos _
  have hszL : (2 + 6) * (1 + ∑ k, (paramL k).val) * (2 : ℝ) ^ (-((53 : ℕ) : ℤ)) ≤ 168 * 1.2e-16 := mul_le_mul (by linarith) hu hu0.le (by norm_num)
  have hsz : (2 + 6) * (1 + ∑ k, (param k).val) * (2 : ℝ) ^ (-((53 : ℕ) : ℤ)) ≤ 168 * 1.2e-16 := mul_le_mul (by linarith) hu hu0.le (by norm_num)
  have ht : (2 : ℝ) ^ (-1074 + ((53 : ℕ) : ℤ) - 1) ≤ 2 ^ (-60 : ℤ) := zpow_le_zpow_right₀ (by norm_num) (by norm_num)
  have ht0 : (0 : ℝ) < 2 ^ (-1074 + ((53 : ℕ) : ℤ) - 1) := two_zpow_pos _
  have hk : ∀ q : Fin 2 → Double, (2 + 6) * (1 + ∑ k, (q k).val) * (2 : ℝ) ^ (-((53 : ℕ) : ℤ)) ≤ 168 * 1.2e-16 → kernelAccuracy q (2 ^ (1 - ((53 : ℕ) : ℤ))) ≤ 2e-13 := fun q hq => by
    unfold kernelAccuracy
    have e1 : (2 : ℝ) ^ (1 - ((53 : ℕ) : ℤ)) ≤ 2.4e-16 := by norm_num
    push_cast at *
    linarith
  have hkL := hk paramL hszL
  have hkH := hk param hsz
  have h := C190_mean (by norm_num) (by norm_num) (expAccurate_rounded (R := nearestRounding 53 (-1074) (by norm_num)) (by norm_num) (by norm_num)) (by norm_num) hparamL hparam hXl hXh hZ (by norm_num) (by linarith) (by norm_num) hs0 hs2 hF j
  refine h.trans ?_
  have hA : coKrigingAccuracy (50 + 10) paramL param (2 ^ (1 - ((53 : ℕ) : ℤ))) ≤ 1.2e-10 := by
    unfold coKrigingAccuracy
    push_cast at *
    linarith
  have hW : coKrigingSize rho s2L s2 mu w ≤ 13010 ∧ 0 ≤ coKrigingSize rho s2L s2 mu w := by
    unfold coKrigingSize crossSize
    have a0 := abs_nonneg mu.val
    have a3 : 0 ≤ ∑ a, |(w a).val| := Finset.sum_nonneg fun i _ => abs_nonneg _
    have a4 : rho.val ^ 2 ≤ 4 := by rw [← sq_abs]; nlinarith [abs_nonneg rho.val]
    have a5 : s2L.val * (1 + rho.val ^ 2) ≤ 2 * 5 := mul_le_mul hs0' (by linarith) (by positivity) (by norm_num)
    generalize (2 : ℝ) ^ (-1074 + ((53 : ℕ) : ℤ) - 1) = t at *
    have ht' : t ≤ 1e-6 := ht.trans (by norm_num)
    refine ⟨?_, by positivity⟩
    have g3 : (1 + s2L.val * (1 + rho.val ^ 2) + s2.val) * ∑ a, |(w a).val| ≤ 13 * 1000 := mul_le_mul (by linarith) hw a3 (by norm_num)
    push_cast
    norm_num at ht' ⊢
    linarith
  have h1 : coKrigingAccuracy (50 + 10) paramL param (2 ^ (1 - ((53 : ℕ) : ℤ))) * coKrigingSize rho s2L s2 mu w * |s.val| ≤ 1.2e-10 * 13010 * 100 :=
    mul_le_mul (mul_le_mul hA hW.1 hW.2 (by norm_num)) hs (abs_nonneg _) (by norm_num)
  have h2 : (2 : ℝ) ^ (-((53 : ℕ) : ℤ)) * (|m.val| + 3 * 2 ^ (-1074 + ((53 : ℕ) : ℤ) - 1)) ≤ 1.2e-16 * 103 := by
    generalize (2 : ℝ) ^ (-1074 + ((53 : ℕ) : ℤ) - 1) = t at *
    have ht' : t ≤ 1 := ht.trans (by norm_num)
    exact mul_le_mul hu (by linarith) (by have := abs_nonneg m.val; positivity) (by norm_num)
  generalize coKrigingAccuracy (50 + 10) paramL param (2 ^ (1 - ((53 : ℕ) : ℤ))) * coKrigingSize rho s2L s2 mu w * |s.val| = A at *
  generalize (2 : ℝ) ^ (-((53 : ℕ) : ℤ)) * (|m.val| + 3 * 2 ^ (-1074 + ((53 : ℕ) : ℤ) - 1)) = B at *
  norm_num at h1 h2 ⊢
  linarith

/-- The residual of `C190_samples` exists for all weights, so the theorem applies to every outcome of a solver.  In double precision: 50 low-fidelity and 10 high-fidelity samples of two variables in the unit square, all kernel parameters 10,
scale factor and process variances 1, no noise, any trained mean and weights, responses 1 to 10. -/
example (Xl : Fin 50 → Fin 2 → Double) (Xh : Fin 10 → Fin 2 → Double) (hXl : ∀ i k, 0 ≤ Xl i k ∧ Xl i k ≤ oneD) (hXh : ∀ i k, 0 ≤ Xh i k ∧ Xh i k ≤ oneD) (ten mu : Double) (hten : ten.val = 10) (w : Fin (50 + 10) → Double) (y : Fin 10 → Double) (m s : Double)
    (hs : 0 < s.val) :
    let ex : ExpFn (nearestRounding 53 (-1074) (by norm_num)) := fun a => Fl.ofReal _ (Real.exp a.val)
    ∃ (z : Fin 10 → Double) (C : Fin (50 + 10) → Fin (50 + 10) → Double) (ρ : ℝ) (F : Fin 10 → Double), (∀ i, normalizedOut m s (y i) = some (z i)) ∧
      IsJointCov ex (fun _ => ten) (fun _ => ten) (normalizeFl (fun _ => 0) (fun _ => oneD) Xl) (normalizeFl (fun _ => 0) (fun _ => oneD) Xh) 0 0 oneD oneD oneD C ∧
      (∀ i, |∑ b, (C (Fin.natAdd 50 i) b).val * (w b).val - ((z i).val - mu.val)| ≤ ρ) ∧ IsCKMeanPrediction ex (fun _ => 0) (fun _ => oneD) (fun _ => ten) (fun _ => ten) Xl Xh oneD oneD oneD mu w m s Xh F ∧
      ∀ i, |(F i).val - (y i).val| ≤ s.val * (ρ + 1e-10 * |(w (Fin.natAdd 50 i)).val| + 1e-9 * ∑ b, |(w b).val| + 1.3e-10 * (|mu.val| + 4 * ∑ b, |(w b).val| + 1e-20)) +
        1.2e-16 * (|m.val| + 3 * |(y i).val - m.val| + 5 * (1 + s.val)) := by
  intro ex
  obtain ⟨C, hC⟩ := jointCov_exists ex (fun _ : Fin 2 => ten) (fun _ => ten) (normalizeFl (fun _ => 0) (fun _ => oneD) Xl) (normalizeFl (fun _ => 0) (fun _ => oneD) Xh) 0 0 oneD oneD oneD
  obtain ⟨F, hF⟩ := ckMeanPrediction_exists ex (fun _ => 0) (fun _ => oneD) (fun _ => ten) (fun _ => ten) Xl Xh oneD oneD oneD mu w m s Xh
  have hz : ∀ i, normalizedOut m s (y i) = some ((y i - m) / s) := fun i => by
    unfold normalizedOut
    rw [if_neg hs.ne']
  have hz0 : (0 : Double).val = 0 := rfl
  have ho : oneD.val = 1 := rfl
  have hρ : ∀ i, |∑ b, (C (Fin.natAdd 50 i) b).val * (w b).val - (((y i - m) / s).val - mu.val)| ≤ ∑ i, |∑ b, (C (Fin.natAdd 50 i) b).val * (w b).val - (((y i - m) / s).val - mu.val)| := fun i =>
    Finset.single_le_sum (f := fun i => |∑ b, (C (Fin.natAdd 50 i) b).val * (w b).val - (((y i - m) / s).val - mu.val)|) (fun _ _ => abs_nonneg _) (Finset.mem_univ i)
  refine ⟨_, C, _, F, hz, hC, hρ, hF, fun i => ?_⟩
  have hk : kernelAccuracy (fun _ : Fin 2 => ten) (2 ^ (1 - ((53 : ℕ) : ℤ))) ≤ 2e-13 := by
    simp only [kernelAccuracy, hten, Finset.sum_const, Finset.card_univ, Fintype.card_fin]
    norm_num
  have h := C190_samples (by norm_num) (by norm_num) (expAccurate_rounded (by norm_num) (by norm_num)) (by norm_num) (fun _ => by rw [hten]; norm_num) (fun _ => by rw [hten]; norm_num) (fun _ => (zero_lt_one : (0 : ℝ) < 1)) hXl hXh hXh (by norm_num)
    (by linarith) (by norm_num) (by rw [ho]; norm_num) (by rw [ho]; norm_num) hs hz hC hρ hF (rfl : Xh i = Xh i)
  refine h.trans ?_
  generalize ∑ i, |∑ b, (C (Fin.natAdd 50 i) b).val * (w b).val - (((y i - m) / s).val - mu.val)| = ρ at *
  have hu : (2 : ℝ) ^ (-((53 : ℕ) : ℤ)) ≤ 1.2e-16 := by norm_num
  have ht : (2 : ℝ) ^ (-1074 + ((53 : ℕ) : ℤ) - 1) ≤ 1e-24 := (zpow_le_zpow_right₀ (by norm_num) (by norm_num : -1074 + ((53 : ℕ) : ℤ) - 1 ≤ -100)).trans (by norm_num)
  have ht0 : (0 : ℝ) < 2 ^ (-1074 + ((53 : ℕ) : ℤ) - 1) := two_zpow_pos _
  have hS : 0 ≤ ∑ b, |(w b).val| := Finset.sum_nonneg fun i _ => abs_nonneg _
  have hJ : jointSize (0 : Double) 0 oneD oneD oneD = 4 := by simp only [jointSize, hz0, ho]; norm_num
  have hX : crossSize oneD oneD oneD = 4 := by simp only [crossSize, ho]; norm_num
  have hA : coKrigingAccuracy (50 + 10) (fun _ : Fin 2 => ten) (fun _ => ten) (2 ^ (1 - ((53 : ℕ) : ℤ))) ≤ 1.3e-10 := by
    unfold coKrigingAccuracy
    push_cast at *
    linarith
  have hW : coKrigingSize oneD oneD oneD mu w ≤ |mu.val| + 4 * ∑ b, |(w b).val| + 1e-20 := by
    unfold coKrigingSize
    rw [hX]
    push_cast
    linarith
  have hW0 : 0 ≤ coKrigingSize oneD oneD oneD mu w := by
    unfold coKrigingSize
    rw [hX]
    positivity
  have h1 := mul_le_mul hA hW hW0 (by norm_num)
  have h2 : 4 * (kernelAccuracy (fun _ : Fin 2 => ten) (2 ^ (1 - ((53 : ℕ) : ℤ))) + kernelAccuracy (fun _ : Fin 2 => ten) (2 ^ (1 - ((53 : ℕ) : ℤ))) + 1e-10 + 7 * 2 ^ (-((53 : ℕ) : ℤ))) * ∑ b, |(w b).val| ≤ 1e-9 * ∑ b, |(w b).val| :=
    mul_le_mul_of_nonneg_right (by linarith) hS
  rw [hJ, hz0, ho]
  have h3 := abs_nonneg m.val
  have h4 := abs_nonneg ((y i).val - m.val)
  refine add_le_add (mul_le_mul_of_nonneg_left ?_ hs.le) (mul_le_mul hu ?_ (by positivity) (by norm_num))
  · have e : ((1 : ℝ) * 0 ^ 2 + 1e-10) = 1e-10 := by norm_num
    rw [e]
    exact add_le_add (add_le_add le_rfl h2) h1
  · have : 5 * (1 + s.val) * (2 : ℝ) ^ (-1074 + ((53 : ℕ) : ℤ) - 1) ≤ 5 * (1 + s.val) * 1 := mul_le_mul_of_nonneg_left (ht.trans (by norm_num)) (by positivity)
    linarith

end Mfpml.Props
