import Mathlib.Tactic.NormNum
import Verif.Model.RoundedPredict
import Verif.Spec.RoundedPredict
import Verif.Lemmas.RoundedPredict
import Verif.Props.RoundedKernel
import Verif.Props.Kernels

/-!
# Predicted means in floating-point arithmetic (C184)

`R` ranges over all roundings to nearest with `p` significant bits (`float64`: `p = 53`, `emin = -1074`).
-/

set_option linter.unusedSectionVars false

open scoped BigOperators Matrix

namespace Mfpml.Props

open Mfpml.Rounded Mfpml.GP Mfpml.Spec

variable {p : ℕ} {emin : ℤ} {R : Rounding p emin} {n r r' d q : ℕ}

/-! ### The bases of the code -/

theorem unit_pairs : ∀ l : List ℝ, (∀ x ∈ l, 0 ≤ x ∧ x ≤ 1) → ∀ x ∈ pairProducts l, |x| ≤ 1
  | [], _, x, hx => by simp [pairProducts] at hx
  | a :: l, h, x, hx => by
    rw [pairProducts, List.mem_append] at hx
    rcases hx with hx | hx
    · obtain ⟨y, hy, rfl⟩ := List.mem_map.mp hx
      have h1 := h a (by simp)
      have h2 := h y hy
      rw [abs_of_nonneg (mul_nonneg h1.1 h2.1)]
      exact mul_le_one₀ h1.2 h2.1 h2.2
    · exact unit_pairs l (fun y hy => h y (by simp [hy])) x hx

/-- The three bases of the code are between -1 and 1 on the unit cube. -/
theorem unitBasis_code : UnitBasis (ordinary d) ∧ UnitBasis (linear d) ∧ UnitBasis (quadraticBasis d) := by
  refine ⟨fun x _ c => by simp [ordinary], fun x hx c => ?_, fun x hx c => ?_⟩
  · refine Fin.cases (by simp [linear]) (fun k => ?_) c
    simp only [linear, Fin.cons_succ]
    rw [abs_of_nonneg (hx k).1]
    exact (hx k).2
  · have h1 : quadraticBasis d x c ∈ quadCols (List.ofFn x) := by
      rw [← C28_quadratic_basis]
      exact (List.mem_ofFn' _ _).mpr ⟨c, rfl⟩
    have h2 : ∀ y ∈ List.ofFn x, 0 ≤ y ∧ y ≤ 1 := fun y hy => by
      obtain ⟨k, rfl⟩ := (List.mem_ofFn' _ _).mp hy
      exact hx k
    rw [quadCols, List.mem_append, List.mem_cons] at h1
    rcases h1 with (h1 | h1) | h1
    · rw [h1]; simp
    · rw [abs_of_nonneg (h2 _ h1).1]
      exact (h2 _ h1).2
    · exact unit_pairs _ h2 _ h1

/-! ### Accuracy -/

/-- Correlations without the nugget. -/
theorem correlation_near {K : ℝ} {ε : ℝ} {theta : Fin d → ℝ} (ht : ∀ k, 0 ≤ theta k) {X : Fin n → Fin d → ℝ} {Y : Fin r → Fin d → ℝ} {i : Fin n} {j : Fin r} (h : |K - rbfMatrix theta X Y i j| ≤ ε) :
    |K - Real.exp (-∑ k, theta k * (X i k - Y j k) ^ 2)| ≤ ε + 1e-10 ∧ |Real.exp (-∑ k, theta k * (X i k - Y j k) ^ 2)| ≤ 1 := by
  have h1 : rbfDist theta (X i) (Y j) = ∑ k, theta k * (X i k - Y j k) ^ 2 := by
    rw [rbfDist_eq theta ht]
  have h2 := rbfDist_nonneg theta ht (X i) (Y j)
  constructor
  · unfold rbfMatrix at h
    rw [h1] at h
    have h3 : |(if i.val = j.val then 1 else 0) * nugget| ≤ 1e-10 := by
      split_ifs <;> norm_num [nugget]
    rw [show K - Real.exp (-∑ k, theta k * (X i k - Y j k) ^ 2) = (K - (Real.exp (-∑ k, theta k * (X i k - Y j k) ^ 2) + (if i.val = j.val then 1 else 0) * nugget)) + (if i.val = j.val then 1 else 0) * nugget by ring]
    exact (abs_add_le _ _).trans (add_le_add h h3)
  · rw [abs_of_pos (Real.exp_pos _), ← h1]
    exact Real.exp_le_one_iff.mpr (by linarith)

theorem basisFl_near (hp : 1 ≤ p) (ht : (2 : ℝ) ^ (emin + p - 1) ≤ 1) {b : Basis d q} (hb : UnitBasis b) {x : Fin d → Fl R} (hx : ∀ k, 0 ≤ (x k).val ∧ (x k).val ≤ 1) (c : Fin q) :
    |(basisFl b x c).val - b (fun k => (x k).val) c| ≤ 2 * 2 ^ (-(p : ℤ)) ∧ |b (fun k => (x k).val) c| ≤ 1 := by
  have h1 := hb _ hx c
  refine ⟨(fl_error hp R _).trans ?_, h1⟩
  rw [mul_comm 2]
  exact mul_le_mul_of_nonneg_left (by linarith) (two_zpow_pos _).le

theorem abs_dot_le {a b : Fin n → ℝ} (ha : ∀ i, |a i| ≤ 1) : |∑ i, a i * b i| ≤ ∑ i, |b i| :=
  (Finset.abs_sum_le_sum_abs _ _).trans (Finset.sum_le_sum fun i _ => by
    rw [abs_mul]
    exact mul_le_of_le_one_left (abs_nonneg _) (ha i))

theorem kernelAccuracy_bounds {δ : ℝ} {ex : ExpFn R} (hex : ExpAccurate ex δ) (hδ : δ ≤ 1 / 20) {param : Fin d → Fl R} (hparam : ∀ k, 0 ≤ (param k).val) (hsize : 5 * (d + 6) * (1 + ∑ k, (param k).val) * (2 : ℝ) ^ (-(p : ℤ)) ≤ 1 / 20) :
    0 ≤ kernelAccuracy param δ ∧ kernelAccuracy param δ ≤ 0.17 := by
  have hu : (0 : ℝ) < 2 ^ (-(p : ℤ)) := two_zpow_pos _
  have hS : (0 : ℝ) ≤ ∑ k, (param k).val := Finset.sum_nonneg fun k _ => hparam k
  have hδ0 : 0 ≤ δ := by
    have h1 := (abs_nonneg _).trans (hex 0)
    have h2 : (0 : ℝ) < max 1 (Real.exp (0 : Fl R).val) := lt_of_lt_of_le one_pos (le_max_left _ _)
    exact nonneg_of_mul_nonneg_left h1 h2
  unfold kernelAccuracy
  refine ⟨by positivity, ?_⟩
  rw [show 6 * ((d : ℝ) + 6) * (1 + ∑ k, (param k).val) * 2 ^ (-(p : ℤ)) = 6 / 5 * (5 * (d + 6) * (1 + ∑ k, (param k).val) * 2 ^ (-(p : ℤ))) by ring]
  linarith

/-- **C184 (accuracy).**  The mean that `predict` computes for a point of the design space is the value of the textbook formula with the trained coefficients at the scaled point, up to `meanAccuracy` relative to the size of the
coefficients; whatever the other points of the batch are and in whatever order sums are computed. -/
theorem C184_mean (hp : 1 ≤ p) (he : emin + 2 * p ≤ 1) {ex : ExpFn R} {δ : ℝ} (hex : ExpAccurate ex δ) (hδ : δ ≤ 1 / 20) {b : Basis d q} (hb : UnitBasis b) {param : Fin d → Fl R} (hparam : ∀ k, 0 ≤ (param k).val)
    {low high : Fin d → Fl R} {X : Fin n → Fin d → Fl R} (hX : ∀ i k, low k ≤ X i k ∧ X i k ≤ high k) {Z : Fin r → Fin d → Fl R} (hZ : ∀ j k, low k ≤ Z j k ∧ Z j k ≤ high k)
    (hsize : 5 * (d + 6) * (1 + ∑ k, (param k).val) * (2 : ℝ) ^ (-(p : ℤ)) ≤ 1 / 20) (hnq : (n + q + 1) * (2 : ℝ) ^ (-(p : ℤ)) ≤ 1 / 100) {beta : Fin q → Fl R} {gamma : Fin n → Fl R} {m s : Fl R} {F : Fin r → Fl R}
    (hF : IsMeanPrediction ex b low high param X beta gamma m s Z F) (j : Fin r) :
    |(F j).val - textbookMean b (fun k => (param k).val) (vals (normalizeFl low high X)) (fun c => (beta c).val) (fun i => (gamma i).val) m.val s.val (vals (normalizeFl low high Z) j)| ≤
      meanAccuracy n q param δ * coefficientSize beta gamma * |s.val| + 2 ^ (-(p : ℤ)) * (|m.val| + 3 * 2 ^ (emin + p - 1)) := by
  obtain ⟨K, fb, kg, hK, hfb, hkg, hFe⟩ := hF
  have he0 : emin ≤ 0 := by omega
  have hu : (0 : ℝ) < 2 ^ (-(p : ℤ)) := two_zpow_pos _
  have ht : (0 : ℝ) < 2 ^ (emin + (p : ℤ) - 1) := two_zpow_pos _
  have ht1 : (2 : ℝ) ^ (emin + (p : ℤ) - 1) ≤ 1 := zpow_le_one_of_nonpos₀ (by norm_num) (by omega)
  have hn0 : (0 : ℝ) ≤ n := Nat.cast_nonneg n
  have hq0 : (0 : ℝ) ≤ q := Nat.cast_nonneg q
  have hnu : 0 ≤ n * (2 : ℝ) ^ (-(p : ℤ)) := by positivity
  have hqu : 0 ≤ q * (2 : ℝ) ^ (-(p : ℤ)) := by positivity
  have hnq' : n * (2 : ℝ) ^ (-(p : ℤ)) + q * 2 ^ (-(p : ℤ)) + 2 ^ (-(p : ℤ)) ≤ 1 / 100 := by linarith
  have habs : ∀ {k' : ℕ} {Y : Fin k' → Fin d → Fl R}, (∀ i k, low k ≤ Y i k ∧ Y i k ≤ high k) → ∀ i k, |(normalizeFl low high Y i k).val| ≤ 1 := fun hY i k => by
    have := normalizeFl_unit hp he0 hY i k
    rw [abs_of_nonneg this.1]; exact this.2
  have hacc := C176_accuracy_partial hp he hex hδ hparam (habs hX) (habs hZ) hsize hK
  obtain ⟨hk0, hk1⟩ := kernelAccuracy_bounds hex hδ hparam hsize
  have hcor := fun i => correlation_near hparam (hacc i j)
  have hbas := basisFl_near hp ht1 hb (normalizeFl_unit hp he0 hZ j)
  have ha := dot_near hp (hfb j) (fun c => (hbas c).1) (fun c => (hbas c).2) (by linarith) (by linarith)
  have hg := dot_near hp (hkg j) (fun i => (hcor i).1) (fun i => (hcor i).2) (by linarith) (by linarith)
  have := near_mean (f := R.fl) (fl_error hp R) hu ht (by linarith) hn0 hq0 hnq (add_nonneg hk0 (by norm_num)) (by linarith) (Finset.sum_nonneg fun c _ => abs_nonneg (beta c).val) (Finset.sum_nonneg fun i _ => abs_nonneg (gamma i).val)
    ha hg (abs_dot_le fun c => (hbas c).2) (abs_dot_le fun i => (hcor i).2) (s := s.val) (m := m.val)
  rw [hFe]
  exact this

/-- **C184 (batches).**  Predictions for the same point in different batches, or computed in a different order, agree up to twice this accuracy. -/
theorem C184_batch (hp : 1 ≤ p) (he : emin + 2 * p ≤ 1) {ex : ExpFn R} {δ : ℝ} (hex : ExpAccurate ex δ) (hδ : δ ≤ 1 / 20) {b : Basis d q} (hb : UnitBasis b) {param : Fin d → Fl R} (hparam : ∀ k, 0 ≤ (param k).val)
    {low high : Fin d → Fl R} {X : Fin n → Fin d → Fl R} (hX : ∀ i k, low k ≤ X i k ∧ X i k ≤ high k) {Z : Fin r → Fin d → Fl R} (hZ : ∀ j k, low k ≤ Z j k ∧ Z j k ≤ high k) {Z' : Fin r' → Fin d → Fl R}
    (hZ' : ∀ j k, low k ≤ Z' j k ∧ Z' j k ≤ high k)
    (hsize : 5 * (d + 6) * (1 + ∑ k, (param k).val) * (2 : ℝ) ^ (-(p : ℤ)) ≤ 1 / 20) (hnq : (n + q + 1) * (2 : ℝ) ^ (-(p : ℤ)) ≤ 1 / 100) {beta : Fin q → Fl R} {gamma : Fin n → Fl R} {m s : Fl R} {F : Fin r → Fl R} {F' : Fin r' → Fl R}
    (hF : IsMeanPrediction ex b low high param X beta gamma m s Z F) (hF' : IsMeanPrediction ex b low high param X beta gamma m s Z' F') {j : Fin r} {j' : Fin r'} (hj : Z j = Z' j') :
    |(F j).val - (F' j').val| ≤ 2 * (meanAccuracy n q param δ * coefficientSize beta gamma * |s.val| + 2 ^ (-(p : ℤ)) * (|m.val| + 3 * 2 ^ (emin + p - 1))) := by
  have h1 := C184_mean hp he hex hδ hb hparam hX hZ hsize hnq hF j
  have h2 := C184_mean hp he hex hδ hb hparam hX hZ' hsize hnq hF' j'
  have h3 : vals (normalizeFl low high Z) j = vals (normalizeFl low high Z') j' := by
    funext k
    simp only [vals, normalizeFl, hj]
  rw [h3] at h1
  rw [abs_sub_comm] at h2
  exact (abs_sub_le _ _ _).trans (by linarith)

/-- A diagonal entry of the covariance with noise. -/
theorem diagonal_near {f : ℝ → ℝ} {u t : ℝ} (hf : ∀ x, |f x - x| ≤ u * (|x| + t)) (hu : 0 < u) (hu1 : u ≤ 1 / 100) (ht : 0 < t) (htu : t ≤ u) {k σ : ℝ} (hk : |k| ≤ 1.2) (hff : f (f (σ * σ)) = f (σ * σ)) :
    |f (k + f (1 * f (σ * σ))) - k| ≤ 1.1 * σ ^ 2 + 2 * u := by
  rw [one_mul, hff]
  have h1 := hf (σ * σ)
  have h2 := hf (k + f (σ * σ))
  generalize f (σ * σ) = w at *
  generalize f (k + w) = v at *
  rw [abs_of_nonneg (mul_self_nonneg σ)] at h1
  rw [show σ ^ 2 = σ * σ by ring]
  have h0 := mul_self_nonneg σ
  generalize σ * σ = y at *
  have h3 : |w| ≤ y + u * (y + t) := near_size h1 (le_of_eq (abs_of_nonneg h0))
  have h4 : |k + w| ≤ 1.2 + |w| := (abs_add_le _ _).trans (by linarith)
  have h5 : |v - k| ≤ |v - (k + w)| + |w| := by
    rw [show v - k = (v - (k + w)) + w by ring]
    exact abs_add_le _ _
  have h6 : u * (|k + w| + t) ≤ u * (1.2 + (y + u * (y + t)) + t) := mul_le_mul_of_nonneg_left (by linarith) hu.le
  have h7 : u * y ≤ 1 / 100 * y := mul_le_mul_of_nonneg_right hu1 h0
  have h8 : u * (u * y) ≤ 1 / 100 * (u * y) := mul_le_mul_of_nonneg_right hu1 (by positivity)
  have h9 : u * t ≤ u * (1 / 100) := mul_le_mul_of_nonneg_left (htu.trans hu1) hu.le
  have h10 : u * (u * t) ≤ 1 / 100 * (u * t) := mul_le_mul_of_nonneg_right hu1 (by positivity)
  have e : u * (1.2 + (y + u * (y + t)) + t) = 1.2 * u + u * y + u * (u * y) + u * (u * t) + u * t := by ring
  rw [e] at h6
  have h11 : u * (y + t) = u * y + u * t := by ring
  rw [h11] at h3
  linarith

/-- **C184 (samples).**  At a training sample the mean that `predict` computes is the response, up to: the residual of the linear solve, the noise level times the weight of the sample, twice `meanAccuracy` relative to the size of
the coefficients, and a few roundings of the response. -/
theorem C184_samples (hp : 7 ≤ p) (he : emin + 2 * p ≤ 1) {ex : ExpFn R} {δ : ℝ} (hex : ExpAccurate ex δ) (hδ : δ ≤ 1 / 20) {b : Basis d q} (hb : UnitBasis b) {param : Fin d → Fl R} (hparam : ∀ k, 0 ≤ (param k).val)
    {low high : Fin d → Fl R} {X : Fin n → Fin d → Fl R} (hX : ∀ i k, low k ≤ X i k ∧ X i k ≤ high k) {Z : Fin r → Fin d → Fl R} (hZ : ∀ j k, low k ≤ Z j k ∧ Z j k ≤ high k)
    (hsize : 5 * (d + 6) * (1 + ∑ k, (param k).val) * (2 : ℝ) ^ (-(p : ℤ)) ≤ 1 / 20) (hnq : (n + q + 1) * (2 : ℝ) ^ (-(p : ℤ)) ≤ 1 / 100) {beta : Fin q → Fl R} {gamma : Fin n → Fl R} {m s sigma : Fl R} (hs : 0 < s.val)
    {y z : Fin n → Fl R} (hz : ∀ i, normalizedOut m s (y i) = some (z i)) {C : Fin n → Fin n → Fl R} (hC : IsCovTrain ex param (normalizeFl low high X) sigma C) {ρ : ℝ}
    (hρ : ResidualAtMost b (normalizeFl low high X) C beta gamma z ρ) {F : Fin r → Fl R} (hF : IsMeanPrediction ex b low high param X beta gamma m s Z F) {i : Fin n} {j : Fin r} (hij : Z j = X i) :
    |(F j).val - (y i).val| ≤ s.val * (ρ + 1.1 * sigma.val ^ 2 * |(gamma i).val| + 2 * (meanAccuracy n q param δ * coefficientSize beta gamma)) +
      2 ^ (-(p : ℤ)) * (|m.val| + 3 * |(y i).val - m.val| + 5 * (1 + s.val) * 2 ^ (emin + p - 1)) := by
  have hp1 : 1 ≤ p := by omega
  have he0 : emin ≤ 0 := by omega
  have hu : (0 : ℝ) < 2 ^ (-(p : ℤ)) := two_zpow_pos _
  have hu1 : (2 : ℝ) ^ (-(p : ℤ)) ≤ 1 / 100 := (zpow_le_zpow_right₀ (by norm_num) (by omega : -(p : ℤ) ≤ -7)).trans (by norm_num)
  have ht : (0 : ℝ) < 2 ^ (emin + (p : ℤ) - 1) := two_zpow_pos _
  have htu : (2 : ℝ) ^ (emin + (p : ℤ) - 1) ≤ 2 ^ (-(p : ℤ)) := zpow_le_zpow_right₀ (by norm_num) (by omega)
  have h1 := C184_mean hp1 he hex hδ hb hparam hX hZ hsize hnq hF j
  have h2 : vals (normalizeFl low high Z) j = vals (normalizeFl low high X) i := by
    funext k
    simp only [vals, normalizeFl, hij]
  rw [h2] at h1
  -- the equations at the sample
  obtain ⟨hk0, hk1⟩ := kernelAccuracy_bounds hex hδ hparam hsize
  have hbas := basisFl_near hp1 (by linarith) hb (normalizeFl_unit hp1 he0 hX i)
  have hcov : ∀ k, |(C i k).val - Real.exp (-∑ l, (param l).val * (vals (normalizeFl low high X) k l - vals (normalizeFl low high X) i l) ^ 2)| ≤
      kernelAccuracy param δ + 1e-10 + if k = i then 1.1 * sigma.val ^ 2 + 2 * 2 ^ (-(p : ℤ)) else 0 := fun k => by
    obtain ⟨K, hK, hCe⟩ := hC
    have habs : ∀ i k, |(normalizeFl low high X i k).val| ≤ 1 := fun i k => by
      have := normalizeFl_unit hp1 he0 hX i k
      rw [abs_of_nonneg this.1]; exact this.2
    obtain ⟨c1, c2⟩ := correlation_near hparam (C176_accuracy_partial hp1 he hex hδ hparam habs habs hsize hK i k)
    have e1 : ∑ l, (param l).val * (vals (normalizeFl low high X) k l - vals (normalizeFl low high X) i l) ^ 2 = ∑ l, (param l).val * (vals (normalizeFl low high X) i l - vals (normalizeFl low high X) k l) ^ 2 :=
      Finset.sum_congr rfl fun l _ => by ring
    rw [e1, hCe]
    by_cases hk : k = i
    · subst hk
      rw [if_pos rfl, if_pos rfl]
      have hone : (1 : Fl R).val = 1 := R.fl_of_isFloat (isFloat_one hp1 he0)
      have h4 := diagonal_near (f := R.fl) (fl_error hp1 R) hu hu1 ht htu (k := (K k k).val) (σ := sigma.val) ((near_size c1 c2).trans (by linarith)) (R.fl_of_isFloat (R.isFloat _))
      have h5 : (K k k + 1 * (sigma * sigma)).val = R.fl ((K k k).val + R.fl (1 * R.fl (sigma.val * sigma.val))) := by
        rw [← hone]; rfl
      rw [h5]
      have h6 := abs_sub_le (R.fl ((K k k).val + R.fl (1 * R.fl (sigma.val * sigma.val)))) (K k k).val (Real.exp (-∑ l, (param l).val * (vals (normalizeFl low high X) k l - vals (normalizeFl low high X) k l) ^ 2))
      linarith
    · rw [if_neg (Ne.symm hk), if_neg hk, add_zero]
      have h5 : (K i k + 0 * (sigma * sigma)).val = (K i k).val := by
        change R.fl ((K i k).val + R.fl (0 * R.fl (sigma.val * sigma.val))) = _
        rw [zero_mul, R.fl_of_isFloat isFloat_zero, add_zero, R.fl_of_isFloat (Fl.isFloat _)]
      rw [h5]
      exact c1
  have hM : |∑ c, b (vals (normalizeFl low high X) i) c * (beta c).val + ∑ k, Real.exp (-∑ l, (param l).val * (vals (normalizeFl low high X) k l - vals (normalizeFl low high X) i l) ^ 2) * (gamma k).val - (z i).val| ≤
      ρ + 2 * 2 ^ (-(p : ℤ)) * ∑ c, |(beta c).val| + ((kernelAccuracy param δ + 1e-10) * ∑ k, |(gamma k).val| + (1.1 * sigma.val ^ 2 + 2 * 2 ^ (-(p : ℤ))) * |(gamma i).val|) := by
    have d1 : |∑ c, b (vals (normalizeFl low high X) i) c * (beta c).val - ∑ c, (basisFl b (normalizeFl low high X i) c).val * (beta c).val| ≤ 2 * 2 ^ (-(p : ℤ)) * ∑ c, |(beta c).val| := by
      rw [← Finset.sum_sub_distrib, Finset.mul_sum]
      refine (Finset.abs_sum_le_sum_abs _ _).trans (Finset.sum_le_sum fun c _ => ?_)
      rw [← sub_mul, abs_mul, abs_sub_comm]
      exact mul_le_mul_of_nonneg_right (hbas c).1 (abs_nonneg _)
    have d2 : |∑ k, Real.exp (-∑ l, (param l).val * (vals (normalizeFl low high X) k l - vals (normalizeFl low high X) i l) ^ 2) * (gamma k).val - ∑ k, (C i k).val * (gamma k).val| ≤
        (kernelAccuracy param δ + 1e-10) * ∑ k, |(gamma k).val| + (1.1 * sigma.val ^ 2 + 2 * 2 ^ (-(p : ℤ))) * |(gamma i).val| := by
      have e3 : (1.1 * sigma.val ^ 2 + 2 * 2 ^ (-(p : ℤ))) * |(gamma i).val| = ∑ k, (if k = i then 1.1 * sigma.val ^ 2 + 2 * 2 ^ (-(p : ℤ)) else 0) * |(gamma k).val| := by
        simp [ite_mul]
      rw [e3, Finset.mul_sum, ← Finset.sum_add_distrib, ← Finset.sum_sub_distrib]
      refine (Finset.abs_sum_le_sum_abs _ _).trans (Finset.sum_le_sum fun k _ => ?_)
      rw [← sub_mul, abs_mul, abs_sub_comm, ← add_mul]
      exact mul_le_mul_of_nonneg_right (hcov k) (abs_nonneg _)
    have d3 := hρ i
    generalize ∑ c, b (vals (normalizeFl low high X) i) c * (beta c).val = A1 at *
    generalize ∑ c, (basisFl b (normalizeFl low high X i) c).val * (beta c).val = A2 at *
    generalize ∑ k, Real.exp (-∑ l, (param l).val * (vals (normalizeFl low high X) k l - vals (normalizeFl low high X) i l) ^ 2) * (gamma k).val = B1 at *
    generalize ∑ k, (C i k).val * (gamma k).val = B2 at *
    rw [show A1 + B1 - (z i).val = (A2 + B2 - (z i).val) + (A1 - A2) + (B1 - B2) by ring]
    exact (abs_add_three _ _ _).trans (by linarith)
  have hback : |s.val * (z i).val + m.val - (y i).val| ≤ 2 ^ (-(p : ℤ)) * (3 * |(y i).val - m.val| + 2 * (1 + s.val) * 2 ^ (emin + (p : ℤ) - 1)) := by
    have hzi := hz i
    unfold normalizedOut at hzi
    rw [if_neg hs.ne', Option.some_inj] at hzi
    have e1 : (z i).val = R.fl (R.fl ((y i).val - m.val) / s.val) := by rw [← hzi]; rfl
    rw [e1]
    have f1 := fl_error hp1 R ((y i).val - m.val)
    have f2 := fl_error hp1 R (R.fl ((y i).val - m.val) / s.val)
    rw [show s.val * R.fl (R.fl ((y i).val - m.val) / s.val) + m.val - (y i).val = s.val * (R.fl (R.fl ((y i).val - m.val) / s.val) - R.fl ((y i).val - m.val) / s.val) + (R.fl ((y i).val - m.val) - ((y i).val - m.val)) by
      field_simp; ring]
    have f3 : s.val * |R.fl ((y i).val - m.val) / s.val| = |R.fl ((y i).val - m.val)| := by
      rw [abs_div, abs_of_pos hs]; field_simp
    have f4 := near_size f1 le_rfl
    refine (abs_add_le _ _).trans ?_
    rw [abs_mul, abs_of_pos hs]
    have f5 := mul_le_mul_of_nonneg_left f2 hs.le
    generalize R.fl (R.fl ((y i).val - m.val) / s.val) - R.fl ((y i).val - m.val) / s.val = D at *
    generalize R.fl ((y i).val - m.val) = w at *
    generalize |w / s.val| = v at *
    have hD0 := abs_nonneg ((y i).val - m.val)
    generalize |(y i).val - m.val| = y0 at *
    generalize (2 : ℝ) ^ (-(p : ℤ)) = u at *
    generalize (2 : ℝ) ^ (emin + (p : ℤ) - 1) = t at *
    have e2 : s.val * (u * (v + t)) = u * (s.val * v) + u * (s.val * t) := by ring
    rw [e2, f3] at f5
    have f6 : u * |w| ≤ u * (y0 + u * (y0 + t)) := mul_le_mul_of_nonneg_left f4 hu.le
    have f7 : u * (u * y0) ≤ 1 / 100 * (u * y0) := mul_le_mul_of_nonneg_right hu1 (by positivity)
    have f8 : u * (u * t) ≤ 1 / 100 * (u * t) := mul_le_mul_of_nonneg_right hu1 (by positivity)
    have f9 : 0 ≤ u * y0 := by positivity
    have f10 : 0 ≤ u * t := by positivity
    have f11 : 0 ≤ u * (s.val * t) := by positivity
    have e3 : u * (y0 + u * (y0 + t)) = u * y0 + u * (u * y0) + u * (u * t) := by ring
    have e4 : u * (3 * y0 + 2 * (1 + s.val) * t) = 3 * (u * y0) + 2 * (u * t) + 2 * (u * (s.val * t)) := by ring
    have e5 : u * (y0 + t) = u * y0 + u * t := by ring
    rw [e3] at f6
    rw [e5] at f1
    rw [e4]
    linarith
  unfold textbookMean at h1
  have hgi : |(gamma i).val| ≤ ∑ k, |(gamma k).val| := Finset.single_le_sum (f := fun k => |(gamma k).val|) (fun k _ => abs_nonneg _) (Finset.mem_univ i)
  have hB0 : 0 ≤ ∑ c, |(beta c).val| := Finset.sum_nonneg fun c _ => abs_nonneg _
  have hG0 : 0 ≤ ∑ k, |(gamma k).val| := Finset.sum_nonneg fun c _ => abs_nonneg _
  have hfit : ρ + 2 * 2 ^ (-(p : ℤ)) * ∑ c, |(beta c).val| + ((kernelAccuracy param δ + 1e-10) * ∑ k, |(gamma k).val| + (1.1 * sigma.val ^ 2 + 2 * 2 ^ (-(p : ℤ))) * |(gamma i).val|) ≤
      ρ + 1.1 * sigma.val ^ 2 * |(gamma i).val| + meanAccuracy n q param δ * coefficientSize beta gamma := by
    unfold meanAccuracy coefficientSize
    generalize ∑ c, |(beta c).val| = B at *
    generalize ∑ k, |(gamma k).val| = G at *
    generalize (2 : ℝ) ^ (-(p : ℤ)) = u at *
    generalize (2 : ℝ) ^ (emin + (p : ℤ) - 1) = t at *
    generalize kernelAccuracy param δ = κ at *
    have g1 : u * |(gamma i).val| ≤ u * G := mul_le_mul_of_nonneg_left hgi hu.le
    have g2 : 0 ≤ (κ + 1e-10) * (B + (n + q + 1) * t) := by positivity
    have g3 : 0 ≤ 2 * ((n : ℝ) + q) * u * (B + G + (n + q + 1) * t) := by positivity
    have g4 : 0 ≤ u * ((n + q + 1) * t) := by positivity
    have g5 : 0 ≤ u * B := by positivity
    have g6 : 0 ≤ u * G := by positivity
    have e : (κ + 1e-10 + 2 * (n + q + 4) * u) * (B + G + (n + q + 1) * t) = (κ + 1e-10) * G + (κ + 1e-10) * (B + (n + q + 1) * t) + 2 * ((n : ℝ) + q) * u * (B + G + (n + q + 1) * t) + 8 * (u * B) + 8 * (u * G) + 8 * (u * ((n + q + 1) * t)) := by ring
    rw [e]
    linarith
  have hM2 := mul_le_mul_of_nonneg_left (hM.trans hfit) hs.le
  rw [abs_of_pos hs] at h1
  generalize ∑ c, b (vals (normalizeFl low high X) i) c * (beta c).val + ∑ k, Real.exp (-∑ l, (param l).val * (vals (normalizeFl low high X) k l - vals (normalizeFl low high X) i l) ^ 2) * (gamma k).val = M at *
  rw [← abs_of_pos hs, ← abs_mul, abs_of_pos hs] at hM2
  generalize meanAccuracy n q param δ * coefficientSize beta gamma = W at *
  have hfin : |(F j).val - (y i).val| ≤ |(F j).val - (s.val * M + m.val)| + |s.val * (M - (z i).val)| + |s.val * (z i).val + m.val - (y i).val| := by
    rw [show (F j).val - (y i).val = ((F j).val - (s.val * M + m.val)) + s.val * (M - (z i).val) + (s.val * (z i).val + m.val - (y i).val) by ring]
    exact abs_add_three _ _ _
  generalize (2 : ℝ) ^ (-(p : ℤ)) = u at *
  generalize (2 : ℝ) ^ (emin + (p : ℤ) - 1) = t at *
  have hst : 0 ≤ u * (s.val * t) := by positivity
  have e1 : u * (|m.val| + 3 * |(y i).val - m.val| + 5 * (1 + s.val) * t) = u * (|m.val| + 3 * t) + u * (3 * |(y i).val - m.val| + 2 * (1 + s.val) * t) + 3 * (u * (s.val * t)) := by ring
  rw [e1]
  linarith

/-! ### The hypotheses can be met -/

/-- Predictions can be computed for all samples, coefficients and points. -/
theorem meanPrediction_exists (ex : ExpFn R) (b : Basis d q) (low high param : Fin d → Fl R) (X : Fin n → Fin d → Fl R) (beta : Fin q → Fl R) (gamma : Fin n → Fl R) (m s : Fl R) (Z : Fin r → Fin d → Fl R) :
    ∃ F, IsMeanPrediction ex b low high param X beta gamma m s Z F := by
  obtain ⟨K, hK⟩ := kernelMatrix_exists ex param (normalizeFl low high X) (normalizeFl low high Z)
  choose fb hfb using fun j => Props.dotOf_exists (R := R) (List.ofFn fun c => (basisFl b (normalizeFl low high Z j) c, beta c))
  choose kg hkg using fun j => Props.dotOf_exists (R := R) (List.ofFn fun i => (K i j, gamma i))
  exact ⟨_, K, fb, kg, hK, hfb, hkg, fun j => rfl⟩

/-- In double precision: 30 samples of two variables, kernel parameters adding up to at most 20, the exponential correctly rounded, linear trend, absolute values of the coefficients adding up to at most 1000, responses between -100 and 100:
predicted means are accurate to `1.3e-5` (most of it is the nugget of the kernel), whatever the batch. -/
example (X : Fin 30 → Fin 2 → Double) (Z : Fin r → Fin 2 → Double) (low high param : Fin 2 → Double) (hX : ∀ i k, low k ≤ X i k ∧ X i k ≤ high k) (hZ : ∀ j k, low k ≤ Z j k ∧ Z j k ≤ high k) (hparam : ∀ k, 0 ≤ (param k).val)
    (hpar : ∑ k, (param k).val ≤ 20) (beta : Fin 3 → Double) (gamma : Fin 30 → Double) (hsum : ∑ c, |(beta c).val| + ∑ i, |(gamma i).val| ≤ 1000) (m s : Double) (hm : |m.val| ≤ 100) (hs : |s.val| ≤ 100) (F : Fin r → Double)
    (hF : IsMeanPrediction (fun a => Fl.ofReal _ (Real.exp a.val)) (linear 2) low high param X beta gamma m s Z F) (j : Fin r) :
    |(F j).val - textbookMean (linear 2) (fun k => (param k).val) (vals (normalizeFl low high X)) (fun c => (beta c).val) (fun i => (gamma i).val) m.val s.val (vals (normalizeFl low high Z) j)| ≤ 1.3e-5 := by
  have hS : (0 : ℝ) ≤ ∑ k, (param k).val := Finset.sum_nonneg fun k _ => hparam k
  have hu : (2 : ℝ) ^ (-((53 : ℕ) : ℤ)) ≤ 1.2e-16 := by norm_num
  have hu0 : (0 : ℝ) < 2 ^ (-((53 : ℕ) : ℤ)) := two_zpow_pos _
  have hsz : (2 + 6) * (1 + ∑ k, (param k).val) * (2 : ℝ) ^ (-((53 : ℕ) : ℤ)) ≤ 168 * 1.2e-16 := mul_le_mul (by linarith) hu hu0.le (by norm_num)
  have ht : (2 : ℝ) ^ (-1074 + ((53 : ℕ) : ℤ) - 1) ≤ 2 ^ (-60 : ℤ) := zpow_le_zpow_right₀ (by norm_num) (by norm_num)
  have ht0 : (0 : ℝ) < 2 ^ (-1074 + ((53 : ℕ) : ℤ) - 1) := two_zpow_pos _
  have h := C184_mean (by norm_num) (by norm_num) (expAccurate_rounded (R := nearestRounding 53 (-1074) (by norm_num)) (by norm_num) (by norm_num)) (by norm_num) unitBasis_code.2.1 hparam hX hZ (by push_cast; linarith) (by norm_num) hF j
  refine h.trans ?_
  have hA : meanAccuracy 30 3 param (2 ^ (1 - ((53 : ℕ) : ℤ))) ≤ 1.2e-10 := by
    unfold meanAccuracy kernelAccuracy
    have e1 : (2 : ℝ) ^ (1 - ((53 : ℕ) : ℤ)) ≤ 2.4e-16 := by norm_num
    push_cast at *
    linarith
  have hW : coefficientSize beta gamma ≤ 1001 := by
    unfold coefficientSize
    generalize (2 : ℝ) ^ (-1074 + ((53 : ℕ) : ℤ) - 1) = t at *
    norm_num at ht ⊢
    linarith
  have hW0 : 0 ≤ coefficientSize beta gamma := by
    unfold coefficientSize
    positivity
  have h1 : meanAccuracy 30 3 param (2 ^ (1 - ((53 : ℕ) : ℤ))) * coefficientSize beta gamma * |s.val| ≤ 1.2e-10 * 1001 * 100 :=
    mul_le_mul (mul_le_mul hA hW hW0 (by norm_num)) hs (abs_nonneg _) (by norm_num)
  have h2 : (2 : ℝ) ^ (-((53 : ℕ) : ℤ)) * (|m.val| + 3 * 2 ^ (-1074 + ((53 : ℕ) : ℤ) - 1)) ≤ 1.2e-16 * 101 := by
    refine mul_le_mul hu ?_ (by positivity) (by norm_num)
    generalize (2 : ℝ) ^ (-1074 + ((53 : ℕ) : ℤ) - 1) = t at *
    norm_num at ht
    linarith
  refine (add_le_add h1 h2).trans ?_
  norm_num

/-- The same setting without noise, standard deviation of the responses between 0 and 100, a solver that leaves a residual of `1e-10`: responses are reproduced to `3e-5`, wherever the sample is in the batch. -/
example (X : Fin 30 → Fin 2 → Double) (Z : Fin r → Fin 2 → Double) (low high param : Fin 2 → Double) (hX : ∀ i k, low k ≤ X i k ∧ X i k ≤ high k) (hZ : ∀ j k, low k ≤ Z j k ∧ Z j k ≤ high k) (hparam : ∀ k, 0 ≤ (param k).val)
    (hpar : ∑ k, (param k).val ≤ 20) (beta : Fin 3 → Double) (gamma : Fin 30 → Double) (hsum : ∑ c, |(beta c).val| + ∑ i, |(gamma i).val| ≤ 1000) (m s : Double) (hm : |m.val| ≤ 100) (hs0 : 0 < s.val) (hs : s.val ≤ 100)
    (y z : Fin 30 → Double) (hy : ∀ i, |(y i).val - m.val| ≤ 1000) (hz : ∀ i, normalizedOut m s (y i) = some (z i)) (C : Fin 30 → Fin 30 → Double)
    (hC : IsCovTrain (fun a => Fl.ofReal _ (Real.exp a.val)) param (normalizeFl low high X) 0 C) (hρ : ResidualAtMost (linear 2) (normalizeFl low high X) C beta gamma z 1e-10) (F : Fin r → Double)
    (hF : IsMeanPrediction (fun a => Fl.ofReal _ (Real.exp a.val)) (linear 2) low high param X beta gamma m s Z F) (i : Fin 30) (j : Fin r) (hij : Z j = X i) : |(F j).val - (y i).val| ≤ 3e-5 := by
  have hS : (0 : ℝ) ≤ ∑ k, (param k).val := Finset.sum_nonneg fun k _ => hparam k
  have hu : (2 : ℝ) ^ (-((53 : ℕ) : ℤ)) ≤ 1.2e-16 := by norm_num
  have hu0 : (0 : ℝ) < 2 ^ (-((53 : ℕ) : ℤ)) := two_zpow_pos _
  have hsz : (2 + 6) * (1 + ∑ k, (param k).val) * (2 : ℝ) ^ (-((53 : ℕ) : ℤ)) ≤ 168 * 1.2e-16 := mul_le_mul (by linarith) hu hu0.le (by norm_num)
  have ht : (2 : ℝ) ^ (-1074 + ((53 : ℕ) : ℤ) - 1) ≤ 2 ^ (-60 : ℤ) := zpow_le_zpow_right₀ (by norm_num) (by norm_num)
  have ht0 : (0 : ℝ) < 2 ^ (-1074 + ((53 : ℕ) : ℤ) - 1) := two_zpow_pos _
  have h := C184_samples (by norm_num) (by norm_num) (expAccurate_rounded (R := nearestRounding 53 (-1074) (by norm_num)) (by norm_num) (by norm_num)) (by norm_num) unitBasis_code.2.1 hparam hX hZ (by push_cast; linarith) (by norm_num)
    hs0 hz hC hρ hF hij
  refine h.trans ?_
  have hzero : (0 : Double).val = 0 := rfl
  rw [hzero]
  have hA : meanAccuracy 30 3 param (2 ^ (1 - ((53 : ℕ) : ℤ))) ≤ 1.2e-10 := by
    unfold meanAccuracy kernelAccuracy
    have e1 : (2 : ℝ) ^ (1 - ((53 : ℕ) : ℤ)) ≤ 2.4e-16 := by norm_num
    push_cast at *
    linarith
  have hW : coefficientSize beta gamma ≤ 1001 := by
    unfold coefficientSize
    generalize (2 : ℝ) ^ (-1074 + ((53 : ℕ) : ℤ) - 1) = t at *
    norm_num at ht ⊢
    linarith
  have hW0 : 0 ≤ coefficientSize beta gamma := by
    unfold coefficientSize
    positivity
  have h0 : meanAccuracy 30 3 param (2 ^ (1 - ((53 : ℕ) : ℤ))) * coefficientSize beta gamma ≤ 1.2e-10 * 1001 := mul_le_mul hA hW hW0 (by norm_num)
  have h1 : s.val * (1e-10 + 1.1 * 0 ^ 2 * |(gamma i).val| + 2 * (meanAccuracy 30 3 param (2 ^ (1 - ((53 : ℕ) : ℤ))) * coefficientSize beta gamma)) ≤ 100 * (1e-10 + 2 * (1.2e-10 * 1001)) := by
    refine (mul_le_mul_of_nonneg_left (b := 1e-10 + 1.1 * 0 ^ 2 * |(gamma i).val| + 2 * (meanAccuracy 30 3 param (2 ^ (1 - ((53 : ℕ) : ℤ))) * coefficientSize beta gamma)) (c := 1e-10 + 2 * (1.2e-10 * 1001)) (by linarith) hs0.le).trans ?_
    exact mul_le_mul_of_nonneg_right hs (by norm_num)
  have h2 : (2 : ℝ) ^ (-((53 : ℕ) : ℤ)) * (|m.val| + 3 * |(y i).val - m.val| + 5 * (1 + s.val) * 2 ^ (-1074 + ((53 : ℕ) : ℤ) - 1)) ≤ 1.2e-16 * 3200 := by
    have h3 : 5 * (1 + s.val) * (2 : ℝ) ^ (-1074 + ((53 : ℕ) : ℤ) - 1) ≤ 505 * 2 ^ (-60 : ℤ) := mul_le_mul (by linarith) ht ht0.le (by norm_num)
    refine mul_le_mul hu ?_ (by positivity) (by norm_num)
    generalize 5 * (1 + s.val) * (2 : ℝ) ^ (-1074 + ((53 : ℕ) : ℤ) - 1) = t at *
    norm_num at h3
    linarith [hy i]
  refine (add_le_add h1 h2).trans ?_
  norm_num

end Mfpml.Props
