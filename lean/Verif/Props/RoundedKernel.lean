import Mathlib.Tactic.NormNum
import Mathlib.Tactic.GCongr
import Verif.Spec.RoundedKernel
import Verif.Lemmas.RoundedKernel
import Verif.Lemmas.Kernels
import Verif.Props.Rounded

/-!
# The kernel in floating-point arithmetic (C176, C177)

`R` ranges over all roundings to nearest with `p` significant bits (`float64`: `p = 53`, `emin = -1074`).
-/

set_option linter.unusedSectionVars false

open scoped BigOperators Matrix

namespace Mfpml.Props

open Mfpml.Rounded Mfpml.GP Mfpml.Spec

variable {p : ℕ} {emin : ℤ} {R : Rounding p emin} {n m d : ℕ}

/-! ### Squared distances -/

theorem isFloat_two (hp : 1 ≤ p) (he : emin ≤ 0) : IsFloat p emin 2 := by
  have := isFloat_two_zpow (p := p) (emin := emin) hp (f := 1) (by omega)
  simpa using this

/-- The sums of squares. -/
theorem sumSq_acc (hp : 1 ≤ p) (he : emin ≤ 0) {param x : Fin d → Fl R} (hparam : ∀ k, 0 ≤ (param k).val) (hx : ∀ k, |(x k).val| ≤ 1) {s : Fl R}
    (h : SumOf R (List.ofFn fun k => x k * x k * param k) s) :
    Acc (2 ^ (-(p : ℤ))) (2 + d) (∑ k, ((1 + 2 ^ (emin + p - 1)) * (param k).val + 2 ^ (emin + p - 1))) (∑ k, (x k).val ^ 2 * (param k).val) s.val ∧
      |∑ k, (x k).val ^ 2 * (param k).val| ≤ ∑ k, ((1 + 2 ^ (emin + p - 1)) * (param k).val + 2 ^ (emin + p - 1)) := by
  have hu : (0 : ℝ) < 2 ^ (-(p : ℤ)) := two_zpow_pos _
  have ht : (0 : ℝ) < 2 ^ (emin + p - 1) := two_zpow_pos _
  have h' := h.dot hp he
  rw [List.map_ofFn] at h'
  have := h'.acc hp (k := 2) (List.ofFn fun k => ((x k).val ^ 2 * (param k).val, (1 + 2 ^ (emin + p - 1)) * (param k).val + 2 ^ (emin + p - 1)))
    (forall₂_ofFn fun k => ?_)
  · simp only [List.map_ofFn, List.sum_ofFn, List.length_ofFn] at this
    exact ⟨this.1, this.2.1⟩
  · have hx2 : |(x k).val * (x k).val| ≤ 1 := by rw [abs_mul]; exact mul_le_one₀ (hx k) (abs_nonneg _) (hx k)
    have a1 : Acc (2 ^ (-(p : ℤ))) (0 + 1) (1 + 2 ^ (emin + (p : ℤ) - 1)) ((x k).val * (x k).val) (R.fl ((x k).val * (x k).val)) := (acc_exact _ _).fl hp R (by linarith)
    have a2 := a1.mul hu.le (acc_exact (u := 2 ^ (-(p : ℤ))) (param k).val (param k).val) (by linarith) (by rw [abs_of_nonneg (hparam k)])
    have hb : |(x k).val ^ 2 * (param k).val| + 2 ^ (emin + (p : ℤ) - 1) ≤ (1 + 2 ^ (emin + (p : ℤ) - 1)) * (param k).val + 2 ^ (emin + (p : ℤ) - 1) := by
      rw [pow_two, abs_mul, abs_of_nonneg (hparam k)]
      have := mul_le_mul_of_nonneg_right hx2 (hparam k)
      have := mul_nonneg ht.le (hparam k)
      linarith
    have a3 := (a2.mono hu.le le_rfl (show (1 + 2 ^ (emin + (p : ℤ) - 1)) * (param k).val ≤ (1 + 2 ^ (emin + (p : ℤ) - 1)) * (param k).val + 2 ^ (emin + (p : ℤ) - 1) by linarith)
      (mul_nonneg (by linarith) (hparam k))).fl hp R (by rw [pow_two] at hb; exact hb)
    refine ⟨?_, hb⟩
    change Acc _ 2 _ _ (R.fl (R.fl ((x k).val * (x k).val) * (param k).val) * 1)
    rw [mul_one, pow_two]
    exact a3

/-- The scalar products. -/
theorem dot_acc (hp : 1 ≤ p) {param x y : Fin d → Fl R} (hparam : ∀ k, 0 ≤ (param k).val) (hx : ∀ k, |(x k).val| ≤ 1) (hy : ∀ k, |(y k).val| ≤ 1) {s : Fl R}
    (h : DotOf R (List.ofFn fun k => ((param k).sqrt * x k, (param k).sqrt * y k)) s) :
    Acc (2 ^ (-(p : ℤ))) (4 + d) (∑ k, ((Real.sqrt (param k).val + 2 ^ (emin + p - 1)) * (Real.sqrt (param k).val + 2 ^ (emin + p - 1)) + 2 ^ (emin + p - 1)))
        (∑ k, (Real.sqrt (param k).val * (x k).val) * (Real.sqrt (param k).val * (y k).val)) s.val ∧
      |∑ k, (Real.sqrt (param k).val * (x k).val) * (Real.sqrt (param k).val * (y k).val)| ≤
        ∑ k, ((Real.sqrt (param k).val + 2 ^ (emin + p - 1)) * (Real.sqrt (param k).val + 2 ^ (emin + p - 1)) + 2 ^ (emin + p - 1)) := by
  have hu : (0 : ℝ) < 2 ^ (-(p : ℤ)) := two_zpow_pos _
  have ht : (0 : ℝ) < 2 ^ (emin + p - 1) := two_zpow_pos _
  have one : ∀ (k : Fin d) (z : Fin d → Fl R), |(z k).val| ≤ 1 → Acc (2 ^ (-(p : ℤ))) 2 (Real.sqrt (param k).val + 2 ^ (emin + (p : ℤ) - 1)) (Real.sqrt (param k).val * (z k).val) ((param k).sqrt * z k).val ∧
      |Real.sqrt (param k).val * (z k).val| ≤ Real.sqrt (param k).val := fun k z hz => by
    have hs := Real.sqrt_nonneg (param k).val
    have hb : |Real.sqrt (param k).val * (z k).val| ≤ Real.sqrt (param k).val := by
      rw [abs_mul, abs_of_nonneg hs]
      exact mul_le_of_le_one_right hs hz
    have a1 : Acc (2 ^ (-(p : ℤ))) (0 + 1) (Real.sqrt (param k).val + 2 ^ (emin + (p : ℤ) - 1)) (Real.sqrt (param k).val) (R.fl (Real.sqrt (param k).val)) :=
      (acc_exact _ _).fl hp R (by rw [abs_of_nonneg hs])
    have a2 := a1.mul hu.le (acc_exact (u := 2 ^ (-(p : ℤ))) 1 (z k).val) (by rw [abs_of_nonneg hs]; linarith) hz
    rw [mul_one] at a2
    exact ⟨a2.fl hp R (by linarith), hb⟩
  have := h.acc hp (k := 4) (List.ofFn fun k => ((Real.sqrt (param k).val * (x k).val) * (Real.sqrt (param k).val * (y k).val),
      (Real.sqrt (param k).val + 2 ^ (emin + p - 1)) * (Real.sqrt (param k).val + 2 ^ (emin + p - 1)) + 2 ^ (emin + p - 1))) (forall₂_ofFn fun k => ?_)
  · simp only [List.map_ofFn, List.sum_ofFn, List.length_ofFn] at this
    exact ⟨this.1, this.2.1⟩
  · have hs := Real.sqrt_nonneg (param k).val
    obtain ⟨a1, b1⟩ := one k x (hx k)
    obtain ⟨a2, b2⟩ := one k y (hy k)
    have a3 := a1.mul hu.le a2 (by linarith) (by linarith)
    refine ⟨a3.mono hu.le le_rfl (by linarith) (by positivity), ?_⟩
    rw [abs_mul]
    have := mul_le_mul b1 b2 (abs_nonneg _) hs
    nlinarith

/-- The accuracy of computed squared distances between points of the unit cube. -/
theorem dist_error (hp : 1 ≤ p) (he : emin + 2 * p ≤ 1) {param : Fin d → Fl R} (hparam : ∀ k, 0 ≤ (param k).val) {X : Fin n → Fin d → Fl R} {Y : Fin m → Fin d → Fl R}
    (hX : ∀ i k, |(X i k).val| ≤ 1) (hY : ∀ j k, |(Y j k).val| ≤ 1) (hd : (d + 6) * (2 : ℝ) ^ (-(p : ℤ)) ≤ 1 / 100) {D : Fin n → Fin m → Fl R} (hD : IsDist param X Y D) (i : Fin n) (j : Fin m) :
    |(D i j).val - rbfDist (fun k => (param k).val) (vals X i) (vals Y j)| ≤ 5 * (d + 6) * (1 + ∑ k, (param k).val) * 2 ^ (-(p : ℤ)) := by
  have hu : (0 : ℝ) < 2 ^ (-(p : ℤ)) := two_zpow_pos _
  have ht : (0 : ℝ) < 2 ^ (emin + p - 1) := two_zpow_pos _
  have htu : (2 : ℝ) ^ (emin + p - 1) ≤ 2 ^ (-(p : ℤ)) := zpow_le_zpow_right₀ (by norm_num) (by omega)
  have he0 : emin ≤ 0 := by omega
  obtain ⟨xsq, ysq, xy, h1, h2, h3, h4⟩ := hD
  obtain ⟨a1, b1⟩ := sumSq_acc hp he0 hparam (hX i) (h1 i)
  obtain ⟨a2, b2⟩ := sumSq_acc hp he0 hparam (hY j) (h2 j)
  obtain ⟨a3, b3⟩ := dot_acc hp hparam (hX i) (hY j) (h3 i j)
  have e2 : (Fl.ofReal R 2).val = 2 := R.fl_of_isFloat (isFloat_two hp he0)
  have hS : (0 : ℝ) ≤ ∑ k, (param k).val := Finset.sum_nonneg fun k _ => hparam k
  have hval : (D i j).val = R.fl (R.fl ((xsq i).val + (ysq j).val) - R.fl (2 * (xy i j).val)) := by
    rw [h4]
    change R.fl (R.fl ((xsq i).val + (ysq j).val) - R.fl ((Fl.ofReal R 2).val * (xy i j).val)) = _
    rw [e2]
  have hk := one_add_pow_le hu.le (d + 6) (by push_cast; exact hd)
  have hkl := one_le_acc hu.le (d + 6)
  have hW1 : ∑ k, ((1 + 2 ^ (emin + (p : ℤ) - 1)) * (param k).val + 2 ^ (emin + (p : ℤ) - 1)) ≤ (1 + 2 ^ (emin + (p : ℤ) - 1)) * (∑ k, (param k).val) + 3 * d * 2 ^ (emin + (p : ℤ) - 1) := by
    rw [Finset.sum_add_distrib, ← Finset.mul_sum]
    simp only [Finset.sum_const, Finset.card_univ, Fintype.card_fin, nsmul_eq_mul]
    have : (0 : ℝ) ≤ d * 2 ^ (emin + (p : ℤ) - 1) := by positivity
    linarith
  have hW2 : ∑ k, ((Real.sqrt (param k).val + 2 ^ (emin + (p : ℤ) - 1)) * (Real.sqrt (param k).val + 2 ^ (emin + (p : ℤ) - 1)) + 2 ^ (emin + (p : ℤ) - 1)) ≤
      (1 + 2 ^ (emin + (p : ℤ) - 1)) * (∑ k, (param k).val) + 3 * d * 2 ^ (emin + (p : ℤ) - 1) := by
    have ht1 : (2 : ℝ) ^ (emin + (p : ℤ) - 1) ≤ 1 := by
      have : (2 : ℝ) ^ (-(p : ℤ)) ≤ 1 := zpow_le_one_of_nonpos₀ (by norm_num) (by omega)
      linarith
    calc _ ≤ ∑ k, ((1 + 2 ^ (emin + (p : ℤ) - 1)) * (param k).val + 3 * 2 ^ (emin + (p : ℤ) - 1)) := Finset.sum_le_sum fun k _ => by
          have hs := Real.sqrt_nonneg (param k).val
          have hss := Real.mul_self_sqrt (hparam k)
          generalize (2 : ℝ) ^ (emin + (p : ℤ) - 1) = t at *
          generalize Real.sqrt (param k).val = r at *
          rw [← hss]
          nlinarith [mul_nonneg ht.le (sq_nonneg (r - 1)), mul_nonneg ht.le (sub_nonneg.mpr ht1)]
      _ = _ := by
          rw [Finset.sum_add_distrib, ← Finset.mul_sum]
          simp only [Finset.sum_const, Finset.card_univ, Fintype.card_fin, nsmul_eq_mul]
          ring
  set t : ℝ := 2 ^ (emin + (p : ℤ) - 1) with htd
  set S := ∑ k, (param k).val with hSd
  -- one weight for everything
  set W : ℝ := (1 + t) * S + 3 * d * t + t with hWd
  have hWt : (1 + t) * S + 3 * d * t = W - t := by rw [hWd]; ring
  rw [hWt] at hW1 hW2
  have hW0 : t ≤ W := by rw [hWd]; have : (0 : ℝ) ≤ (1 + t) * S + 3 * d * t := by positivity
                         linarith
  have c1 := a1.mono hu.le (l := d + 4) (v := W) (by omega) (by linarith) ((abs_nonneg _).trans b1)
  have c2 := a2.mono hu.le (l := d + 4) (v := W) (by omega) (by linarith) ((abs_nonneg _).trans b2)
  have c3 := a3.mono hu.le (l := d + 4) (v := W) (by omega) (by linarith) ((abs_nonneg _).trans b3)
  have hdist : rbfDist (fun k => (param k).val) (vals X i) (vals Y j) = ∑ k, (X i k).val ^ 2 * (param k).val + ∑ k, (Y j k).val ^ 2 * (param k).val -
      2 * ∑ k, Real.sqrt (param k).val * (X i k).val * (Real.sqrt (param k).val * (Y j k).val) := rfl
  rw [hdist, hval]
  generalize ∑ k, (X i k).val ^ 2 * (param k).val = Sx at *
  generalize ∑ k, (Y j k).val ^ 2 * (param k).val = Sy at *
  generalize ∑ k, Real.sqrt (param k).val * (X i k).val * (Real.sqrt (param k).val * (Y j k).val) = Sxy at *
  have g1 : |Sx| ≤ W - t := b1.trans hW1
  have g2 : |Sy| ≤ W - t := b2.trans hW1
  have g3 : |Sxy| ≤ W - t := b3.trans hW2
  have e1 := ((c1.add c2).fl hp R (by have := abs_add_le Sx Sy; linarith)).mono hu.le (l := d + 5) le_rfl le_rfl (by linarith)
  have e3 : Acc (2 ^ (-(p : ℤ))) (d + 4 + 1) (W + W) (2 * Sxy) (R.fl (2 * (xy i j).val)) := by
    have := c3.add c3
    rw [← two_mul Sxy, ← two_mul (xy i j).val] at this
    refine this.fl hp R ?_
    rw [abs_mul, abs_of_pos (by norm_num : (0 : ℝ) < 2)]
    linarith
  have e4 := e1.add e3.neg
  rw [← sub_eq_add_neg, ← sub_eq_add_neg] at e4
  have e5 := e4.fl hp R (by
    have := abs_sub (Sx + Sy) (2 * Sxy)
    have h' := abs_add_le Sx Sy
    rw [abs_mul, abs_of_pos (by norm_num : (0 : ℝ) < 2)] at this
    linarith)
  unfold Rounded.Acc at e5
  refine e5.trans ?_
  push_cast at hk
  have hku : (0 : ℝ) ≤ (d + 6) * 2 ^ (-(p : ℤ)) := by positivity
  have hdt : 3 * (d : ℝ) * t + t ≤ 3 / 100 := by
    have : (d : ℝ) * t ≤ d * 2 ^ (-(p : ℤ)) := mul_le_mul_of_nonneg_left htu (Nat.cast_nonneg d)
    nlinarith
  have hWb : W ≤ 1.01 * S + 0.03 := by
    have : t ≤ 1 / 100 := by nlinarith [mul_nonneg (Nat.cast_nonneg (α := ℝ) d) hu.le]
    rw [hWd]
    nlinarith
  have hW00 : 0 ≤ W := by linarith
  rw [show d + 5 + 1 = d + 6 from rfl]
  have hk0 : 0 ≤ (1 + (2 : ℝ) ^ (-(p : ℤ))) ^ (d + 6) - 1 := by linarith
  calc ((1 + (2 : ℝ) ^ (-(p : ℤ))) ^ (d + 6) - 1) * (W + W + (W + W)) ≤ (1.02 * ((d + 6) * 2 ^ (-(p : ℤ)))) * (4 * (1.01 * S + 0.03)) :=
        mul_le_mul hk (by linarith) (by linarith) (by positivity)
    _ ≤ 5 * (d + 6) * (1 + S) * 2 ^ (-(p : ℤ)) := by nlinarith [mul_nonneg hku hS]

/-! ### C176 -/

theorem exp_sub_le {a b E : ℝ} (ha : a ≤ E) (hb : b ≤ E) : |Real.exp a - Real.exp b| ≤ Real.exp E * |a - b| := by
  rcases le_total b a with h | h
  · have h1 := Real.add_one_le_exp (b - a)
    have h2 : Real.exp b = Real.exp a * Real.exp (b - a) := by rw [← Real.exp_add]; congr 1; ring
    have h3 := Real.exp_le_exp.mpr h
    have h4 := Real.exp_le_exp.mpr ha
    have h5 := Real.exp_pos a
    rw [abs_of_nonneg (by linarith), abs_of_nonneg (by linarith)]
    nlinarith [mul_le_mul_of_nonneg_right h4 (sub_nonneg.mpr h)]
  · have h1 := Real.add_one_le_exp (a - b)
    have h2 : Real.exp a = Real.exp b * Real.exp (a - b) := by rw [← Real.exp_add]; congr 1; ring
    have h3 := Real.exp_le_exp.mpr h
    have h4 := Real.exp_le_exp.mpr hb
    have h5 := Real.exp_pos b
    rw [abs_of_nonpos (by linarith), abs_of_nonpos (by linarith)]
    nlinarith [mul_le_mul_of_nonneg_right h4 (sub_nonneg.mpr h)]

/-- C176 (accuracy).  Whatever the order of the additions, every entry of a computed kernel matrix for points of the unit cube differs from the exact one by at most `kernelAccuracy`.
What is missing for C176 is that it does not exceed the largest exact value. -/
theorem C176_accuracy_partial (hp : 1 ≤ p) (he : emin + 2 * p ≤ 1) {ex : ExpFn R} {δ : ℝ} (hex : ExpAccurate ex δ) (hδ : δ ≤ 1 / 20) {param : Fin d → Fl R} (hparam : ∀ k, 0 ≤ (param k).val)
    {X : Fin n → Fin d → Fl R} {Y : Fin m → Fin d → Fl R} (hX : ∀ i k, |(X i k).val| ≤ 1) (hY : ∀ j k, |(Y j k).val| ≤ 1)
    (hsize : 5 * (d + 6) * (1 + ∑ k, (param k).val) * (2 : ℝ) ^ (-(p : ℤ)) ≤ 1 / 20) {K : Fin n → Fin m → Fl R} (hK : IsKernelMatrix ex param X Y K) (i : Fin n) (j : Fin m) :
    |(K i j).val - rbfMatrix (fun k => (param k).val) (vals X) (vals Y) i j| ≤ kernelAccuracy param δ := by
  have hu : (0 : ℝ) < 2 ^ (-(p : ℤ)) := two_zpow_pos _
  have ht : (0 : ℝ) < 2 ^ (emin + p - 1) := two_zpow_pos _
  have htu : (2 : ℝ) ^ (emin + p - 1) ≤ 2 ^ (-(p : ℤ)) := zpow_le_zpow_right₀ (by norm_num) (by omega)
  have hS : (0 : ℝ) ≤ ∑ k, (param k).val := Finset.sum_nonneg fun k _ => hparam k
  have hdu : (0 : ℝ) ≤ (d + 6) * 2 ^ (-(p : ℤ)) := by positivity
  have hd : (d + 6) * (2 : ℝ) ^ (-(p : ℤ)) ≤ 1 / 100 := by nlinarith [mul_nonneg hdu hS]
  have hu1 : (2 : ℝ) ^ (-(p : ℤ)) ≤ 1 / 600 := by nlinarith [mul_nonneg (Nat.cast_nonneg (α := ℝ) d) hu.le]
  obtain ⟨D, hD, hKe⟩ := hK
  have hdist := dist_error hp he hparam hX hY hd hD i j
  have hδ0 : 0 ≤ δ := by
    have h1 := (abs_nonneg _).trans (hex 0)
    have h2 : (0 : ℝ) < max 1 (Real.exp (0 : Fl R).val) := lt_of_lt_of_le one_pos (le_max_left _ _)
    exact nonneg_of_mul_nonneg_left h1 h2
  have hneg : (-(D i j)).val = -(D i j).val := R.fl_of_isFloat (D i j).isFloat.neg
  have hD0 : 0 ≤ rbfDist (fun k => (param k).val) (vals X i) (vals Y j) := rbfDist_nonneg _ hparam _ _
  -- the exponential
  have hx1 := hex (-(D i j))
  rw [hneg] at hx1
  unfold rbfMatrix kernelAccuracy
  rw [show nugget = (10 : ℝ) ^ (-10 : ℤ) from rfl]
  -- the nugget
  have he0 : emin ≤ 0 := by omega
  have hone : (1 : Fl R).val = 1 := R.fl_of_isFloat (isFloat_one hp he0)
  have hN : |((if i.val = j.val then 1 else 0 : Fl R) * Fl.ofReal R (10 ^ (-10 : ℤ))).val - (if i.val = j.val then 1 else 0 : ℝ) * 10 ^ (-10 : ℤ)| ≤ 0.1 * 2 ^ (-(p : ℤ)) := by
    split
    · have e1 : ((1 : Fl R) * Fl.ofReal R (10 ^ (-10 : ℤ))).val = R.fl (10 ^ (-10 : ℤ)) := by
        change R.fl ((1 : Fl R).val * R.fl (10 ^ (-10 : ℤ))) = _
        rw [hone, one_mul, R.fl_of_isFloat (R.isFloat _)]
      rw [e1, one_mul]
      refine (fl_error hp R _).trans ?_
      rw [mul_comm]
      refine mul_le_mul_of_nonneg_right ?_ hu.le
      rw [abs_of_pos (by positivity)]
      have : (10 : ℝ) ^ (-10 : ℤ) ≤ 0.01 := by norm_num
      linarith
    · have e1 : ((0 : Fl R) * Fl.ofReal R (10 ^ (-10 : ℤ))).val = 0 := by
        change R.fl ((0 : ℝ) * R.fl (10 ^ (-10 : ℤ))) = _
        rw [zero_mul, R.fl_of_isFloat isFloat_zero]
      rw [e1, zero_mul, sub_zero, abs_zero]
      positivity
  have hN1 : |(if i.val = j.val then 1 else 0 : ℝ) * (10 : ℝ) ^ (-10 : ℤ)| ≤ 0.01 := by
    split <;> norm_num [abs_of_pos]
  have hval : (K i j).val = R.fl ((ex (-(D i j))).val + ((if i.val = j.val then 1 else 0 : Fl R) * Fl.ofReal R (10 ^ (-10 : ℤ))).val) := by rw [hKe]; rfl
  rw [hval]
  have hr := fl_error hp R ((ex (-(D i j))).val + ((if i.val = j.val then 1 else 0 : Fl R) * Fl.ofReal R (10 ^ (-10 : ℤ))).val)
  generalize ((if i.val = j.val then 1 else 0 : Fl R) * Fl.ofReal R (10 ^ (-10 : ℤ))).val = N' at *
  generalize (if i.val = j.val then 1 else 0 : ℝ) * (10 : ℝ) ^ (-10 : ℤ) = N at *
  generalize (ex (-(D i j))).val = e' at *
  generalize (D i j).val = D' at *
  generalize rbfDist (fun k => (param k).val) (vals X i) (vals Y j) = D0 at *
  set E := 5 * (d + 6) * (1 + ∑ k, (param k).val) * (2 : ℝ) ^ (-(p : ℤ)) with hE
  have hE0 : 0 ≤ E := (abs_nonneg _).trans hdist
  have hDb := abs_le.mp hdist
  have hexpE : Real.exp E ≤ 1.06 := by
    have h1 := Real.add_one_le_exp (-E)
    have h2 : Real.exp E * Real.exp (-E) = 1 := by rw [← Real.exp_add, add_neg_cancel, Real.exp_zero]
    have h3 := Real.exp_pos E
    nlinarith
  have hexpD : Real.exp (-D') ≤ 1.06 := (Real.exp_le_exp.mpr (by linarith)).trans hexpE
  have h1 : |Real.exp (-D') - Real.exp (-D0)| ≤ 1.06 * E := by
    refine (exp_sub_le (E := E) (by linarith) (by linarith)).trans ?_
    rw [show -D' - -D0 = -(D' - D0) by ring, abs_neg]
    exact mul_le_mul hexpE hdist (abs_nonneg _) (by norm_num)
  have h2 : |e' - Real.exp (-D')| ≤ 1.06 * δ := hx1.trans (by rw [mul_comm]; exact mul_le_mul_of_nonneg_right (max_le (by norm_num) hexpD) hδ0)
  have h3 := Real.exp_pos (-D')
  have h4 := abs_le.mp h1
  have h5 := abs_le.mp h2
  have h6 := abs_le.mp hN
  have h7 := abs_le.mp hN1
  have h8 : |e' + N'| ≤ 1.5 := by rw [abs_le]; constructor <;> linarith
  have h9 : (2 : ℝ) ^ (-(p : ℤ)) * (|e' + N'| + 2 ^ (emin + (p : ℤ) - 1)) ≤ 2 * 2 ^ (-(p : ℤ)) := by
    rw [mul_comm]
    exact mul_le_mul_of_nonneg_right (by linarith) hu.le
  have h10 := abs_le.mp (hr.trans h9)
  have hfin : 1.06 * E + 2.1 * 2 ^ (-(p : ℤ)) ≤ 6 * (d + 6) * (1 + ∑ k, (param k).val) * 2 ^ (-(p : ℤ)) := by
    rw [hE]
    have : 6 * (2 : ℝ) ^ (-(p : ℤ)) ≤ (d + 6) * (1 + ∑ k, (param k).val) * 2 ^ (-(p : ℤ)) := by
      nlinarith [mul_nonneg hdu hS, mul_nonneg (Nat.cast_nonneg (α := ℝ) d) hu.le]
    linarith
  rw [abs_le]
  constructor <;> linarith

/-- The square root of ten in double precision, squared, is one unit in the last place above ten. -/
theorem one_bit_too_much (R : Rounding 53 (-1074)) :
    R.fl (Real.sqrt 10) = (7120816245988179 : ℤ) * 2 ^ (-51 : ℤ) ∧ R.fl (((7120816245988179 : ℤ) * 2 ^ (-51 : ℤ)) * ((7120816245988179 : ℤ) * 2 ^ (-51 : ℤ))) = (5629499534213121 : ℤ) * 2 ^ (-49 : ℤ) := by
  constructor
  · refine fl_eq (by norm_num) R (by norm_num) (by norm_num) (by norm_num) ?_
    have h1 : (14241632491976357 / 2 : ℝ) * 2 ^ (-51 : ℤ) < Real.sqrt 10 := by
      apply Real.lt_sqrt_of_sq_lt
      norm_num
    have h2 : Real.sqrt 10 < (14241632491976359 / 2 : ℝ) * 2 ^ (-51 : ℤ) := by
      rw [Real.sqrt_lt' (by norm_num)]
      norm_num
    have : |Real.sqrt 10 - (7120816245988179 : ℤ) * 2 ^ (-51 : ℤ)| < 2 ^ (-51 : ℤ) / 2 := by
      rw [abs_lt]
      push_cast
      constructor <;> linarith
    rw [lt_div_iff₀ two_pos, mul_comm] at this
    exact this
  · refine fl_eq (by norm_num) R (by norm_num) (by norm_num) (by norm_num) ?_
    push_cast
    norm_num [abs_of_pos, abs_of_neg]

theorem SumOf.single_eq {l : List (Fl R)} {s a : Fl R} (h : SumOf R l s) : (l = [] → s = 0) ∧ (l = [a] → s = a) := by
  induction h with
  | nil => exact ⟨fun _ => rfl, fun h => by cases h⟩
  | single b => exact ⟨(fun h => by cases h), fun h => by cases h; rfl⟩
  | add _ _ h1 h2 =>
    constructor
    · intro h
      rw [List.append_eq_nil_iff] at h
      rw [h1.1 h.1, h2.1 h.2, Fl.add_zero]
    · intro h
      rcases List.append_eq_singleton_iff.mp h with ⟨e1, e2⟩ | ⟨e1, e2⟩
      · rw [h1.1 e1, h2.2 e2, Fl.zero_add]
      · rw [h1.2 e1, h2.1 e2, Fl.add_zero]
  | perm hp _ ih =>
    exact ⟨fun h => ih.1 (by rw [h] at hp; exact hp.eq_nil), fun h => ih.2 (by rw [h] at hp; exact List.perm_singleton.mp hp)⟩

theorem DotOf.single_eq {l : List (Fl R × Fl R)} {s : Fl R} {ab : Fl R × Fl R} (h : DotOf R l s) : (l = [] → s = 0) ∧ (l = [ab] → s = ab.1 * ab.2) := by
  induction h with
  | nil => exact ⟨fun _ => rfl, fun h => by cases h⟩
  | mul a b => exact ⟨(fun h => by cases h), fun h => by cases h; rfl⟩
  | add _ _ h1 h2 =>
    constructor
    · intro h
      rw [List.append_eq_nil_iff] at h
      rw [h1.1 h.1, h2.1 h.2, Fl.add_zero]
    · intro h
      rcases List.append_eq_singleton_iff.mp h with ⟨e1, e2⟩ | ⟨e1, e2⟩
      · rw [h1.1 e1, h2.2 e2, Fl.zero_add]
      · rw [h1.2 e1, h2.1 e2, Fl.add_zero]
  | fma a b _ ih =>
    refine ⟨(fun h => by cases h), fun h => ?_⟩
    cases h
    rw [ih.1 rfl]
    apply Fl.val_injective
    change R.fl (a.val * b.val + 0) = R.fl (a.val * b.val)
    rw [add_zero]
  | perm hp _ ih =>
    exact ⟨fun h => ih.1 (by rw [h] at hp; exact hp.eq_nil), fun h => ih.2 (by rw [h] at hp; exact List.perm_singleton.mp hp)⟩

/-- C176 is false in double precision: with kernel parameter `10` (`theta = 1`) the computed correlation of the point `1.0` with itself is larger than one, for every tie rule and every `exp` that is
accurate to a few units in the last place. -/
theorem C176_counterexample (R : Rounding 53 (-1074)) (ex : ExpFn R) (hex : ExpAccurate ex (2 ^ (-50 : ℤ))) (ten one : Fl R) (hten : ten.val = 10) (hone : one.val = 1)
    (K : Fin 2 → Fin 2 → Fl R) (hK : IsKernelMatrix ex (fun _ : Fin 1 => ten) (fun _ _ => one) (fun _ _ => one) K) :
    rbfMatrix (fun _ : Fin 1 => ten.val) (vals fun _ _ => one) (vals fun _ _ => one) (0 : Fin 2) (1 : Fin 2) = 1 ∧ 1 < (K 0 1).val := by
  refine ⟨by simp [rbfMatrix, rbfDist, vals, hten, hone]; norm_num, ?_⟩
  obtain ⟨D, ⟨xsq, ysq, xy, h1, h2, h3, h4⟩, h5⟩ := hK
  obtain ⟨q1, q2⟩ := one_bit_too_much R
  have f10 : IsFloat 53 (-1074) (10 : ℝ) := ⟨10, 0, by norm_num, by norm_num, by norm_num⟩
  have f1 : IsFloat 53 (-1074) (1 : ℝ) := ⟨1, 0, by norm_num, by norm_num, by norm_num⟩
  have f2 : IsFloat 53 (-1074) (2 : ℝ) := ⟨2, 0, by norm_num, by norm_num, by norm_num⟩
  have f20 : IsFloat 53 (-1074) (20 : ℝ) := ⟨20, 0, by norm_num, by norm_num, by norm_num⟩
  have hs : (one * one * ten).val = 10 := by
    change R.fl (R.fl (one.val * one.val) * ten.val) = 10
    rw [hone, hten, one_mul, R.fl_of_isFloat f1, one_mul, R.fl_of_isFloat f10]
  have e1 : (xsq 0).val = 10 := by rw [(SumOf.single_eq (a := one * one * ten) (h1 0)).2 (by simp), hs]
  have e2 : (ysq 1).val = 10 := by rw [(SumOf.single_eq (a := one * one * ten) (h2 1)).2 (by simp), hs]
  have hr : (ten.sqrt * one).val = (7120816245988179 : ℤ) * 2 ^ (-51 : ℤ) := by
    change R.fl (R.fl (Real.sqrt ten.val) * one.val) = _
    rw [hten, hone, mul_one, R.fl_of_isFloat (R.isFloat _), q1]
  have e3 : (xy 0 1).val = (5629499534213121 : ℤ) * 2 ^ (-49 : ℤ) := by
    rw [(DotOf.single_eq (ab := (ten.sqrt * one, ten.sqrt * one)) (h3 0 1)).2 (by simp)]
    change R.fl ((ten.sqrt * one).val * (ten.sqrt * one).val) = _
    rw [hr, q2]
  have eD : (D 0 1).val = -2 ^ (-48 : ℤ) := by
    rw [h4]
    change R.fl (R.fl ((xsq 0).val + (ysq 1).val) - R.fl (R.fl 2 * (xy 0 1).val)) = _
    rw [e1, e2, e3, R.fl_of_isFloat f2, show (10 : ℝ) + 10 = 20 by norm_num, R.fl_of_isFloat f20,
      show (2 : ℝ) * ((5629499534213121 : ℤ) * 2 ^ (-49 : ℤ)) = (5629499534213121 : ℤ) * 2 ^ (-48 : ℤ) by norm_num,
      R.fl_of_isFloat ⟨5629499534213121, -48, by norm_num, by norm_num, rfl⟩,
      show (20 : ℝ) - (5629499534213121 : ℤ) * 2 ^ (-48 : ℤ) = -2 ^ (-48 : ℤ) by norm_num]
    exact R.fl_of_isFloat ⟨-1, -48, by norm_num, by norm_num, by norm_num⟩
  have en : (-(D 0 1)).val = 2 ^ (-48 : ℤ) := by
    change R.fl (-(D 0 1).val) = _
    rw [eD, neg_neg]
    exact R.fl_of_isFloat ⟨1, -48, by norm_num, by norm_num, by norm_num⟩
  have hx := hex (-(D 0 1))
  rw [en] at hx
  have hE := Real.add_one_le_exp ((2 : ℝ) ^ (-48 : ℤ))
  have hp48 : (0 : ℝ) < 2 ^ (-48 : ℤ) := by positivity
  rw [max_eq_right (by linarith)] at hx
  have hgt : 1 < (ex (-(D 0 1))).val := by
    have := (abs_le.mp hx).1
    have h0 : ((1 : ℝ) + 2 ^ (-48 : ℤ)) * (1 - 2 ^ (-50 : ℤ)) ≤ Real.exp (2 ^ (-48 : ℤ)) * (1 - 2 ^ (-50 : ℤ)) := mul_le_mul_of_nonneg_right (by linarith) (by norm_num)
    have h00 : (1 : ℝ) < (1 + 2 ^ (-48 : ℤ)) * (1 - 2 ^ (-50 : ℤ)) := by norm_num
    linarith
  have hz : (ex (-(D 0 1)) + (if (0 : Fin 2).val = (1 : Fin 2).val then 1 else 0) * Fl.ofReal R (10 ^ (-10 : ℤ))) = ex (-(D 0 1)) := by
    apply Fl.val_injective
    change R.fl ((ex (-(D 0 1))).val + R.fl (0 * R.fl (10 ^ (-10 : ℤ)))) = _
    rw [zero_mul, R.fl_of_isFloat isFloat_zero, add_zero, R.fl_of_isFloat (Fl.isFloat _)]
  rw [h5, hz]
  exact hgt

/-! ### C177 -/

/-- Points of the design space are scaled into the unit interval, also in floating-point arithmetic. -/
theorem normalizeFl_unit (hp : 1 ≤ p) (he : emin ≤ 0) {low high : Fin d → Fl R} {X : Fin n → Fin d → Fl R} (hX : ∀ i k, low k ≤ X i k ∧ X i k ≤ high k) (i : Fin n) (k : Fin d) :
    0 ≤ (normalizeFl low high X i k).val ∧ (normalizeFl low high X i k).val ≤ 1 := by
  have h1 : (low k).val ≤ (X i k).val := (hX i k).1
  have h2 : (X i k).val ≤ (high k).val := (hX i k).2
  change 0 ≤ R.fl (R.fl ((X i k).val - (low k).val) / R.fl ((high k).val - (low k).val)) ∧ R.fl (R.fl ((X i k).val - (low k).val) / R.fl ((high k).val - (low k).val)) ≤ 1
  have n1 : 0 ≤ R.fl ((X i k).val - (low k).val) := R.le_fl isFloat_zero (by linarith)
  have n2 : R.fl ((X i k).val - (low k).val) ≤ R.fl ((high k).val - (low k).val) := R.fl_mono (by linarith)
  exact ⟨R.le_fl isFloat_zero (div_nonneg n1 (n1.trans n2)), R.fl_le (isFloat_one hp he) (div_le_one_of_le₀ n2 (n1.trans n2))⟩

theorem abs_quad_le {E : Fin n → Fin n → ℝ} {ε : ℝ} (hE : ∀ i j, |E i j| ≤ ε) (v : Fin n → ℝ) : |∑ i, ∑ j, v i * E i j * v j| ≤ n * ε * ∑ i, v i ^ 2 := by
  have h1 : |∑ i, ∑ j, v i * E i j * v j| ≤ ∑ i, ∑ j, ε * ((v i ^ 2 + v j ^ 2) / 2) := by
    refine (Finset.abs_sum_le_sum_abs _ _).trans (Finset.sum_le_sum fun i _ => (Finset.abs_sum_le_sum_abs _ _).trans (Finset.sum_le_sum fun j _ => ?_))
    rw [abs_mul, abs_mul]
    have h := hE i j
    have h2 : |v i| * |v j| ≤ (v i ^ 2 + v j ^ 2) / 2 := by
      have := two_mul_le_add_sq |v i| |v j|
      rw [sq_abs, sq_abs] at this
      linarith
    have h3 : 0 ≤ |v i| * |v j| := by positivity
    have h4 := (abs_nonneg _).trans h
    nlinarith
  refine h1.trans (le_of_eq ?_)
  simp only [← Finset.mul_sum, ← Finset.sum_div, Finset.sum_add_distrib, Finset.sum_const, Finset.card_univ, Fintype.card_fin, nsmul_eq_mul]
  ring

theorem pow_pos_of_ne {x : ℝ} (h : x ≠ 0) : 0 < x ^ 2 := by positivity

/-- **C177.** For samples in the design space, the covariance matrix computed in floating-point arithmetic, in whatever order its sums are added and for every noise, is bounded below by
`1e-10 - n * kernelAccuracy`.  So it is positive definite, as the Cholesky factorisation needs, as long as there are fewer than `1e-10 / kernelAccuracy` samples. -/
theorem C177_positive_definite (hp : 1 ≤ p) (he : emin + 2 * p ≤ 1) {ex : ExpFn R} {δ : ℝ} (hex : ExpAccurate ex δ) (hδ : δ ≤ 1 / 20) {param : Fin d → Fl R} (hparam : ∀ k, 0 ≤ (param k).val)
    {low high : Fin d → Fl R} (_hb : ∀ k, low k < high k) {X : Fin n → Fin d → Fl R} (hX : ∀ i k, low k ≤ X i k ∧ X i k ≤ high k)
    (hsize : 5 * (d + 6) * (1 + ∑ k, (param k).val) * (2 : ℝ) ^ (-(p : ℤ)) ≤ 1 / 20) {sigma : Fl R} {C : Fin n → Fin n → Fl R} (hC : IsCovTrain ex param (normalizeFl low high X) sigma C) :
    (∀ v : Fin n → ℝ, (1e-10 - n * kernelAccuracy param δ) * ∑ i, v i ^ 2 ≤ v ⬝ᵥ (lowerOf C *ᵥ v)) ∧ (n * kernelAccuracy param δ < 1e-10 → (lowerOf C).PosDef) := by
  obtain ⟨K, hK, hCe⟩ := hC
  have he0 : emin ≤ 0 := by omega
  have hunit : ∀ i k, |(normalizeFl low high X i k).val| ≤ 1 := fun i k => by
    have := normalizeFl_unit hp he0 hX i k
    rw [abs_of_nonneg this.1]; exact this.2
  have hacc := C176_accuracy_partial hp he hex hδ hparam hunit hunit hsize hK
  set ε := kernelAccuracy param δ with hε
  set Z := vals (normalizeFl low high X) with hZ
  set par : Fin d → ℝ := fun k => (param k).val with hpar
  have hone : (1 : Fl R).val = 1 := R.fl_of_isFloat (isFloat_one hp he0)
  have hoff : ∀ i j, i ≠ j → (C i j).val = (K i j).val := fun i j hij => by
    rw [hCe, if_neg hij]
    change R.fl ((K i j).val + R.fl (0 * R.fl (sigma.val * sigma.val))) = _
    rw [zero_mul, R.fl_of_isFloat isFloat_zero, add_zero, R.fl_of_isFloat (Fl.isFloat _)]
  have hdiag : ∀ i, (K i i).val ≤ (C i i).val := fun i => by
    rw [hCe, if_pos rfl]
    change (K i i).val ≤ R.fl ((K i i).val + R.fl ((1 : Fl R).val * R.fl (sigma.val * sigma.val)))
    refine R.le_fl (Fl.isFloat _) ?_
    have : 0 ≤ R.fl ((1 : Fl R).val * R.fl (sigma.val * sigma.val)) := R.le_fl isFloat_zero (mul_nonneg (by rw [hone]; norm_num) (R.le_fl isFloat_zero (mul_self_nonneg _)))
    linarith
  have hsymm : ∀ i j, rbfMatrix par Z Z i j = rbfMatrix par Z Z j i := fun i j => by
    have := congrFun (congrFun (posDef_rbfMatrix par Z).isHermitian.eq j) i
    simpa [Matrix.conjTranspose_apply] using this
  -- the difference from the exact matrix
  have hlow : ∀ v : Fin n → ℝ, (1e-10 - n * ε) * ∑ i, v i ^ 2 ≤ v ⬝ᵥ (lowerOf C *ᵥ v) := fun v => by
    set E : Fin n → Fin n → ℝ := fun i j => (if j ≤ i then (K i j).val else (K j i).val) - rbfMatrix par Z Z i j with hEd
    have hE : ∀ i j, |E i j| ≤ ε := fun i j => by
      rw [hEd]
      dsimp only
      split
      · exact hacc i j
      · rw [hsymm]; exact hacc j i
    have h1 := (abs_le.mp (abs_quad_le hE v)).1
    have h2 : (0 : ℝ) ≤ ∑ i, ∑ j, v i * Real.exp (-(rbfDist par (Z i) (Z j))) * v j := by
      have := (posSemidef_gauss par Z).dotProduct_mulVec_nonneg v
      simp only [dotProduct, Matrix.mulVec, Matrix.of_apply, Pi.star_apply, star_trivial, Finset.mul_sum, mul_assoc] at this
      simpa only [mul_assoc] using this
    have h3 : v ⬝ᵥ (lowerOf C *ᵥ v) = ∑ i, ∑ j, v i * lowerOf C i j * v j := by
      simp only [dotProduct, Matrix.mulVec, Finset.mul_sum, mul_assoc]
    have h4 : ∑ i, ∑ j, v i * (E i j + rbfMatrix par Z Z i j) * v j ≤ ∑ i, ∑ j, v i * lowerOf C i j * v j := Finset.sum_le_sum fun i _ => Finset.sum_le_sum fun j _ => by
      by_cases hij : i = j
      · subst hij
        have : E i i + rbfMatrix par Z Z i i = (K i i).val := by rw [hEd]; dsimp only; rw [if_pos le_rfl]; ring
        rw [this]
        have h5 : lowerOf C i i = (C i i).val := by unfold lowerOf; rw [if_pos le_rfl]
        rw [h5]
        have := mul_le_mul_of_nonneg_left (hdiag i) (mul_self_nonneg (v i))
        linarith
      · have : E i j + rbfMatrix par Z Z i j = lowerOf C i j := by
          rw [hEd]; dsimp only
          unfold lowerOf
          rw [hoff i j hij, hoff j i (Ne.symm hij)]
          ring
        rw [this]
    have h5 : ∑ i, ∑ j, v i * (E i j + rbfMatrix par Z Z i j) * v j = ∑ i, ∑ j, v i * E i j * v j + (∑ i, ∑ j, v i * Real.exp (-(rbfDist par (Z i) (Z j))) * v j + 1e-10 * ∑ i, v i ^ 2) := by
      have h6 : ∑ i, ∑ j, v i * ((if i.val = j.val then 1 else 0) * nugget) * v j = 1e-10 * ∑ i, v i ^ 2 := by
        rw [Finset.mul_sum]
        refine Finset.sum_congr rfl fun i _ => ?_
        rw [Finset.sum_eq_single i]
        · rw [if_pos rfl, show nugget = 1e-10 by unfold nugget; norm_num]; ring
        · intro j _ hji
          rw [if_neg (fun h => hji (Fin.ext h.symm))]
          ring
        · intro h; exact absurd (Finset.mem_univ i) h
      rw [← h6, ← Finset.sum_add_distrib, ← Finset.sum_add_distrib]
      refine Finset.sum_congr rfl fun i _ => ?_
      rw [← Finset.sum_add_distrib, ← Finset.sum_add_distrib]
      refine Finset.sum_congr rfl fun j _ => ?_
      unfold rbfMatrix
      ring
    rw [h3]
    linarith
  refine ⟨hlow, fun hn => ?_⟩
  refine Matrix.PosDef.of_dotProduct_mulVec_pos ?_ fun v hv => ?_
  · ext i j
    rw [Matrix.conjTranspose_apply, star_trivial]
    unfold lowerOf
    rcases lt_trichotomy i j with h | h | h
    · rw [if_pos h.le, if_neg (not_le.mpr h)]
    · rw [h]
    · rw [if_pos h.le, if_neg (not_le.mpr h)]
  · have h1 := hlow v
    have h2 : 0 < ∑ i, v i ^ 2 := by
      obtain ⟨i, hi⟩ := Function.ne_iff.mp hv
      exact Finset.sum_pos' (fun i _ => sq_nonneg _) ⟨i, Finset.mem_univ i, pow_pos_of_ne hi⟩
    have h3 : 0 < (1e-10 - n * ε) * ∑ i, v i ^ 2 := mul_pos (by linarith) h2
    rw [star_trivial]
    linarith

/-! ### The hypotheses can be met -/

theorem sumOf_exists : ∀ l : List (Fl R), ∃ s, SumOf R l s
  | [] => ⟨_, .nil⟩
  | a :: l => by
    obtain ⟨s, hs⟩ := sumOf_exists l
    exact ⟨_, .add (.single a) hs⟩

theorem dotOf_exists : ∀ l : List (Fl R × Fl R), ∃ s, DotOf R l s
  | [] => ⟨_, .nil⟩
  | (a, b) :: l => by
    obtain ⟨s, hs⟩ := dotOf_exists l
    exact ⟨_, .fma a b hs⟩

/-- Kernel matrices can be computed for all arrays. -/
theorem kernelMatrix_exists (ex : ExpFn R) (param : Fin d → Fl R) (X : Fin n → Fin d → Fl R) (Y : Fin m → Fin d → Fl R) : ∃ K, IsKernelMatrix ex param X Y K := by
  choose xsq h1 using fun i => sumOf_exists (R := R) (List.ofFn fun k => X i k * X i k * param k)
  choose ysq h2 using fun j => sumOf_exists (R := R) (List.ofFn fun k => Y j k * Y j k * param k)
  choose xy h3 using fun (i : Fin n) (j : Fin m) => dotOf_exists (R := R) (List.ofFn fun k => ((param k).sqrt * X i k, (param k).sqrt * Y j k))
  exact ⟨_, _, ⟨xsq, ysq, xy, h1, h2, h3, fun _ _ => rfl⟩, fun _ _ => rfl⟩

/-- The exponential, correctly rounded, is accurate to `2^(-p+1)`. -/
theorem expAccurate_rounded (hp : 1 ≤ p) (he : emin + p ≤ 1) : ExpAccurate (R := R) (fun a => Fl.ofReal R (Real.exp a.val)) (2 ^ (1 - (p : ℤ))) := fun a => by
  have h1 := fl_error hp R (Real.exp a.val)
  have ht : (2 : ℝ) ^ (emin + p - 1) ≤ 1 := zpow_le_one_of_nonpos₀ (by norm_num) (by omega)
  have hu : (0 : ℝ) < 2 ^ (-(p : ℤ)) := two_zpow_pos _
  rw [abs_of_pos (Real.exp_pos _)] at h1
  have e1 : (2 : ℝ) ^ (1 - (p : ℤ)) = 2 ^ (-(p : ℤ)) * 2 := by rw [show 1 - (p : ℤ) = -(p : ℤ) + 1 by ring, zpow_add_one₀ two_ne_zero]
  rw [e1, mul_assoc]
  refine h1.trans (mul_le_mul_of_nonneg_left ?_ hu.le)
  have := le_max_left 1 (Real.exp a.val)
  have := le_max_right 1 (Real.exp a.val)
  linarith

/-- A hundred samples of two variables in double precision, wherever they lie in the unit square, with both kernel parameters `10`: whatever is computed is positive definite. -/
example (X : Fin 100 → Fin 2 → Double) (hX : ∀ i k, 0 ≤ X i k ∧ X i k ≤ oneD) (ten sigma : Double) (hten : ten.val = 10) :
    let ex : ExpFn (nearestRounding 53 (-1074) (by norm_num)) := fun a => Fl.ofReal _ (Real.exp a.val)
    (∃ C, IsCovTrain ex (fun _ => ten) (normalizeFl (fun _ => 0) (fun _ => oneD) X) sigma C) ∧
      ∀ C, IsCovTrain ex (fun _ => ten) (normalizeFl (fun _ => 0) (fun _ => oneD) X) sigma C → (lowerOf C).PosDef := by
  intro ex
  constructor
  · obtain ⟨K, hK⟩ := kernelMatrix_exists ex (fun _ : Fin 2 => ten) (normalizeFl (fun _ => 0) (fun _ => oneD) X) (normalizeFl (fun _ => 0) (fun _ => oneD) X)
    exact ⟨_, K, hK, fun _ _ => rfl⟩
  · intro C hC
    refine (C177_positive_definite (by norm_num) (by norm_num) (expAccurate_rounded (by norm_num) (by norm_num)) (by norm_num) (fun _ => by rw [hten]; norm_num) (fun _ => ?_) hX ?_ hC).2 ?_
    · change (0 : ℝ) < 1
      norm_num
    · simp only [hten, Finset.sum_const, Finset.card_univ, Fintype.card_fin]
      norm_num
    · simp only [kernelAccuracy, hten, Finset.sum_const, Finset.card_univ, Fintype.card_fin]
      norm_num

/-- The computation of `C176_counterexample` can be made. -/
example : ∃ (ex : ExpFn (nearestRounding 53 (-1074) (by norm_num))) (ten one : Double) (K : Fin 2 → Fin 2 → Double), ExpAccurate ex (2 ^ (-50 : ℤ)) ∧ ten.val = 10 ∧ one.val = 1 ∧
    IsKernelMatrix ex (fun _ : Fin 1 => ten) (fun _ _ => one) (fun _ _ => one) K := by
  obtain ⟨K, hK⟩ := kernelMatrix_exists (R := nearestRounding 53 (-1074) (by norm_num)) (fun a => Fl.ofReal _ (Real.exp a.val)) (fun _ : Fin 1 => ⟨10, 10, 0, by norm_num, by norm_num, by norm_num⟩)
    (fun (_ : Fin 2) _ => oneD) (fun (_ : Fin 2) _ => oneD)
  refine ⟨_, _, oneD, K, fun a => ?_, rfl, rfl, hK⟩
  refine (expAccurate_rounded (by norm_num) (by norm_num) a).trans (mul_le_mul_of_nonneg_right (by norm_num) (le_max_of_le_left zero_le_one))

end Mfpml.Props
