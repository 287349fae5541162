import Mathlib.Tactic.FinCases
import Mathlib.Algebra.BigOperators.Field
import Mathlib.Analysis.SpecialFunctions.Log.Deriv
import Verif.Lemmas.Optima

/-!
# An upper bound for the sum inside `Hartman6`

Replacing `x` by the means of the centres, weighted with the terms of the sum, does not decrease the sum (as in expectation maximisation).  So the sum of the first three terms is bounded
by its values at weighted means, a function of two ratios of weights, which the interval check bounds.  The fourth term is small where the others are large.
-/

set_option linter.unusedSectionVars false

namespace Mfpml.Problems

open Mfpml.IA

/-! ## Weighted means -/

section

variable {n k : ℕ}

/-- `∑ c i * exp (-∑ a i j (x j - p i j)²)` -/
noncomputable def bumps (a p : Fin n → Fin k → ℝ) (c : Fin n → ℝ) (x : Fin k → ℝ) : ℝ := ∑ i, c i * Real.exp (-∑ j, a i j * (x j - p i j) ^ 2)

/-- The means of the centres. -/
noncomputable def means (a p : Fin n → Fin k → ℝ) (w : Fin n → ℝ) : Fin k → ℝ := fun j => (∑ i, w i * (a i j * p i j)) / ∑ i, w i * a i j

theorem means_smul (a p : Fin n → Fin k → ℝ) (w : Fin n → ℝ) {s : ℝ} (hs : s ≠ 0) : means a p (fun i => w i / s) = means a p w := by
  funext j
  simp only [means, div_mul_eq_mul_div, ← Finset.sum_div]
  rw [div_div_div_cancel_right₀ hs]

theorem bumps_le_means [NeZero n] (a p : Fin n → Fin k → ℝ) (c : Fin n → ℝ) (ha : ∀ i j, 0 < a i j) (hc : ∀ i, 0 < c i) (x : Fin k → ℝ) :
    bumps a p c x ≤ bumps a p c (means a p fun i => c i * Real.exp (-∑ j, a i j * (x j - p i j) ^ 2)) := by
  set t : Fin n → ℝ := fun i => c i * Real.exp (-∑ j, a i j * (x j - p i j) ^ 2) with ht
  set y := means a p t with hy
  have htpos : ∀ i, 0 < t i := fun i => mul_pos (hc i) (Real.exp_pos _)
  have hden : ∀ j, 0 < ∑ i, t i * a i j := fun j => Finset.sum_pos (fun i _ => mul_pos (htpos i) (ha i j)) ⟨0, Finset.mem_univ _⟩
  have hzero : ∀ j, ∑ i, t i * (a i j * (y j - p i j)) = 0 := by
    intro j
    have e : ∑ i, t i * (a i j * (y j - p i j)) = (∑ i, t i * a i j) * y j - ∑ i, t i * (a i j * p i j) := by
      rw [Finset.sum_mul, ← Finset.sum_sub_distrib]
      exact Finset.sum_congr rfl fun i _ => by ring
    rw [e, hy, means, mul_div_cancel₀ _ (hden j).ne', sub_self]
  have hstep : ∀ i, t i + t i * (∑ j, a i j * (x j - p i j) ^ 2 - ∑ j, a i j * (y j - p i j) ^ 2) ≤ c i * Real.exp (-∑ j, a i j * (y j - p i j) ^ 2) := by
    intro i
    have e : c i * Real.exp (-∑ j, a i j * (y j - p i j) ^ 2) = t i * Real.exp (∑ j, a i j * (x j - p i j) ^ 2 - ∑ j, a i j * (y j - p i j) ^ 2) := by
      simp only [ht]
      rw [mul_assoc, ← Real.exp_add]
      congr 2
      ring
    rw [e]
    have := Real.add_one_le_exp (∑ j, a i j * (x j - p i j) ^ 2 - ∑ j, a i j * (y j - p i j) ^ 2)
    nlinarith [htpos i]
  have hsum : 0 ≤ ∑ i, t i * (∑ j, a i j * (x j - p i j) ^ 2 - ∑ j, a i j * (y j - p i j) ^ 2) := by
    have e : ∑ i, t i * (∑ j, a i j * (x j - p i j) ^ 2 - ∑ j, a i j * (y j - p i j) ^ 2)
        = ∑ j, ((∑ i, t i * a i j) * (x j - y j) ^ 2 + 2 * (x j - y j) * ∑ i, t i * (a i j * (y j - p i j))) := by
      simp only [← Finset.sum_sub_distrib, Finset.mul_sum, Finset.sum_mul, ← Finset.sum_add_distrib]
      rw [Finset.sum_comm]
      exact Finset.sum_congr rfl fun j _ => Finset.sum_congr rfl fun i _ => by ring
    rw [e]
    refine Finset.sum_nonneg fun j _ => ?_
    rw [hzero j, mul_zero, add_zero]
    exact mul_nonneg (hden j).le (sq_nonneg _)
  calc bumps a p c x = ∑ i, t i := rfl
    _ ≤ ∑ i, (t i + t i * (∑ j, a i j * (x j - p i j) ^ 2 - ∑ j, a i j * (y j - p i j) ^ 2)) := by rw [Finset.sum_add_distrib]; linarith
    _ ≤ _ := Finset.sum_le_sum fun i _ => hstep i

end

/-! ## The first three terms -/

/-- The coefficients of the first three terms. -/
noncomputable def h6A : Fin 3 → Fin 6 → ℝ := fun i => hartman6A i.castSucc

noncomputable def h6P : Fin 3 → Fin 6 → ℝ := fun i => hartman6P i.castSucc

noncomputable def h6C : Fin 3 → ℝ := fun i => hartman6C i.castSucc

theorem h6A_pos (i : Fin 3) (j : Fin 6) : 0 < h6A i j := by
  fin_cases i <;> fin_cases j <;> norm_num [h6A, hartman6A]

theorem h6C_pos (i : Fin 3) : 0 < h6C i := by
  fin_cases i <;> norm_num [h6C, hartman6C]

theorem hartman6E_eval (z : ℕ → ℝ) : hartman6E.eval z 0 = -bumps h6A h6P h6C fun j => z j := by
  simp only [hartman6E, E.eval, ofNat_cast, negSucc_cast, N_eq, bumps, Fin.sum_univ_three, Fin.sum_univ_six, h6A, h6P, h6C, hartman6A, hartman6P, hartman6C]
  simp
  norm_num
  ring_nf

theorem centroid0_eval (u v : ℝ) (j : Fin 6) : quotAt (pt [u, v]) centroid0 j = means h6A h6P ![1, u, v] j := by
  fin_cases j <;>
    (simp only [centroid0, quotAt, E.eval, pt_zero, pt_one, ofNat_cast, N_eq, means, Fin.sum_univ_three, h6A, h6P, hartman6A, hartman6P]
     simp
     norm_num
     try ring_nf)

theorem centroid1_eval (u v : ℝ) (j : Fin 6) : quotAt (pt [u, v]) centroid1 j = means h6A h6P ![u, 1, v] j := by
  fin_cases j <;>
    (simp only [centroid1, quotAt, E.eval, pt_zero, pt_one, ofNat_cast, N_eq, means, Fin.sum_univ_three, h6A, h6P, hartman6A, hartman6P]
     simp
     norm_num
     try ring_nf)

theorem centroid2_eval (u v : ℝ) (j : Fin 6) : quotAt (pt [u, v]) centroid2 j = means h6A h6P ![u, v, 1] j := by
  fin_cases j <;>
    (simp only [centroid2, quotAt, E.eval, pt_zero, pt_one, ofNat_cast, N_eq, means, Fin.sum_univ_three, h6A, h6P, hartman6A, hartman6P]
     simp
     norm_num
     try ring_nf)

theorem in_unit_box {u v : ℝ} (h0 : 0 ≤ u) (h1 : u ≤ 1) (h2 : 0 ≤ v) (h3 : v ≤ 1) :
    Mem [⟨.ofNat (nat_lit 0), .ofNat (nat_lit 1000000000000000)⟩, ⟨.ofNat (nat_lit 0), .ofNat (nat_lit 1000000000000000)⟩] (pt [u, v]) :=
  mem_pt (.cons (in_unit_interval h0 h1) (.cons (in_unit_interval h2 h3) .nil))

theorem three_terms_le (x : Fin 6 → ℝ) : bumps h6A h6P h6C x ≤ 3.3232 := by
  refine (bumps_le_means h6A h6P h6C h6A_pos h6C_pos x).trans ?_
  set t : Fin 3 → ℝ := fun i => h6C i * Real.exp (-∑ j, h6A i j * (x j - h6P i j) ^ 2)
  have ht : ∀ i, 0 < t i := fun i => mul_pos (h6C_pos i) (Real.exp_pos _)
  have key : ∀ (w : Fin 3 → ℝ) (qs : List (E × E)) (z : ℕ → ℝ), means h6A h6P w = means h6A h6P t → (∀ j : Fin 6, quotAt z qs j = means h6A h6P w j) →
      AboveQ qs hartman6E (.negSucc (nat_lit 3323199999999999)) z → bumps h6A h6P h6C (means h6A h6P t) ≤ 3.3232 := by
    intro w qs z hw hq h
    rw [AboveQ, hartman6E_eval, negSucc_cast, N_eq, funext hq, hw] at h
    norm_num at h ⊢
    linarith
  have hdiv : ∀ {a b : ℝ}, 0 < a → 0 < b → a ≤ b → 0 ≤ a / b ∧ a / b ≤ 1 := fun ha hb h => ⟨(div_pos ha hb).le, (div_le_one hb).mpr h⟩
  have hscale : ∀ m, means h6A h6P (fun i => t i / t m) = means h6A h6P t := fun m => means_smul _ _ _ (ht m).ne'
  have hmax : (t 1 ≤ t 0 ∧ t 2 ≤ t 0) ∨ (t 0 ≤ t 1 ∧ t 2 ≤ t 1) ∨ (t 0 ≤ t 2 ∧ t 1 ≤ t 2) := by
    rcases le_total (t 0) (t 1) with h1 | h1
    · rcases le_total (t 1) (t 2) with h2 | h2
      · exact Or.inr (Or.inr ⟨h1.trans h2, h2⟩)
      · exact Or.inr (Or.inl ⟨h1, h2⟩)
    · rcases le_total (t 0) (t 2) with h2 | h2
      · exact Or.inr (Or.inr ⟨h2, h1.trans h2⟩)
      · exact Or.inl ⟨h1, h2⟩
  rcases hmax with ⟨h1, h2⟩ | ⟨h1, h2⟩ | ⟨h1, h2⟩
  · have e : (fun i => t i / t 0) = ![1, t 1 / t 0, t 2 / t 0] := by
      funext i
      fin_cases i
      · exact div_self (ht 0).ne'
      · rfl
      · rfl
    refine key _ centroid0 (pt [t 1 / t 0, t 2 / t 0]) (e ▸ hscale 0) (centroid0_eval _ _) (hartman6_above0 _ ?_)
    exact in_unit_box (hdiv (ht 1) (ht 0) h1).1 (hdiv (ht 1) (ht 0) h1).2 (hdiv (ht 2) (ht 0) h2).1 (hdiv (ht 2) (ht 0) h2).2
  · have e : (fun i => t i / t 1) = ![t 0 / t 1, 1, t 2 / t 1] := by
      funext i
      fin_cases i
      · rfl
      · exact div_self (ht 1).ne'
      · rfl
    refine key _ centroid1 (pt [t 0 / t 1, t 2 / t 1]) (e ▸ hscale 1) (centroid1_eval _ _) (hartman6_above1 _ ?_)
    exact in_unit_box (hdiv (ht 0) (ht 1) h1).1 (hdiv (ht 0) (ht 1) h1).2 (hdiv (ht 2) (ht 1) h2).1 (hdiv (ht 2) (ht 1) h2).2
  · have e : (fun i => t i / t 2) = ![t 0 / t 2, t 1 / t 2, 1] := by
      funext i
      fin_cases i
      · rfl
      · rfl
      · exact div_self (ht 2).ne'
    refine key _ centroid2 (pt [t 0 / t 2, t 1 / t 2]) (e ▸ hscale 2) (centroid2_eval _ _) (hartman6_above2 _ ?_)
    exact in_unit_box (hdiv (ht 0) (ht 2) h1).1 (hdiv (ht 0) (ht 2) h1).2 (hdiv (ht 1) (ht 2) h2).1 (hdiv (ht 1) (ht 2) h2).2

/-! ## The fourth term -/

theorem exp_neg_le {a b : ℕ} (h : ble (expNeg ⟨.ofNat a, .ofNat a⟩).hi (.ofNat b) = true) : Real.exp (-((a : ℝ) / 10 ^ 15)) ≤ (b : ℝ) / 10 ^ 15 := by
  have h1 := (in_expNeg (in_const (.ofNat a))).2
  have h2 : ((expNeg ⟨.ofNat a, .ofNat a⟩).hi : ℝ) ≤ ((.ofNat b : Int) : ℝ) := by exact_mod_cast (ble_iff _ _).mp h
  rw [ofNat_cast, N_eq] at h1
  rw [ofNat_cast] at h2
  rw [le_div_iff₀ (by norm_num)]
  linarith

/-- Two squared distances from one point. -/
theorem two_squares {a b : ℝ} (ha : 0 < a) (hb : 0 < b) (x p r : ℝ) : a * b / (a + b) * (p - r) ^ 2 ≤ a * (x - p) ^ 2 + b * (x - r) ^ 2 := by
  have : a * (x - p) ^ 2 + b * (x - r) ^ 2 - a * b / (a + b) * (p - r) ^ 2 = (a * (x - p) + b * (x - r)) ^ 2 / (a + b) := by field_simp; ring
  have h2 : 0 ≤ (a * (x - p) + b * (x - r)) ^ 2 / (a + b) := by positivity
  linarith

/-- The exponent of the `i`-th term. -/
noncomputable def h6q (x : Fin 6 → ℝ) (i : Fin 4) : ℝ := ∑ j, hartman6A i j * (x j - hartman6P i j) ^ 2

theorem hartman6A_pos (i : Fin 4) (j : Fin 6) : 0 < hartman6A i j := by
  fin_cases i <;> fin_cases j <;> norm_num [hartman6A]

theorem h6q_pair (x : Fin 6 → ℝ) (i k : Fin 4) {m : ℝ} (hm : 0 < m) :
    ∑ j, m * hartman6A i j * hartman6A k j / (m * hartman6A i j + hartman6A k j) * (hartman6P i j - hartman6P k j) ^ 2 ≤ m * h6q x i + h6q x k := by
  rw [h6q, h6q, Finset.mul_sum, ← Finset.sum_add_distrib]
  refine Finset.sum_le_sum fun j _ => ?_
  have := two_squares (mul_pos hm (hartman6A_pos i j)) (hartman6A_pos k j) (x j) (hartman6P i j) (hartman6P k j)
  linarith

theorem h6q_bounds (x : Fin 6 → ℝ) : 3.9959 ≤ h6q x 0 + h6q x 3 ∧ 7.449 ≤ h6q x 1 + h6q x 3 ∧ 3.8253 ≤ h6q x 2 + h6q x 3 ∧ 0.7348 ≤ h6q x 0 + h6q x 2 ∧
    1.3366 ≤ h6q x 1 + h6q x 2 ∧ 2.3884 ≤ h6q x 0 + h6q x 1 ∧ 9.1328 ≤ 9 * h6q x 2 + h6q x 3 := by
  have e : ∀ i k, ∀ m : ℝ, 0 < m → _ := fun i k m hm => h6q_pair x i k hm
  have h03 := e 0 3 1 one_pos
  have h13 := e 1 3 1 one_pos
  have h23 := e 2 3 1 one_pos
  have h02 := e 0 2 1 one_pos
  have h12 := e 1 2 1 one_pos
  have h01 := e 0 1 1 one_pos
  have h923 := e 2 3 9 (by norm_num)
  simp only [Fin.sum_univ_six, hartman6A, hartman6P, one_mul] at h03 h13 h23 h02 h12 h01 h923
  simp at h03 h13 h23 h02 h12 h01 h923
  norm_num at h03 h13 h23 h02 h12 h01 h923
  refine ⟨?_, ?_, ?_, ?_, ?_, ?_, ?_⟩ <;> norm_num <;> linarith

theorem h6q_nonneg (x : Fin 6 → ℝ) (i : Fin 4) : 0 ≤ h6q x i := Finset.sum_nonneg fun j _ => mul_nonneg (hartman6A_pos i j).le (sq_nonneg _)

theorem h6_n14 : Real.exp (-3.9959) ≤ 0.018391 := by
  have := exp_neg_le (a := 3995900000000000) (b := 18391000000000) (by decide +kernel)
  norm_num at this ⊢; exact this

theorem h6_n24 : Real.exp (-7.449) ≤ 0.000583 := by
  have := exp_neg_le (a := 7449000000000000) (b := 583000000000) (by decide +kernel)
  norm_num at this ⊢; exact this

theorem h6_n34 : Real.exp (-3.8253) ≤ 0.021812 := by
  have := exp_neg_le (a := 3825300000000000) (b := 21812000000000) (by decide +kernel)
  norm_num at this ⊢; exact this

theorem h6_n13 : Real.exp (-0.7348) ≤ 0.479605 := by
  have := exp_neg_le (a := 734800000000000) (b := 479605000000000) (by decide +kernel)
  norm_num at this ⊢; exact this

theorem h6_n23 : Real.exp (-1.3366) ≤ 0.262738 := by
  have := exp_neg_le (a := 1336600000000000) (b := 262738000000000) (by decide +kernel)
  norm_num at this ⊢; exact this

theorem h6_n12 : Real.exp (-2.3884) ≤ 0.091777 := by
  have := exp_neg_le (a := 2388400000000000) (b := 91777000000000) (by decide +kernel)
  norm_num at this ⊢; exact this

theorem h6_n934 : Real.exp (-9.1328) ≤ 0.00010807 := by
  have := exp_neg_le (a := 9132800000000000) (b := 108070000000) (by decide +kernel)
  norm_num at this ⊢; exact this

theorem h6_arith {e0 e1 e2 e3 : ℝ} (g0 : 0 < e0) (g1 : 0 < e1) (g2 : 0 < e2) (g3 : 0 < e3) (l0 : e0 ≤ 1) (l1 : e1 ≤ 1) (_ : e2 ≤ 1) (l3 : e3 ≤ 1) (p14 : e0 * e3 ≤ 0.018391)
    (p24 : e1 * e3 ≤ 0.000583) (p34 : e2 * e3 ≤ 0.021812) (p13 : e0 * e2 ≤ 0.479605) (p23 : e1 * e2 ≤ 0.262738) (p12 : e0 * e1 ≤ 0.091777) (p934 : e2 ^ 9 * e3 ≤ 0.00010807)
    (h123 : 1 * e0 + 1.2 * e1 + 3 * e2 ≤ 3.3232) : 1 * e0 + 1.2 * e1 + 3 * e2 + 3.2 * e3 ≤ 3.3254 := by
  by_contra hcon
  push Not at hcon
  -- the fourth term is below 0.085
  have h4 : 3.2 * e3 < 0.085 := by
    by_contra h
    push Not at h
    have : (1 * e0 + 1.2 * e1 + 3 * e2) * e3 ≤ 0.084527 := by nlinarith
    have h5 : (3.3254 - 3.2 * e3) * e3 < 0.084527 := by nlinarith
    nlinarith
  have hs : 3.2404 < 1 * e0 + 1.2 * e1 + 3 * e2 := by linarith
  -- lower bounds for the third term
  have step : ∀ {L m1 m2 K : ℝ}, (1 * e0 ≤ m1) → (1.2 * e1 ≤ m2) → 0 < m1 → 0.1102 ≤ m1 * K → K + m2 ≤ m1 + K → m1 + K ≤ L → 0 < K → K ≤ m1 → 1 * e0 + 1.2 * e1 ≤ L := by
    intro L m1 m2 K h1 h2 hm hK hK2 hL hKp hKm
    rcases le_or_gt K (1 * e0) with h | h
    · have h6 : (m1 - 1 * e0) * (1 * e0 - K) ≥ 0 := mul_nonneg (by linarith) (by linarith)
      have h7 : (1 * e0 + 1.2 * e1) * (1 * e0) ≤ L * (1 * e0) := by nlinarith
      exact le_of_mul_le_mul_right h7 (by linarith)
    · linarith
  have A : 1 * e0 + 1.2 * e1 ≤ 1.2919 := by
    rcases le_or_gt 0.0919 (1.2 * e1) with h | h
    · have h6 : (1.2 - 1.2 * e1) * (1.2 * e1 - 0.0919) ≥ 0 := mul_nonneg (by linarith) (by linarith)
      have h7 : (1 * e0 + 1.2 * e1) * (1.2 * e1) ≤ 1.2919 * (1.2 * e1) := by nlinarith
      exact le_of_mul_le_mul_right h7 (by linarith)
    · linarith
  have A3 : 1.948 ≤ 3 * e2 := by linarith
  have B : 1 * e0 + 1.2 * e1 ≤ 0.8885 := step (m1 := 0.739) (m2 := 0.486) (K := 0.1492) (by nlinarith) (by nlinarith) (by norm_num) (by norm_num) (by norm_num) (by norm_num)
    (by norm_num) (by norm_num)
  have B3 : 2.3518 ≤ 3 * e2 := by linarith
  have C : 1 * e0 + 1.2 * e1 ≤ 0.7922 := step (m1 := 0.612) (m2 := 0.4024) (K := 0.1801) (by nlinarith) (by nlinarith) (by norm_num) (by norm_num) (by norm_num) (by norm_num)
    (by norm_num) (by norm_num)
  have C3 : 2.448 ≤ 3 * e2 := by linarith
  have D : 1 * e0 + 1.2 * e1 ≤ 0.7756 := step (m1 := 0.588) (m2 := 0.3868) (K := 0.1875) (by nlinarith) (by nlinarith) (by norm_num) (by norm_num) (by norm_num) (by norm_num)
    (by norm_num) (by norm_num)
  have D3 : 0.8215 ≤ e2 := by linarith
  have hpow : (0.8215 : ℝ) ^ 9 ≤ e2 ^ 9 := pow_le_pow_left₀ (by norm_num) D3 9
  have hlast : (0.8215 : ℝ) ^ 9 * e3 ≤ 0.00010807 := (mul_le_mul_of_nonneg_right hpow g3.le).trans p934
  norm_num at hlast hcon h123
  linarith

theorem hartman6_sum_le (x : Fin 6 → ℝ) : hartmanSum hartman6A hartman6P hartman6C x ≤ 3.3254 := by
  obtain ⟨b14, b24, b34, b13, b23, b12, b934⟩ := h6q_bounds x
  have h123 := three_terms_le x
  have hsum : hartmanSum hartman6A hartman6P hartman6C x = bumps h6A h6P h6C x + 3.2 * Real.exp (-h6q x 3) := by
    rw [hartmanSum, Fin.sum_univ_castSucc]
    rfl
  have h3 : bumps h6A h6P h6C x = 1 * Real.exp (-h6q x 0) + 1.2 * Real.exp (-h6q x 1) + 3 * Real.exp (-h6q x 2) := by
    rw [bumps, Fin.sum_univ_three]
    have e0 : h6C 0 = 1 := by norm_num [h6C, hartman6C]
    have e1 : h6C 1 = 1.2 := by norm_num [h6C, hartman6C]
    have e2 : h6C 2 = 3 := by show (3.0 : ℝ) = 3; norm_num
    rw [e0, e1, e2]
    rfl
  have hle : ∀ i, Real.exp (-h6q x i) ≤ 1 := fun i => Real.exp_le_one_iff.mpr (by linarith [h6q_nonneg x i])
  have hpos : ∀ i, 0 < Real.exp (-h6q x i) := fun i => Real.exp_pos _
  have prod : ∀ i k, Real.exp (-h6q x i) * Real.exp (-h6q x k) = Real.exp (-(h6q x i + h6q x k)) := fun i k => by rw [← Real.exp_add]; congr 1; ring
  have mono : ∀ {u v : ℝ}, u ≤ v → Real.exp (-v) ≤ Real.exp (-u) := fun h => Real.exp_le_exp.mpr (by linarith)
  have p14 := (prod 0 3).trans_le ((mono b14).trans h6_n14)
  have p24 := (prod 1 3).trans_le ((mono b24).trans h6_n24)
  have p34 := (prod 2 3).trans_le ((mono b34).trans h6_n34)
  have p13 := (prod 0 2).trans_le ((mono b13).trans h6_n13)
  have p23 := (prod 1 2).trans_le ((mono b23).trans h6_n23)
  have p12 := (prod 0 1).trans_le ((mono b12).trans h6_n12)
  have p934 : Real.exp (-h6q x 2) ^ 9 * Real.exp (-h6q x 3) ≤ 0.00010807 := by
    have e : Real.exp (-h6q x 2) ^ 9 * Real.exp (-h6q x 3) = Real.exp (-(9 * h6q x 2 + h6q x 3)) := by
      rw [← Real.exp_nat_mul, ← Real.exp_add]
      congr 1
      push_cast
      ring
    rw [e]
    exact (mono b934).trans h6_n934
  rw [hsum]
  rw [h3] at h123 ⊢
  exact h6_arith (hpos 0) (hpos 1) (hpos 2) (hpos 3) (hle 0) (hle 1) (hle 2) (hle 3) p14 p24 p34 p13 p23 p12 p934 h123

theorem hartman6FullE_eval (a b c d e f : ℝ) : hartman6FullE.eval (pt [a, b, c, d, e, f]) 0 = -hartmanSum hartman6A hartman6P hartman6C ![a, b, c, d, e, f] := by
  have p3 : pt [a, b, c, d, e, f] (nat_lit 3) = d := rfl
  have p4 : pt [a, b, c, d, e, f] (nat_lit 4) = e := rfl
  have p5 : pt [a, b, c, d, e, f] (nat_lit 5) = f := rfl
  simp only [hartman6FullE, E.eval, pt_zero, pt_one, pt_two, p3, p4, p5, ofNat_cast, negSucc_cast, N_eq, hartmanSum, Fin.sum_univ_four, Fin.sum_univ_six, hartman6A, hartman6P, hartman6C]
  simp
  norm_num
  ring_nf

theorem hartman6_point : 3.322368 ≤ hartmanSum hartman6A hartman6P hartman6C ![0.20168952, 0.15001069, 0.47687398, 0.27533243, 0.31165162, 0.65730054] ∧
    hartmanSum hartman6A hartman6P hartman6C ![0.20168952, 0.15001069, 0.47687398, 0.27533243, 0.31165162, 0.65730054] ≤ 3.32236802 := by
  have hm : List.Forall₂ In [⟨.ofNat (nat_lit 201689520000000), .ofNat (nat_lit 201689520000000)⟩, ⟨.ofNat (nat_lit 150010690000000), .ofNat (nat_lit 150010690000000)⟩,
      ⟨.ofNat (nat_lit 476873980000000), .ofNat (nat_lit 476873980000000)⟩, ⟨.ofNat (nat_lit 275332430000000), .ofNat (nat_lit 275332430000000)⟩,
      ⟨.ofNat (nat_lit 311651620000000), .ofNat (nat_lit 311651620000000)⟩, ⟨.ofNat (nat_lit 657300540000000), .ofNat (nat_lit 657300540000000)⟩]
      [(0.20168952 : ℝ), 0.15001069, 0.47687398, 0.27533243, 0.31165162, 0.65730054] := by
    refine .cons (in_of ?_ ?_) (.cons (in_of ?_ ?_) (.cons (in_of ?_ ?_) (.cons (in_of ?_ ?_) (.cons (in_of ?_ ?_) (.cons (in_of ?_ ?_) .nil))))) <;> rw [ofNat_cast] <;> norm_num
  constructor
  · have h := hartman6_point_high _ (mem_pt hm)
    rw [Above, hartman6NegE, E.eval, hartman6FullE_eval, negSucc_cast, ofNat_cast, N_eq] at h
    norm_num at h ⊢
    linarith
  · have h := hartman6_point_low _ (mem_pt hm)
    rw [Above, hartman6FullE_eval, negSucc_cast, N_eq] at h
    norm_num at h ⊢
    linarith

end Mfpml.Problems
