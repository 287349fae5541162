import Mathlib.Analysis.Real.Pi.Bounds
import Mathlib.Tactic.NormNum
import Mathlib.Tactic.Ring
import Mathlib.Tactic.Linarith
import Verif.Lemmas.Problems
import Verif.Lemmas.Bounds.Forrester
import Verif.Lemmas.Bounds.Sasena
import Verif.Lemmas.Bounds.Sixhump
import Verif.Lemmas.Bounds.Branin
import Verif.Lemmas.Bounds.Hartman3
import Verif.Lemmas.Bounds.Hartman6

/-!
# Bounds for the objectives of the benchmark problems
-/

set_option linter.unusedSectionVars false

namespace Mfpml.Problems

open Mfpml.IA

theorem ofNat_cast (n : ℕ) : ((Int.ofNat n : Int) : ℝ) = n := by simp

theorem negSucc_cast (n : ℕ) : ((Int.negSucc n : Int) : ℝ) = -((n : ℝ) + 1) := by rw [Int.cast_negSucc]; push_cast; ring

theorem pt_zero (a : ℝ) (l : List ℝ) : pt (a :: l) (nat_lit 0) = a := rfl

theorem pt_one (a b : ℝ) (l : List ℝ) : pt (a :: b :: l) (nat_lit 1) = b := rfl

theorem pt_two (a b c : ℝ) (l : List ℝ) : pt (a :: b :: c :: l) (nat_lit 2) = c := rfl

theorem pt_three (a b c d : ℝ) (l : List ℝ) : pt (a :: b :: c :: d :: l) (nat_lit 3) = d := rfl

theorem in_unit_interval {x : ℝ} (h0 : 0 ≤ x) (h1 : x ≤ 1) : In ⟨.ofNat (nat_lit 0), .ofNat (nat_lit 1000000000000000)⟩ x := by
  refine in_of ?_ ?_ <;> rw [ofNat_cast] <;> norm_num <;> linarith

/-! ## Forrester -/

theorem forresterE_eval (x : ℝ) : forresterE.eval (pt [x]) 0 = forresterExpr x := by
  simp only [forresterE, E.eval, pt_zero, ofNat_cast, negSucc_cast, N_eq, forresterExpr]
  norm_num
  ring_nf

theorem forrester_ge {x : ℝ} (h0 : 0 ≤ x) (h1 : x ≤ 1) : -6.020741 ≤ forresterExpr x := by
  have h := forrester_above (pt [x]) (mem_pt (.cons (in_unit_interval h0 h1) .nil))
  rw [Above, forresterE_eval, negSucc_cast, N_eq] at h
  norm_num at h ⊢
  linarith

theorem forrester_point : -6.0207401 ≤ forresterExpr 0.757248757841856 ∧ forresterExpr 0.757248757841856 ≤ -6.02074005 := by
  have hm : List.Forall₂ In [⟨.ofNat (nat_lit 757248757841856), .ofNat (nat_lit 757248757841856)⟩] [(0.757248757841856 : ℝ)] := by
    refine .cons (in_of ?_ ?_) .nil <;> rw [ofNat_cast] <;> norm_num
  constructor
  · have h := forrester_point_low _ (mem_pt hm)
    rw [Above, forresterE_eval, negSucc_cast, N_eq] at h
    norm_num at h ⊢
    linarith
  · have h := forrester_point_high _ (mem_pt hm)
    rw [Above, forresterNegE, E.eval, forresterE_eval, negSucc_cast, ofNat_cast, N_eq] at h
    norm_num at h ⊢
    linarith

/-! ## Sasena -/

theorem sasenaE_eval (x y : ℝ) : sasenaE.eval (pt [x, y]) 0 = sasenaAt ![x, y] := by
  simp only [sasenaE, E.eval, pt_zero, pt_one, ofNat_cast, negSucc_cast, N_eq, sasenaAt, Matrix.cons_val_zero, Matrix.cons_val_one]
  norm_num
  ring_nf

theorem sasena_ge {x y : ℝ} (h0 : 0 ≤ x) (h1 : x ≤ 5) (h2 : 0 ≤ y) (h3 : y ≤ 5) : -1.4566 ≤ sasenaAt ![x, y] := by
  have h := sasena_above (pt [x, y]) (mem_pt (.cons (in_of (by rw [ofNat_cast]; norm_num; linarith) (by rw [ofNat_cast]; norm_num; linarith))
    (.cons (in_of (by rw [ofNat_cast]; norm_num; linarith) (by rw [ofNat_cast]; norm_num; linarith)) .nil)))
  rw [Above, sasenaE_eval, negSucc_cast, N_eq] at h
  norm_num at h ⊢
  linarith

theorem sasena_point : -1.45653 ≤ sasenaAt ![2.5044, 2.5778] ∧ sasenaAt ![2.5044, 2.5778] ≤ -1.45652 := by
  have hm : List.Forall₂ In [⟨.ofNat (nat_lit 2504400000000000), .ofNat (nat_lit 2504400000000000)⟩, ⟨.ofNat (nat_lit 2577800000000000), .ofNat (nat_lit 2577800000000000)⟩]
      [(2.5044 : ℝ), 2.5778] := by
    refine .cons (in_of ?_ ?_) (.cons (in_of ?_ ?_) .nil) <;> rw [ofNat_cast] <;> norm_num
  constructor
  · have h := sasena_point_low _ (mem_pt hm)
    rw [Above, sasenaE_eval, negSucc_cast, N_eq] at h
    norm_num at h ⊢
    linarith
  · have h := sasena_point_high _ (mem_pt hm)
    rw [Above, sasenaNegE, E.eval, sasenaE_eval, negSucc_cast, ofNat_cast, N_eq] at h
    norm_num at h ⊢
    linarith

/-! ## Sixhump -/

theorem sixhumpE_eval (x y : ℝ) : sixhumpE.eval (pt [x, y]) 0 = 3 * sixhumpAt ![x, y] := by
  simp only [sixhumpE, E.eval, pt_zero, pt_one, ofNat_cast, negSucc_cast, N_eq, sixhumpAt, Matrix.cons_val_zero, Matrix.cons_val_one]
  norm_num
  ring_nf

theorem sixhump_ge {x y : ℝ} (h0 : -3 ≤ x) (h1 : x ≤ 3) (h2 : -2 ≤ y) (h3 : y ≤ 2) : -1.0317 ≤ sixhumpAt ![x, y] := by
  have h := sixhump_above (pt [x, y]) (mem_pt (.cons (in_of (by rw [negSucc_cast]; norm_num; linarith) (by rw [ofNat_cast]; norm_num; linarith))
    (.cons (in_of (by rw [negSucc_cast]; norm_num; linarith) (by rw [ofNat_cast]; norm_num; linarith)) .nil)))
  rw [Above, sixhumpE_eval, negSucc_cast, N_eq] at h
  norm_num at h ⊢
  linarith

/-! ## Branin_1 and Branin_2 -/

/-- The constants of the constrained Branin problems. -/
noncomputable def braninConsts : List ℝ := [5.1 / (4 * Real.pi ^ 2), 5 / Real.pi, 10 * (1 - 1 / (8 * Real.pi)), 1 / 3]

theorem braninConsts_mem : Mem braninPars (pt braninConsts) := by
  have h1 := Real.pi_gt_d20
  have h2 := Real.pi_lt_d20
  have hp := Real.pi_pos
  have hsq1 : 9.869604401089357 < Real.pi ^ 2 := by nlinarith
  have hsq2 : Real.pi ^ 2 < 9.869604401089359 := by nlinarith
  have hN : (0 : ℝ) < 4 * Real.pi ^ 2 := by positivity
  refine mem_pt (.cons (in_of ?_ ?_) (.cons (in_of ?_ ?_) (.cons (in_of ?_ ?_) (.cons (in_of ?_ ?_) .nil)))) <;> rw [ofNat_cast]
  · rw [div_mul_eq_mul_div, le_div_iff₀ hN]; norm_num; linarith
  · rw [div_mul_eq_mul_div, div_le_iff₀ hN]; norm_num; linarith
  · rw [div_mul_eq_mul_div, le_div_iff₀ hp]; norm_num; linarith
  · rw [div_mul_eq_mul_div, div_le_iff₀ hp]; norm_num; linarith
  · have : 1 / (8 * Real.pi) ≤ 0.0397887358 := by rw [div_le_iff₀ (by positivity)]; norm_num; linarith
    norm_num at this ⊢; linarith
  · have : 0.0397887357 ≤ 1 / (8 * Real.pi) := by rw [le_div_iff₀ (by positivity)]; norm_num; linarith
    norm_num at this ⊢; linarith
  · norm_num
  · norm_num

theorem braninE_eval (x y : ℝ) : braninE.eval (pt [x, y]) (pt braninConsts) = braninConsAt ![x, y] := by
  simp only [braninE, E.eval, pt_zero, pt_one, pt_two, braninConsts, ofNat_cast, negSucc_cast, N_eq, braninConsAt, Matrix.cons_val_zero, Matrix.cons_val_one]
  norm_num
  ring_nf

theorem cons1E_eval (x y : ℝ) : cons1E.eval (pt [x, y]) (pt braninConsts) = branin1ConsAt ![x, y] := by
  simp only [cons1E, E.eval, pt_zero, pt_one, ofNat_cast, negSucc_cast, N_eq, branin1ConsAt, Matrix.cons_val_zero, Matrix.cons_val_one]
  norm_num
  ring_nf

theorem cons2E_eval (x y : ℝ) : cons2E.eval (pt [x, y]) (pt braninConsts) = branin2ConsAt ![x, y] := by
  simp only [cons2E, E.eval, pt_zero, pt_one, pt_three, braninConsts, ofNat_cast, negSucc_cast, N_eq, branin2ConsAt, Matrix.cons_val_zero, Matrix.cons_val_one]
  norm_num
  ring_nf

theorem branin1_ge {x y : ℝ} (h0 : 0 ≤ x) (h1 : x ≤ 1) (h2 : 0 ≤ y) (h3 : y ≤ 1) (hc : branin1ConsAt ![x, y] ≤ 0) : 5.5756 ≤ braninConsAt ![x, y] := by
  have h := branin1_above (pt [x, y]) (mem_pt (.cons (in_unit_interval h0 h1) (.cons (in_unit_interval h2 h3) .nil))) _ braninConsts_mem
  rw [cons1E_eval, braninE_eval, ofNat_cast, N_eq] at h
  rcases h with h | h
  · linarith
  · norm_num at h ⊢
    linarith

theorem branin2_ge {x y : ℝ} (h0 : 0 ≤ x) (h1 : x ≤ 1) (h2 : 0 ≤ y) (h3 : y ≤ 1) (hc : branin2ConsAt ![x, y] ≤ 0) : 12.001 ≤ braninConsAt ![x, y] := by
  have h := branin2_above (pt [x, y]) (mem_pt (.cons (in_unit_interval h0 h1) (.cons (in_unit_interval h2 h3) .nil))) _ braninConsts_mem
  rw [lagrange2E, E.eval, E.eval, cons2E_eval, braninE_eval, ofNat_cast, ofNat_cast, N_eq] at h
  rcases h with h | h
  · linarith
  · norm_num at h ⊢
    linarith

theorem branin1_point : 5.57565 ≤ braninConsAt ![0.96773, 0.20667] ∧ braninConsAt ![0.96773, 0.20667] ≤ 5.57575 := by
  have hm : List.Forall₂ In [⟨.ofNat (nat_lit 967730000000000), .ofNat (nat_lit 967730000000000)⟩, ⟨.ofNat (nat_lit 206670000000000), .ofNat (nat_lit 206670000000000)⟩]
      [(0.96773 : ℝ), 0.20667] := by
    refine .cons (in_of ?_ ?_) (.cons (in_of ?_ ?_) .nil) <;> rw [ofNat_cast] <;> norm_num
  constructor
  · have h := branin1_point_low _ (mem_pt hm) _ braninConsts_mem
    rw [braninE_eval, ofNat_cast, N_eq] at h
    norm_num at h ⊢
    linarith
  · have h := branin1_point_high _ (mem_pt hm) _ braninConsts_mem
    rw [braninNegE, E.eval, braninE_eval, negSucc_cast, negSucc_cast, N_eq] at h
    norm_num at h ⊢
    linarith

theorem branin1_better : braninConsAt ![0.96754, 0.20671] ≤ 5.57568 := by
  have hm : List.Forall₂ In [⟨.ofNat (nat_lit 967540000000000), .ofNat (nat_lit 967540000000000)⟩, ⟨.ofNat (nat_lit 206710000000000), .ofNat (nat_lit 206710000000000)⟩]
      [(0.96754 : ℝ), 0.20671] := by
    refine .cons (in_of ?_ ?_) (.cons (in_of ?_ ?_) .nil) <;> rw [ofNat_cast] <;> norm_num
  have h := branin1_better_high _ (mem_pt hm) _ braninConsts_mem
  rw [braninNegE, E.eval, braninE_eval, negSucc_cast, negSucc_cast, N_eq] at h
  norm_num at h ⊢
  linarith

theorem branin2_point : braninConsAt ![0.941, 0.317] ≤ 11.96 ∧ 0.01 ≤ branin2ConsAt ![0.941, 0.317] := by
  have hm : List.Forall₂ In [⟨.ofNat (nat_lit 941000000000000), .ofNat (nat_lit 941000000000000)⟩, ⟨.ofNat (nat_lit 317000000000000), .ofNat (nat_lit 317000000000000)⟩]
      [(0.941 : ℝ), 0.317] := by
    refine .cons (in_of ?_ ?_) (.cons (in_of ?_ ?_) .nil) <;> rw [ofNat_cast] <;> norm_num
  constructor
  · have h := branin2_point_high _ (mem_pt hm) _ braninConsts_mem
    rw [braninNegE, E.eval, braninE_eval, negSucc_cast, negSucc_cast, N_eq] at h
    norm_num at h ⊢
    linarith
  · have h := branin2_cons_point_low _ (mem_pt hm) _ braninConsts_mem
    rw [cons2E_eval, ofNat_cast, N_eq] at h
    norm_num at h ⊢
    linarith

/-! ## Hartman3 -/

theorem hartman3E_eval (x y z : ℝ) : hartman3E.eval (pt [x, y, z]) 0 = hartman3At ![x, y, z] := by
  simp only [hartman3E, E.eval, pt_zero, pt_one, pt_two, ofNat_cast, negSucc_cast, N_eq, hartman3At, hartmanSum, Fin.sum_univ_four, Fin.sum_univ_three, hartman3A, hartman3P, hartman3C]
  simp
  norm_num
  ring_nf

theorem hartman3_ge {x y z : ℝ} (h0 : 0 ≤ x) (h1 : x ≤ 1) (h2 : 0 ≤ y) (h3 : y ≤ 1) (h4 : 0 ≤ z) (h5 : z ≤ 1) : -3.862792 ≤ hartman3At ![x, y, z] := by
  have h := hartman3_above (pt [x, y, z]) (mem_pt (.cons (in_unit_interval h0 h1) (.cons (in_unit_interval h2 h3) (.cons (in_unit_interval h4 h5) .nil))))
  rw [Above, hartman3E_eval, negSucc_cast, N_eq] at h
  norm_num at h ⊢
  linarith

theorem hartman3_point : -3.8627 ≤ hartman3At ![0.1, 0.55592003, 0.85218259] := by
  have hm : List.Forall₂ In [⟨.ofNat (nat_lit 100000000000000), .ofNat (nat_lit 100000000000000)⟩, ⟨.ofNat (nat_lit 555920030000000), .ofNat (nat_lit 555920030000000)⟩,
      ⟨.ofNat (nat_lit 852182590000000), .ofNat (nat_lit 852182590000000)⟩] [(0.1 : ℝ), 0.55592003, 0.85218259] := by
    refine .cons (in_of ?_ ?_) (.cons (in_of ?_ ?_) (.cons (in_of ?_ ?_) .nil)) <;> rw [ofNat_cast] <;> norm_num
  have h := hartman3_point_low _ (mem_pt hm)
  rw [Above, hartman3E_eval, negSucc_cast, N_eq] at h
  norm_num at h ⊢
  linarith

end Mfpml.Problems
