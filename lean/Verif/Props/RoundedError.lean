import Mathlib.Tactic.Linarith
import Verif.Lemmas.RoundedError
import Verif.Props.BayesOpt
import Verif.Props.Rounded

/-!
# The stopping error of Bayesian optimisation in floating-point arithmetic (C173)

The loop theorems C51 – C56, C58, C59, C77 and C78 hold for any arithmetic, floating-point numbers included.  Here is what the stopping error computed in that arithmetic says.
-/

namespace Mfpml.Props

open Mfpml.Rounded Mfpml.BO Mfpml.Spec

variable {p : ℕ} {emin : ℤ} {R : Rounding p emin}

/-- `np.abs` in floating-point arithmetic is the exact absolute value. -/
theorem npAbs_val (a : Fl R) : (npAbs a).val = |a.val| := by
  have hneg : (-a).val = -a.val := R.fl_of_isFloat a.isFloat.neg
  unfold npAbs
  rcases le_total a (-a) with h | h
  · have h' : a.val ≤ (-a).val := h
    rw [max_eq_right h, hneg]
    rw [hneg] at h'
    exact (abs_of_nonpos (by linarith)).symm
  · have h' : (-a).val ≤ a.val := h
    rw [max_eq_left h]
    rw [hneg] at h'
    exact (abs_of_nonneg (by linarith)).symm

theorem updateError_zero_val (best : Fl R) {o : Fl R} (h : o = 0) : (updateError best (some o)).val = |R.fl (best.val - o.val)| := by
  simp only [updateError, if_neg (not_not.mpr h)]
  exact npAbs_val _

theorem updateError_val (best : Fl R) {o : Fl R} (h : o ≠ 0) : (updateError best (some o)).val = |R.fl (R.fl (best.val - o.val) / o.val)| := by
  simp only [updateError, if_pos h]
  exact npAbs_val _

theorem val_ne_zero {o : Fl R} (h : o ≠ 0) : o.val ≠ 0 := fun e => h (Fl.val_injective e)

/-- **C173.** In floating-point arithmetic the stopping error is never negative; it is zero exactly when the best value equals the known optimum, however close the two are and however large or small; and a best value
that is closer to an optimum below it never has a larger error. -/
theorem C173_error_in_floats (hp : 1 ≤ p) (hemin : emin + p + 1 ≤ 0) (best o : Fl R) :
    (∀ known, 0 ≤ updateError best known) ∧ (updateError best (some o) = 0 ↔ best = o) ∧
    (∀ better, o ≤ better → better ≤ best → updateError better (some o) ≤ updateError best (some o)) := by
  refine ⟨fun known => ?_, ⟨fun h => ?_, fun h => ?_⟩, fun better h1 h2 => ?_⟩
  · cases known with
    | none => exact R.le_fl isFloat_zero zero_le_one
    | some o =>
      by_cases h : o = 0
      · change (0 : ℝ) ≤ _
        rw [updateError_zero_val best h]; exact abs_nonneg _
      · change (0 : ℝ) ≤ _
        rw [updateError_val best h]; exact abs_nonneg _
  · by_contra hne
    have hne' : best.val ≠ o.val := fun e => hne (Fl.val_injective e)
    have h0 : (updateError best (some o)).val = 0 := congrArg Fl.val h
    by_cases ho : o = 0
    · rw [updateError_zero_val best ho] at h0
      obtain ⟨k, hk⟩ := best.isFloat.multiple
      obtain ⟨l, hl⟩ := o.isFloat.multiple
      rw [hk, hl] at hne' h0
      have := two_zpow_le_abs_fl R hp (le_refl emin) (multiples_apart hne')
      rw [h0] at this
      exact absurd this (not_le.mpr (two_zpow_pos _))
    · rw [updateError_val best ho] at h0
      obtain ⟨f, hf, hd, hy⟩ := floats_apart hp best.isFloat o.isFloat hne' (val_ne_zero ho)
      have hd := two_zpow_le_abs_fl R hp hf hd
      have hpos : 0 < |o.val| := abs_pos.mpr (val_ne_zero ho)
      have hq : (2 : ℝ) ^ emin ≤ |R.fl (best.val - o.val) / o.val| := by
        rw [abs_div, le_div_iff₀ hpos]
        have h1 : (2 : ℝ) ^ emin * (2 ^ (p + 1)) ≤ 1 := by
          rw [← zpow_natCast, ← zpow_add₀ (by norm_num)]
          exact zpow_le_one_of_nonpos₀ (by norm_num) (by push_cast; omega)
        calc (2 : ℝ) ^ emin * |o.val| ≤ 2 ^ emin * (2 ^ (p + 1) * 2 ^ f) := mul_le_mul_of_nonneg_left hy (two_zpow_pos _).le
          _ = (2 ^ emin * 2 ^ (p + 1)) * 2 ^ f := by ring
          _ ≤ 1 * 2 ^ f := mul_le_mul_of_nonneg_right h1 (two_zpow_pos _).le
          _ ≤ _ := by rw [one_mul]; exact hd
      have := two_zpow_le_abs_fl R hp (le_refl emin) hq
      rw [h0] at this
      exact absurd this (not_le.mpr (two_zpow_pos _))
  · subst h
    apply Fl.val_injective
    change _ = (0 : ℝ)
    by_cases ho : best = 0
    · rw [updateError_zero_val best ho, sub_self, R.fl_of_isFloat isFloat_zero, abs_zero]
    · rw [updateError_val best ho, sub_self, R.fl_of_isFloat isFloat_zero, zero_div, R.fl_of_isFloat isFloat_zero, abs_zero]
  · have h1' : o.val ≤ better.val := h1
    have h2' : better.val ≤ best.val := h2
    have hd0 : 0 ≤ R.fl (better.val - o.val) := R.le_fl isFloat_zero (by linarith)
    have hd : R.fl (better.val - o.val) ≤ R.fl (best.val - o.val) := R.fl_mono (by linarith)
    change (_ : ℝ) ≤ _
    by_cases ho : o = 0
    · rw [updateError_zero_val _ ho, updateError_zero_val _ ho, abs_of_nonneg hd0, abs_of_nonneg (hd0.trans hd)]
      exact hd
    · rw [updateError_val _ ho, updateError_val _ ho]
      rcases lt_or_gt_of_ne (val_ne_zero ho) with hn | hn
      · have a1 : R.fl (best.val - o.val) / o.val ≤ R.fl (better.val - o.val) / o.val := div_le_div_of_nonpos_of_le hn.le hd
        have a2 : R.fl (better.val - o.val) / o.val ≤ 0 := div_nonpos_of_nonneg_of_nonpos hd0 hn.le
        have b1 := R.fl_mono a1
        have b2 := R.fl_le isFloat_zero a2
        rw [abs_of_nonpos b2, abs_of_nonpos (b1.trans b2)]
        linarith
      · have a1 : R.fl (better.val - o.val) / o.val ≤ R.fl (best.val - o.val) / o.val := div_le_div_of_nonneg_right hd hn.le
        have a2 : 0 ≤ R.fl (better.val - o.val) / o.val := div_nonneg hd0 hn.le
        have b1 := R.fl_mono a1
        have b2 := R.le_fl isFloat_zero a2
        rw [abs_of_nonneg b2, abs_of_nonneg (b2.trans b1)]
        exact b1

/-- **C173 (reports).** In floating-point arithmetic the best values of a single-fidelity optimiser never increase, so for a known optimum not above any response the errors shown after the iterations never increase either, and a run that asks
for a positive error stops as soon as the optimum itself is observed. -/
theorem C173_errors_decrease {X S W : Type} (hp : 1 ≤ p) (hemin : emin + p + 1 ≤ 0) (P : SFProblem (Fl R) X S W) (hP : OneRowEach P.f) {s : SFState (Fl R) X S W} (hs : SFReachable P s) {o : Fl R}
    (ho : ∀ y ∈ s.response, o ≤ y) :
    (s.historyBest.map fun b => updateError b (some o)).Pairwise (· ≥ ·) ∧
    (P.optimum = some o → o ∈ s.response → ∀ (k : ℕ) (stop : Fl R), 0 < stop → P.run k stop s = .ok (s, s.best, s.bestX)) := by
  obtain ⟨hb, _, hpair, hlen, hlenX, hhist, _⟩ := C51_sf_best P hP hs
  refine ⟨?_, fun hopt hmem k stop hstop => ?_⟩
  · rw [List.pairwise_map, List.pairwise_iff_getElem]
    intro i j hi hj hij
    have hb2 := hhist j _ _ (List.getElem?_eq_getElem hj) (List.getElem?_eq_getElem (hlenX ▸ hj))
    refine (C173_error_in_floats hp hemin _ o).2.2 _ (ho _ (List.mem_of_mem_take hb2.1.1)) ?_
    exact (List.pairwise_iff_getElem.mp hpair) i j hi hj hij
  · have hbo : s.best = o := le_antisymm (hb.2 hmem) (ho _ hb.1)
    have h0 : updateError s.best P.optimum = 0 := by
      rw [hopt]; exact ((C173_error_in_floats hp hemin s.best o).2.1).mpr hbo
    have hloop : P.loop stop k s = .ok s := by
      cases k with
      | zero => rfl
      | succ k =>
        simp only [SFProblem.loop]
        rw [if_neg (by rw [h0]; exact not_le.mpr hstop)]
    simp only [SFProblem.run, hloop]
    rfl

/-- Double precision meets the hypotheses. -/
example (best o : Double) : updateError best (some o) = 0 ↔ best = o := (C173_error_in_floats (by norm_num) (by norm_num) best o).2.1

/-- An optimiser over doubles that runs: the loop theorems and C173 apply to its state. -/
example : ∃ (P : SFProblem Double ℕ Unit ℕ) (s : SFState Double ℕ Unit ℕ), OneRowEach P.f ∧ SFReachable P s ∧ P.optimum = some 0 ∧ (∀ y ∈ s.response, 0 ≤ y) ∧ (0 : Double) ∈ s.response := by
  refine ⟨⟨fun xs => .ok (xs.map fun n => if n = 0 then 0 else half), some 0, fun w => .ok ([0], w), (), fun _ _ _ w => .ok ((), w), fun _ w => .ok (w, w + 1)⟩, _,
    fun xs ys h => by cases h; simp, .new 1 (show _ = Except.ok _ from rfl), rfl, ?_, ?_⟩
  · intro y hy
    simp only [List.map_cons, List.map_nil, List.mem_cons, List.not_mem_nil, or_false] at hy
    rw [hy]; exact le_refl _
  · simp

end Mfpml.Props
