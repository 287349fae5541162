import Verif.Props.MFKriging

/-!
# The bumpiness objective of scaled Kriging (C144)

`ScaledKriging(rho_method="bumpiness")` searches the scale factor with an objective that retrains the discrepancy model for every candidate (`_eval_bumpiness`,
scale_kriging.py:204-227).
-/

set_option linter.unusedSectionVars false

open scoped BigOperators Matrix

namespace Mfpml.Props

open Mfpml.GP Mfpml.Spec
open Mfpml.EA (Box)

variable {nh n m d q : ℕ}

/-- C144. A successful evaluation of a candidate returns the sum of the squared differences between the scaled low-fidelity values and the responses, multiplied with the Euclidean norm of
the length-scale parameters of the discrepancy model trained on the responses minus the scaled low-fidelity values; that trained model is left behind, and the value is positive (for at least one design variable). -/
theorem C144_value (disc disc' : GPObj d q) (w : World d) (Xh : Samples nh d) (yh lf : Fin nh → ℝ) (rho v : ℝ) (h : evalBumpiness disc w Xh yh lf rho = .ok (disc', v)) :
    (∃ t, disc.train w Xh (fun i => yh i - rho * lf i) = .ok (disc', t)) ∧
    v = (∑ i, (rho * lf i - yh i) ^ 2) * Real.sqrt (∑ j, disc'.kernel.param j ^ 2) ∧ 0 ≤ v ∧ (0 < d → 0 < v) := by
  unfold evalBumpiness at h
  obtain ⟨⟨disc2, fit⟩, h2, h1⟩ := Py.bind_ok.mp h
  simp only [Except.ok.injEq, Prod.mk.injEq] at h1
  obtain ⟨h1, h3⟩ := h1
  subst h1
  have hv : v = (∑ i, (rho * lf i - yh i) ^ 2) * Real.sqrt (∑ j, disc2.kernel.param j ^ 2) := h3.symm
  refine ⟨⟨fit, h2⟩, hv, ?_, fun hd => ?_⟩
  · rw [hv]
    exact mul_nonneg (Finset.sum_nonneg fun _ _ => sq_nonneg _) (Real.sqrt_nonneg _)
  · obtain ⟨_, hs, theta, noise, _, e1, _, _⟩ := train_ok_iff.mp h2
    rw [hv]
    refine mul_pos ?_ (Real.sqrt_pos.mpr ?_)
    · by_contra hcon
      have h0 : ∑ i, (rho * lf i - yh i) ^ 2 = 0 := le_antisymm (not_lt.mp hcon) (Finset.sum_nonneg fun _ _ => sq_nonneg _)
      rw [Finset.sum_eq_zero_iff_of_nonneg (fun _ _ => sq_nonneg _)] at h0
      refine hs ((std_eq_zero_iff _).mpr fun i j => ?_)
      have hi := pow_eq_zero_iff (two_ne_zero) |>.mp (h0 i (Finset.mem_univ _))
      have hj := pow_eq_zero_iff (two_ne_zero) |>.mp (h0 j (Finset.mem_univ _))
      show yh i - rho * lf i = yh j - rho * lf j
      linarith
    · rw [e1]
      refine Finset.sum_pos (fun j _ => ?_) ⟨⟨0, hd⟩, Finset.mem_univ _⟩
      exact pow_pos (Real.rpow_pos_of_pos (by norm_num) _) 2

/-- C144. A scale factor with which the low-fidelity model reproduces the responses up to a constant (in particular: exactly) is never evaluated successfully: the discrepancies then have
zero standard deviation and the training of the discrepancy model fails. -/
theorem C144_perfect_counterexample (disc : GPObj d q) (w : World d) (Xh : Samples nh d) (yh lf : Fin nh → ℝ) (rho c : ℝ) (hc : ∀ i, yh i = rho * lf i + c) :
    ∃ e, evalBumpiness disc w Xh yh lf rho = .error e := by
  rcases hr : evalBumpiness disc w Xh yh lf rho with e | ⟨disc', v⟩
  · exact ⟨e, rfl⟩
  · exfalso
    obtain ⟨⟨t, ht⟩, _⟩ := C144_value _ _ _ _ _ _ _ _ hr
    obtain ⟨_, hs, _⟩ := train_ok_iff.mp ht
    refine hs ((std_eq_zero_iff _).mpr fun i j => ?_)
    show yh i - rho * lf i = yh j - rho * lf j
    rw [hc i, hc j]
    ring

theorem train_same_noise (gp : GPObj d q) (theta : Fin d → ℝ) (w : World d) (X : Samples n d) (y : Fin n → ℝ) :
    ({ gp with kernel := gp.kernel.setParams theta } : GPObj d q).train w X y = gp.train w X y := by
  cases hn : gp.noise <;> simp only [GPObj.train, GPObj.fitHyper, hn, GPObj.logLikKnown, GPObj.logLikFree, RBF.setParams] <;> rfl

/-- C144, the part about histories that holds: with a discrepancy model constructed with a given noise, the value of a candidate and the model it leaves behind are the same after any
candidates evaluated before, in whatever order and with whatever random start points. Missing: models whose noise is estimated, see `C144_history_counterexample`. -/
theorem C144_history_partial (disc disc' : GPObj d q) (s : ℝ) (hs : disc.noise = some s) (before : List (ℝ × World d)) (Xh : Samples nh d) (yh lf : Fin nh → ℝ)
    (hb : bumpRun Xh yh lf before disc = .ok disc') (w : World d) (rho : ℝ) :
    evalBumpiness disc' w Xh yh lf rho = evalBumpiness disc w Xh yh lf rho := by
  induction before generalizing disc with
  | nil =>
    simp only [bumpRun, Except.ok.injEq] at hb
    rw [hb]
  | cons e rest ih =>
    obtain ⟨r, w₁⟩ := e
    unfold bumpRun at hb
    obtain ⟨⟨disc1, v⟩, h1, hb⟩ := Py.bind_ok.mp hb
    obtain ⟨⟨t, ht⟩, _⟩ := C144_value _ _ _ _ _ _ _ _ h1
    obtain ⟨_, _, theta, noise, h3, e1, _, _⟩ := train_ok_iff.mp ht
    have hno : noise = s := by
      unfold GPObj.fitHyper at h3
      rw [hs] at h3
      obtain ⟨x, _, h5⟩ := Py.bind_ok.mp h3
      simp only [Except.ok.injEq, Prod.mk.injEq] at h5
      exact h5.2.symm
    have hd1 : disc1 = { disc with kernel := disc.kernel.setParams theta } := by rw [e1, hno, ← hs]
    rw [ih disc1 (by rw [hd1]; exact hs) hb, hd1]
    unfold evalBumpiness
    rw [train_same_noise]

/-- An optimiser that stays at the lower corner of one-dimensional searches and at the upper corner of the others. -/
def dimensionMinimizer : Minimizer := fun p obj _ lo hi => do
  let x := if p = 1 then lo else hi
  let f ← obj x
  .ok (x, f)

theorem dimensionMinimizer_good : GoodMinimizer dimensionMinimizer := by
  intro p obj x0 lo hi hb hobj
  have hx : Between lo hi (if p = 1 then lo else hi) := by
    split
    · exact fun j => ⟨le_refl _, hb j⟩
    · exact fun j => ⟨hb j, le_refl _⟩
  obtain ⟨v, hv⟩ := hobj _ hx
  refine ⟨_, v, ?_, hx, hv⟩
  unfold dimensionMinimizer
  simp only [hv]
  rfl

/-- An environment with this optimiser. -/
noncomputable def dimensionWorld : World 1 := { mini := dimensionMinimizer, starts := [fun _ => 0], startsNoise := [fun _ => 0] }

theorem one_start {p : ℕ} {mini : Minimizer} {obj : (Fin p → ℝ) → Py ℝ} {x0 lo hi x : Fin p → ℝ} (h : searchHyper none mini obj lo hi [x0] = .ok x) : ∃ f, mini p obj x0 lo hi = .ok (x, f) := by
  unfold searchHyper at h
  obtain ⟨r, h6, h7⟩ := Py.bind_ok.mp h
  unfold restartLoop at h6
  obtain ⟨⟨x', f⟩, h8, h9⟩ := Py.bind_ok.mp h6
  simp only [WithTop.coe_lt_top, if_true] at h9
  unfold restartLoop at h9
  simp only [Except.ok.injEq] at h9
  rw [← h9] at h7
  simp only [Except.ok.injEq] at h7
  exact ⟨f, by rw [h8, h7]⟩

theorem dimension_param {X : Samples n 1} {y : Fin n → ℝ} {gp gp' : GPObj 1 1} {t : GPFit n 1 1} (ho : gp.optimizer = none) (hlo : gp.kernel.boundLow = -2) (hhi : gp.kernel.boundHigh = 3)
    (h : gp.train dimensionWorld X y = .ok (gp', t)) :
    gp'.kernel.param 0 = (10 : ℝ) ^ (if gp.noise = none then (3 : ℝ) else -2) := by
  obtain ⟨_, _, theta, noise, h3, e1, _, _⟩ := train_ok_iff.mp h
  have hp : gp'.kernel.param 0 = (10 : ℝ) ^ theta 0 := by rw [e1]; rfl
  rw [hp]
  congr 1
  unfold GPObj.fitHyper at h3
  rcases hn : gp.noise with _ | s
  · rw [hn] at h3
    simp only [ho, dimensionWorld] at h3
    obtain ⟨x, hx, h5⟩ := Py.bind_ok.mp h3
    obtain ⟨f, hf⟩ := one_start hx
    unfold dimensionMinimizer at hf
    obtain ⟨v, _, h10⟩ := Py.bind_ok.mp hf
    simp only [Except.ok.injEq, Prod.mk.injEq] at h10 h5
    rw [if_pos rfl, ← h5.1, ← h10.1]
    simp [hhi]
  · rw [hn] at h3
    simp only [ho, dimensionWorld] at h3
    obtain ⟨x, hx, h5⟩ := Py.bind_ok.mp h3
    obtain ⟨f, hf⟩ := one_start hx
    unfold dimensionMinimizer at hf
    obtain ⟨v, _, h10⟩ := Py.bind_ok.mp hf
    simp only [Except.ok.injEq, Prod.mk.injEq] at h10 h5
    rw [if_neg (by simp), ← h5.1, ← h10.1]
    simp [hlo]

/-- C144 is false for a discrepancy model whose noise is estimated: the first candidate fixes the noise for all later ones, and the same candidate has another value when it is evaluated a second time. -/
theorem C144_history_counterexample :
    ∃ (disc disc₁ disc₂ : GPObj 1 1) (w : World 1) (X : Samples 2 1) (yh lf : Fin 2 → ℝ) (rho v₁ v₂ : ℝ), GoodMinimizer w.mini ∧ disc.noise = none ∧
      evalBumpiness disc w X yh lf rho = .ok (disc₁, v₁) ∧ evalBumpiness disc₁ w X yh lf rho = .ok (disc₂, v₂) ∧ v₁ ≠ v₂ := by
  have hy : (fun i => (![0, 1] : Fin 2 → ℝ) i - 0 * ![1, 2] i) 0 ≠ (fun i => (![0, 1] : Fin 2 → ℝ) i - 0 * ![1, 2] i) 1 := by norm_num
  obtain ⟨gp₁, t₁, h₁⟩ := C31_train_succeeds_default (exGP none) dimensionWorld (fun i _ => ![1, 3] i) (fun i => (![0, 1] : Fin 2 → ℝ) i - 0 * ![1, 2] i) rfl (fun _ => by simp [exGP]) (by simp [exGP, RBF.mk']; norm_num)
    dimensionMinimizer_good (fun run h => by simp [exGP] at h) (by simp [dimensionWorld]) (by simp [dimensionWorld]) 0 1 hy
  obtain ⟨_, _, theta, noise, _, e1, _, _⟩ := train_ok_iff.mp h₁
  obtain ⟨gp₂, t₂, h₂⟩ := C31_train_succeeds_default gp₁ dimensionWorld (fun i _ => ![1, 3] i) (fun i => (![0, 1] : Fin 2 → ℝ) i - 0 * ![1, 2] i) (by rw [e1]; rfl) (fun _ => by rw [e1]; simp [exGP])
    (by rw [e1]; simp [exGP, RBF.mk', RBF.setParams]; norm_num) dimensionMinimizer_good (fun run h => by rw [e1] at h; simp [exGP] at h) (by simp [dimensionWorld]) (by simp [dimensionWorld]) 0 1 hy
  have p₁ := dimension_param (gp := exGP none) rfl rfl rfl h₁
  have p₂ := dimension_param (gp := gp₁) (by rw [e1]; rfl) (by rw [e1]; rfl) (by rw [e1]; rfl) h₂
  rw [if_pos (by rfl)] at p₁
  rw [if_neg (by rw [e1]; simp)] at p₂
  refine ⟨exGP none, gp₁, gp₂, dimensionWorld, fun i _ => ![1, 3] i, ![0, 1], ![1, 2], 0, _, _, dimensionMinimizer_good, rfl,
    Py.bind_ok.mpr ⟨(gp₁, t₁), h₁, rfl⟩, Py.bind_ok.mpr ⟨(gp₂, t₂), h₂, rfl⟩, ?_⟩
  have e : evalError ![1, 2] ![0, 1] (fun _ : Fin 1 => 0) 0 = (1 : ℝ) := by simp [evalError, Fin.sum_univ_two]
  simp only [e, Fin.sum_univ_one, Finset.univ_unique, Finset.sum_singleton, Fin.default_eq_zero, Fin.isValue, p₁, p₂, one_mul]
  rw [Real.sqrt_sq (by positivity), Real.sqrt_sq (by positivity)]
  have : (10 : ℝ) ^ (-2 : ℝ) < (10 : ℝ) ^ (3 : ℝ) := Real.rpow_lt_rpow_of_exponent_lt (by norm_num) (by norm_num)
  exact ne_of_gt this

/-- The hypotheses are met: a candidate is evaluated with given noise, and evaluated again after it. -/
example : ∃ disc' v, evalBumpiness (exGP (some 0)) exWorld (fun i _ => ![1, 3] i : Samples 2 1) ![0, 1] ![1, 2] 0 = .ok (disc', v) ∧
    bumpRun (fun i _ => ![1, 3] i : Samples 2 1) ![0, 1] ![1, 2] [(0, exWorld)] (exGP (some 0)) = .ok disc' := by
  have hy : (fun i => (![0, 1] : Fin 2 → ℝ) i - 0 * ![1, 2] i) 0 ≠ (fun i => (![0, 1] : Fin 2 → ℝ) i - 0 * ![1, 2] i) 1 := by norm_num
  obtain ⟨gp', t, h⟩ := exGP_trains (some 0) (fun i _ => ![1, 3] i) (fun i => (![0, 1] : Fin 2 → ℝ) i - 0 * ![1, 2] i) 0 1 hy
  have h1 : evalBumpiness (exGP (some 0)) exWorld (fun i _ => ![1, 3] i : Samples 2 1) ![0, 1] ![1, 2] 0 = .ok (gp', _) := Py.bind_ok.mpr ⟨(gp', t), h, rfl⟩
  exact ⟨gp', _, h1, Py.bind_ok.mpr ⟨_, h1, rfl⟩⟩

example : ∃ (yh lf : Fin 2 → ℝ) (rho c : ℝ), lf 0 ≠ lf 1 ∧ ∀ i, yh i = rho * lf i + c :=
  ⟨![2, 6], ![1, 3], 2, 0, by norm_num, fun i => by fin_cases i <;> norm_num⟩

end Mfpml.Props
