import Verif.Props.MFKriging
import Mathlib.Analysis.Convex.Function
import Mathlib.Topology.Order.Compact

/-!
# The scale factor found by the training of scaled Kriging (C167)
-/

open scoped BigOperators Matrix

namespace Mfpml.Props

open Mfpml.GP Mfpml.Spec
open Mfpml.EA (Box)

variable {nh nl d ql qd : ℕ}

/-! ## Specification -/

/-- What a local solver is trusted with: for continuous convex objectives its result lies within the bounds and no point within the bounds near it has a smaller value. -/
def FindsLocalMinima (mini : Minimizer) : Prop :=
  ∀ (p : ℕ) (g : (Fin p → ℝ) → ℝ) (x0 lo hi x : Fin p → ℝ) (v : ℝ), Continuous g → ConvexOn ℝ Set.univ g → mini p (fun r => .ok (g r)) x0 lo hi = .ok (x, v) →
    (∀ k, lo k ≤ x k ∧ x k ≤ hi k) ∧ ∃ ε > 0, ∀ y : Fin p → ℝ, (∀ k, lo k ≤ y k ∧ y k ≤ hi k) → (∀ k, |y k - x k| < ε) → g x ≤ g y

/-- The misfit of a scale factor: the sum of the squared differences between the scaled low-fidelity predictions and the high-fidelity responses. -/
def misfit {n : ℕ} (lf yh : Fin n → ℝ) (rho : ℝ) : ℝ := ∑ i, (rho * lf i - yh i) ^ 2

/-! ## Lemmas -/

theorem misfit_convex {n : ℕ} (lf yh : Fin n → ℝ) (x r t : ℝ) (h0 : 0 ≤ t) (h1 : t ≤ 1) : misfit lf yh (x + t * (r - x)) ≤ (1 - t) * misfit lf yh x + t * misfit lf yh r := by
  unfold misfit
  rw [Finset.mul_sum, Finset.mul_sum, ← Finset.sum_add_distrib]
  refine Finset.sum_le_sum fun i _ => ?_
  have : (1 - t) * (x * lf i - yh i) ^ 2 + t * (r * lf i - yh i) ^ 2 - ((x + t * (r - x)) * lf i - yh i) ^ 2 = t * (1 - t) * ((r - x) * lf i) ^ 2 := by ring
  have h2 : 0 ≤ t * (1 - t) * ((r - x) * lf i) ^ 2 := mul_nonneg (mul_nonneg h0 (sub_nonneg.mpr h1)) (sq_nonneg _)
  linarith

theorem misfit_continuous {n : ℕ} (lf yh : Fin n → ℝ) : Continuous fun r : Fin 1 → ℝ => misfit lf yh (r 0) := by
  unfold misfit
  fun_prop

theorem misfit_convexOn {n : ℕ} (lf yh : Fin n → ℝ) : ConvexOn ℝ Set.univ fun r : Fin 1 → ℝ => misfit lf yh (r 0) := by
  refine ⟨convex_univ, fun x _ y _ a b ha hb hab => ?_⟩
  have := misfit_convex lf yh (x 0) (y 0) b hb (by linarith)
  have e : (a • x + b • y) 0 = x 0 + b * (y 0 - x 0) := by
    simp only [Pi.add_apply, Pi.smul_apply, smul_eq_mul]
    rw [show a = 1 - b by linarith]
    ring
  show misfit lf yh ((a • x + b • y) 0) ≤ a * misfit lf yh (x 0) + b * misfit lf yh (y 0)
  rw [e, show a = 1 - b by linarith]
  exact this

theorem misfit_expand {n : ℕ} (lf yh : Fin n → ℝ) (s : ℝ) : misfit lf yh s = s ^ 2 * (lf ⬝ᵥ lf) - 2 * s * (lf ⬝ᵥ yh) + yh ⬝ᵥ yh := by
  unfold misfit dotProduct
  rw [Finset.mul_sum, Finset.mul_sum, ← Finset.sum_sub_distrib, ← Finset.sum_add_distrib]
  exact Finset.sum_congr rfl fun i _ => by ring

theorem local_is_global {n : ℕ} (lf yh : Fin n → ℝ) {lo hi x ε : ℝ} (hx : lo ≤ x ∧ x ≤ hi) (hε : 0 < ε) (hl : ∀ y, lo ≤ y ∧ y ≤ hi → |y - x| < ε → misfit lf yh x ≤ misfit lf yh y) (r : ℝ) (hr : lo ≤ r ∧ r ≤ hi) :
    misfit lf yh x ≤ misfit lf yh r := by
  obtain ⟨t, ht0, ht1, ht⟩ : ∃ t : ℝ, 0 < t ∧ t ≤ 1 ∧ t * |r - x| < ε := by
    refine ⟨min 1 (ε / (2 * (|r - x| + 1))), lt_min one_pos (by positivity), min_le_left _ _, ?_⟩
    calc min 1 (ε / (2 * (|r - x| + 1))) * |r - x| ≤ ε / (2 * (|r - x| + 1)) * (|r - x| + 1) := by
          apply mul_le_mul (min_le_right _ _) (by linarith) (abs_nonneg _) (by positivity)
      _ = ε / 2 := by field_simp
      _ < ε := by linarith
  have h1 := hl (x + t * (r - x)) ⟨by nlinarith, by nlinarith⟩ (by rw [add_sub_cancel_left, abs_mul, abs_of_pos ht0]; exact ht)
  have h2 := misfit_convex lf yh x r t ht0.le ht1
  have h3 : t * misfit lf yh x ≤ t * misfit lf yh r := by linarith
  exact le_of_mul_le_mul_left h3 ht0

theorem minimum_is_clamp {n : ℕ} {lf yh : Fin n → ℝ} {i0 : Fin n} (h0 : lf i0 ≠ 0) {lo hi x : ℝ} (hx : lo ≤ x ∧ x ≤ hi) (hm : ∀ r, lo ≤ r ∧ r ≤ hi → misfit lf yh x ≤ misfit lf yh r) :
    x = max lo (min hi ((lf ⬝ᵥ yh) / (lf ⬝ᵥ lf))) := by
  have hpos : 0 < lf ⬝ᵥ lf := Finset.sum_pos' (fun i _ => mul_self_nonneg _) ⟨i0, Finset.mem_univ _, mul_self_pos.mpr h0⟩
  set A := lf ⬝ᵥ lf with hA
  set b := (lf ⬝ᵥ yh) / A with hb
  have hB : lf ⬝ᵥ yh = A * b := by rw [hb]; field_simp
  set c := max lo (min hi b) with hc
  have hlh : lo ≤ hi := hx.1.trans hx.2
  have hcm : lo ≤ c ∧ c ≤ hi := ⟨le_max_left _ _, max_le hlh (min_le_left _ _)⟩
  have h1 := hm c hcm
  rw [misfit_expand, misfit_expand, hB] at h1
  have h2 : 0 ≤ (x - c) * (c - b) := by
    rcases le_total b lo with h | h
    · have : c = lo := by rw [hc, min_eq_right (h.trans hlh), max_eq_left h]
      rw [this]
      exact mul_nonneg (by linarith [hx.1]) (by linarith)
    · rcases le_total b hi with h' | h'
      · have : c = b := by rw [hc, min_eq_right h', max_eq_right h]
        rw [this]
        simp
      · have : c = hi := by rw [hc, min_eq_left h', max_eq_right hlh]
        rw [this]
        exact mul_nonneg_of_nonpos_of_nonpos (by linarith [hx.2]) (by linarith)
  have h3 : A * ((x - c) ^ 2 + 2 * ((x - c) * (c - b))) ≤ 0 := by nlinarith
  have h4 : (x - c) ^ 2 + 2 * ((x - c) * (c - b)) ≤ 0 := by
    by_contra h
    push Not at h
    exact absurd h3 (not_le.mpr (mul_pos hpos h))
  have h5 : (x - c) ^ 2 = 0 := le_antisymm (by linarith) (sq_nonneg _)
  have := pow_eq_zero_iff (two_ne_zero) |>.mp h5
  linarith

/-! ## C167 -/

/-- C167. Training a scaled Kriging model with the error criterion and a local solver finds the scale factor that fits the low-fidelity predictions to the high-fidelity responses best in the sense of least squares among all
scale factors within the bounds, whatever the starting point; unless all low-fidelity predictions are 0, it is the unconstrained solution, moved to the nearest bound if it lies outside. -/
theorem C167_scale_factor (sk sk' : SKObj d ql qd) (w : SKWorld d) (hw : FindsLocalMinima w.mini) (hopt : sk.rhoOptimize = true) (hmeth : sk.rhoMethod = .error) (hsolver : sk.rhoOptimizer = none)
    (Xh : Samples nh d) (yh : Fin nh → ℝ) (Xl : Samples nl d) (yl : Fin nl → ℝ) (t : SKFit nh nl d ql qd) (h : sk.train w Xh yh Xl yl = .ok (sk', t)) :
    ∃ lf, predictMean sk'.lf t.lfFit Xh = .ok lf ∧ (sk.rhoLow ≤ sk'.rho ∧ sk'.rho ≤ sk.rhoHigh) ∧ (∀ r, sk.rhoLow ≤ r ∧ r ≤ sk.rhoHigh → misfit lf yh sk'.rho ≤ misfit lf yh r) ∧
      ((∃ i, lf i ≠ 0) → sk'.rho = max sk.rhoLow (min sk.rhoHigh ((lf ⬝ᵥ yh) / (lf ⬝ᵥ lf)))) := by
  unfold SKObj.train at h
  obtain ⟨⟨lf', lfFit⟩, htl, h⟩ := Py.bind_ok.mp h
  obtain ⟨f, hf, h⟩ := Py.bind_ok.mp h
  obtain ⟨⟨rho, gd⟩, hrho, h⟩ := Py.bind_ok.mp h
  obtain ⟨⟨gd', dFit⟩, htd, h⟩ := Py.bind_ok.mp h
  simp only [Except.ok.injEq, Prod.mk.injEq] at h
  obtain ⟨e1, e2⟩ := h
  subst e1 e2
  rw [if_pos hopt] at hrho
  unfold SKObj.optimizeRho at hrho
  rw [hmeth, hsolver] at hrho
  simp only at hrho
  obtain ⟨⟨x, v⟩, hx, hrho⟩ := Py.bind_ok.mp hrho
  simp only [Except.ok.injEq, Prod.mk.injEq] at hrho
  obtain ⟨rfl, _⟩ := hrho
  obtain ⟨hb, ε, hε, hl⟩ := hw 1 (fun r => misfit f yh (r 0)) _ _ _ x v (misfit_continuous f yh) (misfit_convexOn f yh) hx
  have hx0 := hb 0
  have hg := local_is_global f yh hx0 hε fun y hy hd => by
    have := hl (fun _ => y) (fun _ => hy) (fun k => by rw [Fin.fin_one_eq_zero k]; exact hd)
    exact this
  exact ⟨f, hf, hx0, hg, fun ⟨i, hi⟩ => minimum_is_clamp hi hx0 hg⟩

/-- A solver that meets the contract: it returns a point with the smallest value within the bounds. -/
theorem findsLocalMinima_exists : ∃ mini : Minimizer, FindsLocalMinima mini ∧ ∀ (p : ℕ) (g : (Fin p → ℝ) → ℝ) (x0 lo hi : Fin p → ℝ), Continuous g → (∀ k, lo k ≤ hi k) → ∃ x v, mini p (fun r => .ok (g r)) x0 lo hi = .ok (x, v) := by
  classical
  have key : ∀ (p : ℕ) (g : (Fin p → ℝ) → ℝ) (lo hi : Fin p → ℝ), Continuous g → (∀ k, lo k ≤ hi k) → ∃ x ∈ Set.Icc lo hi, ∀ y ∈ Set.Icc lo hi, g x ≤ g y := by
    intro p g lo hi hg hlh
    obtain ⟨x, hx, hm⟩ := (isCompact_Icc (a := lo) (b := hi)).exists_isMinOn ⟨lo, Set.left_mem_Icc.mpr hlh⟩ hg.continuousOn
    exact ⟨x, hx, fun y hy => hm hy⟩
  let mini : Minimizer := fun p f x0 lo hi => if h : ∃ x ∈ Set.Icc lo hi, ∃ g : (Fin p → ℝ) → ℝ, (f = fun r => .ok (g r)) ∧ ∀ y ∈ Set.Icc lo hi, g x ≤ g y then .ok (h.choose, 0) else .error .valueError
  have spec : ∀ (p : ℕ) (g : (Fin p → ℝ) → ℝ) (x0 lo hi x : Fin p → ℝ) (v : ℝ), mini p (fun r => .ok (g r)) x0 lo hi = .ok (x, v) → x ∈ Set.Icc lo hi ∧ ∀ y ∈ Set.Icc lo hi, g x ≤ g y := by
    intro p g x0 lo hi x v hx
    simp only [mini] at hx
    split at hx
    · rename_i hex
      simp only [Except.ok.injEq, Prod.mk.injEq] at hx
      obtain ⟨rfl, _⟩ := hx
      obtain ⟨h1, g', h2, h3⟩ := hex.choose_spec
      have : g = g' := by
        funext r
        exact Except.ok.inj (congrFun h2 r)
      subst this
      exact ⟨h1, h3⟩
    · cases hx
  refine ⟨mini, fun p g x0 lo hi x v _ _ hx => ?_, fun p g x0 lo hi hg hlh => ?_⟩
  · obtain ⟨h1, h2⟩ := spec p g x0 lo hi x v hx
    exact ⟨fun k => ⟨h1.1 k, h1.2 k⟩, 1, one_pos, fun y hy _ => h2 y ⟨fun k => (hy k).1, fun k => (hy k).2⟩⟩
  · obtain ⟨x, hx, hm⟩ := key p g lo hi hg hlh
    have hex : ∃ x ∈ Set.Icc lo hi, ∃ g' : (Fin p → ℝ) → ℝ, ((fun r => (.ok (g r) : Py ℝ)) = fun r => .ok (g' r)) ∧ ∀ y ∈ Set.Icc lo hi, g' x ≤ g' y := ⟨x, hx, g, rfl, hm⟩
    exact ⟨hex.choose, 0, by simp only [mini]; rw [dif_pos hex]⟩

/-- A training that meets the hypotheses: three samples with high-fidelity responses `3 y`, scale factors between 0 and 2.  The best scale factor 3 is outside, so the result is 2. -/
example : ∃ (w : SKWorld 1) (sk' : SKObj 1 1 1) (t : SKFit 3 3 1 1 1), FindsLocalMinima w.mini ∧
    ({ box := (exGP (some 0)).box, lf := exGP (some 0), disc := exGP (some 0), rho := 1, rhoOptimize := true, rhoMethod := .error, rhoLow := 0, rhoHigh := 2, rhoOptimizer := none } : SKObj 1 1 1).train w exX (fun i => 3 * exY i) exX exY = .ok (sk', t) ∧
    sk'.rho = 2 := by
  obtain ⟨mini, hmini, hex⟩ := findsLocalMinima_exists
  obtain ⟨lf', lfFit, htl⟩ := exGP_trains (some 0) exX exY 0 2 exY_ne
  have hf : predictMean lf' lfFit exX = .ok exY := C34_interpolation _ _ _ _ rfl _ _ htl
  obtain ⟨x, v, hx⟩ := hex 1 (fun r => misfit exY (fun i => 3 * exY i) (r 0)) (fun _ => 1) (fun _ => 0) (fun _ => 2) (misfit_continuous _ _) (fun _ => by norm_num)
  obtain ⟨hb, ε, hε, hl⟩ := hmini 1 _ _ _ _ x v (misfit_continuous exY fun i => 3 * exY i) (misfit_convexOn _ _) hx
  have hg := local_is_global exY (fun i => 3 * exY i) (hb 0) hε fun y hy hd => hl (fun _ => y) (fun _ => hy) (fun k => by rw [Fin.fin_one_eq_zero k]; exact hd)
  have hx2 : x 0 = 2 := by
    rw [minimum_is_clamp (i0 := 0) (by simp [exY]) (hb 0) hg]
    have : (exY ⬝ᵥ fun i => 3 * exY i) / (exY ⬝ᵥ exY) = 3 := by simp [dotProduct, Fin.sum_univ_three, exY]; norm_num
    rw [this]
    norm_num
  obtain ⟨gd', dFit, htd⟩ := exGP_trains (some 0) exX (getDisc (x 0) exY fun i => 3 * exY i) 0 2 (by simp [getDisc, exY, hx2]; norm_num)
  refine ⟨{ lf := exWorld, disc := exWorld, mini := mini, x0 := 1, bumpEvals := [], bumpX := 1 }, _, _, hmini,
    Py.bind_ok.mpr ⟨(lf', lfFit), htl, Py.bind_ok.mpr ⟨exY, hf, Py.bind_ok.mpr ⟨(x 0, exGP (some 0)), ?_, Py.bind_ok.mpr ⟨(gd', dFit), htd, rfl⟩⟩⟩⟩, hx2⟩
  exact Py.bind_ok.mpr ⟨(x, v), hx, rfl⟩

end Mfpml.Props
