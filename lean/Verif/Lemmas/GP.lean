import Verif.Lemmas.LinAlg
import Verif.Lemmas.Kernels
import Verif.Lemmas.Stats
import Verif.Spec.Oracles

/-! # Lemmas about Gaussian-process training and prediction -/

set_option linter.unusedSectionVars false

open scoped BigOperators Matrix

namespace Mfpml.GP

open Mfpml.Spec
open Mfpml.EA (Box)

variable {n m d q p : ℕ}

/-! ### closed forms -/

theorem glsFit_error {K : Matrix (Fin n) (Fin n) ℝ} {F : Matrix (Fin n) (Fin q) ℝ} (y : Fin n → ℝ)
    (h : ¬ (K.PosDef ∧ (Fᵀ * (K⁻¹ * F)).PosDef)) : glsFit K F y = .error .linAlgError := by
  by_cases hK : K.PosDef
  · obtain ⟨L, hL, hc⟩ := cholesky_of_posDef hK
    have hM : ¬ (Fᵀ * (K⁻¹ * F)).PosDef := fun hM => h ⟨hK, hM⟩
    unfold glsFit
    rw [hL]
    show (do let alpha ← cholSolveV L y; _) = _
    rw [cholSolveV_eq hc]
    show (do let KF ← cholSolve L F; _) = _
    rw [cholSolve_eq hc]
    show (do let ld ← cholesky (Fᵀ * (K⁻¹ * F)); _) = _
    rw [cholesky_error hM]
    rfl
  · unfold glsFit
    rw [cholesky_error hK]
    rfl

theorem indep_iff (F : Matrix (Fin n) (Fin q) ℝ) : IndepColumns F ↔ Function.Injective F.mulVec := by
  constructor
  · intro h a b hab
    have := h (a - b) (by rw [Matrix.mulVec_sub]; exact sub_eq_zero.mpr hab)
    exact sub_eq_zero.mp this
  · intro h c hc
    exact h (by simp only [hc, Matrix.mulVec_zero])

open Classical in
theorem negLogLik_closed (K : Matrix (Fin n) (Fin n) ℝ) (F : Matrix (Fin n) (Fin q) ℝ) (y : Fin n → ℝ) (z : Prop) :
    negLogLik K F y z =
      if K.PosDef ∧ (Fᵀ * (K⁻¹ * F)).PosDef then
        if 0 < n then
          let b := (Fᵀ * (K⁻¹ * F))⁻¹ *ᵥ (Fᵀ *ᵥ (K⁻¹ *ᵥ y))
          let s := ((y - F *ᵥ b) ⬝ᵥ (K⁻¹ *ᵥ (y - F *ᵥ b))) / n
          if z then
            if 0 < s then .ok (-(-0.5 * n * Real.log s - 1 / 2 * Real.log K.det)) else .error .nonFinite
          else .ok (-(-0.5 * n * s - 1 / 2 * Real.log K.det))
        else .error .nonFinite
      else .error .linAlgError := by
  by_cases h : K.PosDef ∧ (Fᵀ * (K⁻¹ * F)).PosDef
  · rw [if_pos h]
    by_cases hn : 0 < n
    · rw [if_pos hn]
      obtain ⟨g, hg, hG⟩ := glsFit_succeeds y h.1 (mulVec_injective_of_posDef_conj h.2) hn
      unfold negLogLik
      rw [hg]
      have hs : g.sigma2 = ((y - F *ᵥ ((Fᵀ * (K⁻¹ * F))⁻¹ *ᵥ (Fᵀ *ᵥ (K⁻¹ *ᵥ y)))) ⬝ᵥ
          (K⁻¹ *ᵥ (y - F *ᵥ ((Fᵀ * (K⁻¹ * F))⁻¹ *ᵥ (Fᵀ *ᵥ (K⁻¹ *ᵥ y)))))) / n := by
        rw [hG.sigma2, hG.gamma, hG.beta]
      simp only
      rw [← hs, ← logDiag_eq hG.cholK]
      show (if z then _ else _) = _
      by_cases hz : z
      · rw [if_pos hz, if_pos hz]
        unfold npLog
        by_cases h0 : 0 < g.sigma2
        · rw [if_pos h0, if_pos h0]; rfl
        · rw [if_neg h0, if_neg h0]; rfl
      · rw [if_neg hz, if_neg hz]
    · rw [if_neg hn]
      have hn0 : n = 0 := by omega
      subst hn0
      obtain ⟨L, hL, hc⟩ := cholesky_of_posDef h.1
      obtain ⟨ld, hld, hm⟩ := cholesky_of_posDef h.2
      unfold negLogLik
      have : glsFit K F y = .error .nonFinite := by
        unfold glsFit
        rw [hL]
        show (do let alpha ← cholSolveV L y; _) = _
        rw [cholSolveV_eq hc]
        show (do let KF ← cholSolve L F; _) = _
        rw [cholSolve_eq hc]
        show (do let ld ← cholesky (Fᵀ * (K⁻¹ * F)); _) = _
        rw [hld]
        show (do let beta ← cholSolveV ld (Fᵀ *ᵥ (K⁻¹ *ᵥ y)); _) = _
        rw [cholSolveV_eq hm]
        show (do let gamma ← cholSolveV L (y - F *ᵥ ((Fᵀ * (K⁻¹ * F))⁻¹ *ᵥ (Fᵀ *ᵥ (K⁻¹ *ᵥ y)))); _) = _
        rw [cholSolveV_eq hc]
        show (do let sigma2 ← npDiv _ _; _) = _
        unfold npDiv
        rw [if_pos (by simp)]
        rfl
      rw [this]
      rfl
  · rw [if_neg h]
    unfold negLogLik
    rw [glsFit_error y h]
    rfl

/-! ### the restart loop -/

theorem restartLoop_spec {mini : Minimizer} {obj : (Fin p → ℝ) → Py ℝ} {lo hi : Fin p → ℝ} (hgood : GoodMinimizer mini)
    (hb : ∀ j, lo j ≤ hi j) (hobj : ∀ x, Between lo hi x → ∃ v, obj x = .ok v) (starts : List (Fin p → ℝ)) (best : WithTop ℝ × Option (Fin p → ℝ))
    (hbest : (best.1 = ⊤ ∧ best.2 = none) ∨ ∃ (x : Fin p → ℝ) (f : ℝ), best = ((f : WithTop ℝ), some x) ∧ Between lo hi x ∧ obj x = .ok f) :
    ∃ r, restartLoop mini obj lo hi starts best = .ok r ∧ r.1 ≤ best.1 ∧
      ((r.1 = ⊤ ∧ r.2 = none ∧ starts = []) ∨ ∃ (x : Fin p → ℝ) (f : ℝ), r = ((f : WithTop ℝ), some x) ∧ Between lo hi x ∧ obj x = .ok f) ∧
      ∀ x0 ∈ starts, ∀ x f, mini p obj x0 lo hi = .ok (x, f) → r.1 ≤ f := by
  induction starts generalizing best with
  | nil =>
    refine ⟨best, rfl, le_refl _, ?_, fun x0 h => absurd h (by simp)⟩
    rcases hbest with h | h
    · exact Or.inl ⟨h.1, h.2, rfl⟩
    · exact Or.inr h
  | cons x0 rest ih =>
    obtain ⟨x, f, hm, hx, hf⟩ := hgood p obj x0 lo hi hb hobj
    by_cases hlt : (f : WithTop ℝ) < best.1
    · obtain ⟨r, h1, h2, h3, h4⟩ := ih ((f : WithTop ℝ), some x) (Or.inr ⟨x, f, rfl, hx, hf⟩)
      refine ⟨r, ?_, h2.trans hlt.le, ?_, ?_⟩
      · unfold restartLoop
        refine Py.bind_ok.mpr ⟨_, hm, ?_⟩
        simp only
        rw [if_pos hlt]; exact h1
      · rcases h3 with ⟨h5, _, _⟩ | h5
        · rw [h5] at h2; exact absurd h2 (by simp)
        · exact Or.inr h5
      · intro z hz
        rcases List.mem_cons.mp hz with rfl | hz
        · intro x' f' h'
          rw [hm] at h'
          simp only [Except.ok.injEq, Prod.mk.injEq] at h'
          rw [← h'.2]; exact h2
        · exact h4 z hz
    · obtain ⟨r, h1, h2, h3, h4⟩ := ih best hbest
      refine ⟨r, ?_, h2, ?_, ?_⟩
      · unfold restartLoop
        refine Py.bind_ok.mpr ⟨_, hm, ?_⟩
        simp only
        rw [if_neg hlt]; exact h1
      · rcases h3 with ⟨h5, _, _⟩ | h5
        · rcases hbest with h | ⟨x', f', h, _⟩
          · rw [h.1] at hlt; exact absurd (WithTop.coe_lt_top f) hlt
          · rw [h5, h] at h2; exact absurd h2 (by simp)
        · exact Or.inr h5
      · intro z hz
        rcases List.mem_cons.mp hz with rfl | hz
        · intro x' f' h'
          rw [hm] at h'
          simp only [Except.ok.injEq, Prod.mk.injEq] at h'
          rw [← h'.2]; exact h2.trans (not_lt.mp hlt)
        · exact h4 z hz

/-- The search with the built-in optimiser. -/
theorem searchHyper_none {mini : Minimizer} {obj : (Fin p → ℝ) → Py ℝ} {lo hi : Fin p → ℝ} (hgood : GoodMinimizer mini)
    (hb : ∀ j, lo j ≤ hi j) (hobj : ∀ x, Between lo hi x → ∃ v, obj x = .ok v) (starts : List (Fin p → ℝ)) (hs : starts ≠ []) :
    ∃ x f, searchHyper none mini obj lo hi starts = .ok x ∧ Between lo hi x ∧ obj x = .ok f ∧
      ∀ x0 ∈ starts, ∀ x' f', mini p obj x0 lo hi = .ok (x', f') → f ≤ f' := by
  obtain ⟨r, h1, _, h3, h4⟩ := restartLoop_spec hgood hb hobj starts (⊤, none) (Or.inl ⟨rfl, rfl⟩)
  rcases h3 with ⟨_, _, h⟩ | ⟨x, f, hr, hx, hf⟩
  · exact absurd h hs
  · refine ⟨x, f, ?_, hx, hf, ?_⟩
    · unfold searchHyper
      refine Py.bind_ok.mpr ⟨_, h1, ?_⟩
      rw [hr]
    · intro x0 h0 x' f' h'
      have := h4 x0 h0 x' f' h'
      rw [hr] at this
      exact WithTop.coe_le_coe.mp this

/-- Every admissible optimiser setting: the search returns a point of the box. -/
theorem searchHyper_good {opt : Option PopOptimizer} {mini : Minimizer} {obj : (Fin p → ℝ) → Py ℝ} {lo hi : Fin p → ℝ} (hgood : GoodMinimizer mini)
    (hopt : ∀ run, opt = some run → 0 < p ∧ GoodPopOptimizer run)
    (hb : ∀ j, lo j ≤ hi j) (hobj : ∀ x, Between lo hi x → ∃ v, obj x = .ok v) (starts : List (Fin p → ℝ)) (hs : starts ≠ []) :
    ∃ x, searchHyper opt mini obj lo hi starts = .ok x ∧ Between lo hi x := by
  cases opt with
  | none =>
    obtain ⟨x, f, h1, h2, _⟩ := searchHyper_none hgood hb hobj starts hs
    exact ⟨x, h1, h2⟩
  | some run => exact (hopt run rfl).2 p (hopt run rfl).1 obj lo hi hb hobj

/-! ### training -/

open Classical in
/-- The likelihood of positive definite data is defined. -/
theorem negLogLik_ok {K : Matrix (Fin n) (Fin n) ℝ} {F : Matrix (Fin n) (Fin q) ℝ} (y : Fin n → ℝ) {z : Prop} (hK : K.PosDef) (hF : IndepColumns F)
    (hn : 0 < n) (hz : z → ∀ b, F *ᵥ b ≠ y) : ∃ v, negLogLik K F y z = .ok v := by
  obtain ⟨g, hg, hG⟩ := glsFit_succeeds y hK ((indep_iff F).mp hF) hn
  unfold negLogLik
  rw [hg]
  show ∃ v, (if z then _ else _) = _
  by_cases h : z
  · rw [if_pos h]
    have := hG.sigma2_pos (fun e => hz h _ e.symm)
    unfold npLog
    rw [if_pos this]
    exact ⟨_, rfl⟩
  · rw [if_neg h]
    exact ⟨_, rfl⟩

/-- A successful training call, decomposed. -/
structure IsTrained (gp : GPObj d q) (w : World d) (X : Samples n d) (y : Fin n → ℝ) (gp' : GPObj d q) (t : GPFit n d q) : Prop where
  range : ∀ j, gp.box.high j - gp.box.low j ≠ 0
  stdne : std y ≠ 0
  ex : ∃ theta noise, gp.fitHyper w (std y) (fun i => normPt gp.box (X i)) (fun i => (y i - mean y) / std y) = .ok (theta, noise) ∧
    gp' = { gp with kernel := gp.kernel.setParams theta, noise := some noise } ∧
    glsFit (covTrain (pow10 theta) (fun i => normPt gp.box (X i)) (noise / std y)) (regrMatrix gp.regr (fun i => normPt gp.box (X i)))
      (fun i => (y i - mean y) / std y) = .ok t.gls ∧
    t = { X := X, Xs := fun i => normPt gp.box (X i), y := y, ys := fun i => (y i - mean y) / std y, yMean := mean y, yStd := std y,
          F := regrMatrix gp.regr (fun i => normPt gp.box (X i)),
          K := covTrain (pow10 theta) (fun i => normPt gp.box (X i)) (noise / std y), gls := t.gls, noise := noise }

theorem normalizeInput_ok {b : Box ℝ d} {X Xs : Samples n d} (h : normalizeInput b X = .ok Xs) :
    (∀ j, b.high j - b.low j ≠ 0) ∧ Xs = fun i => normPt b (X i) := by
  unfold normalizeInput at h
  split at h
  · rename_i h1
    simp only [Except.ok.injEq] at h
    exact ⟨h1, h.symm⟩
  · cases h

theorem normalizeInput_eq {b : Box ℝ d} (X : Samples n d) (h : ∀ j, b.high j - b.low j ≠ 0) :
    normalizeInput b X = .ok (fun i => normPt b (X i)) := by
  unfold normalizeInput; rw [if_pos h]

theorem normalizeOutput_ok {y ys : Fin n → ℝ} (h : normalizeOutput y = .ok ys) : std y ≠ 0 ∧ ys = fun i => (y i - mean y) / std y := by
  unfold normalizeOutput at h
  split at h
  · cases h
  · rename_i h1
    simp only [Except.ok.injEq] at h
    exact ⟨h1, h.symm⟩

theorem normalizeOutput_eq {y : Fin n → ℝ} (h : std y ≠ 0) : normalizeOutput y = .ok (fun i => (y i - mean y) / std y) := by
  unfold normalizeOutput; rw [if_neg h]

theorem train_ok_iff {gp : GPObj d q} {w : World d} {X : Samples n d} {y : Fin n → ℝ} {gp' : GPObj d q} {t : GPFit n d q} :
    gp.train w X y = .ok (gp', t) ↔ IsTrained gp w X y gp' t := by
  constructor
  · intro h
    unfold GPObj.train at h
    obtain ⟨Xs, h1, h⟩ := Py.bind_ok.mp h
    obtain ⟨ys, h2, h⟩ := Py.bind_ok.mp h
    obtain ⟨⟨theta, noise⟩, h3, h⟩ := Py.bind_ok.mp h
    obtain ⟨g, h4, h⟩ := Py.bind_ok.mp h
    obtain ⟨hr, rfl⟩ := normalizeInput_ok h1
    obtain ⟨hs, rfl⟩ := normalizeOutput_ok h2
    simp only [Except.ok.injEq, Prod.mk.injEq] at h
    obtain ⟨e1, e2⟩ := h
    subst e1 e2
    exact ⟨hr, hs, theta, noise, h3, rfl, h4, rfl⟩
  · rintro ⟨hr, hs, theta, noise, h3, e1, h4, e2⟩
    subst e1
    unfold GPObj.train
    refine Py.bind_ok.mpr ⟨_, normalizeInput_eq X hr, Py.bind_ok.mpr ⟨_, normalizeOutput_eq hs, Py.bind_ok.mpr ⟨_, h3, Py.bind_ok.mpr ⟨_, h4, ?_⟩⟩⟩⟩
    rw [e2]
    rfl

/-- Facts used by every prediction theorem. -/
structure Trained (gp : GPObj d q) (t : GPFit n d q) : Prop where
  range : ∀ j, gp.box.high j - gp.box.low j ≠ 0
  stdpos : 0 < t.yStd
  Xs : t.Xs = fun i => normPt gp.box (t.X i)
  F : t.F = regrMatrix gp.regr t.Xs
  K : t.K = covTrain gp.kernel.param t.Xs (t.noise / t.yStd)
  ys : ∀ i, t.ys i * t.yStd + t.yMean = t.y i
  gls : IsGLS t.K t.F t.ys t.gls
  noise : gp.noise = some t.noise
  param : ∀ j, 0 < gp.kernel.param j

theorem trained_of_train {gp : GPObj d q} {w : World d} {X : Samples n d} {y : Fin n → ℝ} {gp' : GPObj d q} {t : GPFit n d q}
    (h : gp.train w X y = .ok (gp', t)) : Trained gp' t ∧ t.X = X ∧ t.y = y ∧ gp'.box = gp.box ∧ gp'.regr = gp.regr ∧
      (∀ s, gp.noise = some s → t.noise = s) ∧ t.yMean = mean y ∧ t.yStd = std y ∧ t.ys = (fun i => (y i - mean y) / std y) := by
  obtain ⟨hr, hs, theta, noise, h3, e1, h4, e2⟩ := train_ok_iff.mp h
  have hG := glsFit_ok h4
  have hn : ∀ s, gp.noise = some s → noise = s := by
    intro s hns
    unfold GPObj.fitHyper at h3
    rw [hns] at h3
    obtain ⟨x, _, h⟩ := Py.bind_ok.mp h3
    simp only [Except.ok.injEq, Prod.mk.injEq] at h
    exact h.2.symm
  generalize hg : t.gls = g at *
  subst e1 e2
  have hpos : 0 < std y := lt_of_le_of_ne (std_nonneg y) (Ne.symm hs)
  refine ⟨⟨hr, hpos, rfl, rfl, rfl, ?_, hG, rfl, fun j => pow10_pos theta j⟩, rfl, rfl, rfl, rfl, hn, rfl, rfl, rfl⟩
  intro i
  simp only
  rw [div_mul_cancel₀ _ hs]; ring

/-! ### prediction -/

theorem predictMean_eq {gp : GPObj d q} {t : GPFit n d q} (h : Trained gp t) (Xnew : Samples m d) :
    predictMean gp t Xnew = .ok (fun j => (regrMatrix gp.regr (fun i => normPt gp.box (Xnew i)) *ᵥ t.gls.beta +
      (rbfMatrix gp.kernel.param t.Xs (fun i => normPt gp.box (Xnew i)))ᵀ *ᵥ t.gls.gamma) j * t.yStd + t.yMean) := by
  unfold predictMean
  exact Py.bind_ok.mpr ⟨_, normalizeInput_eq Xnew h.range, rfl⟩

theorem mseOf_eq {K : Matrix (Fin n) (Fin n) ℝ} {F : Matrix (Fin n) (Fin q) ℝ} {y : Fin n → ℝ} {g : GLS n q} (h : IsGLS K F y g)
    (knew : Matrix (Fin n) (Fin m) ℝ) (f : Matrix (Fin m) (Fin q) ℝ) :
    mseOf g F knew f = .ok (fun j => g.sigma2 * (1 - (knewᵀ * (K⁻¹ * knew)) j j +
      ((fᵀ - Fᵀ * (K⁻¹ * knew))ᵀ * ((Fᵀ * (K⁻¹ * F))⁻¹ * (fᵀ - Fᵀ * (K⁻¹ * knew)))) j j)) := by
  unfold mseOf
  exact Py.bind_ok.mpr ⟨_, cholSolve_eq h.cholK _, Py.bind_ok.mpr ⟨_, cholSolve_eq h.cholM _, rfl⟩⟩

/-- The value at the training set itself of a model without noise. -/
theorem mse_train {K : Matrix (Fin n) (Fin n) ℝ} {F : Matrix (Fin n) (Fin q) ℝ} {y : Fin n → ℝ} {g : GLS n q} (h : IsGLS K F y g) (j : Fin n) :
    1 - (Kᵀ * (K⁻¹ * K)) j j + ((Fᵀ - Fᵀ * (K⁻¹ * K))ᵀ * ((Fᵀ * (K⁻¹ * F))⁻¹ * (Fᵀ - Fᵀ * (K⁻¹ * K)))) j j = 1 - K j j := by
  rw [Matrix.nonsing_inv_mul _ h.cholK.isUnitA, Matrix.mul_one, Matrix.mul_one, sub_self, h.symmK]
  simp

/-- The mean at the training set when the cross-correlation equals the covariance. -/
theorem mean_train {K : Matrix (Fin n) (Fin n) ℝ} {F : Matrix (Fin n) (Fin q) ℝ} {y : Fin n → ℝ} {g : GLS n q} (h : IsGLS K F y g) :
    F *ᵥ g.beta + Kᵀ *ᵥ g.gamma = y := by
  rw [h.symmK, h.K_gamma]
  abel

theorem rbfMatrix_diag (param : Fin d → ℝ) (hp : ∀ k, 0 ≤ param k) (Xs : Samples n d) (i : Fin n) : rbfMatrix param Xs Xs i i = 1 + nugget := by
  have h : rbfDist param (Xs i) (Xs i) = 0 := by rw [rbfDist_eq param hp]; simp
  simp [rbfMatrix, h]

theorem covTrain_zero (param : Fin d → ℝ) (Xs : Samples n d) : covTrain param Xs 0 = rbfMatrix param Xs Xs := by
  unfold covTrain; simp

end Mfpml.GP
