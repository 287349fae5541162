import Verif.Props.Resampling
import Verif.Props.SearchSolvable

/-!
# The acquisitions at evaluated points: `PI`, and concrete cases (C116)
-/

set_option linter.unusedSectionVars false

open scoped BigOperators Matrix

namespace Mfpml.Props

open Mfpml.GP Mfpml.Spec Mfpml.BO Mfpml.Acq
open Mfpml.EA (Box)

variable {n m d q : ℕ}

/-- In every reachable state, predicted alone, the first sample gets back its response, with standard deviation 0. -/
theorem first_sample (o : Outside d) (b : Box ℝ d) (f : List (Fin d → ℝ) → Py (List ℝ)) (optimum : Option ℝ) (eval : (m : ℕ) → SFSurr d → Samples m d → Py (Fin m → ℝ))
    (opt : Option (PopOpt o.env.S d)) (numInit seed : ℕ) {s : SFState ℝ (Fin d → ℝ) (Kriging d) o.env.S} (h : SFReachable (sfBO o b f optimum eval opt numInit seed) s) :
    ∃ (v : SFSurr d) (x0 : Fin d → ℝ) (y0 : ℝ), s.surrogate.view = .ok v ∧ s.sample[0]? = some x0 ∧ s.response[0]? = some y0 ∧ v.sampleY = s.response ∧ v.bounds = b ∧
      v.predict 1 (onePoint x0) = .ok (fun _ => y0, fun _ => 0) := by
  obtain ⟨hfit, ⟨y, hy, _⟩, _⟩ := sf_fitted h
  obtain ⟨v, h1, h2, h3, _, σ, h4, h5⟩ := hfit.view
  obtain ⟨⟨μ', σ', _, _, hp⟩, _⟩ := fitted_continuous hfit h1
  have hl : s.response.length = s.sample.length := hfit.choose
  have hpos : 0 < s.response.length := List.length_pos_of_mem hy
  have hpos' : 0 < s.sample.length := hl ▸ hpos
  refine ⟨v, s.sample[0], s.response[0], h1, List.getElem?_eq_getElem hpos', List.getElem?_eq_getElem hpos, h3, h2, ?_⟩
  rw [hp] at h4 ⊢
  simp only [Except.ok.injEq, Prod.mk.injEq] at h4
  have e1 := congrFun h4.1 ⟨0, hpos'⟩
  have e2 := (congrFun h4.2 ⟨0, hpos'⟩).trans (h5 _)
  simp only [rows, List.getD_eq_getElem?_getD, List.getElem?_eq_getElem hpos, Option.getD_some] at e1 e2
  congr 2
  · funext j
    rw [Fin.fin_one_eq_zero j]
    exact e1
  · funext j
    rw [Fin.fin_one_eq_zero j]
    exact e2

/-- C116 (probability of improvement). Whenever the first sample is the best one, `PI` rates that point, whose predicted standard deviation is 0, with probability of improvement 1/2. -/
theorem C116_pi_first (o : Outside d) (b : Box ℝ d) (f : List (Fin d → ℝ) → Py (List ℝ)) (optimum : Option ℝ) (eval : (m : ℕ) → SFSurr d → Samples m d → Py (Fin m → ℝ))
    (opt : Option (PopOpt o.env.S d)) (numInit seed : ℕ) {s : SFState ℝ (Fin d → ℝ) (Kriging d) o.env.S} (h : SFReachable (sfBO o b f optimum eval opt numInit seed) s)
    (hbest : s.response[0]? = some s.best) :
    ∃ (v : SFSurr d) (x0 : Fin d → ℝ), s.surrogate.view = .ok v ∧ s.sample[0]? = some x0 ∧ v.predict 1 (onePoint x0) = .ok (fun _ => s.best, fun _ => 0) ∧
      piEval v (onePoint x0) = .ok fun _ => -(1 / 2) := by
  obtain ⟨v, x0, y0, h1, h2, h3, h4, _, h5⟩ := first_sample o b f optimum eval opt numInit seed h
  obtain rfl : s.best = y0 := Option.some.inj (hbest.symm.trans h3)
  refine ⟨v, x0, h1, h2, h5, ?_⟩
  obtain ⟨_, _, hm⟩ := sf_fitted h
  refine Py.bind_ok.mpr ⟨s.best, by rw [h4]; exact hm, Py.bind_ok.mpr ⟨_, h5, fun_one ?_⟩⟩
  simp [normCdf_zero]

/-- A Kriging model fitted with the search that stays at the lower corner has all kernel parameters 0.01. -/
theorem corner_restarts {p : ℕ} {obj : (Fin p → ℝ) → Py ℝ} {lo hi : Fin p → ℝ} : ∀ (starts : List (Fin p → ℝ)) (best r : WithTop ℝ × Option (Fin p → ℝ)),
    (∀ x, best.2 = some x → x = lo) → restartLoop cornerMinimizer obj lo hi starts best = .ok r → ∀ x, r.2 = some x → x = lo := by
  intro starts
  induction starts with
  | nil => intro best r hb h; cases h; exact hb
  | cons x0 rest ih =>
    intro best r hb h
    unfold restartLoop at h
    obtain ⟨⟨x', f⟩, h2, h1⟩ := Py.bind_ok.mp h
    unfold cornerMinimizer at h2
    obtain ⟨v, _, h2⟩ := Py.bind_ok.mp h2
    simp only [Except.ok.injEq, Prod.mk.injEq] at h2
    dsimp only at h1
    split_ifs at h1 with hlt
    · exact ih _ _ (fun x hx => by rw [← h2.1] at hx; exact (Option.some.inj hx).symm) h1
    · exact ih _ _ hb h1

theorem corner_kriging {o : Outside d} (hm : o.mini = cornerMinimizer) (b : Box ℝ d) {xs : List (Fin d → ℝ)} {ys : List ℝ} {w w' : o.env.S} {k : Kriging d}
    (h : (freshKriging b).train o xs ys w = .ok (k, w')) : k.obj.kernel.param = fun _ => 0.01 := by
  unfold Kriging.train at h
  split_ifs at h with hl
  obtain ⟨⟨gp, t⟩, h1, h⟩ := Py.bind_ok.mp h
  cases h
  obtain ⟨hr, hs, theta, noise, h3, e1, h4, e2⟩ := train_ok_iff.mp h1
  unfold GPObj.fitHyper at h3
  obtain ⟨x, hx, h5⟩ := Py.bind_ok.mp h3
  simp only [Except.ok.injEq, Prod.mk.injEq] at h5
  unfold searchHyper at hx
  obtain ⟨r, h6, h7⟩ := Py.bind_ok.mp hx
  have hmini : ((o.world (freshKriging b).obj.kernel w).1).mini = cornerMinimizer := hm
  rw [hmini] at h6
  have hx' : x = fun _ => -2 := by
    refine corner_restarts _ _ _ (fun _ h => by cases h) h6 x ?_
    split at h7
    · rename_i heq; cases h7; exact heq
    · cases h7
  rw [e1]
  show pow10 theta = _
  rw [← h5.1, hx']
  funext j
  simp only [pow10]
  norm_num [Real.rpow_neg]

theorem gaussCorr_le_one (θ : Fin d → ℝ) (hθ : ∀ k, 0 ≤ θ k) (x y : Fin d → ℝ) : gaussCorr θ x y ≤ 1 :=
  Real.exp_le_one_iff.mpr (neg_nonpos.mpr (Finset.sum_nonneg fun k _ => mul_nonneg (hθ k) (sq_nonneg _)))

/-- The fit to two samples with scaled responses `-1` and `1`. -/
theorem two_point {gp : GPObj d 1} {t : GPFit 2 d 1} (hT : Trained gp t) (hr : gp.regr = ordinary d) (hno : t.noise = 0) (hy0 : t.ys 0 = -1) (hy1 : t.ys 1 = 1) :
    0 < 1 + 1e-10 - gaussCorr gp.kernel.param (t.Xs 0) (t.Xs 1) ∧ t.gls.beta 0 = 0 ∧
      t.gls.gamma 0 = -(1 / (1 + 1e-10 - gaussCorr gp.kernel.param (t.Xs 0) (t.Xs 1))) ∧ t.gls.gamma 1 = 1 / (1 + 1e-10 - gaussCorr gp.kernel.param (t.Xs 0) (t.Xs 1)) ∧
      t.gls.sigma2 = 1 / (1 + 1e-10 - gaussCorr gp.kernel.param (t.Xs 0) (t.Xs 1)) := by
  have hp := fun k => (hT.param k).le
  have hρ1 := gaussCorr_le_one gp.kernel.param hp (t.Xs 0) (t.Xs 1)
  set ρ := gaussCorr gp.kernel.param (t.Xs 0) (t.Xs 1) with hρ
  have hsym : gaussCorr gp.kernel.param (t.Xs 1) (t.Xs 0) = ρ := by
    rw [hρ]; unfold gaussCorr; congr 2; exact Finset.sum_congr rfl fun k _ => by ring
  have hpos : 0 < 1 + 1e-10 - ρ := by linarith
  have hN := congrFun hT.gls.normal 0
  have hM := mean_train hT.gls
  rw [hT.gls.symmK, hT.K, covTrain_apply _ hp, hno, zero_div, hT.F, hr] at hM
  rw [hT.F, hr] at hN
  have h0 := congrFun hM 0
  have h1 := congrFun hM 1
  rw [Pi.add_apply, ordinary_mulVec] at h0 h1
  simp only [Matrix.mulVec, dotProduct, Fin.sum_univ_two, Matrix.transpose_apply, regrMatrix, ordinary, Pi.zero_apply, if_true, gaussCorr_self, hsym, ← hρ, Fin.isValue, zero_ne_one, one_ne_zero, if_false, hy0, hy1] at h0 h1 hN
  have hg0 : t.gls.gamma 0 = -t.gls.gamma 1 := by linarith
  rw [hg0] at h0 h1
  have hg1 : t.gls.gamma 1 = 1 / (1 + 1e-10 - ρ) := by
    rw [eq_div_iff hpos.ne']; linarith
  have hb : t.gls.beta 0 = 0 := by linarith
  refine ⟨hpos, hb, by rw [hg0, hg1], hg1, ?_⟩
  rw [hT.gls.sigma2, hT.F, hr]
  simp only [dotProduct, Fin.sum_univ_two, Pi.sub_apply, ordinary_mulVec, hb, hy0, hy1, hg0, hg1]
  push_cast
  ring

theorem mean_two (y : Fin 2 → ℝ) : mean y = (y 0 + y 1) / 2 := by simp [mean, Fin.sum_univ_two]

theorem std_two (y : Fin 2 → ℝ) (h : y 0 ≤ y 1) : std y = (y 1 - y 0) / 2 := by
  rw [std, Fin.sum_univ_two, mean_two]
  rw [show ((y 0 - (y 0 + y 1) / 2) ^ 2 + (y 1 - (y 0 + y 1) / 2) ^ 2) / ((2 : ℕ) : ℝ) = ((y 1 - y 0) / 2) ^ 2 by push_cast; ring]
  exact Real.sqrt_sq (by linarith)

/-- The predictions of the model fitted to two samples. -/
theorem two_point_fit {b : Box ℝ d} {x0 x1 : Fin d → ℝ} {y0 y1 : ℝ} (hy : y0 < y1) {xs : List (Fin d → ℝ)} {ys : List ℝ} (hxs : xs = [x0, x1]) (hys : ys = [y0, y1]) {k : Kriging d}
    (h : Fitted b xs ys k) (c : (Fin d → ℝ) → (Fin d → ℝ) → ℝ) (hc : c = fun u v => gaussCorr k.obj.kernel.param (normPt b u) (normPt b v)) :
    0 < 1 + 1e-10 - c x0 x1 ∧ ∃ (t : GPFit xs.length d 1) (v : SFSurr d), k.fit = some ⟨_, t⟩ ∧ k.view = .ok v ∧ t.yStd = (y1 - y0) / 2 ∧ t.gls.sigma2 = 1 / (1 + 1e-10 - c x0 x1) ∧
      ∀ x, ∃ σ, v.predict 1 (onePoint x) = .ok (fun _ => (c x1 x - c x0 x - 1e-10) / (1 + 1e-10 - c x0 x1) * ((y1 - y0) / 2) + (y0 + y1) / 2, σ) := by
  subst hxs hys hc
  have hu := h.usual
  obtain ⟨hl, gp, w, t, h0, h1, h2⟩ := h
  obtain ⟨hT, hX, hy', hbox, hregr, hno, hmn, hstd, hys⟩ := trained_of_train h1
  have hys2 : (column [y0, y1] hl : Fin 2 → ℝ) 1 = y1 := rfl
  have hys1 : (column [y0, y1] hl : Fin 2 → ℝ) 0 = y0 := rfl
  have hS : t.yStd = (y1 - y0) / 2 := hstd.trans (std_two (column [y0, y1] hl) hy.le)
  have hM : t.yMean = (y0 + y1) / 2 := hmn.trans (mean_two (column [y0, y1] hl))
  have hd : (y1 - y0) / 2 ≠ 0 := by linarith
  have e0 : t.ys (0 : Fin 2) = -1 := by
    have := hT.ys (0 : Fin 2)
    rw [hy', hS, hM] at this
    have h3 : t.ys (0 : Fin 2) * ((y1 - y0) / 2) + (y0 + y1) / 2 = y0 := this
    have h4 : (t.ys (0 : Fin 2) + 1) * ((y1 - y0) / 2) = 0 := by linarith
    rcases mul_eq_zero.mp h4 with h5 | h5
    · linarith
    · exact absurd h5 hd
  have e1 : t.ys (1 : Fin 2) = 1 := by
    have := hT.ys (1 : Fin 2)
    rw [hy', hS, hM] at this
    have h3 : t.ys (1 : Fin 2) * ((y1 - y0) / 2) + (y0 + y1) / 2 = y1 := this
    have h4 : (t.ys (1 : Fin 2) - 1) * ((y1 - y0) / 2) = 0 := by linarith
    rcases mul_eq_zero.mp h4 with h5 | h5
    · linarith
    · exact absurd h5 hd
  have hn0 : t.noise = 0 := hno 0 h0.noise
  have hx0 : t.Xs (0 : Fin 2) = normPt b x0 := by rw [hT.Xs, hX, hu.box]; rfl
  have hx1 : t.Xs (1 : Fin 2) = normPt b x1 := by rw [hT.Xs, hX, hu.box]; rfl
  obtain ⟨k1, k2, k3, k4, k5⟩ := two_point hT hu.regr hn0 e0 e1
  rw [hx0, hx1] at k1 k3 k4 k5
  refine ⟨k1, t, _, h2, by rw [Kriging.view, h2], hS, k5, fun x => ?_⟩
  obtain ⟨μ, σ, hm, _⟩ := (C35_std gp w _ _ k.obj t h1).1 1 (onePoint x)
  refine ⟨σ, ?_⟩
  have hmean := C37_gp _ _ _ _ _ hm
  rw [mean_row hT] at hmean
  have := Except.ok.inj hmean
  show GP.predictStd k.obj t (onePoint x) = _
  rw [hm, ← this]
  congr 2
  funext j
  rw [Fin.fin_one_eq_zero j, hS, hM]
  congr 2
  rw [hu.regr, hu.box]
  show (_ + ∑ i : Fin 2, _) = _
  rw [Fin.sum_univ_two, hx0, hx1, k3, k4]
  simp [ordinary, dotProduct, k2, onePoint]
  ring

/-- Expected improvement is at least the improvement of the mean. -/
theorem le_expectedImprovement (best μ : ℝ) {σ : ℝ} (h : 0 ≤ σ) : best - μ ≤ expectedImprovement best μ σ := by
  rcases h.eq_or_lt with rfl | h
  · rw [expectedImprovement_eq_integral]
    simp only [zero_mul, sub_zero]
    rw [MeasureTheory.integral_const_mul]
    have : ∫ z, normPdf z = 1 := ProbabilityTheory.integral_gaussianPDFReal_eq_one 0 one_ne_zero
    rw [this, mul_one]
    exact le_max_left _ _
  · have h1 := expectedImprovement_nonneg μ best σ
    rw [expectedImprovement_eq _ _ h] at h1 ⊢
    have e : (μ - best) / σ = -((best - μ) / σ) := by ring
    rw [e, normCdf_neg, normPdf_neg] at h1
    linarith

/-! ### `EI` proposes a new point -/

theorem exInterval_corr (k : Kriging 1) (hk : k.obj.kernel.param = fun _ => 0.01) (u v : Fin 1 → ℝ) :
    gaussCorr k.obj.kernel.param (normPt exInterval u) (normPt exInterval v) = Real.exp (-(0.01 * (u 0 - v 0) ^ 2)) := by
  simp [gaussCorr, hk, normPt, exInterval]

/-- `C116_ei_new_point_partial` applies: with an exact search, objective `x` on the unit interval and the samples 0.5 and 1, the expected improvement at 0 is large, and `EI` proposes a new point. -/
theorem exEI_new_point : ∃ s, SFReachable (sfBO (exactOutside 1) exInterval (fun xs => .ok (xs.map fun x => x 0)) none (fun _ => eiEval) none 2 1996) s ∧
    ∃ x w, (sfBO (exactOutside 1) exInterval (fun xs => .ok (xs.map fun x => x 0)) none (fun _ => eiEval) none 2 1996).query s.surrogate s.rng = .ok (x, w) ∧ x ∉ s.sample := by
  obtain ⟨s, hs⟩ : ∃ s, (sfBO (exOutside 1) exInterval (fun xs => .ok (xs.map fun x => x 0)) none (fun _ => eiEval) none 2 1996).new (0 : ℕ) = .ok s := by
    obtain ⟨s, hs⟩ := exSF_reachable
    induction hs with
    | new w h => exact ⟨_, (C87_reproducible (exOutside 1) (exOutside_lawful 1) exInterval).1 _ _ _ _ _ _ w (0 : ℕ) ▸ h⟩
    | run _ _ _ _ ih => exact ih
  have hr : SFReachable (sfBO (exactOutside 1) exInterval (fun xs => .ok (xs.map fun x => x 0)) none (fun _ => eiEval) none 2 1996) s := .new (0 : ℕ) hs
  obtain ⟨x, w, hq⟩ := exact_query (fun _ => by simp [exInterval]) (Or.inr (Or.inl rfl)) hr
  refine ⟨s, hr, x, w, hq, ?_⟩
  obtain ⟨w1, i, h1, h2, h3, _⟩ := sf_new_steps hs
  have hk := corner_kriging (o := exOutside 1) rfl exInterval h3
  have hx : s.sample = [fun _ => 1 / 2, fun _ => 1] := by
    have := (Prod.mk.inj (Except.ok.inj h1)).1
    rw [← this]
    simp only [Sampling.lhsSamples, Sampling.scaleSamples, exOutside, List.range_succ, List.range_zero, List.nil_append, List.map_append, List.map_cons, List.map_nil, exInterval, List.cons_append]
    congr 1
    · funext j; norm_num [Sampling.scalePt]
    · congr 1; funext j; norm_num [Sampling.scalePt]
  have hy : s.response = [1 / 2, 1] := by
    have := Except.ok.inj h2
    rw [← this, hx]
    simp
  obtain ⟨hfit, _, hm⟩ := sf_fitted hr
  have hb : s.best = 1 / 2 := by
    rw [hy] at hm
    have := Except.ok.inj hm
    rw [← this]
    norm_num [npMin]
  obtain ⟨k1, t, v, k2, k3, k4, k5, k6⟩ := two_point_fit (by norm_num : (1 / 2 : ℝ) < 1) hx hy hfit _ rfl
  obtain ⟨σ, k7⟩ := k6 fun _ => 0
  have hnn := (fitted_continuous hfit k3).2 _ _ _ _ k7 0
  refine C116_ei_new_point_partial (exactOutside 1) (exactSearch_spec _) exInterval _ none 2 1996 hr hq k2 k3 (fun _ => 0) (fun _ => by simp [exInterval]) _ σ k7 ?_
  refine lt_of_lt_of_le ?_ (le_expectedImprovement _ _ hnn)
  simp only [exInterval_corr _ hk] at k1 k5 ⊢
  rw [k4, k5, hb, hx]
  have hρl : (0.99 : ℝ) ≤ Real.exp (-(0.01 * (1 / 2 - 1) ^ 2)) := by
    have := Real.add_one_le_exp (-(0.01 * (1 / 2 - 1) ^ 2) : ℝ)
    refine le_trans ?_ this
    norm_num
  have hρu : Real.exp (-(0.01 * (1 / 2 - 1) ^ 2)) ≤ (0.998 : ℝ) := by
    rw [Real.exp_neg]
    refine inv_le_of_inv_le₀ (by norm_num) ?_
    refine le_trans ?_ (Real.add_one_le_exp _)
    norm_num
  have e1 : Real.exp (-(0.01 * (1 / 2 - 0) ^ 2)) = Real.exp (-(0.01 * (1 / 2 - 1) ^ 2)) := by norm_num
  have e2 : Real.exp (-(0.01 * ((1 : ℝ) - 0) ^ 2)) = Real.exp (-(0.01 * (1 / 2 - 1) ^ 2)) ^ 4 := by
    rw [← Real.exp_nat_mul]; norm_num
  rw [e1, e2]
  set ρ := Real.exp (-(0.01 * (1 / 2 - 1) ^ 2))
  have h4 : (ρ ^ 4 - ρ - 1e-10) / (1 + 1e-10 - ρ) ≤ -2 := by
    rw [div_le_iff₀ k1]
    nlinarith [mul_nonneg (sub_nonneg.mpr hρu) (sub_nonneg.mpr hρl), pow_le_pow_left₀ (by norm_num) hρl 2, pow_le_pow_left₀ (by norm_num) hρl 3]
  have h5 : Real.sqrt (1 / (1 + 1e-10 - ρ)) ≤ 25 := by
    rw [Real.sqrt_le_left (by norm_num), div_le_iff₀ k1]
    linarith
  have h6 : Real.sqrt (2 * (([fun _ => 1 / 2, fun _ => 1] : List (Fin 1 → ℝ)).length : ℝ)) = 2 := by
    rw [show (2 * (([fun _ => 1 / 2, fun _ => 1] : List (Fin 1 → ℝ)).length : ℝ)) = 2 ^ 2 by simp; norm_num]
    exact Real.sqrt_sq (by norm_num)
  rw [h6]
  have h7 := Real.sqrt_nonneg (1 / (1 + 1e-10 - ρ))
  nlinarith

/-! ### `PI` proposes an evaluated point -/

/-- An outside world whose Latin hypercube starts at the lower corner. -/
noncomputable def edgeEnv : Outside 1 :=
  { exOutside 1 with env := { (exOutside 1).env with lhs := fun _ n s => ((List.range n).map (fun i : ℕ => fun _ => (i : ℝ) / n), s) } }

theorem edgeEnv_lawful : Lawful edgeEnv where
  env :=
    { (exOutside_lawful 1).env with
      lhs_len := by intro sd n s; simp [edgeEnv]
      lhs_unit := by
        intro sd n s x hx j
        simp only [edgeEnv, List.mem_map, List.mem_range] at hx
        obtain ⟨i, hi, rfl⟩ := hx
        have hn : (0 : ℝ) < n := by exact_mod_cast (by omega : 0 < n)
        refine ⟨by positivity, ?_⟩
        rw [div_le_one hn]
        exact_mod_cast hi.le
      lhs_seeded := fun _ _ _ _ => ⟨rfl, rfl⟩ }
  mini := (exOutside_lawful 1).mini
  uniform_len := (exOutside_lawful 1).uniform_len
  de := (exOutside_lawful 1).de
  de_total := (exOutside_lawful 1).de_total

/-- The same with the exact search. -/
noncomputable def edgeOutside : Outside 1 := { edgeEnv with de := exactSearch (W := ℕ) fun w => w }

/-- C116 is false of `PI`: on the unit interval with objective `x`, samples 0 and 0.5 and an exact search, `PI` proposes the point 0, which has been evaluated and whose predicted standard deviation is 0. -/
theorem C116_pi_counterexample : ApproxSearch 0 edgeOutside.de ∧
    ∃ s, SFReachable (sfBO edgeOutside exInterval (fun xs => .ok (xs.map fun x => x 0)) none (fun _ => piEval) none 2 1996) s ∧
    ∃ x w v mean, (sfBO edgeOutside exInterval (fun xs => .ok (xs.map fun x => x 0)) none (fun _ => piEval) none 2 1996).query s.surrogate s.rng = .ok (x, w) ∧ x ∈ s.sample ∧
      s.surrogate.view = .ok v ∧ v.predict 1 (onePoint x) = .ok (mean, fun _ => 0) := by
  refine ⟨exactSearch_spec _, ?_⟩
  set f : List (Fin 1 → ℝ) → Py (List ℝ) := fun xs => .ok (xs.map fun x => x 0) with hf
  have hxs : (Sampling.lhsSamples edgeOutside.env exInterval 2 (some 1996) (edgeOutside.env.seed 1996 (0 : ℕ))).1 = [fun _ => 0, fun _ => 1 / 2] := by
    simp only [Sampling.lhsSamples, Sampling.scaleSamples, edgeOutside, edgeEnv, List.range_succ, List.range_zero, List.nil_append, List.map_append, List.map_cons, List.map_nil, exInterval, List.cons_append]
    congr 1
    · funext j; norm_num [Sampling.scalePt]
    · congr 1; funext j; norm_num [Sampling.scalePt]
  obtain ⟨s, hs⟩ : ∃ s, (sfBO edgeOutside exInterval f none (fun _ => piEval) none 2 1996).new (0 : ℕ) = .ok s := by
    refine ((C86_sf_succeeds edgeEnv edgeEnv_lawful one_pos exInterval (fun _ => by simp [exInterval]) (f := f) (g := fun x => x 0) (fun _ => rfl) none (eval := fun _ => piEval)
      (Or.inr (Or.inr rfl)) 2 1996).1 (0 : ℕ)).mpr ?_
    have hxs' : (Sampling.lhsSamples edgeEnv.env exInterval 2 (some 1996) (edgeEnv.env.seed 1996 (0 : ℕ))).1 = [fun _ => 0, fun _ => 1 / 2] := hxs
    rw [hxs']
    exact ⟨fun _ => 0, by simp, fun _ => 1 / 2, by simp, by norm_num⟩
  have hr : SFReachable (sfBO edgeOutside exInterval f none (fun _ => piEval) none 2 1996) s := .new (0 : ℕ) hs
  obtain ⟨w1, i, h1, h2, h3, _⟩ := sf_new_steps hs
  have hk := corner_kriging (o := edgeOutside) rfl exInterval h3
  have hx : s.sample = [fun _ => 0, fun _ => 1 / 2] := by
    have := (Prod.mk.inj (Except.ok.inj h1)).1
    rw [← this]
    exact hxs
  have hy : s.response = [0, 1 / 2] := by
    have := Except.ok.inj h2
    rw [← this, hx]
    simp
  obtain ⟨hfit, _, hm⟩ := sf_fitted hr
  have hb : s.best = 0 := by
    rw [hy] at hm
    have := Except.ok.inj hm
    rw [← this]
    norm_num
  obtain ⟨v, x0, p1, p2, p3, p4⟩ := C116_pi_first _ _ _ _ _ _ _ _ hr (by rw [hy, hb]; rfl)
  obtain rfl : x0 = fun _ => 0 := by
    rw [hx] at p2
    exact (Option.some.inj p2).symm
  obtain ⟨v', hv', hmin⟩ := C118_sf_reachable edgeOutside exInterval (fun _ => by simp [exInterval]) f none (Or.inr (Or.inr rfl)) none 2 1996 hr
  obtain rfl : v = v' := Except.ok.inj (p1.symm.trans hv')
  obtain ⟨k1, t, v', k2, k3, k4, k5, k6⟩ := two_point_fit (by norm_num : (0 : ℝ) < 1 / 2) hx hy hfit _ rfl
  obtain rfl : v = v' := Except.ok.inj (p1.symm.trans k3)
  obtain ⟨v', hv'', hbd, hsy, _⟩ := hfit.view
  obtain rfl : v = v' := Except.ok.inj (p1.symm.trans hv'')
  have key : ∀ z a, InBounds exInterval z → single (piEval v) z = .ok a → a ≤ -(1 / 2) → z = fun _ => 0 := by
    intro z a q1 q2 hle
    obtain ⟨σ, k7⟩ := k6 z
    have hnn := (fitted_continuous hfit p1).2 _ _ _ _ k7 0
    have hpi : single (piEval v) z = .ok _ := single_ok (Py.bind_ok.mpr ⟨s.best, by rw [hsy]; exact hm, Py.bind_ok.mpr ⟨_, k7, fun_one rfl⟩⟩)
    have hge := Except.ok.inj (q2.symm.trans hpi)
    rw [hge, hb, neg_le_neg_iff] at hle
    have hz := normCdf_strictMono.le_iff_le.mp (normCdf_zero.le.trans hle)
    have hden : 0 < σ 0 + tiny9 := add_pos_of_nonneg_of_pos hnn tiny9_pos
    rw [le_div_iff₀ hden, zero_mul] at hz
    have hq := q1 0
    simp only [exInterval_corr _ hk] at k1 hz
    simp only [exInterval] at hq
    funext j
    rw [Fin.fin_one_eq_zero j]
    by_contra hne
    have hpos : 0 < z 0 := lt_of_le_of_ne hq.1 (Ne.symm hne)
    have e1 : Real.exp (-(0.01 * (1 / 2 - z 0) ^ 2)) = Real.exp (-(0.01 * (0 - z 0) ^ 2)) * Real.exp (0.01 * (z 0 - 1 / 4)) := by
      rw [← Real.exp_add]; congr 1; ring
    have e2 : Real.exp (-(0.01 * (0 - 1 / 2) ^ 2)) < Real.exp (0.01 * (z 0 - 1 / 4)) := by
      refine Real.exp_lt_exp.mpr ?_
      norm_num
      linarith
    have e3 : Real.exp (-(0.01 * (0 - z 0) ^ 2)) ≤ 1 := Real.exp_le_one_iff.mpr (by nlinarith [sq_nonneg (0 - z 0)])
    have e4 : 0 < Real.exp (-(0.01 * (0 - z 0) ^ 2)) := Real.exp_pos _
    have e5 : Real.exp (-(0.01 * (0 - 1 / 2) ^ 2)) < (1 : ℝ) := by rw [← Real.exp_zero]; exact Real.exp_lt_exp.mpr (by norm_num)
    rw [e1] at hz
    generalize Real.exp (-(0.01 * (0 - z 0) ^ 2)) = A at *
    generalize Real.exp (0.01 * (z 0 - 1 / 4)) = E at *
    generalize Real.exp (-(0.01 * (0 - 1 / 2) ^ 2)) = ρ at *
    have h8 : (A * E - A - 1e-10) / (1 + 1e-10 - ρ) ≤ -1 := by linarith
    rw [div_le_iff₀ k1] at h8
    have h9 : A * (E - 1) ≤ ρ - 1 := by linarith
    rcases le_or_gt 1 E with h10 | h10
    · nlinarith [mul_nonneg e4.le (sub_nonneg.mpr h10)]
    · nlinarith [mul_nonneg (sub_nonneg.mpr e3) (sub_nonneg.mpr h10.le)]
  have hx0 : hmin.choose = fun _ => 0 := by
    obtain ⟨q1, q2, q3⟩ := hmin.choose_spec.choose_spec
    obtain ⟨u, hu, hle⟩ := q3 (fun _ => 0) fun _ => by simp [exInterval]
    have hu' : u = -(1 / 2) := by
      have : single (piEval v) (fun _ => 0) = .ok (-(1 / 2)) := single_ok p4
      rw [this] at hu
      exact (Except.ok.inj hu).symm
    exact key _ _ q1 q2 (hle.trans hu'.le)
  refine ⟨s, hr, hmin.choose, s.rng, v, fun _ => s.best, Py.bind_ok.mpr ⟨v, p1, Py.bind_ok.mpr ⟨((hmin.choose, hmin.choose_spec.choose), s.rng), ?_, rfl⟩⟩, ?_, p1, ?_⟩
  · show exactSearch (W := ℕ) (fun w => w) (single (piEval v)) v.bounds s.rng = _
    unfold exactSearch
    rw [hbd, dif_pos hmin]
    rfl
  · rw [hx0, hx]; simp
  · rw [hx0]; exact p3

end Mfpml.Props
