import Verif.Props.SearchSolvable
import Verif.Props.Likelihood

/-!
# Training as maximum likelihood: the searched likelihood has an optimum, and an exact search finds it (C119)
-/

set_option linter.unusedSectionVars false

open scoped BigOperators Matrix

namespace Mfpml.Props

open Mfpml.GP Mfpml.Spec Mfpml.BO
open Mfpml.EA (Box)

variable {n m d q nh nl : ℕ}

theorem continuous_inv_of_det {α : Type} [TopologicalSpace α] {K : α → Matrix (Fin n) (Fin n) ℝ} (hK : Continuous K) (h : ∀ a, (K a).det ≠ 0) : Continuous fun a => (K a)⁻¹ := by
  simp only [Matrix.inv_def, Ring.inverse_eq_inv']
  exact (hK.matrix_det.inv₀ h).smul hK.matrix_adjugate

theorem continuous_covTrain (X : Samples n d) : Continuous fun p : (Fin d → ℝ) × ℝ => covTrain (pow10 p.1) X p.2 := by
  refine continuous_matrix fun i j => ?_
  show Continuous fun p : (Fin d → ℝ) × ℝ => Real.exp (-rbfDist (pow10 p.1) (X i) (X j)) + (if i.val = j.val then 1 else 0) * nugget + p.2 ^ 2 * (1 : Matrix (Fin n) (Fin n) ℝ) i j
  have h10 : Continuous fun p : (Fin d → ℝ) × ℝ => pow10 p.1 :=
    continuous_pi fun k => (Real.continuous_const_rpow (by norm_num : (10 : ℝ) ≠ 0)).comp ((continuous_apply k).comp continuous_fst)
  have hd : Continuous fun θ : Fin d → ℝ => rbfDist θ (X i) (X j) := by
    unfold rbfDist
    fun_prop
  exact ((Real.continuous_exp.comp (hd.comp h10).neg).add continuous_const).add ((continuous_snd.pow 2).mul_const _)

open Classical in
/-- The value computed for a correlation matrix varies continuously with it. -/
theorem negLogLik_continuous {α : Type} [TopologicalSpace α] {K : α → Matrix (Fin n) (Fin n) ℝ} (hK : Continuous K) (hpd : ∀ a, (K a).PosDef) {F : Matrix (Fin n) (Fin q) ℝ} (hF : IndepColumns F)
    (hn : 0 < n) (y : Fin n → ℝ) (z : Prop) (hfit : z → ∀ b, F *ᵥ b ≠ y) : ∃ g : α → ℝ, Continuous g ∧ ∀ a, negLogLik (K a) F y z = .ok (g a) := by
  have hM : ∀ a, (Fᵀ * ((K a)⁻¹ * F)).PosDef := fun a => posDef_conj (hpd a) ((indep_iff _).mp hF)
  set b : α → Fin q → ℝ := fun a => (Fᵀ * ((K a)⁻¹ * F))⁻¹ *ᵥ (Fᵀ *ᵥ ((K a)⁻¹ *ᵥ y)) with hb
  set s : α → ℝ := fun a => ((y - F *ᵥ b a) ⬝ᵥ ((K a)⁻¹ *ᵥ (y - F *ᵥ b a))) / n with hs
  have hclosed : ∀ a, negLogLik (K a) F y z = if z then if 0 < s a then .ok (-(-0.5 * n * Real.log (s a) - 1 / 2 * Real.log (K a).det)) else .error .nonFinite
      else .ok (-(-0.5 * n * s a - 1 / 2 * Real.log (K a).det)) := fun a => by
    rw [negLogLik_closed, if_pos ⟨hpd a, hM a⟩, if_pos hn]
  have ci : Continuous fun a => (K a)⁻¹ := continuous_inv_of_det hK fun a => (hpd a).det_pos.ne'
  have cm : Continuous fun a => (Fᵀ * ((K a)⁻¹ * F))⁻¹ :=
    continuous_inv_of_det (continuous_const.matrix_mul (ci.matrix_mul continuous_const)) fun a => (hM a).det_pos.ne'
  have cb : Continuous b := cm.matrix_mulVec (continuous_const.matrix_mulVec (ci.matrix_mulVec continuous_const))
  have cr : Continuous fun a => y - F *ᵥ b a := continuous_const.sub (continuous_const.matrix_mulVec cb)
  have cs : Continuous s := (cr.dotProduct (ci.matrix_mulVec cr)).div_const _
  have cdet : Continuous fun a => Real.log (K a).det := hK.matrix_det.log fun a => (hpd a).det_pos.ne'
  by_cases hz : z
  · have hpos : ∀ a, 0 < s a := by
      intro a
      by_contra hcon
      obtain ⟨v, hv⟩ := negLogLik_ok y (hpd a) hF hn hfit
      rw [hclosed a, if_pos hz, if_neg hcon] at hv
      cases hv
    refine ⟨fun a => -(-0.5 * n * Real.log (s a) - 1 / 2 * Real.log (K a).det), ?_, fun a => by rw [hclosed a, if_pos hz, if_pos (hpos a)]⟩
    exact ((continuous_const.mul (cs.log fun a => (hpos a).ne')).sub (continuous_const.mul cdet)).neg
  · refine ⟨fun a => -(-0.5 * n * s a - 1 / 2 * Real.log (K a).det), ?_, fun a => by rw [hclosed a, if_neg hz]⟩
    exact ((continuous_const.mul cs).sub (continuous_const.mul cdet)).neg

open Classical in
/-- The value, as the likelihood of the fitted trend and process variance. -/
theorem negLogLik_value {K : Matrix (Fin n) (Fin n) ℝ} {F : Matrix (Fin n) (Fin q) ℝ} {y : Fin n → ℝ} {g : GLS n q} (hg : glsFit K F y = .ok g) {z : Prop} {v : ℝ} (h : negLogLik K F y z = .ok v) :
    (z → 0 < g.sigma2 ∧ gaussNLL (g.sigma2 • K) (y - F *ᵥ g.beta) = v + n / 2 * (1 + Real.log (2 * Real.pi))) ∧
    (¬z → gaussNLL K (y - F *ᵥ g.beta) = v + n / 2 * Real.log (2 * Real.pi)) := by
  unfold negLogLik at h
  rw [hg] at h
  have hG := glsFit_ok hg
  have hn : (n : ℝ) ≠ 0 := by exact_mod_cast hG.pos.ne'
  have hs : g.sigma2 = wnorm K (y - F *ᵥ g.beta) / n := by rw [hG.sigma2, hG.gamma]; rfl
  have hw : wnorm K (y - F *ᵥ g.beta) = n * g.sigma2 := by rw [hs]; field_simp
  have h' : (if z then (do let l ← npLog g.sigma2; .ok (-(-0.5 * n * l - logDiag g.L))) else .ok (-(-0.5 * n * g.sigma2 - logDiag g.L)) : Py ℝ) = .ok v := h
  constructor
  · intro hz
    rw [if_pos hz] at h'
    obtain ⟨l, hl, h'⟩ := Py.bind_ok.mp h'
    unfold npLog at hl
    split_ifs at hl with hp
    cases hl; cases h'
    refine ⟨hp, ?_⟩
    rw [gaussNLL_smul K hp hG.posDef, hw, logDiag_eq hG.cholK]
    field_simp
    ring
  · intro hz
    rw [if_neg hz] at h'
    cases h'
    unfold gaussNLL
    rw [hw, logDiag_eq hG.cholK]
    ring

/-- An optimiser that returns the smallest value in the box whenever there is one. -/
def ExactMinimizer (mini : Minimizer) : Prop :=
  GoodMinimizer mini ∧ ∀ (p : ℕ) (obj : (Fin p → ℝ) → Py ℝ) (x0 lo hi x : Fin p → ℝ) (f : ℝ), HasMinimum ⟨lo, hi⟩ obj → mini p obj x0 lo hi = .ok (x, f) →
    ∀ x' v', Between lo hi x' → obj x' = .ok v' → f ≤ v'

theorem searchHyper_exact {p : ℕ} {mini : Minimizer} (hex : ExactMinimizer mini) {obj : (Fin p → ℝ) → Py ℝ} {lo hi : Fin p → ℝ} (hmin : HasMinimum ⟨lo, hi⟩ obj) {starts : List (Fin p → ℝ)} (hs : starts ≠ [])
    {x : Fin p → ℝ} (h : searchHyper none mini obj lo hi starts = .ok x) : Between lo hi x ∧ ∃ f, obj x = .ok f ∧ ∀ x' v', Between lo hi x' → obj x' = .ok v' → f ≤ v' := by
  obtain ⟨x0, v0, hx0, hv0, hall⟩ := id hmin
  have hb : ∀ j, lo j ≤ hi j := fun j => (hx0 j).1.trans (hx0 j).2
  have hobj : ∀ x, Between lo hi x → ∃ v, obj x = .ok v := fun x hx => let ⟨v, hv, _⟩ := hall x hx; ⟨v, hv⟩
  obtain ⟨x1, f, k1, k2, k3, k4⟩ := searchHyper_none hex.1 hb hobj starts hs
  obtain rfl := Except.ok.inj (k1.symm.trans h)
  obtain ⟨st, hst⟩ := List.exists_mem_of_ne_nil starts hs
  obtain ⟨x2, f2, e1, _, _⟩ := hex.1 p obj st lo hi hb hobj
  exact ⟨k2, f, k3, fun x' v' hx' hv' => (k4 st hst x2 f2 e1).trans (hex.2 p obj st lo hi x2 f2 hmin e1 x' v' hx' hv')⟩

open Classical in
/-- The minimiser that knows the answer; where there is none it stays at the lower corner. -/
noncomputable def knowingMinimizer : Minimizer := fun p obj x0 lo hi =>
  if h : HasMinimum ⟨lo, hi⟩ obj then .ok (h.choose, h.choose_spec.choose) else cornerMinimizer p obj x0 lo hi

theorem knowingMinimizer_exact : ExactMinimizer knowingMinimizer := by
  constructor
  · intro p obj x0 lo hi hb hobj
    unfold knowingMinimizer
    split_ifs with h
    · obtain ⟨h1, h2, _⟩ := h.choose_spec.choose_spec
      exact ⟨_, _, rfl, h1, h2⟩
    · exact cornerMinimizer_good p obj x0 lo hi hb hobj
  · intro p obj x0 lo hi x f hm h x' v' hx' hv'
    unfold knowingMinimizer at h
    rw [dif_pos hm] at h
    obtain ⟨_, _, h3⟩ := hm.choose_spec.choose_spec
    obtain ⟨u, hu, hle⟩ := h3 x' hx'
    obtain rfl := Except.ok.inj (hu.symm.trans hv')
    rw [← (Prod.mk.inj (Except.ok.inj h)).2]
    exact hle

/-! ## The searched likelihoods have optima -/

theorem noise_le : noiseLow ≤ noiseHigh := by unfold noiseLow noiseHigh; norm_num

theorem between_snoc {lo hi a b : ℝ} {x : Fin (d + 1) → ℝ} : Between (Fin.snoc (α := fun _ => ℝ) (fun _ : Fin d => lo) a) (Fin.snoc (α := fun _ => ℝ) (fun _ : Fin d => hi) b) x ↔
    (∀ j : Fin d, lo ≤ x j.castSucc ∧ x j.castSucc ≤ hi) ∧ a ≤ x (Fin.last d) ∧ x (Fin.last d) ≤ b := by
  constructor
  · intro h
    exact ⟨fun j => by simpa using h j.castSucc, by simpa using h (Fin.last d)⟩
  · rintro ⟨h1, h2⟩ j
    refine Fin.lastCases ?_ (fun i => ?_) j
    · simpa using h2
    · simpa using h1 i

/-- Core: known noise. -/
theorem hasMinimum_known (X : Samples n d) {F : Matrix (Fin n) (Fin q) ℝ} (hF : IndepColumns F) (hn : 0 < n) (y : Fin n → ℝ) (s : ℝ) (z : Prop) (hfit : z → ∀ b, F *ᵥ b ≠ y) {lo hi : ℝ} (hb : lo ≤ hi) :
    HasMinimum ⟨fun _ => lo, fun _ => hi⟩ fun θ : Fin d → ℝ => negLogLik (covTrain (pow10 θ) X s) F y z := by
  have hc : Continuous fun θ : Fin d → ℝ => covTrain (pow10 θ) X s :=
    Continuous.comp (g := fun p : (Fin d → ℝ) × ℝ => covTrain (pow10 p.1) X p.2) (f := fun θ => (θ, s)) (continuous_covTrain X) (continuous_id.prodMk continuous_const)
  obtain ⟨g, hg, he⟩ := negLogLik_continuous (K := fun θ : Fin d → ℝ => covTrain (pow10 θ) X s) hc (fun _ => posDef_covTrain _ _ _) hF hn y z hfit
  exact hasMinimum_of_continuous (fun _ => hb) he hg

/-- Core: unknown noise. -/
theorem hasMinimum_free (X : Samples n d) {F : Matrix (Fin n) (Fin q) ℝ} (hF : IndepColumns F) (hn : 0 < n) (y : Fin n → ℝ) {lo hi : ℝ} (hb : lo ≤ hi) :
    HasMinimum ⟨Fin.snoc (α := fun _ => ℝ) (fun _ : Fin d => lo) noiseLow, Fin.snoc (α := fun _ => ℝ) (fun _ : Fin d => hi) noiseHigh⟩ fun p : Fin (d + 1) → ℝ => negLogLik (covTrain (pow10 fun j => p j.castSucc) X (p (Fin.last d))) F y False := by
  have hc : Continuous fun p : Fin (d + 1) → ℝ => covTrain (pow10 fun j => p j.castSucc) X (p (Fin.last d)) :=
    Continuous.comp (g := fun p : (Fin d → ℝ) × ℝ => covTrain (pow10 p.1) X p.2) (f := fun p : Fin (d + 1) → ℝ => (fun j : Fin d => p j.castSucc, p (Fin.last d))) (continuous_covTrain X)
      (Continuous.prodMk (f := fun p : Fin (d + 1) → ℝ => fun j : Fin d => p j.castSucc) (g := fun p : Fin (d + 1) → ℝ => p (Fin.last d))
        (continuous_pi fun j => continuous_apply j.castSucc) (continuous_apply (Fin.last d)))
  obtain ⟨g, hg, he⟩ := negLogLik_continuous (K := fun p : Fin (d + 1) → ℝ => covTrain (pow10 fun j => p j.castSucc) X (p (Fin.last d))) hc (fun _ => posDef_covTrain _ _ _) hF hn y False False.elim
  refine hasMinimum_of_continuous (fun j => ?_) he hg
  refine Fin.lastCases ?_ (fun i => ?_) j
  · simpa using noise_le
  · simpa using hb

/-- **C119 (Gaussian process, existence, known noise).** The likelihood that training searches has a best parameter within the kernel's bounds, provided the trend does not fit noise-free data exactly. -/
theorem C119_gp_known_optimum (gp : GPObj d q) (noise yStd : ℝ) (Xs : Samples n d) (ys : Fin n → ℝ) (hn : 0 < n) (hF : IndepColumns fun i => gp.regr (Xs i)) (hfit : noise = 0 → ∀ b, ∃ i, gp.regr (Xs i) ⬝ᵥ b ≠ ys i)
    (hb : gp.kernel.boundLow ≤ gp.kernel.boundHigh) :
    ∃ θ v, Between (fun _ => gp.kernel.boundLow) (fun _ => gp.kernel.boundHigh) θ ∧ gp.logLikKnown noise yStd Xs ys θ = .ok v ∧
      ∀ θ', Between (fun _ => gp.kernel.boundLow) (fun _ => gp.kernel.boundHigh) θ' → ∃ v', gp.logLikKnown noise yStd Xs ys θ' = .ok v' ∧ v ≤ v' :=
  hasMinimum_known Xs (F := regrMatrix gp.regr Xs) hF hn ys (noise / yStd) (noise = 0) (fun h0 b he => let ⟨i, hi⟩ := hfit h0 b; hi (congrFun he i)) hb

/-- **C119 (Gaussian process, existence, unknown noise).** The same for the joint search over kernel parameters and noise. -/
theorem C119_gp_free_optimum (gp : GPObj d q) (Xs : Samples n d) (ys : Fin n → ℝ) (hn : 0 < n) (hF : IndepColumns fun i => gp.regr (Xs i)) (hb : gp.kernel.boundLow ≤ gp.kernel.boundHigh) :
    ∃ (θ : Fin d → ℝ) (σ v : ℝ), (∀ j, gp.kernel.boundLow ≤ θ j ∧ θ j ≤ gp.kernel.boundHigh) ∧ 1e-5 ≤ σ ∧ σ ≤ 10 ∧ gp.logLikFree Xs ys (Fin.snoc θ σ) = .ok v ∧
      ∀ (θ' : Fin d → ℝ) (σ' : ℝ), (∀ j, gp.kernel.boundLow ≤ θ' j ∧ θ' j ≤ gp.kernel.boundHigh) → 1e-5 ≤ σ' → σ' ≤ 10 → ∃ v', gp.logLikFree Xs ys (Fin.snoc θ' σ') = .ok v' ∧ v ≤ v' := by
  obtain ⟨p, v, hp, hv, hall⟩ := hasMinimum_free Xs (F := regrMatrix gp.regr Xs) hF hn ys hb
  obtain ⟨h1, h2, h3⟩ := between_snoc.mp hp
  refine ⟨fun j => p j.castSucc, p (Fin.last d), v, h1, h2, h3, ?_, fun θ' σ' a1 a2 a3 => hall (Fin.snoc θ' σ') (between_snoc.mpr ⟨by simpa using a1, by simpa using ⟨a2, a3⟩⟩)⟩
  have : (Fin.snoc (fun j => p j.castSucc) (p (Fin.last d)) : Fin (d + 1) → ℝ) = p := Fin.snoc_init_self p
  rw [this]
  exact hv

/-! ## Training is maximum likelihood estimation -/

theorem indep_of_glsFit {K : Matrix (Fin n) (Fin n) ℝ} {F : Matrix (Fin n) (Fin q) ℝ} {y : Fin n → ℝ} {g : GLS n q} (h : glsFit K F y = .ok g) : IndepColumns F :=
  (indep_iff _).mpr (mulVec_injective_of_posDef_conj (glsFit_ok h).cholM.posDef)

/-- **C119 (Gaussian process, noise-free).** With an optimiser that finds the best parameter, the trained parameters, trend coefficients and process variance jointly maximise the likelihood of the standardised
responses over all parameters within the kernel's bounds, all coefficients and all positive variances. -/
theorem C119_gp_noise_free (gp : GPObj d q) (w : World d) (X : Samples n d) (y : Fin n → ℝ) (hnoise : gp.noise = some 0) (hopt : gp.optimizer = none) (hmini : ExactMinimizer w.mini)
    (hkb : gp.kernel.boundLow ≤ gp.kernel.boundHigh) (hstarts : w.starts ≠ []) (gp' : GPObj d q) (t : GPFit n d q) (h : gp.train w X y = .ok (gp', t)) (hfit : ∀ b, ∃ i, gp.regr (t.Xs i) ⬝ᵥ b ≠ t.ys i) :
    0 < t.gls.sigma2 ∧
    IsLeast {l | ∃ (θ : Fin d → ℝ) (b : Fin q → ℝ) (s : ℝ), (∀ j, gp.kernel.boundLow ≤ θ j ∧ θ j ≤ gp.kernel.boundHigh) ∧ 0 < s ∧ l = gaussNLL (s • trainCov (fun k => (10 : ℝ) ^ θ k) t.Xs 0) (fun i => t.ys i - gp.regr (t.Xs i) ⬝ᵥ b)}
      (gaussNLL (t.gls.sigma2 • trainCov gp'.kernel.param t.Xs 0) (fun i => t.ys i - gp.regr (t.Xs i) ⬝ᵥ t.gls.beta)) := by
  obtain ⟨hr, hs, theta, noise, h3, e1, h4, e2⟩ := train_ok_iff.mp h
  have eX : t.Xs = fun i => normPt gp.box (X i) := by rw [e2]
  have ey : t.ys = fun i => (y i - mean y) / std y := by rw [e2]
  unfold GPObj.fitHyper at h3
  rw [hnoise] at h3
  obtain ⟨x, hx, h5⟩ := Py.bind_ok.mp h3
  simp only [Except.ok.injEq, Prod.mk.injEq] at h5
  obtain ⟨rfl, rfl⟩ := h5
  rw [hopt] at hx
  rw [← eX, ← ey] at h4 hx
  obtain ⟨hbd, v, hv, hleast⟩ := searchHyper_exact hmini (C119_gp_known_optimum gp 0 (std y) t.Xs t.ys (glsFit_ok h4).pos (indep_of_glsFit h4) (fun _ => hfit) hkb) hstarts hx
  obtain ⟨hpos, hval⟩ := (negLogLik_value h4 hv).1 rfl
  have hK : covTrain (pow10 x) t.Xs (0 / std y) = trainCov gp'.kernel.param t.Xs 0 := by
    rw [covTrain_eq, zero_div, zero_pow two_ne_zero, e1]
    rfl
  rw [hK] at hval
  refine ⟨hpos, ⟨x, t.gls.beta, t.gls.sigma2, hbd, hpos, by rw [e1]; rfl⟩, ?_⟩
  rintro l ⟨θ, b, s, hθ, hs0, rfl⟩
  obtain ⟨v', hv'⟩ := negLogLik_ok t.ys (posDef_covTrain (pow10 θ) t.Xs (0 / std y)) (indep_of_glsFit h4) (glsFit_ok h4).pos (z := (0 : ℝ) = 0) (fun _ b he => let ⟨i, hi⟩ := hfit b; hi (congrFun he i))
  have h6 := ((C76_gp_known gp 0 (std y) t.Xs t.ys θ v' hv').1 rfl).2 ⟨b, s, hs0, rfl⟩
  have h7 := hleast θ v' hθ hv'
  exact (le_of_eq hval).trans (by linarith)

/-- **C119 (Gaussian process, known noise).** With a positive known noise the process variance is taken to be 1: parameters and coefficients maximise that likelihood. -/
theorem C119_gp_known_noise (gp : GPObj d q) (w : World d) (X : Samples n d) (y : Fin n → ℝ) (noise : ℝ) (hnoise : gp.noise = some noise) (hne : noise ≠ 0) (hopt : gp.optimizer = none) (hmini : ExactMinimizer w.mini)
    (hkb : gp.kernel.boundLow ≤ gp.kernel.boundHigh) (hstarts : w.starts ≠ []) (gp' : GPObj d q) (t : GPFit n d q) (h : gp.train w X y = .ok (gp', t)) :
    IsLeast {l | ∃ (θ : Fin d → ℝ) (b : Fin q → ℝ), (∀ j, gp.kernel.boundLow ≤ θ j ∧ θ j ≤ gp.kernel.boundHigh) ∧ l = gaussNLL (trainCov (fun k => (10 : ℝ) ^ θ k) t.Xs ((noise / t.yStd) ^ 2)) (fun i => t.ys i - gp.regr (t.Xs i) ⬝ᵥ b)}
      (gaussNLL (trainCov gp'.kernel.param t.Xs ((noise / t.yStd) ^ 2)) (fun i => t.ys i - gp.regr (t.Xs i) ⬝ᵥ t.gls.beta)) := by
  obtain ⟨hr, hs, theta, noise', h3, e1, h4, e2⟩ := train_ok_iff.mp h
  have eX : t.Xs = fun i => normPt gp.box (X i) := by rw [e2]
  have ey : t.ys = fun i => (y i - mean y) / std y := by rw [e2]
  have es : t.yStd = std y := by rw [e2]
  unfold GPObj.fitHyper at h3
  rw [hnoise] at h3
  obtain ⟨x, hx, h5⟩ := Py.bind_ok.mp h3
  simp only [Except.ok.injEq, Prod.mk.injEq] at h5
  obtain ⟨rfl, rfl⟩ := h5
  rw [hopt] at hx
  rw [← eX, ← ey] at h4 hx
  rw [← es] at h4 hx
  obtain ⟨hbd, v, hv, hleast⟩ := searchHyper_exact hmini (C119_gp_known_optimum gp noise t.yStd t.Xs t.ys (glsFit_ok h4).pos (indep_of_glsFit h4) (fun h0 => absurd h0 hne) hkb) hstarts hx
  have hval := (negLogLik_value h4 hv).2 hne
  rw [covTrain_eq] at hval
  have hp : gp'.kernel.param = fun k => (10 : ℝ) ^ x k := by rw [e1]; rfl
  rw [hp]
  refine ⟨⟨x, t.gls.beta, hbd, rfl⟩, ?_⟩
  rintro l ⟨θ, b, hθ, rfl⟩
  obtain ⟨v', hv'⟩ := negLogLik_ok t.ys (posDef_covTrain (pow10 θ) t.Xs (noise / t.yStd)) (indep_of_glsFit h4) (glsFit_ok h4).pos (z := noise = 0) (fun h0 => absurd h0 hne)
  have h6 := ((C76_gp_known gp noise t.yStd t.Xs t.ys θ v' hv').2 hne).2 ⟨b, rfl⟩
  have h7 := hleast θ v' hθ hv'
  exact (le_of_eq hval).trans (by linarith)

/-- **C119 (Gaussian process, unknown noise).** Without a noise prior the noise is estimated with the parameters, jointly over `1e-5 ≤ σ ≤ 10`, again for process variance 1. -/
theorem C119_gp_unknown_noise (gp : GPObj d q) (w : World d) (X : Samples n d) (y : Fin n → ℝ) (hnoise : gp.noise = none) (hopt : gp.optimizer = none) (hmini : ExactMinimizer w.mini)
    (hkb : gp.kernel.boundLow ≤ gp.kernel.boundHigh) (hstarts : w.startsNoise ≠ []) (gp' : GPObj d q) (t : GPFit n d q) (h : gp.train w X y = .ok (gp', t)) :
    IsLeast {l | ∃ (θ : Fin d → ℝ) (σ : ℝ) (b : Fin q → ℝ), (∀ j, gp.kernel.boundLow ≤ θ j ∧ θ j ≤ gp.kernel.boundHigh) ∧ 1e-5 ≤ σ ∧ σ ≤ 10 ∧
        l = gaussNLL (trainCov (fun k => (10 : ℝ) ^ θ k) t.Xs (σ ^ 2)) (fun i => t.ys i - gp.regr (t.Xs i) ⬝ᵥ b)}
      (gaussNLL (trainCov gp'.kernel.param t.Xs ((t.noise / t.yStd) ^ 2)) (fun i => t.ys i - gp.regr (t.Xs i) ⬝ᵥ t.gls.beta)) := by
  obtain ⟨hr, hs, theta, noise', h3, e1, h4, e2⟩ := train_ok_iff.mp h
  have eX : t.Xs = fun i => normPt gp.box (X i) := by rw [e2]
  have ey : t.ys = fun i => (y i - mean y) / std y := by rw [e2]
  have es : t.yStd = std y := by rw [e2]
  have en : t.noise = noise' := by rw [e2]
  unfold GPObj.fitHyper at h3
  rw [hnoise] at h3
  obtain ⟨x, hx, h5⟩ := Py.bind_ok.mp h3
  simp only [Except.ok.injEq, Prod.mk.injEq] at h5
  obtain ⟨rfl, rfl⟩ := h5
  rw [hopt] at hx
  rw [← eX, ← ey] at h4 hx
  rw [mul_div_assoc, div_self hs, mul_one] at h4
  obtain ⟨hbd, v, hv, hleast⟩ := searchHyper_exact hmini (hasMinimum_free t.Xs (F := regrMatrix gp.regr t.Xs) (indep_of_glsFit h4) (glsFit_ok h4).pos t.ys hkb) hstarts hx
  have hval := (negLogLik_value h4 hv).2 not_false
  rw [covTrain_eq] at hval
  have hp : gp'.kernel.param = fun k => (10 : ℝ) ^ x k.castSucc := by rw [e1]; rfl
  obtain ⟨hb1, hb2, hb3⟩ := between_snoc.mp hbd
  rw [hp, en, es, mul_div_assoc, div_self hs, mul_one]
  refine ⟨⟨fun j => x j.castSucc, x (Fin.last d), t.gls.beta, hb1, hb2, hb3, rfl⟩, ?_⟩
  rintro l ⟨θ, σ, b, hθ, hσ1, hσ2, rfl⟩
  obtain ⟨v', hv'⟩ : ∃ v', gp.logLikFree t.Xs t.ys (Fin.snoc θ σ) = .ok v' :=
    negLogLik_ok t.ys (posDef_covTrain _ t.Xs _) (indep_of_glsFit h4) (glsFit_ok h4).pos (z := False) False.elim
  have h6 := (C76_gp_free gp t.Xs t.ys θ σ v' hv').2 ⟨b, rfl⟩
  have h7 := hleast (Fin.snoc θ σ) v' (between_snoc.mpr ⟨by simpa using hθ, by simp only [Fin.snoc_last]; exact ⟨hσ1, hσ2⟩⟩) hv'
  exact (le_of_eq hval).trans (by linarith)

/-! ## Hierarchical Kriging -/

theorem hk_train_parts {hk : HKObj d q} {w : MFWorld d} {Xh : Samples nh d} {yh : Fin nh → ℝ} {Xl : Samples nl d} {yl : Fin nl → ℝ} {hk' : HKObj d q} {t : HKFit nh nl d q} (h : hk.train w Xh yh Xl yl = .ok (hk', t)) :
    ∃ theta noise, hk.fitHyper w.hf t.yhStd t.Xhs t.F t.yhs = .ok (theta, noise) ∧ (hk'.kernel.param = fun k => (10 : ℝ) ^ theta k) ∧ t.noise = noise ∧ t.yhStd ≠ 0 ∧
      glsFit (covTrain (pow10 theta) t.Xhs (noise / t.yhStd)) t.F t.yhs = .ok t.gls := by
  unfold HKObj.train at h
  obtain ⟨⟨lf, lfFit⟩, h1, h⟩ := Py.bind_ok.mp h
  obtain ⟨Xhs, h2, h⟩ := Py.bind_ok.mp h
  obtain ⟨yhs, h3, h⟩ := Py.bind_ok.mp h
  obtain ⟨f, h4, h⟩ := Py.bind_ok.mp h
  obtain ⟨⟨theta, noise⟩, h5, h⟩ := Py.bind_ok.mp h
  obtain ⟨g, h6, h⟩ := Py.bind_ok.mp h
  simp only [Except.ok.injEq, Prod.mk.injEq] at h
  obtain ⟨e1, e2⟩ := h
  subst e1 e2
  exact ⟨theta, noise, h5, rfl, rfl, (normalizeOutput_ok h3).1, h6⟩

theorem col_mulVec (F : Matrix (Fin n) (Fin 1) ℝ) (y : Fin n → ℝ) (b : Fin 1 → ℝ) : y - F *ᵥ b = fun i => y i - b 0 * F i 0 := by
  ext i
  simp [Matrix.mulVec, dotProduct, mul_comm]

theorem col_eta (F : Matrix (Fin n) (Fin 1) ℝ) : F = fun i _ => F i 0 := by
  ext i j
  rw [Subsingleton.elim j 0]

/-- **C119 (hierarchical Kriging, noise-free).** With an optimiser that finds the best parameter, kernel parameters, scaling factor and process variance jointly maximise the likelihood of the standardised
high-fidelity responses given the low-fidelity trend. -/
theorem C119_hk_noise_free (hk : HKObj d q) (w : MFWorld d) (Xh : Samples nh d) (yh : Fin nh → ℝ) (Xl : Samples nl d) (yl : Fin nl → ℝ) (hnoise : hk.noise = some 0) (hopt : hk.optimizer = none) (hmini : ExactMinimizer w.hf.mini)
    (hkb : hk.kernel.boundLow ≤ hk.kernel.boundHigh) (hstarts : w.hf.starts ≠ []) (hk' : HKObj d q) (t : HKFit nh nl d q) (h : hk.train w Xh yh Xl yl = .ok (hk', t)) (hfit : ∀ b : ℝ, ∃ i, b * t.F i 0 ≠ t.yhs i) :
    0 < t.gls.sigma2 ∧
    IsLeast {l | ∃ (θ : Fin d → ℝ) (b s : ℝ), (∀ j, hk.kernel.boundLow ≤ θ j ∧ θ j ≤ hk.kernel.boundHigh) ∧ 0 < s ∧ l = gaussNLL (s • trainCov (fun k => (10 : ℝ) ^ θ k) t.Xhs 0) (fun i => t.yhs i - b * t.F i 0)}
      (gaussNLL (t.gls.sigma2 • trainCov hk'.kernel.param t.Xhs 0) (fun i => t.yhs i - t.gls.beta 0 * t.F i 0)) := by
  obtain ⟨theta, noise, h3, e1, e2, hs, h4⟩ := hk_train_parts h
  unfold HKObj.fitHyper at h3
  rw [hnoise] at h3
  obtain ⟨x, hx, h5⟩ := Py.bind_ok.mp h3
  simp only [Except.ok.injEq, Prod.mk.injEq] at h5
  obtain ⟨rfl, rfl⟩ := h5
  rw [hopt] at hx
  have hfit' : (0 : ℝ) = 0 → ∀ b, t.F *ᵥ b ≠ t.yhs := fun _ b he => by
    obtain ⟨i, hi⟩ := hfit (b 0)
    have := congrFun (col_mulVec t.F t.yhs b) i
    rw [he, sub_self] at this
    exact hi (by simpa using (sub_eq_zero.mp this.symm).symm)
  obtain ⟨hbd, v, hv, hleast⟩ := searchHyper_exact hmini (hasMinimum_known t.Xhs (indep_of_glsFit h4) (glsFit_ok h4).pos t.yhs (0 / t.yhStd) ((0 : ℝ) = 0) hfit' hkb) hstarts hx
  obtain ⟨hpos, hval⟩ := (negLogLik_value h4 hv).1 rfl
  rw [covTrain_eq, zero_div, zero_pow two_ne_zero, col_mulVec] at hval
  rw [e1]
  refine ⟨hpos, ⟨x, t.gls.beta 0, t.gls.sigma2, hbd, hpos, rfl⟩, ?_⟩
  rintro l ⟨θ, b, s, hθ, hs0, rfl⟩
  obtain ⟨v', hv'⟩ := negLogLik_ok t.yhs (posDef_covTrain (pow10 θ) t.Xhs (0 / t.yhStd)) (indep_of_glsFit h4) (glsFit_ok h4).pos hfit'
  have hv2 := hv'
  rw [col_eta t.F] at hv2
  have h6 := ((C76_hk 0 t.yhStd t.Xhs (fun i => t.F i 0) t.yhs θ v' hv2).1 rfl).2 ⟨b, s, hs0, rfl⟩
  have h7 := hleast θ v' hθ hv'
  exact (le_of_eq hval).trans (by linarith)

/-- **C119 (hierarchical Kriging, known noise).** With a non-zero known noise: the same for process variance 1. -/
theorem C119_hk_known_noise (hk : HKObj d q) (w : MFWorld d) (Xh : Samples nh d) (yh : Fin nh → ℝ) (Xl : Samples nl d) (yl : Fin nl → ℝ) (noise : ℝ) (hnoise : hk.noise = some noise) (hne : noise ≠ 0) (hopt : hk.optimizer = none)
    (hmini : ExactMinimizer w.hf.mini) (hkb : hk.kernel.boundLow ≤ hk.kernel.boundHigh) (hstarts : w.hf.starts ≠ []) (hk' : HKObj d q) (t : HKFit nh nl d q) (h : hk.train w Xh yh Xl yl = .ok (hk', t)) :
    IsLeast {l | ∃ (θ : Fin d → ℝ) (b : ℝ), (∀ j, hk.kernel.boundLow ≤ θ j ∧ θ j ≤ hk.kernel.boundHigh) ∧ l = gaussNLL (trainCov (fun k => (10 : ℝ) ^ θ k) t.Xhs ((noise / t.yhStd) ^ 2)) (fun i => t.yhs i - b * t.F i 0)}
      (gaussNLL (trainCov hk'.kernel.param t.Xhs ((noise / t.yhStd) ^ 2)) (fun i => t.yhs i - t.gls.beta 0 * t.F i 0)) := by
  obtain ⟨theta, noise', h3, e1, e2, hs, h4⟩ := hk_train_parts h
  unfold HKObj.fitHyper at h3
  rw [hnoise] at h3
  obtain ⟨x, hx, h5⟩ := Py.bind_ok.mp h3
  simp only [Except.ok.injEq, Prod.mk.injEq] at h5
  obtain ⟨rfl, rfl⟩ := h5
  rw [hopt] at hx
  obtain ⟨hbd, v, hv, hleast⟩ := searchHyper_exact hmini (hasMinimum_known t.Xhs (indep_of_glsFit h4) (glsFit_ok h4).pos t.yhs (noise / t.yhStd) (noise = 0) (fun h0 => absurd h0 hne) hkb) hstarts hx
  have hval := (negLogLik_value h4 hv).2 hne
  rw [covTrain_eq, col_mulVec] at hval
  rw [e1]
  refine ⟨⟨x, t.gls.beta 0, hbd, rfl⟩, ?_⟩
  rintro l ⟨θ, b, hθ, rfl⟩
  obtain ⟨v', hv'⟩ := negLogLik_ok t.yhs (posDef_covTrain (pow10 θ) t.Xhs (noise / t.yhStd)) (indep_of_glsFit h4) (glsFit_ok h4).pos (z := noise = 0) (fun h0 => absurd h0 hne)
  have hv2 := hv'
  rw [col_eta t.F] at hv2
  have h6 := ((C76_hk noise t.yhStd t.Xhs (fun i => t.F i 0) t.yhs θ v' hv2).2 hne).2 ⟨b, rfl⟩
  have h7 := hleast θ v' hθ hv'
  exact (le_of_eq hval).trans (by linarith)

/-- **C119 (hierarchical Kriging, unknown noise).** The noise is estimated jointly over `1e-5 ≤ σ ≤ 10`. -/
theorem C119_hk_unknown_noise (hk : HKObj d q) (w : MFWorld d) (Xh : Samples nh d) (yh : Fin nh → ℝ) (Xl : Samples nl d) (yl : Fin nl → ℝ) (hnoise : hk.noise = none) (hopt : hk.optimizer = none)
    (hmini : ExactMinimizer w.hf.mini) (hkb : hk.kernel.boundLow ≤ hk.kernel.boundHigh) (hstarts : w.hf.startsNoise ≠ []) (hk' : HKObj d q) (t : HKFit nh nl d q) (h : hk.train w Xh yh Xl yl = .ok (hk', t)) :
    IsLeast {l | ∃ (θ : Fin d → ℝ) (σ b : ℝ), (∀ j, hk.kernel.boundLow ≤ θ j ∧ θ j ≤ hk.kernel.boundHigh) ∧ 1e-5 ≤ σ ∧ σ ≤ 10 ∧
        l = gaussNLL (trainCov (fun k => (10 : ℝ) ^ θ k) t.Xhs (σ ^ 2)) (fun i => t.yhs i - b * t.F i 0)}
      (gaussNLL (trainCov hk'.kernel.param t.Xhs ((t.noise / t.yhStd) ^ 2)) (fun i => t.yhs i - t.gls.beta 0 * t.F i 0)) := by
  obtain ⟨theta, noise', h3, e1, e2, hs, h4⟩ := hk_train_parts h
  unfold HKObj.fitHyper at h3
  rw [hnoise] at h3
  obtain ⟨x, hx, h5⟩ := Py.bind_ok.mp h3
  simp only [Except.ok.injEq, Prod.mk.injEq] at h5
  obtain ⟨rfl, rfl⟩ := h5
  rw [hopt] at hx
  rw [mul_div_assoc, div_self hs, mul_one] at h4
  obtain ⟨hbd, v, hv, hleast⟩ := searchHyper_exact hmini (hasMinimum_free t.Xhs (indep_of_glsFit h4) (glsFit_ok h4).pos t.yhs hkb) hstarts hx
  have hval := (negLogLik_value h4 hv).2 not_false
  rw [covTrain_eq, col_mulVec] at hval
  obtain ⟨hb1, hb2, hb3⟩ := between_snoc.mp hbd
  rw [e1, e2, mul_div_assoc, div_self hs, mul_one]
  refine ⟨⟨fun j => x j.castSucc, x (Fin.last d), t.gls.beta 0, hb1, hb2, hb3, rfl⟩, ?_⟩
  rintro l ⟨θ, σ, b, hθ, hσ1, hσ2, rfl⟩
  obtain ⟨v', hv'⟩ : ∃ v', hkLogLikFree t.Xhs t.F t.yhs (Fin.snoc θ σ) = .ok v' :=
    negLogLik_ok t.yhs (posDef_covTrain _ t.Xhs _) (indep_of_glsFit h4) (glsFit_ok h4).pos (z := False) False.elim
  have hv2 := hv'
  rw [col_eta t.F] at hv2
  have h6 := (C76_hk_free t.Xhs (fun i => t.F i 0) t.yhs θ σ v' hv2).2 ⟨b, rfl⟩
  have h7 := hleast (Fin.snoc θ σ) v' (between_snoc.mpr ⟨by simpa using hθ, by simp only [Fin.snoc_last]; exact ⟨hσ1, hσ2⟩⟩) hv'
  exact (le_of_eq hval).trans (by linarith)

/-! ## Co-Kriging -/

theorem hasMinimum_of_continuous_sub {b : Box ℝ d} (hb : ∀ j, b.low j ≤ b.high j) {f : (Fin d → ℝ) → Py ℝ} {g : {x // InBounds b x} → ℝ} (hf : ∀ x, f x.1 = .ok (g x)) (hg : Continuous g) : HasMinimum b f := by
  haveI : CompactSpace {x // InBounds b x} := isCompact_iff_compactSpace.mp (isCompact_box b)
  haveI : Nonempty {x // InBounds b x} := let ⟨x, hx⟩ := box_nonempty hb; ⟨⟨x, hx⟩⟩
  obtain ⟨x, _, hmin⟩ := isCompact_univ.exists_isMinOn (Set.univ_nonempty (α := {x // InBounds b x})) hg.continuousOn
  exact ⟨x.1, g x, x.2, hf x, fun x' hx' => ⟨g ⟨x', hx'⟩, hf ⟨x', hx'⟩, hmin (Set.mem_univ _)⟩⟩

open Classical in
theorem ckNegLogLik_value {X : Samples n d} {y f : Fin n → ℝ} {rho : ℝ} {θ : Fin d → ℝ} {σ : ℝ} {z : Prop} {g : DiffFit n} (hg : diffFit (covTrain (pow10 θ) X σ) (fun i => y i - rho * f i) = .ok g) :
    ckNegLogLik X y f rho θ σ z = if z then (if 0 < g.sigma2 then .ok (-(-0.5 * n * Real.log g.sigma2 - 1 / 2 * Real.log (covTrain (pow10 θ) X σ).det)) else .error .nonFinite)
      else .ok (-(-0.5 * n * g.sigma2 - 1 / 2 * Real.log (covTrain (pow10 θ) X σ).det)) := by
  unfold ckNegLogLik
  rw [hg]
  show (if z then (do let l ← npLog g.sigma2; .ok (-(-0.5 * n * l - logDiag g.L))) else .ok (-(-0.5 * n * g.sigma2 - logDiag g.L)) : Py ℝ) = _
  rw [logDiag_eq (diffFit_ok hg).chol]
  unfold npLog
  by_cases hz : z
  · rw [if_pos hz, if_pos hz]
    split_ifs <;> rfl
  · rw [if_neg hz, if_neg hz]

/-- The value computed by co-Kriging varies continuously with the correlation parameters, the noise and `ρ`. -/
theorem ckNegLogLik_continuous {α : Type} [TopologicalSpace α] (X : Samples n d) (y f : Fin n → ℝ) (hn : 0 < n) {rho : α → ℝ} {θ : α → Fin d → ℝ} {σ : α → ℝ} (hr : Continuous rho) (hθ : Continuous θ) (hσ : Continuous σ) (z : Prop)
    (hfit : z → ∀ a, ∃ i j, y i - rho a * f i ≠ y j - rho a * f j) : ∃ g : α → ℝ, Continuous g ∧ ∀ a, ckNegLogLik X y f (rho a) (θ a) (σ a) z = .ok (g a) := by
  classical
  have hK : Continuous fun a => covTrain (pow10 (θ a)) X (σ a) :=
    Continuous.comp (g := fun p : (Fin d → ℝ) × ℝ => covTrain (pow10 p.1) X p.2) (f := fun a => (θ a, σ a)) (continuous_covTrain X) (hθ.prodMk hσ)
  have hpd : ∀ a, (covTrain (pow10 (θ a)) X (σ a)).PosDef := fun a => posDef_covTrain _ _ _
  choose G hG hD using fun a => diffFit_succeeds (fun i => y i - rho a * f i) (hpd a) hn
  have ci : Continuous fun a => (covTrain (pow10 (θ a)) X (σ a))⁻¹ := continuous_inv_of_det hK fun a => (hpd a).det_pos.ne'
  have cd : Continuous fun a => fun i => y i - rho a * f i := continuous_pi fun i => continuous_const.sub (hr.mul continuous_const)
  have cmu : Continuous fun a => (G a).mu := by
    have : (fun a => (G a).mu) = fun a => ((fun _ => 1) ⬝ᵥ ((covTrain (pow10 (θ a)) X (σ a))⁻¹ *ᵥ fun i => y i - rho a * f i)) / ((fun _ => 1) ⬝ᵥ ((covTrain (pow10 (θ a)) X (σ a))⁻¹ *ᵥ fun _ => 1)) := funext fun a => (hD a).mu
    rw [this]
    exact (continuous_const.dotProduct (ci.matrix_mulVec cd)).div (continuous_const.dotProduct (ci.matrix_mulVec continuous_const)) fun a => (ones_quad_pos (hpd a) hn).ne'
  have cr : Continuous fun a => fun i => y i - rho a * f i - (G a).mu := continuous_pi fun i => (continuous_const.sub (hr.mul continuous_const)).sub cmu
  have cs : Continuous fun a => (G a).sigma2 := by
    have : (fun a => (G a).sigma2) = fun a => ((fun i => y i - rho a * f i - (G a).mu) ⬝ᵥ ((covTrain (pow10 (θ a)) X (σ a))⁻¹ *ᵥ fun i => y i - rho a * f i - (G a).mu)) / n := funext fun a => by rw [(hD a).sigma2, (hD a).gamma]
    rw [this]
    exact (cr.dotProduct (ci.matrix_mulVec cr)).div_const _
  have cdet : Continuous fun a => Real.log (covTrain (pow10 (θ a)) X (σ a)).det := hK.matrix_det.log fun a => (hpd a).det_pos.ne'
  by_cases hz : z
  · have hpos : ∀ a, 0 < (G a).sigma2 := by
      intro a
      by_contra hcon
      obtain ⟨v, hv⟩ := ckNegLogLik_ok (Xhs := X) (rho a) (θ a) (σ a) hn (z := z) fun _ => hfit hz a
      rw [ckNegLogLik_value (hG a), if_pos hz, if_neg hcon] at hv
      cases hv
    refine ⟨fun a => -(-0.5 * n * Real.log (G a).sigma2 - 1 / 2 * Real.log (covTrain (pow10 (θ a)) X (σ a)).det), ((continuous_const.mul (cs.log fun a => (hpos a).ne')).sub (continuous_const.mul cdet)).neg, fun a => ?_⟩
    rw [ckNegLogLik_value (hG a), if_pos hz, if_pos (hpos a)]
  · refine ⟨fun a => -(-0.5 * n * (G a).sigma2 - 1 / 2 * Real.log (covTrain (pow10 (θ a)) X (σ a)).det), ((continuous_const.mul cs).sub (continuous_const.mul cdet)).neg, fun a => ?_⟩
    rw [ckNegLogLik_value (hG a), if_neg hz]

theorem between_cons2 {rl rh a b lo hi : ℝ} {x : Fin (d + 2) → ℝ} :
    Between (Fin.cons (α := fun _ => ℝ) rl (Fin.cons (α := fun _ => ℝ) a (fun _ : Fin d => lo))) (Fin.cons (α := fun _ => ℝ) rh (Fin.cons (α := fun _ => ℝ) b (fun _ : Fin d => hi))) x ↔
      (rl ≤ x 0 ∧ x 0 ≤ rh) ∧ (a ≤ x 1 ∧ x 1 ≤ b) ∧ ∀ j : Fin d, lo ≤ x j.succ.succ ∧ x j.succ.succ ≤ hi := by
  constructor
  · intro h
    exact ⟨h 0, h 1, fun j => h j.succ.succ⟩
  · rintro ⟨h1, h2, h3⟩ j
    refine Fin.cases h1 (fun i => ?_) j
    exact Fin.cases h2 (fun i => h3 i) i

theorem between_cons1 {rl rh lo hi : ℝ} {x : Fin (d + 1) → ℝ} :
    Between (Fin.cons (α := fun _ => ℝ) rl (fun _ : Fin d => lo)) (Fin.cons (α := fun _ => ℝ) rh (fun _ : Fin d => hi)) x ↔
      (rl ≤ x 0 ∧ x 0 ≤ rh) ∧ ∀ j : Fin d, lo ≤ x j.succ ∧ x j.succ ≤ hi := by
  constructor
  · intro h
    exact ⟨h 0, fun j => h j.succ⟩
  · rintro ⟨h1, h3⟩ j
    exact Fin.cases h1 (fun i => h3 i) j

/-- **C119 (co-Kriging, unknown noise).** With an optimiser that finds the best parameters, `ρ`, kernel parameters and noise, with a suitable constant, jointly maximise the likelihood of the difference between
the standardised high-fidelity responses and `ρ` times the low-fidelity prediction. -/
theorem C119_ck_unknown_noise (ck : CKObj d q) (w : CKWorld d) (Xh : Samples nh d) (yh : Fin nh → ℝ) (Xl : Samples nl d) (yl : Fin nl → ℝ) (hnoise : ck.noise = none) (hopt : ck.optimizer = none)
    (hmini : ExactMinimizer w.mini) (hkb : ck.kernel.boundLow ≤ ck.kernel.boundHigh) (hrb : ck.rhoLow ≤ ck.rhoHigh) (hstarts : w.startsNoise ≠ [])
    (ck' : CKObj d q) (t : CKFit nh nl d q) (h : ck.train w Xh yh Xl yl = .ok (ck', t)) :
    ∃ σ m : ℝ, ck'.noise = some σ ∧
      IsLeast {l | ∃ (rho : ℝ) (θ : Fin d → ℝ) (s c : ℝ), (ck.rhoLow ≤ rho ∧ rho ≤ ck.rhoHigh) ∧ (∀ j, ck.kernel.boundLow ≤ θ j ∧ θ j ≤ ck.kernel.boundHigh) ∧ 1e-5 ≤ s ∧ s ≤ 10 ∧
          l = gaussNLL (trainCov (fun k => (10 : ℝ) ^ θ k) t.Xhs (s ^ 2)) (fun i => (yh i - mean yh) / std yh - rho * ck'.lf.predict t.lfFit t.Xhs i - c)}
        (gaussNLL (trainCov ck'.kernel.param t.Xhs (σ ^ 2)) (fun i => (yh i - mean yh) / std yh - t.rho * ck'.lf.predict t.lfFit t.Xhs i - m)) := by
  unfold CKObj.train at h
  obtain ⟨Xhs, h1, h⟩ := Py.bind_ok.mp h
  obtain ⟨Xls, h2, h⟩ := Py.bind_ok.mp h
  obtain ⟨yhs, h3, h⟩ := Py.bind_ok.mp h
  obtain ⟨_, rfl⟩ := normalizeOutput_ok h3
  obtain ⟨⟨lf, lfFit⟩, h4, h⟩ := Py.bind_ok.mp h
  obtain ⟨⟨rho, theta, noise⟩, h5, h⟩ := Py.bind_ok.mp h
  obtain ⟨g, h6, h⟩ := Py.bind_ok.mp h
  obtain ⟨LC, h7, h⟩ := Py.bind_ok.mp h
  obtain ⟨a, h8, h⟩ := Py.bind_ok.mp h
  obtain ⟨b, h9, h⟩ := Py.bind_ok.mp h
  obtain ⟨mu, h10, h⟩ := Py.bind_ok.mp h
  have hg := diffFit_ok h6
  simp only [Except.ok.injEq, Prod.mk.injEq] at h
  obtain ⟨e1, e2⟩ := h
  subst e1 e2
  rw [hnoise] at h5
  unfold CKObj.fitHyper at h5
  obtain ⟨x, hx, h5⟩ := Py.bind_ok.mp h5
  simp only [Except.ok.injEq, Prod.mk.injEq] at h5
  obtain ⟨rfl, rfl, rfl⟩ := h5
  rw [hopt] at hx
  have hm : HasMinimum ⟨Fin.cons (α := fun _ => ℝ) ck.rhoLow (Fin.cons (α := fun _ => ℝ) noiseLow (fun _ : Fin d => ck.kernel.boundLow)), Fin.cons (α := fun _ => ℝ) ck.rhoHigh (Fin.cons (α := fun _ => ℝ) noiseHigh (fun _ : Fin d => ck.kernel.boundHigh))⟩
      fun p : Fin (d + 2) → ℝ => ckNegLogLik Xhs (fun i => (yh i - mean yh) / std yh) (lf.predict lfFit Xhs) (p 0) (fun j => p j.succ.succ) (p 1) False := by
    obtain ⟨v, hv, he⟩ := ckNegLogLik_continuous Xhs (fun i => (yh i - mean yh) / std yh) (lf.predict lfFit Xhs) hg.pos (rho := fun p : Fin (d + 2) → ℝ => p 0) (θ := fun p : Fin (d + 2) → ℝ => fun j => p j.succ.succ)
      (σ := fun p : Fin (d + 2) → ℝ => p 1) (continuous_apply _) (continuous_pi fun j => continuous_apply _) (continuous_apply _) False False.elim
    refine hasMinimum_of_continuous (fun j => ?_) he hv
    refine Fin.cases ?_ (fun i => ?_) j
    · exact hrb
    · refine Fin.cases ?_ (fun i => ?_) i
      · exact noise_le
      · exact hkb
  obtain ⟨hbd, v, hv, hleast⟩ := searchHyper_exact hmini hm hstarts hx
  obtain ⟨⟨r1, r2⟩, ⟨n1, n2⟩, hθb⟩ := between_cons2.mp hbd
  have hv2 := hv
  have h6' : diffFit (covTrain (pow10 fun j => x j.succ.succ) Xhs (x 1)) (fun i => (yh i - mean yh) / std yh - x 0 * lf.predict lfFit Xhs i) = .ok g := h6
  rw [ckNegLogLik_value h6', if_neg not_false] at hv2
  have hval : gaussNLL (trainCov (fun k => (10 : ℝ) ^ x k.succ.succ) Xhs (x 1 ^ 2)) (fun i => (yh i - mean yh) / std yh - x 0 * lf.predict lfFit Xhs i - g.mu) = v + nh / 2 * Real.log (2 * Real.pi) := by
    have hn : (nh : ℝ) ≠ 0 := by exact_mod_cast hg.pos.ne'
    have hw : wnorm (covTrain (pow10 fun j => x j.succ.succ) Xhs (x 1)) (fun i => (yh i - mean yh) / std yh - x 0 * lf.predict lfFit Xhs i - g.mu) = nh * g.sigma2 := by
      have := (diffFit_ok h6').sigma2
      rw [(diffFit_ok h6').gamma] at this
      rw [this]
      unfold wnorm
      field_simp
    rw [← covTrain_eq, ← Except.ok.inj hv2]
    unfold gaussNLL
    rw [hw]
    ring
  refine ⟨x 1, g.mu, rfl, ⟨x 0, fun j => x j.succ.succ, x 1, g.mu, ⟨r1, r2⟩, hθb, n1, n2, rfl⟩, ?_⟩
  rintro l ⟨rho, θ, s, c, hrho, hθ, hs1, hs2, rfl⟩
  obtain ⟨v', hv'⟩ := ckNegLogLik_ok (Xhs := Xhs) (yhs := fun i => (yh i - mean yh) / std yh) (predYlh := lf.predict lfFit Xhs) rho θ s (z := False) hg.pos False.elim
  have h11 := ((C76_ck Xhs (fun i => (yh i - mean yh) / std yh) (lf.predict lfFit Xhs) rho θ s False v' hv').2 not_false).2 ⟨c, rfl⟩
  have h12 := hleast (Fin.cons rho (Fin.cons s θ)) v' (between_cons2.mpr ⟨hrho, ⟨hs1, hs2⟩, hθ⟩) hv'
  exact (le_of_eq hval).trans (by linarith)

/-- **C119 (co-Kriging, noise-free).** The same without noise, with the process variance among the estimated quantities, provided that no `ρ` within its bounds makes the difference constant on the samples. -/
theorem C119_ck_noise_free_partial (ck : CKObj d q) (w : CKWorld d) (Xh : Samples nh d) (yh : Fin nh → ℝ) (Xl : Samples nl d) (yl : Fin nl → ℝ) (hnoise : ck.noise = some 0) (hopt : ck.optimizer = none)
    (hmini : ExactMinimizer w.mini) (hkb : ck.kernel.boundLow ≤ ck.kernel.boundHigh) (hrb : ck.rhoLow ≤ ck.rhoHigh) (hstarts : w.starts ≠ [])
    (ck' : CKObj d q) (t : CKFit nh nl d q) (h : ck.train w Xh yh Xl yl = .ok (ck', t))
    (hfit : ∀ rho, ck.rhoLow ≤ rho → rho ≤ ck.rhoHigh → ∃ i j, (yh i - mean yh) / std yh - rho * ck'.lf.predict t.lfFit t.Xhs i ≠ (yh j - mean yh) / std yh - rho * ck'.lf.predict t.lfFit t.Xhs j) :
    0 < t.sigma2 ∧ ∃ m : ℝ,
      IsLeast {l | ∃ (rho : ℝ) (θ : Fin d → ℝ) (c s : ℝ), (ck.rhoLow ≤ rho ∧ rho ≤ ck.rhoHigh) ∧ (∀ j, ck.kernel.boundLow ≤ θ j ∧ θ j ≤ ck.kernel.boundHigh) ∧ 0 < s ∧
          l = gaussNLL (s • trainCov (fun k => (10 : ℝ) ^ θ k) t.Xhs 0) (fun i => (yh i - mean yh) / std yh - rho * ck'.lf.predict t.lfFit t.Xhs i - c)}
        (gaussNLL (t.sigma2 • trainCov ck'.kernel.param t.Xhs 0) (fun i => (yh i - mean yh) / std yh - t.rho * ck'.lf.predict t.lfFit t.Xhs i - m)) := by
  unfold CKObj.train at h
  obtain ⟨Xhs, h1, h⟩ := Py.bind_ok.mp h
  obtain ⟨Xls, h2, h⟩ := Py.bind_ok.mp h
  obtain ⟨yhs, h3, h⟩ := Py.bind_ok.mp h
  obtain ⟨_, rfl⟩ := normalizeOutput_ok h3
  obtain ⟨⟨lf, lfFit⟩, h4, h⟩ := Py.bind_ok.mp h
  obtain ⟨⟨rho, theta, noise⟩, h5, h⟩ := Py.bind_ok.mp h
  obtain ⟨g, h6, h⟩ := Py.bind_ok.mp h
  obtain ⟨LC, h7, h⟩ := Py.bind_ok.mp h
  obtain ⟨a, h8, h⟩ := Py.bind_ok.mp h
  obtain ⟨b, h9, h⟩ := Py.bind_ok.mp h
  obtain ⟨mu, h10, h⟩ := Py.bind_ok.mp h
  have hg := diffFit_ok h6
  simp only [Except.ok.injEq, Prod.mk.injEq] at h
  obtain ⟨e1, e2⟩ := h
  subst e1 e2
  rw [hnoise, Option.map_some, zero_div] at h5
  unfold CKObj.fitHyper at h5
  obtain ⟨x, hx, h5⟩ := Py.bind_ok.mp h5
  simp only [Except.ok.injEq, Prod.mk.injEq] at h5
  obtain ⟨rfl, rfl, rfl⟩ := h5
  rw [hopt, zero_div] at hx
  have hm : HasMinimum ⟨Fin.cons (α := fun _ => ℝ) ck.rhoLow (fun _ : Fin d => ck.kernel.boundLow), Fin.cons (α := fun _ => ℝ) ck.rhoHigh (fun _ : Fin d => ck.kernel.boundHigh)⟩
      fun p : Fin (d + 1) → ℝ => ckNegLogLik Xhs (fun i => (yh i - mean yh) / std yh) (lf.predict lfFit Xhs) (p 0) (fun j => p j.succ) 0 ((0 : ℝ) = 0) := by
    obtain ⟨v, hv, he⟩ := ckNegLogLik_continuous Xhs (fun i => (yh i - mean yh) / std yh) (lf.predict lfFit Xhs) hg.pos
      (α := {p : Fin (d + 1) → ℝ // InBounds ⟨Fin.cons (α := fun _ => ℝ) ck.rhoLow (fun _ : Fin d => ck.kernel.boundLow), Fin.cons (α := fun _ => ℝ) ck.rhoHigh (fun _ : Fin d => ck.kernel.boundHigh)⟩ p})
      (rho := fun p => p.1 0) (θ := fun p => fun j => p.1 j.succ) (σ := fun _ => 0) ((continuous_apply _).comp continuous_subtype_val) (continuous_pi fun j => (continuous_apply _).comp continuous_subtype_val) continuous_const
      ((0 : ℝ) = 0) fun _ p => hfit (p.1 0) (p.2 0).1 (p.2 0).2
    refine hasMinimum_of_continuous_sub (fun j => ?_) he hv
    exact Fin.cases hrb (fun i => hkb) j
  obtain ⟨hbd, v, hv, hleast⟩ := searchHyper_exact hmini hm hstarts hx
  obtain ⟨⟨r1, r2⟩, hθb⟩ := between_cons1.mp hbd
  have hv2 := hv
  have h6' : diffFit (covTrain (pow10 fun j => x j.succ) Xhs 0) (fun i => (yh i - mean yh) / std yh - x 0 * lf.predict lfFit Xhs i) = .ok g := h6
  have hpos : 0 < g.sigma2 := by
    by_contra hcon
    rw [ckNegLogLik_value h6', if_pos rfl, if_neg hcon] at hv2
    cases hv2
  rw [ckNegLogLik_value h6', if_pos rfl, if_pos hpos] at hv2
  have hval : gaussNLL (g.sigma2 • trainCov (fun k => (10 : ℝ) ^ x k.succ) Xhs 0) (fun i => (yh i - mean yh) / std yh - x 0 * lf.predict lfFit Xhs i - g.mu) = v + nh / 2 * (1 + Real.log (2 * Real.pi)) := by
    have hn : (nh : ℝ) ≠ 0 := by exact_mod_cast hg.pos.ne'
    have hw : wnorm (covTrain (pow10 fun j => x j.succ) Xhs 0) (fun i => (yh i - mean yh) / std yh - x 0 * lf.predict lfFit Xhs i - g.mu) = nh * g.sigma2 := by
      have := (diffFit_ok h6').sigma2
      rw [(diffFit_ok h6').gamma] at this
      rw [this]
      unfold wnorm
      field_simp
    have hK := covTrain_eq (fun j => x j.succ) Xhs 0
    rw [zero_pow two_ne_zero] at hK
    rw [← hK, ← Except.ok.inj hv2, gaussNLL_smul _ hpos (posDef_covTrain _ _ _), hw]
    field_simp
    ring
  refine ⟨hpos, g.mu, ⟨x 0, fun j => x j.succ, g.mu, g.sigma2, ⟨r1, r2⟩, hθb, hpos, rfl⟩, ?_⟩
  rintro l ⟨rho, θ, c, s, hrho, hθ, hs0, rfl⟩
  obtain ⟨v', hv'⟩ := ckNegLogLik_ok (Xhs := Xhs) (yhs := fun i => (yh i - mean yh) / std yh) (predYlh := lf.predict lfFit Xhs) rho θ 0 (z := (0 : ℝ) = 0) hg.pos fun _ => hfit rho hrho.1 hrho.2
  have h11 := ((C76_ck Xhs (fun i => (yh i - mean yh) / std yh) (lf.predict lfFit Xhs) rho θ 0 ((0 : ℝ) = 0) v' hv').1 rfl).2 ⟨c, s, hs0, by rw [zero_pow two_ne_zero]⟩
  have h12 := hleast (Fin.cons rho θ) v' (between_cons1.mpr ⟨hrho, hθ⟩) hv'
  exact (le_of_eq hval).trans (by linarith)

/-- **C119 (co-Kriging, noise-free, counterexample).** If some `ρ` within its bounds does make the difference constant, there is no best parameter: the computed value is not a number there. -/
theorem C119_ck_counterexample (X : Samples n d) (y f : Fin n → ℝ) (hn : 0 < n) (rho c : ℝ) (hc : ∀ i, y i - rho * f i = c) (θ : Fin d → ℝ) : ckNegLogLik X y f rho θ 0 True = .error .nonFinite := by
  classical
  obtain ⟨g, hg, hD⟩ := diffFit_succeeds (fun i => y i - rho * f i) (posDef_covTrain (pow10 θ) X 0) hn
  have h1 := isDiff_min hD c
  have h0 : wnorm (covTrain (pow10 θ) X 0) (fun i => y i - rho * f i - c) = 0 := by
    have : (fun i => y i - rho * f i - c) = 0 := funext fun i => sub_eq_zero.mpr (hc i)
    rw [this]
    simp [wnorm]
  have hs : g.sigma2 = wnorm (covTrain (pow10 θ) X 0) (fun i => y i - rho * f i - g.mu) / n := by rw [hD.sigma2, hD.gamma]; rfl
  have hnot : ¬ 0 < g.sigma2 := by
    rw [hs, not_lt]
    exact div_nonpos_of_nonpos_of_nonneg (h1.trans_eq h0) (Nat.cast_nonneg n)
  rw [ckNegLogLik_value hg, if_pos trivial, if_neg hnot]

/-- **C119 (co-Kriging, known noise).** With a known non-zero noise `s` the trained `ρ` and kernel parameters maximise a likelihood too, for process variance 1, but with the noise `s / spread²`: the noise has
been divided by the spread of the responses twice, while the fitted model uses `s / spread`. -/
theorem C119_ck_known_noise_partial (ck : CKObj d q) (w : CKWorld d) (Xh : Samples nh d) (yh : Fin nh → ℝ) (Xl : Samples nl d) (yl : Fin nl → ℝ) (s : ℝ) (hnoise : ck.noise = some s) (hne : s ≠ 0) (hopt : ck.optimizer = none)
    (hmini : ExactMinimizer w.mini) (hkb : ck.kernel.boundLow ≤ ck.kernel.boundHigh) (hrb : ck.rhoLow ≤ ck.rhoHigh) (hstarts : w.starts ≠ [])
    (ck' : CKObj d q) (t : CKFit nh nl d q) (h : ck.train w Xh yh Xl yl = .ok (ck', t)) :
    ck'.noise = some (s / std yh) ∧ ∃ m : ℝ,
      IsLeast {l | ∃ (rho : ℝ) (θ : Fin d → ℝ) (c : ℝ), (ck.rhoLow ≤ rho ∧ rho ≤ ck.rhoHigh) ∧ (∀ j, ck.kernel.boundLow ≤ θ j ∧ θ j ≤ ck.kernel.boundHigh) ∧
          l = gaussNLL (trainCov (fun k => (10 : ℝ) ^ θ k) t.Xhs ((s / std yh / std yh) ^ 2)) (fun i => (yh i - mean yh) / std yh - rho * ck'.lf.predict t.lfFit t.Xhs i - c)}
        (gaussNLL (trainCov ck'.kernel.param t.Xhs ((s / std yh / std yh) ^ 2)) (fun i => (yh i - mean yh) / std yh - t.rho * ck'.lf.predict t.lfFit t.Xhs i - m)) := by
  unfold CKObj.train at h
  obtain ⟨Xhs, h1, h⟩ := Py.bind_ok.mp h
  obtain ⟨Xls, h2, h⟩ := Py.bind_ok.mp h
  obtain ⟨yhs, h3, h⟩ := Py.bind_ok.mp h
  obtain ⟨hsd, rfl⟩ := normalizeOutput_ok h3
  obtain ⟨⟨lf, lfFit⟩, h4, h⟩ := Py.bind_ok.mp h
  obtain ⟨⟨rho, theta, noise⟩, h5, h⟩ := Py.bind_ok.mp h
  obtain ⟨g, h6, h⟩ := Py.bind_ok.mp h
  obtain ⟨LC, h7, h⟩ := Py.bind_ok.mp h
  obtain ⟨a, h8, h⟩ := Py.bind_ok.mp h
  obtain ⟨b, h9, h⟩ := Py.bind_ok.mp h
  obtain ⟨mu, h10, h⟩ := Py.bind_ok.mp h
  have hg := diffFit_ok h6
  simp only [Except.ok.injEq, Prod.mk.injEq] at h
  obtain ⟨e1, e2⟩ := h
  subst e1 e2
  rw [hnoise, Option.map_some] at h5
  unfold CKObj.fitHyper at h5
  obtain ⟨x, hx, h5⟩ := Py.bind_ok.mp h5
  simp only [Except.ok.injEq, Prod.mk.injEq] at h5
  obtain ⟨rfl, rfl, rfl⟩ := h5
  rw [hopt] at hx
  have hz : ¬ s / std yh = 0 := div_ne_zero hne hsd
  have hm : HasMinimum ⟨Fin.cons (α := fun _ => ℝ) ck.rhoLow (fun _ : Fin d => ck.kernel.boundLow), Fin.cons (α := fun _ => ℝ) ck.rhoHigh (fun _ : Fin d => ck.kernel.boundHigh)⟩
      fun p : Fin (d + 1) → ℝ => ckNegLogLik Xhs (fun i => (yh i - mean yh) / std yh) (lf.predict lfFit Xhs) (p 0) (fun j => p j.succ) (s / std yh / std yh) (s / std yh = 0) := by
    obtain ⟨v, hv, he⟩ := ckNegLogLik_continuous Xhs (fun i => (yh i - mean yh) / std yh) (lf.predict lfFit Xhs) hg.pos (rho := fun p : Fin (d + 1) → ℝ => p 0) (θ := fun p : Fin (d + 1) → ℝ => fun j => p j.succ)
      (σ := fun _ : Fin (d + 1) → ℝ => s / std yh / std yh) (continuous_apply _) (continuous_pi fun j => continuous_apply _) continuous_const (s / std yh = 0) (fun h0 => absurd h0 hz)
    refine hasMinimum_of_continuous (fun j => ?_) he hv
    exact Fin.cases hrb (fun i => hkb) j
  obtain ⟨hbd, v, hv, hleast⟩ := searchHyper_exact hmini hm hstarts hx
  obtain ⟨hr, hθb⟩ := between_cons1.mp hbd
  obtain ⟨⟨m, hm1⟩, _⟩ := (C76_ck Xhs (fun i => (yh i - mean yh) / std yh) (lf.predict lfFit Xhs) (x 0) (fun j => x j.succ) (s / std yh / std yh) (s / std yh = 0) v hv).2 hz
  refine ⟨rfl, m, ⟨x 0, fun j => x j.succ, m, hr, hθb, rfl⟩, ?_⟩
  rintro l ⟨rho, θ, c, hrho, hθ, rfl⟩
  obtain ⟨v', hv'⟩ := ckNegLogLik_ok (Xhs := Xhs) (yhs := fun i => (yh i - mean yh) / std yh) (predYlh := lf.predict lfFit Xhs) rho θ (s / std yh / std yh) (z := s / std yh = 0) hg.pos fun h0 => absurd h0 hz
  have h11 := ((C76_ck Xhs (fun i => (yh i - mean yh) / std yh) (lf.predict lfFit Xhs) rho θ (s / std yh / std yh) (s / std yh = 0) v' hv').2 hz).2 ⟨c, rfl⟩
  have h12 := hleast (Fin.cons rho θ) v' (between_cons1.mpr ⟨hrho, hθ⟩) hv'
  exact (le_of_eq hm1.symm).trans (by linarith)

/-! ## Non-vacuity -/

/-- The example environment with the exact optimiser. -/
noncomputable def knowingWorld : World 1 := { exWorld with mini := knowingMinimizer }

theorem exGP_trains_knowing (noise : Option ℝ) {n : ℕ} (X : Samples n 1) (y : Fin n → ℝ) (i j : Fin n) (hy : y i ≠ y j) : ∃ gp' t, (exGP noise).train knowingWorld X y = .ok (gp', t) :=
  C31_train_succeeds_default _ _ X y rfl (fun _ => by simp [exGP]) (by simp [exGP, RBF.mk']; norm_num) knowingMinimizer_exact.1
    (fun run h => by simp [exGP] at h) (by simp [knowingWorld, exWorld]) (by simp [knowingWorld, exWorld]) i j hy

/-- The example process, trained without noise by the exact optimiser, meets all hypotheses of `C119_gp_noise_free`. -/
example : ∃ gp' t, (exGP (some 0)).train knowingWorld exX exY = .ok (gp', t) ∧ 0 < t.gls.sigma2 ∧
    IsLeast {l | ∃ (θ : Fin 1 → ℝ) (b : Fin 1 → ℝ) (s : ℝ), (∀ j, (-2 : ℝ) ≤ θ j ∧ θ j ≤ 3) ∧ 0 < s ∧ l = gaussNLL (s • trainCov (fun k => (10 : ℝ) ^ θ k) t.Xs 0) (fun i => t.ys i - ordinary 1 (t.Xs i) ⬝ᵥ b)}
      (gaussNLL (t.gls.sigma2 • trainCov gp'.kernel.param t.Xs 0) (fun i => t.ys i - ordinary 1 (t.Xs i) ⬝ᵥ t.gls.beta)) := by
  obtain ⟨gp', t, h⟩ := exGP_trains_knowing (some 0) exX exY 0 2 exY_ne
  refine ⟨gp', t, h, C119_gp_noise_free (exGP (some 0)) knowingWorld exX exY rfl rfl knowingMinimizer_exact (by simp [exGP, RBF.mk']; norm_num) (by simp [knowingWorld, exWorld]) gp' t h ?_⟩
  intro b
  by_contra hcon
  push_neg at hcon
  obtain ⟨_, hs, theta, noise, _, _, _, e2⟩ := train_ok_iff.mp h
  have h1 := hcon 0
  have h2 := hcon 2
  have e : ordinary 1 (t.Xs 0) = ordinary 1 (t.Xs 2) := rfl
  have : t.ys 0 = t.ys 2 := h1.symm.trans ((congrArg (· ⬝ᵥ b) e).trans h2)
  rw [e2] at this
  exact exY_ne (by have := (div_left_inj' hs).mp this; linarith)

/-- Known positive noise and unknown noise. -/
example : ∃ gp' t, (exGP (some 1)).train knowingWorld exX exY = .ok (gp', t) := exGP_trains_knowing _ exX exY 0 2 exY_ne
example : ∃ gp' t, (exGP none).train knowingWorld exX exY = .ok (gp', t) := exGP_trains_knowing _ exX exY 0 2 exY_ne

/-- The example co-Kriging environment with the exact optimiser. -/
noncomputable def knowingCKWorld : CKWorld 1 := { exCKWorld with mini := knowingMinimizer }

/-- The example co-Kriging model, trained with unknown noise by the exact optimiser, meets all hypotheses of `C119_ck_unknown_noise`. -/
example : ∃ ck' t, (exCK none).train knowingCKWorld (fun i _ => ![0, 1, 2] i : Samples 3 1) ![0, 1, 5] (fun i _ => ![0, 1, 2] i : Samples 3 1) ![1, 1, 2] = .ok (ck', t) ∧
    (exCK none).noise = none ∧ (exCK none).optimizer = none ∧ ExactMinimizer knowingCKWorld.mini ∧ (exCK none).rhoLow ≤ (exCK none).rhoHigh ∧ knowingCKWorld.startsNoise ≠ [] := by
  have h : ∃ ck' t, (exCK none).train knowingCKWorld (fun i _ => ![0, 1, 2] i : Samples 3 1) ![0, 1, 5] (fun i _ => ![0, 1, 2] i : Samples 3 1) ![1, 1, 2] = .ok (ck', t) := by
    refine C48_train_succeeds (exCK none) knowingCKWorld _ _ _ _ (fun _ => by simp [exCK, exGP]) (by simp [exCK, RBF.mk']; norm_num) (by simp [exCK, RBF.mk']; norm_num)
      (by simp [exCK]; norm_num) cornerMinimizer_good (fun run h => by simp [exCK] at h) knowingMinimizer_exact.1 (fun run h => by simp [exCK] at h)
      (by simp [knowingCKWorld, exCKWorld, exWorld]) (by simp [knowingCKWorld, exCKWorld, exWorld]) (by simp [knowingCKWorld, exCKWorld]) (by simp [knowingCKWorld, exCKWorld]) 0 1 (by norm_num) (by norm_num)
      (ordinary_indep _ (by norm_num)) ?_ (fun h => by simp [exCK] at h)
    rintro (h | ⟨_, h⟩) <;> simp [exCK] at h
  obtain ⟨ck', t, h⟩ := h
  exact ⟨ck', t, h, rfl, rfl, knowingMinimizer_exact, by simp [exCK]; norm_num, by simp [knowingCKWorld, exCKWorld]⟩

/-- A hierarchical model trained with unknown noise by the exact optimiser meets the hypotheses of `C119_hk_unknown_noise`. -/
example : ∃ hk' t, ({ exHK (some 0) with noise := none } : HKObj 1 1).train ⟨exWorld, knowingWorld⟩ (fun i _ => ![0, 1, 2] i : Samples 3 1) ![0, 1, 5]
    (fun i _ => ![0, 1, 2] i : Samples 3 1) ![0, 1, 2] = .ok (hk', t) := by
  obtain ⟨lf', lfFit, hlf⟩ := exGP_trains (some 0) (fun i _ => ![0, 1, 2] i : Samples 3 1) ![0, 1, 2] 0 1 (by norm_num)
  have hf := C34_interpolation _ _ _ _ rfl _ _ hlf
  have hmean : mean (![0, 1, 5] : Fin 3 → ℝ) = 2 := by
    unfold mean; rw [Fin.sum_univ_three]; simp; norm_num
  refine C41_hk_train_succeeds _ ⟨exWorld, knowingWorld⟩ _ _ _ _ (fun _ => by simp [exHK, exGP]) (by simp [exHK, RBF.mk']; norm_num)
    knowingMinimizer_exact.1 (fun run h => by simp [exHK] at h) (by simp [knowingWorld, exWorld]) (by simp [knowingWorld, exWorld]) 0 1 (by norm_num) lf' lfFit hlf _ hf 0 ?_ (fun h => by simp at h)
  rw [hmean]; simp

/-- The counterexample is met by responses that are an affine function of the low-fidelity prediction. -/
example (θ : Fin 1 → ℝ) : ckNegLogLik (fun i _ => ![0, 1, 2] i : Samples 3 1) ![1, 3, 5] ![0, 1, 2] 2 θ 0 True = .error .nonFinite :=
  C119_ck_counterexample _ _ _ (by norm_num) 2 1 (fun i => by fin_cases i <;> norm_num) θ

end Mfpml.Props
