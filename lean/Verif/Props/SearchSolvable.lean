import Verif.Props.Continuity
import Verif.Props.BOAssembled

/-!
# The search problem of the acquisitions has a solution (C118)
-/

set_option linter.unusedSectionVars false

open scoped BigOperators Matrix

namespace Mfpml.Props

open Mfpml.GP Mfpml.Spec Mfpml.BO Mfpml.Acq
open Mfpml.EA (Box)

variable {n m d q nh nl : ℕ}

/-- `f` is defined everywhere in the box and takes its smallest value there at some point. -/
def HasMinimum (b : Box ℝ d) (f : (Fin d → ℝ) → Py ℝ) : Prop :=
  ∃ x v, InBounds b x ∧ f x = .ok v ∧ ∀ x', InBounds b x' → ∃ v', f x' = .ok v' ∧ v ≤ v'

theorem isCompact_box (b : Box ℝ d) : IsCompact {x | InBounds b x} := by
  have : {x : Fin d → ℝ | InBounds b x} = Set.pi Set.univ fun j => Set.Icc (b.low j) (b.high j) := by
    ext x
    simp only [InBounds, Set.mem_setOf_eq, Set.mem_pi, Set.mem_univ, true_implies, Set.mem_Icc]
  rw [this]
  exact isCompact_univ_pi fun j => isCompact_Icc

theorem box_nonempty {b : Box ℝ d} (hb : ∀ j, b.low j ≤ b.high j) : {x | InBounds b x}.Nonempty := ⟨b.low, fun j => ⟨le_rfl, hb j⟩⟩

theorem hasMinimum_of_continuous {b : Box ℝ d} (hb : ∀ j, b.low j ≤ b.high j) {f : (Fin d → ℝ) → Py ℝ} {g : (Fin d → ℝ) → ℝ} (hf : ∀ x, f x = .ok (g x)) (hg : Continuous g) :
    HasMinimum b f := by
  obtain ⟨x, hx, hmin⟩ := (isCompact_box b).exists_isMinOn (box_nonempty hb) hg.continuousOn
  exact ⟨x, g x, hx, hf x, fun x' hx' => ⟨g x', hf x', hmin hx'⟩⟩

/-- The same for a function that is set to 0 where another one is small. -/
theorem hasMinimum_of_cut {b : Box ℝ d} (hb : ∀ j, b.low j ≤ b.high j) {f : (Fin d → ℝ) → Py ℝ} {g s : (Fin d → ℝ) → ℝ} {ε : ℝ} (hf : ∀ x, f x = .ok (-(if s x < ε then 0 else g x)))
    (hg : Continuous g) (hs : Continuous s) : HasMinimum b f := by
  have hA : IsCompact ({x | InBounds b x} ∩ {x | ε ≤ s x}) := (isCompact_box b).inter_right (isClosed_le continuous_const hs)
  have hval : ∀ x, s x < ε → f x = .ok 0 := fun x hx => by rw [hf, if_pos hx, neg_zero]
  have hval' : ∀ x, ε ≤ s x → f x = .ok (-g x) := fun x hx => by rw [hf, if_neg (not_lt.mpr hx)]
  by_cases hcut : ∃ x, InBounds b x ∧ s x < ε
  · obtain ⟨x0, hx0, hs0⟩ := hcut
    by_cases hneg : ∃ x, InBounds b x ∧ ε ≤ s x ∧ -g x < 0
    · obtain ⟨x1, hx1, hs1, hn⟩ := hneg
      obtain ⟨x, hx, hmin⟩ := hA.exists_isMinOn ⟨x1, hx1, hs1⟩ hg.neg.continuousOn
      refine ⟨x, -g x, hx.1, hval' x hx.2, fun x' hx' => ?_⟩
      rcases lt_or_ge (s x') ε with h | h
      · exact ⟨0, hval x' h, (hmin ⟨hx1, hs1⟩).trans hn.le⟩
      · exact ⟨_, hval' x' h, hmin ⟨hx', h⟩⟩
    · refine ⟨x0, 0, hx0, hval x0 hs0, fun x' hx' => ?_⟩
      rcases lt_or_ge (s x') ε with h | h
      · exact ⟨0, hval x' h, le_rfl⟩
      · exact ⟨_, hval' x' h, le_of_not_gt fun hn => hneg ⟨x', hx', h, hn⟩⟩
  · have hall : ∀ x, InBounds b x → ε ≤ s x := fun x hx => le_of_not_gt fun h => hcut ⟨x, hx, h⟩
    obtain ⟨x, hx, hmin⟩ := (isCompact_box b).exists_isMinOn (box_nonempty hb) hg.neg.continuousOn
    exact ⟨x, -g x, hx, hval' x (hall x hx), fun x' hx' => ⟨_, hval' x' (hall x' hx'), hmin hx'⟩⟩

theorem continuous_eiFormula {fmin : ℝ} {μ σ : (Fin d → ℝ) → ℝ} (hμ : Continuous μ) (hσ : Continuous σ) (hnn : ∀ x, 0 ≤ σ x) : Continuous fun x => eiFormula fmin (μ x) (σ x) := by
  unfold eiFormula
  have h1 : Continuous fun x => (fmin - μ x) / (σ x + tiny9) := (continuous_const.sub hμ).div (hσ.add_const _) fun x => (add_pos_of_nonneg_of_pos (hnn x) tiny9_pos).ne'
  exact ((continuous_const.sub hμ).mul (normCdf_continuous.comp h1)).add (hσ.mul (normPdf_continuous.comp h1))

theorem single_ok {eval : Samples 1 d → Py (Fin 1 → ℝ)} {x : Fin d → ℝ} {a : ℝ} (h : eval (onePoint x) = .ok fun _ => a) : single eval x = .ok a :=
  Py.bind_ok.mpr ⟨_, h, rfl⟩

theorem fun_one {α : Type} {f : Fin 1 → α} {a : α} (h : f 0 = a) : (Except.ok f : Py (Fin 1 → α)) = .ok fun _ => a := by
  congr 1
  funext j
  rw [Fin.fin_one_eq_zero j, h]

theorem nonneg_row {predict : (m : ℕ) → Samples m d → Py ((Fin m → ℝ) × (Fin m → ℝ))} {μ σ : ℕ → (Fin d → ℝ) → ℝ}
    (h : ∀ (m : ℕ) (X : Samples m d), predict m X = .ok (fun j => μ j (X j), fun j => σ j (X j))) (hnn : ∀ m X mean std, predict m X = .ok (mean, std) → ∀ j, 0 ≤ std j) (x : Fin d → ℝ) :
    0 ≤ σ 0 x := hnn 1 (onePoint x) _ _ (h 1 (onePoint x)) 0

/-- C118 (single fidelity). For a surrogate with continuous predictions, nonnegative standard deviations and at least one response, the function that `query` of `LCB`, `EI` or `PI` hands to the search is
defined everywhere in the domain and has a minimum there. -/
theorem C118_sf (s : SFSurr d) (hc : ContinuousRows s.predict) (hnn : SFNonneg s) (hy : s.sampleY ≠ []) (hb : ∀ j, s.bounds.low j ≤ s.bounds.high j)
    {eval : (m : ℕ) → SFSurr d → Samples m d → Py (Fin m → ℝ)} (he : LibraryAcq eval) : HasMinimum s.bounds (single (eval 1 s)) := by
  obtain ⟨μ, σ, cμ, cσ, hp⟩ := hc
  have hσ0 := nonneg_row hp hnn
  obtain ⟨fmin, hfmin⟩ : ∃ a, npMin s.sampleY = .ok a := npMin_succeeds hy
  rcases he with ⟨kappa, rfl⟩ | rfl | rfl
  · exact hasMinimum_of_continuous hb (g := fun x => kappa.1 * μ 0 x - kappa.2 * σ 0 x) (fun x => single_ok (Py.bind_ok.mpr ⟨_, hp 1 _, fun_one rfl⟩))
      (((cμ 0).const_mul _).sub ((cσ 0).const_mul _))
  · exact hasMinimum_of_continuous hb (g := fun x => -eiFormula fmin (μ 0 x) (σ 0 x)) (fun x => single_ok (Py.bind_ok.mpr ⟨_, hfmin, Py.bind_ok.mpr ⟨_, hp 1 _, fun_one rfl⟩⟩))
      (continuous_eiFormula (cμ 0) (cσ 0) hσ0).neg
  · refine hasMinimum_of_continuous hb (g := fun x => -normCdf ((fmin - μ 0 x) / (σ 0 x + tiny9))) (fun x => single_ok (Py.bind_ok.mpr ⟨_, hfmin, Py.bind_ok.mpr ⟨_, hp 1 _, fun_one rfl⟩⟩)) ?_
    exact (normCdf_continuous.comp ((continuous_const.sub (cμ 0)).div ((cσ 0).add_const _) fun x => (add_pos_of_nonneg_of_pos (hσ0 x) tiny9_pos).ne')).neg

/-- C118 (constrained). The same for constrained expected improvement with any number of constraint surrogates. -/
theorem C118_cons (s : SFSurr d) (cons : List (SFSurr d)) (hc : ContinuousRows s.predict) (hnn : SFNonneg s) (hy : s.sampleY ≠ []) (hb : ∀ j, s.bounds.low j ≤ s.bounds.high j)
    (hcons : ∀ g ∈ cons, ContinuousRows g.predict ∧ SFNonneg g) :
    HasMinimum s.bounds (single fun x => do let v ← ceiEval s cons x; .ok (fun i => v i i)) := by
  obtain ⟨μ, σ, cμ, cσ, hp⟩ := hc
  have hσ0 := nonneg_row hp hnn
  obtain ⟨fmin, hfmin⟩ : ∃ a, npMin s.sampleY = .ok a := npMin_succeeds hy
  have hpof : ∃ p : (Fin d → ℝ) → ℝ, Continuous p ∧ ∀ x, ∃ r, ceiPof cons (onePoint x) = .ok r ∧ r 0 = p x := by
    have hcol : ∃ p : (Fin d → ℝ) → List ((Fin 1 → ℝ) × (Fin 1 → ℝ)), (∀ x, pofColumns (onePoint x) cons = .ok (p x)) ∧
        Continuous fun x => ((p x).map fun r => normCdf (0 - r.1 0 / (r.2 0 + tiny9))).prod := by
      clear hp hσ0 hfmin
      induction cons with
      | nil => exact ⟨fun _ => [], fun _ => rfl, by simpa using continuous_const⟩
      | cons g rest ih =>
        obtain ⟨p, hp, cp⟩ := ih fun g' hg' => hcons g' (List.mem_cons_of_mem _ hg')
        obtain ⟨⟨μg, σg, cμg, cσg, hpg⟩, hng⟩ := hcons g List.mem_cons_self
        refine ⟨fun x => (fun j => μg j (onePoint x j), fun j => σg j (onePoint x j)) :: p x, fun x => ?_, ?_⟩
        · exact Py.bind_ok.mpr ⟨_, hpg 1 _, by rw [if_pos rfl]; exact Py.bind_ok.mpr ⟨_, hp x, rfl⟩⟩
        · simp only [List.map_cons, List.prod_cons]
          refine Continuous.mul ?_ cp
          exact normCdf_continuous.comp (continuous_const.sub ((cμg 0).div ((cσg 0).add_const _) fun x => (add_pos_of_nonneg_of_pos (nonneg_row hpg hng x) tiny9_pos).ne'))
    obtain ⟨p, hp, cp⟩ := hcol
    exact ⟨_, cp, fun x => ⟨_, Py.bind_ok.mpr ⟨_, hp x, rfl⟩, rfl⟩⟩
  obtain ⟨p, cp, hpof⟩ := hpof
  refine hasMinimum_of_continuous hb (g := fun x => -eiFormula fmin (μ 0 x) (σ 0 x) * p x) (fun x => ?_) ((continuous_eiFormula (cμ 0) (cσ 0) hσ0).neg.mul cp)
  obtain ⟨r, hr, hr0⟩ := hpof x
  refine single_ok (Py.bind_ok.mpr ⟨fun _ j => -eiFormula fmin (μ 0 x) (σ 0 x) * r j, ?_, fun_one (by show _ * r 0 = _; rw [hr0])⟩)
  exact Py.bind_ok.mpr ⟨fun _ => eiFormula fmin (μ 0 x) (σ 0 x), Py.bind_ok.mpr ⟨_, hfmin, Py.bind_ok.mpr ⟨_, hp 1 _, fun_one rfl⟩⟩, Py.bind_ok.mpr ⟨r, hr, rfl⟩⟩

/-- C118 (multi-fidelity). For a multi-fidelity surrogate with continuous predictions of both fidelities, the functions that `query` of `VFLCB` and, for hierarchical Kriging, of `VFEI` hands to its two searches
have a minimum in the domain. -/
theorem C118_mf (s : MFSurr d) (b : Box ℝ d) (hb : ∀ j, b.low j ≤ b.high j) (hc : ContinuousRows s.predictStd) (hl : ContinuousRows s.predictLfStd) (hnn : MFNonneg s) (fid : ℤ)
    (hfid : fid = 0 ∨ fid = 1) :
    (∀ kappa costRatio, HasMinimum b (single (vflcbEval kappa s costRatio fid))) ∧
    (s.isHK = true → ∀ beta, s.beta = .ok beta → ∀ fmin, HasMinimum b (single (vfeiEval fmin s fid))) := by
  obtain ⟨μ, σ, cμ, cσ, hp⟩ := hc
  obtain ⟨μl, σl, cμl, cσl, hpl⟩ := hl
  have hσ0 := nonneg_row hp hnn.1
  constructor
  · intro kappa costRatio
    rcases hfid with rfl | rfl
    · exact hasMinimum_of_continuous hb (g := fun x => kappa.1 * μ 0 x - kappa.2 * σ 0 x) (fun x => single_ok (Py.bind_ok.mpr ⟨_, hp 1 _, Py.bind_ok.mpr ⟨_, hpl 1 _, fun_one rfl⟩⟩))
        (((cμ 0).const_mul _).sub ((cσ 0).const_mul _))
    · exact hasMinimum_of_continuous hb (g := fun x => kappa.1 * μ 0 x - kappa.2 * (σl 0 x * costRatio)) (fun x => single_ok (Py.bind_ok.mpr ⟨_, hp 1 _, Py.bind_ok.mpr ⟨_, hpl 1 _, fun_one rfl⟩⟩))
        (((cμ 0).const_mul _).sub (((cσl 0).mul_const _).const_mul _))
  · intro hk beta hbeta fmin
    have cg : Continuous fun x => (fmin - μ 0 x) * normCdf ((fmin - μ 0 x) / (σ 0 x + tiny8)) + σ 0 x * normPdf ((fmin - μ 0 x) / (σ 0 x + tiny8)) := by
      have h1 : Continuous fun x => (fmin - μ 0 x) / (σ 0 x + tiny8) := (continuous_const.sub (cμ 0)).div ((cσ 0).add_const _) fun x => (add_pos_of_nonneg_of_pos (hσ0 x) tiny8_pos).ne'
      exact ((continuous_const.sub (cμ 0)).mul (normCdf_continuous.comp h1)).add ((cσ 0).mul (normPdf_continuous.comp h1))
    have hnot : ¬ s.isHK = false := by rw [hk]; simp
    rcases hfid with rfl | rfl
    · refine hasMinimum_of_cut hb (s := fun x => σ 0 x) (ε := floatEps) (fun x => single_ok ?_) cg (cσ 0)
      unfold vfeiEval
      rw [if_neg hnot]
      refine Py.bind_ok.mpr ⟨_, hp 1 _, ?_⟩
      dsimp only
      rw [if_pos rfl]
      exact fun_one rfl
    · refine hasMinimum_of_cut hb (s := fun x => beta * σl 0 x) (ε := floatEps) (fun x => single_ok ?_) cg ((cσl 0).const_mul _)
      unfold vfeiEval
      rw [if_neg hnot]
      refine Py.bind_ok.mpr ⟨_, hp 1 _, ?_⟩
      dsimp only
      rw [if_neg (by decide), if_pos rfl]
      refine Py.bind_ok.mpr ⟨_, hpl 1 _, Py.bind_ok.mpr ⟨_, hbeta, ?_⟩⟩
      exact fun_one rfl

theorem fitted_continuous {b : Box ℝ d} {xs : List (Fin d → ℝ)} {ys : List ℝ} {k : Kriging d} (h : Fitted b xs ys k) {v : SFSurr d} (hv : k.view = .ok v) : ContinuousRows v.predict ∧ SFNonneg v := by
  obtain ⟨hl, gp, w, t, h0, h1, h2⟩ := h
  rw [Kriging.view, h2] at hv
  cases hv
  exact ⟨C117_gp_continuous gp w _ _ _ t h1 (by rw [h0.regr]; exact C117_bases.1), ofGP_nonneg _ _⟩

/-- C118 (single-fidelity optimiser). In every reachable state of `BayesUnConsOpt`, whatever the problem, the acquisition (`LCB`, `EI` or `PI`) of the fitted surrogate has a minimum over the domain: the next
proposal is the solution of a problem that has one. -/
theorem C118_sf_reachable (o : Outside d) (b : Box ℝ d) (hb : ∀ j, b.low j ≤ b.high j) (f : List (Fin d → ℝ) → Py (List ℝ)) (optimum : Option ℝ)
    {eval : (m : ℕ) → SFSurr d → Samples m d → Py (Fin m → ℝ)} (he : LibraryAcq eval) (opt : Option (PopOpt o.env.S d)) (numInit seed : ℕ)
    {s : SFState ℝ (Fin d → ℝ) (Kriging d) o.env.S} (h : SFReachable (sfBO o b f optimum eval opt numInit seed) s) :
    ∃ v, s.surrogate.view = .ok v ∧ HasMinimum b (single (eval 1 v)) := by
  obtain ⟨hfit, ⟨y, hy, _⟩, _⟩ := sf_fitted h
  obtain ⟨v, h1, h2, h3, _⟩ := hfit.view
  obtain ⟨hc, hnn⟩ := fitted_continuous hfit h1
  refine ⟨v, h1, ?_⟩
  have := C118_sf v hc hnn (by rw [h3]; exact List.ne_nil_of_mem hy) (by rw [h2]; exact hb) he
  rwa [h2] at this

theorem mapM_view_continuous {c : ℕ} {b : Box ℝ d} {xs : List (Fin d → ℝ)} {cons : List (Fin c → ℝ)} : ∀ (ks : List (Kriging d)) (ii : ℕ), FittedCons b xs cons ii ks →
    ∃ vs, ks.mapM Kriging.view = .ok vs ∧ ∀ v ∈ vs, ContinuousRows v.predict ∧ SFNonneg v := by
  intro ks
  induction ks with
  | nil => intro ii _; exact ⟨[], rfl, by simp⟩
  | cons k ks ih =>
    intro ii h
    obtain ⟨_, h0⟩ := h 0 k rfl
    obtain ⟨v, hv, _⟩ := h0.view
    obtain ⟨vs, hvs, hps⟩ := ih (ii + 1) fun j k' hk' => by
      obtain ⟨h1, h2⟩ := h (j + 1) k' (by simpa using hk')
      have e : ii + (j + 1) = ii + 1 + j := by omega
      refine ⟨by omega, ?_⟩
      simpa only [e] using h2
    refine ⟨v :: vs, ?_, ?_⟩
    · rw [List.mapM_cons]
      exact Py.bind_ok.mpr ⟨_, hv, Py.bind_ok.mpr ⟨_, hvs, rfl⟩⟩
    · intro v' hv'
      rcases List.mem_cons.mp hv' with rfl | hv'
      · exact fitted_continuous h0 hv
      · exact hps v' hv'

/-- C118 (constrained optimiser). -/
theorem C118_cons_reachable {c : ℕ} (o : Outside d) (b : Box ℝ d) (hb : ∀ j, b.low j ≤ b.high j) (f : List (Fin d → ℝ) → Py (List ℝ)) (fCons : List (Fin d → ℝ) → Py (List (Fin c → ℝ)))
    (optimum : Option ℝ) (opt : Option (PopOpt o.env.S d)) (numInit seed : ℕ) {s : ConsState ℝ (Fin d → ℝ) (Kriging d × List (Kriging d)) o.env.S c}
    (h : ConsReachable (consBO o b f fCons c optimum opt numInit seed) s) :
    ∃ v vs, s.surrogate.1.view = .ok v ∧ s.surrogate.2.mapM Kriging.view = .ok vs ∧ HasMinimum b (single fun x => do let r ← ceiEval v vs x; .ok (fun i => r i i)) := by
  obtain ⟨hfit, _, hcons, ⟨y, hy, _⟩, _⟩ := cons_fitted h
  obtain ⟨v, h1, h2, h3, _⟩ := hfit.view
  obtain ⟨hc, hnn⟩ := fitted_continuous hfit h1
  obtain ⟨vs, hvs, hps⟩ := mapM_view_continuous _ _ hcons
  refine ⟨v, vs, h1, hvs, ?_⟩
  have := C118_cons v vs hc hnn (by rw [h3]; exact List.ne_nil_of_mem hy) (by rw [h2]; exact hb) hps
  rwa [h2] at this

/-- C118 (hierarchical Kriging). The same for the functions that `VFLCB` and `VFEI` search for a trained model with a continuous trend. -/
theorem C118_hk_trained (hk : HKObj d q) (w : MFWorld d) (Xh : Samples nh d) (yh : Fin nh → ℝ) (Xl : Samples nl d) (yl : Fin nl → ℝ)
    (hk' : HKObj d q) (t : HKFit nh nl d q) (h : hk.train w Xh yh Xl yl = .ok (hk', t)) (hr : ContinuousBasis hk.lf.regr) (b : Box ℝ d) (hb : ∀ j, b.low j ≤ b.high j) (fid : ℤ)
    (hfid : fid = 0 ∨ fid = 1) :
    (∀ kappa costRatio, HasMinimum b (single (vflcbEval kappa (MFSurr.ofHK hk' t) costRatio fid))) ∧ ∀ fmin, HasMinimum b (single (vfeiEval fmin (MFSurr.ofHK hk' t) fid)) := by
  obtain ⟨_, _, _, _, hlf, _⟩ := hkTrained_of_train h
  have := C118_mf (MFSurr.ofHK hk' t) b hb (C117_hk_continuous hk w Xh yh Xl yl hk' t h hr) (C117_gp_continuous _ _ _ _ _ _ hlf hr) (ofHK_nonneg _ _) fid hfid
  exact ⟨this.1, this.2 rfl _ rfl⟩

/-- C118 (scaled Kriging). The same for `VFLCB`. -/
theorem C118_sk_trained {ql qd : ℕ} (sk : SKObj d ql qd) (w : SKWorld d) (Xh : Samples nh d) (yh : Fin nh → ℝ) (Xl : Samples nl d) (yl : Fin nl → ℝ)
    (sk' : SKObj d ql qd) (t : SKFit nh nl d ql qd) (h : sk.train w Xh yh Xl yl = .ok (sk', t)) (hl : ContinuousBasis sk.lf.regr) (hd : ContinuousBasis sk.disc.regr) (b : Box ℝ d)
    (hb : ∀ j, b.low j ≤ b.high j) (fid : ℤ) (hfid : fid = 0 ∨ fid = 1) (kappa : ℝ × ℝ) (costRatio : ℝ) : HasMinimum b (single (vflcbEval kappa (MFSurr.ofSK sk' t) costRatio fid)) := by
  obtain ⟨f, disc, h1, h2, h3, h4, _⟩ := skTrain_ok h
  exact (C118_mf (MFSurr.ofSK sk' t) b hb (C117_sk_continuous sk w Xh yh Xl yl sk' t h hl hd).1 (C117_gp_continuous _ _ _ _ _ _ h1 hl) (ofSK_nonneg _ _) fid hfid).1 kappa costRatio

/-- C118 applies to a hierarchical Kriging model that trains. -/
example : ∃ hk' t, (exHK (some 0)).train ⟨exWorld, exWorld⟩ (fun i _ => ![0, 1, 2] i : Samples 3 1) ![0, 1, 5] (fun i _ => ![0, 1, 2] i : Samples 3 1) ![0, 1, 2] = .ok (hk', t) ∧
    HasMinimum exInterval (single (vfeiEval 0 (MFSurr.ofHK hk' t) 1)) := by
  obtain ⟨hk', t, h⟩ := exHK_trains
  exact ⟨hk', t, h, (C118_hk_trained _ _ _ _ _ _ _ _ h C117_bases.1 exInterval (fun _ => by simp [exInterval]) 1 (Or.inr rfl)).2 0⟩

/-- C118 applies to a constrained optimiser that is constructed. -/
example : ∃ s, ConsReachable (consBO (exOutside 1) exInterval (fun xs => .ok (xs.map fun x => x 0)) (fun xs => .ok (xs.map fun x (_ : Fin 1) => x 0 - 1 / 4)) 1 none none 2 1996) s ∧
    ∃ v vs, s.surrogate.1.view = .ok v ∧ s.surrogate.2.mapM Kriging.view = .ok vs ∧ HasMinimum exInterval (single fun x => do let r ← ceiEval v vs x; .ok (fun i => r i i)) := by
  obtain ⟨s, hs⟩ := exCons_reachable
  exact ⟨s, hs, C118_cons_reachable _ _ (fun _ => by simp [exInterval]) _ _ _ _ _ _ hs⟩

/-! ### An exact search -/

/-- A search that returns a minimiser whenever there is one. -/
noncomputable def exactSearch {W : Type} (b0 : W → W) : DiffEvo W d := fun f b w =>
  open Classical in if h : HasMinimum b f then .ok ((h.choose, h.choose_spec.choose), b0 w) else .error .valueError

theorem exactSearch_spec {W : Type} (b0 : W → W) : ApproxSearch 0 (exactSearch (d := d) b0) := by
  have key : ∀ f b w x v w', exactSearch (d := d) b0 f b w = .ok ((x, v), w') → InBounds b x ∧ f x = .ok v ∧ ∀ x' v', InBounds b x' → f x' = .ok v' → v ≤ v' + 0 := by
    intro f b w x v w' h
    unfold exactSearch at h
    split_ifs at h with hm
    cases h
    obtain ⟨h1, h2, h3⟩ := hm.choose_spec.choose_spec
    refine ⟨h1, h2, fun x' v' hx' hv' => ?_⟩
    obtain ⟨u, hu, hle⟩ := h3 x' hx'
    rw [hv'] at hu
    cases hu
    rwa [add_zero]
  exact ⟨fun f b w x v w' h => ⟨(key f b w x v w' h).1, (key f b w x v w' h).2.1⟩, fun f b w x v w' h => (key f b w x v w' h).2.2⟩

/-- The outside world of the examples, with the exact search. -/
noncomputable def exactOutside (d : ℕ) : Outside d := { exOutside d with de := exactSearch (W := ℕ) fun w => w }

/-- With the exact search every reachable state has a next proposal. -/
theorem exact_query {f : List (Fin d → ℝ) → Py (List ℝ)} {b : Box ℝ d} (hb : ∀ j, b.low j ≤ b.high j) {optimum : Option ℝ} {eval : (m : ℕ) → SFSurr d → Samples m d → Py (Fin m → ℝ)} (he : LibraryAcq eval) {numInit seed : ℕ}
    {s : SFState ℝ (Fin d → ℝ) (Kriging d) ℕ} (h : SFReachable (sfBO (exactOutside d) b f optimum eval none numInit seed) s) :
    ∃ x w, (sfBO (exactOutside d) b f optimum eval none numInit seed).query s.surrogate s.rng = .ok (x, w) := by
  obtain ⟨v, hv, hm⟩ := C118_sf_reachable (exactOutside d) b hb _ optimum he none numInit seed h
  obtain ⟨hfit, _⟩ := sf_fitted h
  obtain ⟨v', hv', hb, _⟩ := hfit.view
  obtain rfl : v = v' := Except.ok.inj (hv.symm.trans hv')
  refine ⟨hm.choose, s.rng, Py.bind_ok.mpr ⟨v, hv, Py.bind_ok.mpr ⟨((hm.choose, hm.choose_spec.choose), s.rng), ?_, rfl⟩⟩⟩
  show exactSearch (W := ℕ) (fun w => w) (single (eval 1 v)) v.bounds s.rng = _
  unfold exactSearch
  rw [hb, dif_pos hm]
  rfl

/-- C118 is not vacuous, and `ApproxSearch 0` is met: with the exact search the optimiser of `exSF_reachable` is constructed and proposes a point. -/
theorem exExact_reachable : ∃ s, SFReachable (sfBO (exactOutside 1) exInterval (fun xs => .ok (xs.map fun x => x 0)) none (fun _ => eiEval) none 2 1996) s ∧
    ∃ x w, (sfBO (exactOutside 1) exInterval (fun xs => .ok (xs.map fun x => x 0)) none (fun _ => eiEval) none 2 1996).query s.surrogate s.rng = .ok (x, w) := by
  obtain ⟨s, hs⟩ : ∃ s, (sfBO (exOutside 1) exInterval (fun xs => .ok (xs.map fun x => x 0)) none (fun _ => eiEval) none 2 1996).new (0 : ℕ) = .ok s := by
    obtain ⟨s, hs⟩ := exSF_reachable
    induction hs with
    | new w h => exact ⟨_, (C87_reproducible (exOutside 1) (exOutside_lawful 1) exInterval).1 _ _ _ _ _ _ w (0 : ℕ) ▸ h⟩
    | run _ _ _ _ ih => exact ih
  have hr : SFReachable (sfBO (exactOutside 1) exInterval (fun xs => .ok (xs.map fun x => x 0)) none (fun _ => eiEval) none 2 1996) s := .new (0 : ℕ) hs
  exact ⟨s, hr, exact_query (fun _ => by simp [exInterval]) (Or.inr (Or.inl rfl)) hr⟩

end Mfpml.Props
