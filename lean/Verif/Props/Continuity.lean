import Mathlib.Topology.Instances.Matrix
import Mathlib.Topology.Order.Compact
import Verif.Props.Batch

/-!
# Predictions are continuous (C117)
-/

set_option linter.unusedSectionVars false

open scoped BigOperators Matrix

namespace Mfpml.Props

open Mfpml.GP Mfpml.Spec
open Mfpml.EA (Box)

variable {n m d q ql qd nh nl : ℕ}

/-- A prediction routine returns a mean and a standard deviation for every batch, and in every row both are continuous functions of the point in that row (the functions may depend on the row number). -/
def ContinuousRows (predict : (m : ℕ) → Samples m d → Py ((Fin m → ℝ) × (Fin m → ℝ))) : Prop :=
  ∃ μ σ : ℕ → (Fin d → ℝ) → ℝ, (∀ k, Continuous (μ k)) ∧ (∀ k, Continuous (σ k)) ∧ ∀ (m : ℕ) (X : Samples m d), predict m X = .ok (fun j => μ j (X j), fun j => σ j (X j))

/-- A basis all of whose functions are continuous. -/
def ContinuousBasis (r : Basis d q) : Prop := Continuous r

theorem continuous_normPt (b : Box ℝ d) : Continuous (normPt b) := by
  unfold normPt
  refine continuous_pi fun k => ?_
  exact ((continuous_apply k).sub continuous_const).div_const _

theorem continuous_rbf (param : Fin d → ℝ) (a : Fin d → ℝ) : Continuous fun x => rbfDist param a x := by
  unfold rbfDist
  fun_prop

theorem continuous_corrCol (param : Fin d → ℝ) (Xs : Samples n d) (k : ℕ) : Continuous (corrCol param Xs k) := by
  refine continuous_pi fun i => ?_
  unfold corrCol
  exact (Real.continuous_exp.comp (continuous_rbf param (Xs i)).neg).add continuous_const

theorem continuous_mseCol {α : Type} [TopologicalSpace α] (σ2 : ℝ) (K : Matrix (Fin n) (Fin n) ℝ) (F : Matrix (Fin n) (Fin q) ℝ) {k : α → Fin n → ℝ} {f : α → Fin q → ℝ} (hk : Continuous k)
    (hf : Continuous f) : Continuous fun a => mseCol σ2 K F (k a) (f a) := by
  unfold mseCol
  have h1 : Continuous fun a => K⁻¹ *ᵥ k a := continuous_const.matrix_mulVec hk
  have h2 : Continuous fun a => f a - Fᵀ *ᵥ (K⁻¹ *ᵥ k a) := hf.sub (continuous_const.matrix_mulVec h1)
  exact continuous_const.mul ((continuous_const.sub (hk.dotProduct h1)).add (h2.dotProduct (continuous_const.matrix_mulVec h2)))

/-- The bases of the package are continuous. -/
theorem C117_bases : ContinuousBasis (ordinary d) ∧ ContinuousBasis (linear d) ∧ ContinuousBasis (quadraticBasis d) := by
  refine ⟨continuous_const, ?_, ?_⟩
  · refine continuous_pi fun c => ?_
    refine Fin.cases ?_ (fun k => ?_) c
    · simp only [linear, Fin.cons_zero]; exact continuous_const
    · simp only [linear, Fin.cons_succ]; exact continuous_apply k
  · have hx : ∀ k, Continuous fun x : Fin d → ℝ => xAt x k := by
      intro k
      unfold xAt
      split
      · exact continuous_apply _
      · exact continuous_const
    have hfill : ∀ (f : (Fin d → ℝ) → Row) (j q : ℕ) (v : (Fin d → ℝ) → ℕ → ℝ), (∀ c, Continuous fun x => f x c) → (∀ c, Continuous fun x => v x c) →
        ∀ c, Continuous fun x => fillSlice (f x) j q (v x) c := by
      intro f j q v hf hv c
      unfold fillSlice
      split
      · exact hv _
      · exact hf _
    have hloop : ∀ (more k j q : ℕ) (f : (Fin d → ℝ) → Row), (∀ c, Continuous fun x => f x c) →
        ∀ c, Continuous fun x => (match quadLoop x more k j q (f x) with | .ok f => f c | .error _ => 0) := by
      intro more
      induction more with
      | zero => intro k j q f hf c; exact hf c
      | succ more ih =>
        intro k j q f hf c
        unfold quadLoop
        split
        · exact ih _ _ _ (fun x => fillSlice (f x) j q fun t => xAt x k * xAt x (k + t)) (hfill f j q _ hf fun c => (hx _).mul (hx _)) c
        · exact continuous_const
    refine continuous_pi fun c => ?_
    exact hloop d 0 (d + 1) d (fun x => fillSlice (fillSlice (fun _ => 0) 0 1 fun _ => 1) 1 d fun t => xAt x t)
      (hfill _ 1 d _ (fun c => continuous_const) fun c => hx c) c

theorem gp_continuous {gp : GPObj d q} {t : GPFit n d q} (hT : Trained gp t) (hr : ContinuousBasis gp.regr) : ContinuousRows (fun _ X => GP.predictStd gp t X) := by
  have hf : Continuous fun x => gp.regr (normPt gp.box x) := hr.comp (continuous_normPt _)
  have hk : ∀ k, Continuous fun x => corrCol gp.kernel.param t.Xs k (normPt gp.box x) := fun k => (continuous_corrCol _ _ k).comp (continuous_normPt _)
  refine ⟨fun k x => (gp.regr (normPt gp.box x) ⬝ᵥ t.gls.beta + corrCol gp.kernel.param t.Xs k (normPt gp.box x) ⬝ᵥ t.gls.gamma) * t.yStd + t.yMean,
    fun k x => Real.sqrt (max (mseCol t.gls.sigma2 t.K t.F (corrCol gp.kernel.param t.Xs k (normPt gp.box x)) (gp.regr (normPt gp.box x)) * t.yStd ^ 2 + t.noise ^ 2) 0),
    fun k => ?_, fun k => ?_, fun m X => ?_⟩
  · exact (((hf.dotProduct continuous_const).add ((hk k).dotProduct continuous_const)).mul_const _).add_const _
  · exact ((((continuous_mseCol _ _ _ (hk k) hf).mul_const _).add_const _).max continuous_const).sqrt
  · unfold GP.predictStd
    exact Py.bind_ok.mpr ⟨_, predictMean_eq hT X, Py.bind_ok.mpr ⟨_, normalizeInput_eq X hT.range, Py.bind_ok.mpr ⟨_, mseOf_col hT.gls _ _, rfl⟩⟩⟩

/-- C117 (Kriging). -/
theorem C117_gp_continuous (gp : GPObj d q) (w : World d) (X : Samples n d) (y : Fin n → ℝ) (gp' : GPObj d q) (t : GPFit n d q)
    (h : gp.train w X y = .ok (gp', t)) (hr : ContinuousBasis gp.regr) : ContinuousRows (fun _ X => GP.predictStd gp' t X) := by
  obtain ⟨hT, _, _, _, hregr, _⟩ := trained_of_train h
  exact gp_continuous hT (by rw [hregr]; exact hr)

/-- C117 (hierarchical Kriging). -/
theorem C117_hk_continuous (hk : HKObj d q) (w : MFWorld d) (Xh : Samples nh d) (yh : Fin nh → ℝ) (Xl : Samples nl d) (yl : Fin nl → ℝ)
    (hk' : HKObj d q) (t : HKFit nh nl d q) (h : hk.train w Xh yh Xl yl = .ok (hk', t)) (hr : ContinuousBasis hk.lf.regr) :
    ContinuousRows (fun _ X => hk'.predictStd t X) := by
  obtain ⟨hT, _, _, _, hlf, _⟩ := hkTrained_of_train h
  obtain ⟨_, _, _, _, hregr, _⟩ := trained_of_train hlf
  obtain ⟨μl, σl, cμ, cσ, hl⟩ := gp_continuous hT.lf (by rw [hregr]; exact hr)
  have hlf' : ∀ (m : ℕ) (X : Samples m d), hk'.predictLf t X = .ok (fun j => μl j (X j)) := fun m X => C37_gp _ _ _ _ _ (hl m X)
  have hk : ∀ k, Continuous fun x => corrCol hk'.kernel.param t.Xhs k (normPt hk'.box x) := fun k => (continuous_corrCol _ _ k).comp (continuous_normPt _)
  have hf : ∀ k, Continuous fun x => (fun _ : Fin 1 => (μl k x - t.yhMean) / t.yhStd) := fun k => continuous_pi fun _ => ((cμ k).sub continuous_const).div_const _
  refine ⟨fun k x => ((fun _ : Fin 1 => (μl k x - t.yhMean) / t.yhStd) ⬝ᵥ t.gls.beta + corrCol hk'.kernel.param t.Xhs k (normPt hk'.box x) ⬝ᵥ t.gls.gamma) * t.yhStd + t.yhMean,
    fun k x => Real.sqrt ((Real.sqrt (max (mseCol t.gls.sigma2 t.K t.F (corrCol hk'.kernel.param t.Xhs k (normPt hk'.box x))
      (fun _ => (μl k x - t.yhMean) / t.yhStd)) 0) * t.yhStd) ^ 2 + t.noise ^ 2), fun k => ?_, fun k => ?_, fun m X => ?_⟩
  · exact ((((hf k).dotProduct continuous_const).add ((hk k).dotProduct continuous_const)).mul_const _).add_const _
  · exact (((((continuous_mseCol _ _ _ (hk k) (hf k)).max continuous_const).sqrt.mul_const _).pow 2).add_const _).sqrt
  · exact Py.bind_ok.mpr ⟨_, hkPredict_eq hT X (hlf' m X), Py.bind_ok.mpr ⟨_, normalizeInput_eq X hT.range, Py.bind_ok.mpr ⟨_, hlf' m X,
      Py.bind_ok.mpr ⟨_, mseOf_col hT.gls _ _, rfl⟩⟩⟩⟩

theorem bumpRun_regr {Xh : Samples nh d} {yh f : Fin nh → ℝ} : ∀ (es : List (ℝ × World d)) {disc disc' : GPObj d qd}, bumpRun Xh yh f es disc = .ok disc' → disc'.regr = disc.regr := by
  intro es
  induction es with
  | nil => intro disc disc' h; cases h; rfl
  | cons e rest ih =>
    intro disc disc' h
    unfold bumpRun at h
    obtain ⟨⟨d1, v1⟩, h1, h⟩ := Py.bind_ok.mp h
    unfold evalBumpiness at h1
    obtain ⟨⟨d2, t2⟩, h2, h1⟩ := Py.bind_ok.mp h1
    cases h1
    obtain ⟨_, _, _, _, hregr, _⟩ := trained_of_train h2
    exact (ih h).trans hregr

theorem sk_disc_regr {sk : SKObj d ql qd} {w : SKWorld d} {Xh : Samples nh d} {yh : Fin nh → ℝ} {Xl : Samples nl d} {yl : Fin nl → ℝ}
    {sk' : SKObj d ql qd} {t : SKFit nh nl d ql qd} (h : sk.train w Xh yh Xl yl = .ok (sk', t)) : sk'.disc.regr = sk.disc.regr := by
  obtain ⟨f, disc, h1, h2, h3, h4, _⟩ := skTrain_ok h
  obtain ⟨_, _, _, _, hregr, _⟩ := trained_of_train h4
  rw [hregr]
  split_ifs at h3 with ho
  · unfold SKObj.optimizeRho at h3
    split at h3
    · split at h3
      · obtain ⟨_, _, h3⟩ := Py.bind_ok.mp h3
        rw [← (Prod.mk.inj (Except.ok.inj h3)).2]
      · obtain ⟨_, _, h3⟩ := Py.bind_ok.mp h3
        rw [← (Prod.mk.inj (Except.ok.inj h3)).2]
    · obtain ⟨d', hd', h3⟩ := Py.bind_ok.mp h3
      rw [← (Prod.mk.inj (Except.ok.inj h3)).2]
      exact bumpRun_regr _ hd'
    · cases h3
  · rw [← (Prod.mk.inj (Except.ok.inj h3)).2]

/-- C117 (scaled Kriging), both for `predict` with the standard deviation and for `predict` without (they are different functions of the point, C44). -/
theorem C117_sk_continuous (sk : SKObj d ql qd) (w : SKWorld d) (Xh : Samples nh d) (yh : Fin nh → ℝ) (Xl : Samples nl d) (yl : Fin nl → ℝ)
    (sk' : SKObj d ql qd) (t : SKFit nh nl d ql qd) (h : sk.train w Xh yh Xl yl = .ok (sk', t)) (hl : ContinuousBasis sk.lf.regr) (hd : ContinuousBasis sk.disc.regr) :
    ContinuousRows (fun _ X => sk'.predictStd t X) ∧
      ∃ μ : ℕ → (Fin d → ℝ) → ℝ, (∀ k, Continuous (μ k)) ∧ ∀ (m : ℕ) (X : Samples m d), sk'.predict t X = .ok (fun j => μ j (X j)) := by
  obtain ⟨f, disc, h1, h2, h3, h4, _⟩ := skTrain_ok h
  obtain ⟨hTl, _, _, _, hrl, _⟩ := trained_of_train h1
  obtain ⟨hTd, _⟩ := trained_of_train h4
  obtain ⟨μl, σl, cμl, cσl, hpl⟩ := gp_continuous hTl (by rw [hrl]; exact hl)
  obtain ⟨μd, σd, cμd, cσd, hpd⟩ := gp_continuous hTd (by rw [sk_disc_regr h]; exact hd)
  refine ⟨⟨fun k x => sk'.rho * μl k x + μd k x, fun k x => Real.sqrt (sk'.rho ^ 2 * σl k x ^ 2 + σd k x ^ 2), fun k => ?_, fun k => ?_, fun m X => ?_⟩,
    ⟨fun k x => μd k x * sk'.rho + μl k x, fun k => ?_, fun m X => ?_⟩⟩
  · exact ((cμl k).const_mul _).add (cμd k)
  · exact ((((cσl k).pow 2).const_mul _).add ((cσd k).pow 2)).sqrt
  · exact Py.bind_ok.mpr ⟨_, hpl m X, Py.bind_ok.mpr ⟨_, hpd m X, rfl⟩⟩
  · exact ((cμd k).mul_const _).add (cμl k)
  · exact Py.bind_ok.mpr ⟨_, C37_gp _ _ _ _ _ (hpd m X), Py.bind_ok.mpr ⟨_, C37_gp _ _ _ _ _ (hpl m X), rfl⟩⟩

/-- C117 (co-Kriging), for both fidelities. -/
theorem C117_ck_continuous (ck : CKObj d q) (w : CKWorld d) (Xh : Samples nh d) (yh : Fin nh → ℝ) (Xl : Samples nl d) (yl : Fin nl → ℝ)
    (ck' : CKObj d q) (t : CKFit nh nl d q) (h : ck.train w Xh yh Xl yl = .ok (ck', t)) (hr0 : ContinuousBasis ck.lf.regr) :
    ContinuousRows (fun _ X => (ck'.predictStd t X).map Prod.snd) ∧ ContinuousRows (fun _ X => ck'.predictLfStd t X) := by
  obtain ⟨hT, _, _, _, _, _, _, _, _, hlf0⟩ := ckTrained_of_train h
  have hr : ContinuousBasis ck'.lf.regr := by
    obtain ⟨_, _, _, e, _⟩ := rawTrained_of_train hlf0
    rw [e, ckLf0]
    split <;> exact hr0
  set z : Fin (nl + nh) → ℝ := (t.C + jitter • 1)⁻¹ *ᵥ fun i => t.y i - t.mu with hz
  have hp : ∀ (m : ℕ) (X : Samples m d), ck'.predict t X = .ok (fun j => (t.mu + ((crossCov ck' t fun i => normPt ck'.box (X i))ᵀ *ᵥ z) j) * t.yhStd + t.yhMean) := fun m X =>
    Py.bind_ok.mpr ⟨_, normalizeInput_eq X hT.range, Py.bind_ok.mpr ⟨_, cholSolveV_eq hT.LC _, rfl⟩⟩
  obtain ⟨s, hs, _⟩ := hT.C
  let c : ℕ → (Fin d → ℝ) → Fin (nl + nh) → ℝ := fun k x => Fin.append (fun i => t.rho * t.lfFit.gls.sigma2 * corrCol ck'.lf.kernel.param t.Xls k (normPt ck'.box x) i)
    (fun i => t.rho ^ 2 * t.lfFit.gls.sigma2 * corrCol ck'.lf.kernel.param t.Xhs k (normPt ck'.box x) i + t.sigma2 * corrCol ck'.kernel.param t.Xhs k (normPt ck'.box x) i)
  have hc : ∀ (m : ℕ) (X : Samples m d) (j : Fin m), (fun a => crossCov ck' t (fun i => normPt ck'.box (X i)) a j) = c j (X j) := fun m X j => funext fun a => crossCov_col _ j a
  have hcol : ∀ (param : Fin d → ℝ) {N : ℕ} (Xs : Samples N d) (k : ℕ) (i : Fin N), Continuous fun x => corrCol param Xs k (normPt ck'.box x) i := fun param N Xs k i =>
    (continuous_apply i).comp ((continuous_corrCol param Xs k).comp (continuous_normPt _))
  have hcc : ∀ k, Continuous (c k) := by
    intro k
    refine continuous_pi fun a => Fin.addCases (fun i => ?_) (fun i => ?_) a
    · simp only [c, Fin.append_left]; exact (hcol _ _ k i).const_mul _
    · simp only [c, Fin.append_right]; exact ((hcol _ _ k i).const_mul _).add ((hcol _ _ k i).const_mul _)
  have hf : Continuous fun x => ck'.lf.regr (normPt ck'.box x) := Continuous.comp (g := ck'.lf.regr) hr (continuous_normPt _)
  have hkl : ∀ k, Continuous fun x => corrCol ck'.lf.kernel.param t.lfFit.X k (normPt ck'.box x) := fun k => (continuous_corrCol _ _ k).comp (continuous_normPt _)
  refine ⟨⟨fun k x => (t.mu + c k x ⬝ᵥ z) * t.yhStd + t.yhMean,
    fun k x => Real.sqrt ((Real.sqrt (max (t.rho ^ 2 * t.lfFit.gls.sigma2 + t.sigma2 - c k x ⬝ᵥ ((t.C + jitter • 1)⁻¹ *ᵥ c k x)) 0) * t.yhStd) ^ 2 + (s * t.yhStd) ^ 2),
    fun k => ?_, fun k => ?_, fun m X => ?_⟩, ⟨fun k x => (ck'.lf.regr (normPt ck'.box x) ⬝ᵥ t.lfFit.gls.beta + corrCol ck'.lf.kernel.param t.lfFit.X k (normPt ck'.box x) ⬝ᵥ t.lfFit.gls.gamma) * t.yhStd + t.yhMean,
    fun k x => Real.sqrt (max (mseCol t.lfFit.gls.sigma2 t.lfFit.K t.lfFit.F (corrCol ck'.lf.kernel.param t.lfFit.X k (normPt ck'.box x)) (ck'.lf.regr (normPt ck'.box x))) 0 + t.lfFit.noise ^ 2) * t.yhStd,
    fun k => ?_, fun k => ?_, fun m X => ?_⟩⟩
  · exact ((continuous_const.add ((hcc k).dotProduct continuous_const)).mul_const _).add_const _
  · exact (((((continuous_const.sub ((hcc k).dotProduct (continuous_const.matrix_mulVec (hcc k)))).max continuous_const).sqrt.mul_const _).pow 2).add_const _).sqrt
  · have : ck'.predictStd t X = .ok ({ ck' with noise := some (s * t.yhStd) }, (fun j => (t.mu + ((crossCov ck' t fun i => normPt ck'.box (X i))ᵀ *ᵥ z) j) * t.yhStd + t.yhMean),
        fun j => Real.sqrt ((Real.sqrt (max (t.rho ^ 2 * t.lfFit.gls.sigma2 + t.sigma2 - ((crossCov ck' t fun i => normPt ck'.box (X i))ᵀ *
          ((t.C + jitter • (1 : Matrix (Fin (nl + nh)) (Fin (nl + nh)) ℝ))⁻¹ * crossCov ck' t fun i => normPt ck'.box (X i))) j j) 0) * t.yhStd) ^ 2 + (s * t.yhStd) ^ 2)) := by
      refine Py.bind_ok.mpr ⟨_, hp m X, Py.bind_ok.mpr ⟨_, normalizeInput_eq X hT.range, Py.bind_ok.mpr ⟨_, cholSolve_eq hT.LC _, ?_⟩⟩⟩
      rw [hs]
    dsimp only
    rw [this]
    refine congrArg Except.ok (Prod.ext (funext fun j => ?_) (funext fun j => ?_))
    · dsimp only
      rw [← hc m X j]; rfl
    · dsimp only
      rw [quad_col, hc m X j]
  · exact (((hf.dotProduct continuous_const).add ((hkl k).dotProduct continuous_const)).mul_const _).add_const _
  · exact ((((continuous_mseCol _ _ _ (hkl k) hf).max continuous_const).add_const _).sqrt).mul_const _
  · exact Py.bind_ok.mpr ⟨_, normalizeInput_eq X hT.range, Py.bind_ok.mpr ⟨_, Py.bind_ok.mpr ⟨_, mseOf_col hT.lf.gls _ _, rfl⟩, rfl⟩⟩

/-- C117 applies: one model of each kind that trains and has a continuous trend. -/
example : (∃ gp' t, (exGP none).train exWorld exX exY = .ok (gp', t) ∧ ContinuousRows (fun _ X => GP.predictStd gp' t X)) ∧
    (∃ hk' t, (exHK (some 0)).train ⟨exWorld, exWorld⟩ (fun i _ => ![0, 1, 2] i : Samples 3 1) ![0, 1, 5] (fun i _ => ![0, 1, 2] i : Samples 3 1) ![0, 1, 2] = .ok (hk', t) ∧
      ContinuousRows (fun _ X => hk'.predictStd t X)) ∧
    (∃ sk' t, (exSK true .error).train exSKWorld (fun i _ => ![0, 1, 2] i : Samples 3 1) ![0, 1, 5] (fun i _ => ![0, 1, 2] i : Samples 3 1) ![0, 1, 2] = .ok (sk', t) ∧
      ContinuousRows (fun _ X => sk'.predictStd t X)) ∧
    ∃ ck' t, (exCK (some 0)).train exCKWorld (fun i _ => ![0, 1, 2] i : Samples 3 1) ![0, 1, 5] (fun i _ => ![0, 1, 2] i : Samples 3 1) ![1, 1, 2] = .ok (ck', t) ∧
      ContinuousRows (fun _ X => ck'.predictLfStd t X) := by
  obtain ⟨gp', t1, h1⟩ := exGP_trains none exX exY 0 2 exY_ne
  obtain ⟨hk', t2, h2⟩ := exHK_trains
  obtain ⟨sk', t3, h3, _⟩ := exSK_trains
  obtain ⟨ck', t4, h4⟩ := exCK_trains_noiseless
  exact ⟨⟨gp', t1, h1, C117_gp_continuous _ _ _ _ _ _ h1 C117_bases.1⟩, ⟨hk', t2, h2, C117_hk_continuous _ _ _ _ _ _ _ _ h2 C117_bases.1⟩,
    ⟨sk', t3, h3, (C117_sk_continuous _ _ _ _ _ _ _ _ h3 C117_bases.1 C117_bases.1).1⟩, ⟨ck', t4, h4, (C117_ck_continuous _ _ _ _ _ _ _ _ h4 C117_bases.1).2⟩⟩

end Mfpml.Props
