import Verif.Lemmas.CoKriging
import Verif.Props.GP
import Verif.Props.MFKriging
import Verif.Props.CoKriging
import Verif.Props.Likelihood

/-!
# Predictions in batches, multi-fidelity models (C105)
-/

set_option linter.unusedSectionVars false

open scoped BigOperators Matrix

namespace Mfpml.Props

open Mfpml.GP Mfpml.Spec
open Mfpml.EA (Box)

variable {n m d q ql qd nh nl : ℕ}

/-- The column of a cross-correlation matrix for row number `k` of the batch. -/
noncomputable def corrCol (param : Fin d → ℝ) (Xs : Samples n d) (k : ℕ) (x : Fin d → ℝ) : Fin n → ℝ :=
  fun i => Real.exp (-(rbfDist param (Xs i) x)) + (if i.val = k then 1 else 0) * nugget

theorem corrCol_far (param : Fin d → ℝ) (Xs : Samples n d) {k : ℕ} (hk : n ≤ k) (x : Fin d → ℝ) : corrCol param Xs k x = corrCol param Xs n x := by
  funext i
  unfold corrCol
  have := i.isLt
  rw [if_neg (by omega), if_neg (by omega)]

theorem rbfMatrix_corrCol (param : Fin d → ℝ) (Xs : Samples n d) (xs : Samples m d) (j : Fin m) (i : Fin n) :
    rbfMatrix param Xs xs i j = corrCol param Xs j (xs j) i := rfl

theorem rbf_gamma_row (param : Fin d → ℝ) (Xs : Samples n d) (xs : Samples m d) (γ : Fin n → ℝ) (j : Fin m) :
    ((rbfMatrix param Xs xs)ᵀ *ᵥ γ) j = ∑ i, Real.exp (-rbfDist param (Xs i) (xs j)) * γ i + if hj : j.val < n then nugget * γ ⟨j.val, hj⟩ else 0 := by
  simp only [Matrix.mulVec, dotProduct, Matrix.transpose_apply, rbfMatrix, add_mul, Finset.sum_add_distrib]
  congr 1
  split
  · rename_i hj
    rw [Finset.sum_eq_single ⟨j.val, hj⟩]
    · simp
    · intro b _ hb
      rw [if_neg (fun hbj => hb (Fin.ext hbj))]; simp
    · intro hh; exact absurd (Finset.mem_univ _) hh
  · rename_i hj
    apply Finset.sum_eq_zero
    intro b _
    have := b.isLt
    rw [if_neg (by omega)]; simp

/-- The value of the mean squared error for one column of correlations and one row of trend values. -/
noncomputable def mseCol (σ2 : ℝ) (K : Matrix (Fin n) (Fin n) ℝ) (F : Matrix (Fin n) (Fin q) ℝ) (k : Fin n → ℝ) (f : Fin q → ℝ) : ℝ :=
  σ2 * (1 - k ⬝ᵥ (K⁻¹ *ᵥ k) + (f - Fᵀ *ᵥ (K⁻¹ *ᵥ k)) ⬝ᵥ ((Fᵀ * (K⁻¹ * F))⁻¹ *ᵥ (f - Fᵀ *ᵥ (K⁻¹ *ᵥ k))))

theorem quad_col {p : ℕ} (A : Matrix (Fin n) (Fin n) ℝ) (M : Matrix (Fin n) (Fin p) ℝ) (j : Fin p) :
    (Mᵀ * (A * M)) j j = (fun i => M i j) ⬝ᵥ (A *ᵥ fun i => M i j) := by
  simp only [Matrix.mul_apply, Matrix.transpose_apply, dotProduct, Matrix.mulVec]

theorem mseOf_col {K : Matrix (Fin n) (Fin n) ℝ} {F : Matrix (Fin n) (Fin q) ℝ} {y : Fin n → ℝ} {g : GLS n q} (h : IsGLS K F y g)
    (knew : Matrix (Fin n) (Fin m) ℝ) (f : Matrix (Fin m) (Fin q) ℝ) :
    mseOf g F knew f = .ok (fun j => mseCol g.sigma2 K F (fun i => knew i j) (f j)) := by
  rw [mseOf_eq h]
  congr 1

/-- A prediction routine treats every row of a batch by itself: the mean and the standard deviation of row `k` are a function of the row number and the point, and from row
number `N` on they are a function of the point only. -/
def RowByRow (N : ℕ) (predict : (m : ℕ) → Samples m d → Py ((Fin m → ℝ) × (Fin m → ℝ))) : Prop :=
  ∃ μ σ : ℕ → (Fin d → ℝ) → ℝ, (∀ k x, N ≤ k → μ k x = μ N x ∧ σ k x = σ N x) ∧
    ∀ (m : ℕ) (X : Samples m d), predict m X = .ok (fun j => μ j (X j), fun j => σ j (X j))

theorem gp_rows {gp : GPObj d q} {t : GPFit n d q} (hT : Trained gp t) : RowByRow n (fun _ X => GP.predictStd gp t X) := by
  refine ⟨fun k x => (gp.regr (normPt gp.box x) ⬝ᵥ t.gls.beta + corrCol gp.kernel.param t.Xs k (normPt gp.box x) ⬝ᵥ t.gls.gamma) * t.yStd + t.yMean,
    fun k x => Real.sqrt (max (mseCol t.gls.sigma2 t.K t.F (corrCol gp.kernel.param t.Xs k (normPt gp.box x)) (gp.regr (normPt gp.box x)) * t.yStd ^ 2 + t.noise ^ 2) 0),
    fun k x hk => ?_, fun m X => ?_⟩
  · dsimp only; rw [corrCol_far _ _ hk]; exact ⟨rfl, rfl⟩
  · unfold GP.predictStd
    exact Py.bind_ok.mpr ⟨_, predictMean_eq hT X, Py.bind_ok.mpr ⟨_, normalizeInput_eq X hT.range, Py.bind_ok.mpr ⟨_, mseOf_col hT.gls _ _, rfl⟩⟩⟩

/-- C105 (Kriging; C36 has the exact dependence of the mean on the row number). -/
theorem C105_gp_rows_partial (gp : GPObj d q) (w : World d) (X : Samples n d) (y : Fin n → ℝ) (gp' : GPObj d q) (t : GPFit n d q)
    (h : gp.train w X y = .ok (gp', t)) : RowByRow n (fun _ X => GP.predictStd gp' t X) := gp_rows (trained_of_train h).1

/-- C105 (hierarchical Kriging), with the exact dependence of the mean on the row number. -/
theorem C105_hk_rows_partial (hk : HKObj d q) (w : MFWorld d) (Xh : Samples nh d) (yh : Fin nh → ℝ) (Xl : Samples nl d) (yl : Fin nl → ℝ)
    (hk' : HKObj d q) (t : HKFit nh nl d q) (h : hk.train w Xh yh Xl yl = .ok (hk', t)) :
    RowByRow (max nh nl) (fun _ X => hk'.predictStd t X) ∧
    ∃ smooth : (Fin d → ℝ) → ℝ, ∀ (m : ℕ) (X : Samples m d), hk'.predict t X = .ok (fun j => smooth (X j) +
      1e-10 * ((if hj : j.val < nh then t.yhStd * t.gls.gamma ⟨j.val, hj⟩ else 0) +
        t.gls.beta 0 * (if hj : j.val < nl then t.lfFit.yStd * t.lfFit.gls.gamma ⟨j.val, hj⟩ else 0))) := by
  obtain ⟨hT, _, _, _, hlf, _⟩ := hkTrained_of_train h
  obtain ⟨μl, σl, hfar, hl⟩ := gp_rows hT.lf
  have hlf' : ∀ (m : ℕ) (X : Samples m d), hk'.predictLf t X = .ok (fun j => μl j (X j)) := fun m X => C37_gp _ _ _ _ _ (hl m X)
  constructor
  · refine ⟨fun k x => ((fun _ : Fin 1 => (μl k x - t.yhMean) / t.yhStd) ⬝ᵥ t.gls.beta + corrCol hk'.kernel.param t.Xhs k (normPt hk'.box x) ⬝ᵥ t.gls.gamma) * t.yhStd + t.yhMean,
      fun k x => Real.sqrt ((Real.sqrt (max (mseCol t.gls.sigma2 t.K t.F (corrCol hk'.kernel.param t.Xhs k (normPt hk'.box x))
        (fun _ => (μl k x - t.yhMean) / t.yhStd)) 0) * t.yhStd) ^ 2 + t.noise ^ 2), fun k x hk => ?_, fun m X => ?_⟩
    · have h1 : μl k x = μl (max nh nl) x := by
        rw [(hfar k x (le_trans (le_max_right _ _) hk)).1, (hfar (max nh nl) x (le_max_right _ _)).1]
      have h2 : corrCol hk'.kernel.param t.Xhs k (normPt hk'.box x) = corrCol hk'.kernel.param t.Xhs (max nh nl) (normPt hk'.box x) := by
        rw [corrCol_far _ _ (le_trans (le_max_left _ _) hk), corrCol_far _ _ (le_max_left nh nl)]
      dsimp only; rw [h1, h2]; exact ⟨rfl, rfl⟩
    · exact Py.bind_ok.mpr ⟨_, hkPredict_eq hT X (hlf' m X), Py.bind_ok.mpr ⟨_, normalizeInput_eq X hT.range, Py.bind_ok.mpr ⟨_, hlf' m X,
        Py.bind_ok.mpr ⟨_, mseOf_col hT.gls _ _, rfl⟩⟩⟩⟩
  · obtain ⟨smoothL, hsl⟩ := C36_batch_partial _ _ _ _ _ _ hlf
    have hs := hT.stdpos.ne'
    refine ⟨fun x => ((smoothL x - t.yhMean) / t.yhStd * t.gls.beta 0 +
      ∑ i, Real.exp (-rbfDist hk'.kernel.param (t.Xhs i) (normPt hk'.box x)) * t.gls.gamma i) * t.yhStd + t.yhMean, fun m X => ?_⟩
    rw [hkPredict_eq hT X (hsl m X)]
    congr 1
    funext j
    rw [Pi.add_apply, rbf_gamma_row]
    have hnug : nugget = 1e-10 := by unfold nugget; norm_num
    have hcol : (scaleCol (fun j => smoothL (X j) + if hj : j.val < nl then 1e-10 * t.lfFit.yStd * t.lfFit.gls.gamma ⟨j.val, hj⟩ else 0) t.yhMean t.yhStd *ᵥ t.gls.beta) j =
        (smoothL (X j) + (if hj : j.val < nl then 1e-10 * t.lfFit.yStd * t.lfFit.gls.gamma ⟨j.val, hj⟩ else 0) - t.yhMean) / t.yhStd * t.gls.beta 0 := by
      simp [Matrix.mulVec, dotProduct, scaleCol]
    rw [hcol, hnug]
    split <;> split <;> field_simp <;> ring

/-- C105 (scaled Kriging), with the exact dependence of the mean on the row number. -/
theorem C105_sk_rows_partial (sk : SKObj d ql qd) (w : SKWorld d) (Xh : Samples nh d) (yh : Fin nh → ℝ) (Xl : Samples nl d) (yl : Fin nl → ℝ)
    (sk' : SKObj d ql qd) (t : SKFit nh nl d ql qd) (h : sk.train w Xh yh Xl yl = .ok (sk', t)) :
    RowByRow (max nh nl) (fun _ X => sk'.predictStd t X) ∧
    ∃ smooth : (Fin d → ℝ) → ℝ, ∀ (m : ℕ) (X : Samples m d), sk'.predict t X = .ok (fun j => smooth (X j) +
      1e-10 * ((if hj : j.val < nh then sk'.rho * t.discFit.yStd * t.discFit.gls.gamma ⟨j.val, hj⟩ else 0) +
        (if hj : j.val < nl then t.lfFit.yStd * t.lfFit.gls.gamma ⟨j.val, hj⟩ else 0))) := by
  obtain ⟨f, disc, h1, h2, h3, h4, _⟩ := skTrain_ok h
  constructor
  · obtain ⟨μl, σl, hfl, hl⟩ := gp_rows (trained_of_train h1).1
    obtain ⟨μd, σd, hfd, hd⟩ := gp_rows (trained_of_train h4).1
    refine ⟨fun k x => sk'.rho * μl k x + μd k x, fun k x => Real.sqrt (sk'.rho ^ 2 * σl k x ^ 2 + σd k x ^ 2), fun k x hk => ?_, fun m X => ?_⟩
    · dsimp only
      have e1 := hfl k x (le_trans (le_max_right _ _) hk)
      have e2 := hfl (max nh nl) x (le_max_right _ _)
      have e3 := hfd k x (le_trans (le_max_left _ _) hk)
      have e4 := hfd (max nh nl) x (le_max_left _ _)
      rw [e1.1, e1.2, e2.1, e2.2, e3.1, e3.2, e4.1, e4.2]
      exact ⟨rfl, rfl⟩
    · exact Py.bind_ok.mpr ⟨_, hl m X, Py.bind_ok.mpr ⟨_, hd m X, rfl⟩⟩
  · obtain ⟨sl, hsl⟩ := C36_batch_partial _ _ _ _ _ _ h1
    obtain ⟨sd, hsd⟩ := C36_batch_partial _ _ _ _ _ _ h4
    refine ⟨fun x => sd x * sk'.rho + sl x, fun m X => ?_⟩
    unfold SKObj.predict
    refine Py.bind_ok.mpr ⟨_, hsd m X, Py.bind_ok.mpr ⟨_, hsl m X, ?_⟩⟩
    congr 1
    funext j
    split <;> split <;> ring

theorem crossCov_col {ck : CKObj d q} {t : CKFit nh nl d q} (xs : Samples m d) (j : Fin m) (a : Fin (nl + nh)) :
    crossCov ck t xs a j = Fin.append (fun i => t.rho * t.lfFit.gls.sigma2 * corrCol ck.lf.kernel.param t.Xls j (xs j) i)
      (fun i => t.rho ^ 2 * t.lfFit.gls.sigma2 * corrCol ck.lf.kernel.param t.Xhs j (xs j) i + t.sigma2 * corrCol ck.kernel.param t.Xhs j (xs j) i) a := by
  refine Fin.addCases (fun i => ?_) (fun i => ?_) a
  · rw [Fin.append_left]
    unfold crossCov
    rw [finSumFinEquiv_symm_apply_castAdd]
    rfl
  · rw [Fin.append_right]
    unfold crossCov
    rw [finSumFinEquiv_symm_apply_natAdd]
    rfl

/-- C105 (co-Kriging), with the exact dependence of the mean on the row number. -/
theorem C105_ck_rows_partial (ck : CKObj d q) (w : CKWorld d) (Xh : Samples nh d) (yh : Fin nh → ℝ) (Xl : Samples nl d) (yl : Fin nl → ℝ)
    (ck' : CKObj d q) (t : CKFit nh nl d q) (h : ck.train w Xh yh Xl yl = .ok (ck', t)) :
    RowByRow (max nh nl) (fun _ X => (ck'.predictStd t X).map Prod.snd) ∧ RowByRow nl (fun _ X => ck'.predictLfStd t X) ∧
    ∃ (smooth : (Fin d → ℝ) → ℝ) (z : Fin (nl + nh) → ℝ), (t.C + (1e-10 : ℝ) • 1) *ᵥ z = (fun i => t.y i - t.mu) ∧
      ∀ (m : ℕ) (X : Samples m d), ck'.predict t X = .ok (fun j => smooth (X j) +
        1e-10 * t.yhStd * ((if hj : j.val < nl then t.rho * t.lfFit.gls.sigma2 * z (Fin.castAdd nh ⟨j.val, hj⟩) else 0) +
          (if hj : j.val < nh then (t.rho ^ 2 * t.lfFit.gls.sigma2 + t.sigma2) * z (Fin.natAdd nl ⟨j.val, hj⟩) else 0))) := by
  obtain ⟨hT, _⟩ := ckTrained_of_train h
  have hnug : nugget = 1e-10 := by unfold nugget; norm_num
  have hjit : jitter = 1e-10 := by unfold jitter; norm_num
  set z : Fin (nl + nh) → ℝ := (t.C + jitter • 1)⁻¹ *ᵥ fun i => t.y i - t.mu with hz
  have hp : ∀ (m : ℕ) (X : Samples m d), ck'.predict t X = .ok (fun j => (t.mu + ((crossCov ck' t fun i => normPt ck'.box (X i))ᵀ *ᵥ z) j) * t.yhStd + t.yhMean) := fun m X =>
    Py.bind_ok.mpr ⟨_, normalizeInput_eq X hT.range, Py.bind_ok.mpr ⟨_, cholSolveV_eq hT.LC _, rfl⟩⟩
  obtain ⟨s, hs, _⟩ := hT.C
  let c : ℕ → (Fin d → ℝ) → Fin (nl + nh) → ℝ := fun k x => Fin.append (fun i => t.rho * t.lfFit.gls.sigma2 * corrCol ck'.lf.kernel.param t.Xls k (normPt ck'.box x) i)
    (fun i => t.rho ^ 2 * t.lfFit.gls.sigma2 * corrCol ck'.lf.kernel.param t.Xhs k (normPt ck'.box x) i + t.sigma2 * corrCol ck'.kernel.param t.Xhs k (normPt ck'.box x) i)
  have hc : ∀ (m : ℕ) (X : Samples m d) (j : Fin m), (fun a => crossCov ck' t (fun i => normPt ck'.box (X i)) a j) = c j (X j) := fun m X j => funext fun a => crossCov_col _ j a
  refine ⟨⟨fun k x => (t.mu + c k x ⬝ᵥ z) * t.yhStd + t.yhMean,
    fun k x => Real.sqrt ((Real.sqrt (max (t.rho ^ 2 * t.lfFit.gls.sigma2 + t.sigma2 - c k x ⬝ᵥ ((t.C + jitter • 1)⁻¹ *ᵥ c k x)) 0) * t.yhStd) ^ 2 + (s * t.yhStd) ^ 2),
    fun k x hk => ?_, fun m X => ?_⟩, ⟨fun k x => (ck'.lf.regr (normPt ck'.box x) ⬝ᵥ t.lfFit.gls.beta + corrCol ck'.lf.kernel.param t.lfFit.X k (normPt ck'.box x) ⬝ᵥ t.lfFit.gls.gamma) * t.yhStd + t.yhMean,
    fun k x => Real.sqrt (max (mseCol t.lfFit.gls.sigma2 t.lfFit.K t.lfFit.F (corrCol ck'.lf.kernel.param t.lfFit.X k (normPt ck'.box x)) (ck'.lf.regr (normPt ck'.box x))) 0 + t.lfFit.noise ^ 2) * t.yhStd,
    fun k x hk => ?_, fun m X => ?_⟩, ?_⟩
  · have : c k x = c (max nh nl) x := by
      simp only [c]
      rw [corrCol_far _ _ (le_trans (le_max_right nh nl) hk), corrCol_far _ _ (le_max_right nh nl), corrCol_far ck'.lf.kernel.param t.Xhs (le_trans (le_max_left nh nl) hk),
        corrCol_far ck'.lf.kernel.param t.Xhs (le_max_left nh nl), corrCol_far ck'.kernel.param t.Xhs (le_trans (le_max_left nh nl) hk),
        corrCol_far ck'.kernel.param t.Xhs (le_max_left nh nl)]
    dsimp only
    rw [this]; exact ⟨rfl, rfl⟩
  · have : ck'.predictStd t X = .ok ({ ck' with noise := some (s * t.yhStd) }, (fun j => (t.mu + ((crossCov ck' t fun i => normPt ck'.box (X i))ᵀ *ᵥ z) j) * t.yhStd + t.yhMean),
        fun j => Real.sqrt ((Real.sqrt (max (t.rho ^ 2 * t.lfFit.gls.sigma2 + t.sigma2 - ((crossCov ck' t fun i => normPt ck'.box (X i))ᵀ *
          ((t.C + jitter • (1 : Matrix (Fin (nl + nh)) (Fin (nl + nh)) ℝ))⁻¹ * crossCov ck' t fun i => normPt ck'.box (X i))) j j) 0) * t.yhStd) ^ 2 + (s * t.yhStd) ^ 2)) := by
      refine Py.bind_ok.mpr ⟨_, hp m X, Py.bind_ok.mpr ⟨_, normalizeInput_eq X hT.range, Py.bind_ok.mpr ⟨_, cholSolve_eq hT.LC _, ?_⟩⟩⟩
      rw [hs]
    dsimp only
    rw [this]
    refine congrArg Except.ok (Prod.ext (funext fun j => ?_) (funext fun j => ?_))
    · dsimp only
      rw [← hc m X j]; rfl
    · dsimp only
      rw [quad_col, hc m X j]
  · dsimp only; rw [corrCol_far _ _ hk]; exact ⟨rfl, rfl⟩
  · exact Py.bind_ok.mpr ⟨_, normalizeInput_eq X hT.range, Py.bind_ok.mpr ⟨_, Py.bind_ok.mpr ⟨_, mseOf_col hT.lf.gls _ _, rfl⟩, rfl⟩⟩
  · refine ⟨fun x => (t.mu + Fin.append (fun i => t.rho * t.lfFit.gls.sigma2 * Real.exp (-rbfDist ck'.lf.kernel.param (t.Xls i) (normPt ck'.box x)))
      (fun i => t.rho ^ 2 * t.lfFit.gls.sigma2 * Real.exp (-rbfDist ck'.lf.kernel.param (t.Xhs i) (normPt ck'.box x)) +
        t.sigma2 * Real.exp (-rbfDist ck'.kernel.param (t.Xhs i) (normPt ck'.box x))) ⬝ᵥ z) * t.yhStd + t.yhMean, z, ?_, fun m X => ?_⟩
    · rw [← hjit, hz, Matrix.mulVec_mulVec, Matrix.mul_nonsing_inv _ hT.LC.isUnitA, Matrix.one_mulVec]
    · rw [hp m X]
      congr 1
      funext j
      have e : ((crossCov ck' t fun i => normPt ck'.box (X i))ᵀ *ᵥ z) j = c j (X j) ⬝ᵥ z := by rw [← hc m X j]; rfl
      rw [e]
      have hpick : ∀ (N : ℕ) (a : Fin N → ℝ), ∑ i : Fin N, (if i.val = j.val then 1 else 0) * nugget * a i = if hj : j.val < N then nugget * a ⟨j.val, hj⟩ else 0 := by
        intro N a
        split
        · rename_i hj
          rw [Finset.sum_eq_single ⟨j.val, hj⟩]
          · simp
          · intro b _ hb
            rw [if_neg (fun hbj => hb (Fin.ext hbj))]; simp
          · intro hh; exact absurd (Finset.mem_univ _) hh
        · rename_i hj
          apply Finset.sum_eq_zero
          intro b _
          have := b.isLt
          rw [if_neg (by omega)]; simp
      simp only [c, dotProduct, Fin.sum_univ_add, Fin.append_left, Fin.append_right, corrCol, mul_add, add_mul, Finset.sum_add_distrib]
      have p1 := hpick nl (fun i => t.rho * t.lfFit.gls.sigma2 * z (Fin.castAdd nh i))
      have p2 := hpick nh (fun i => t.rho ^ 2 * t.lfFit.gls.sigma2 * z (Fin.natAdd nl i))
      have p3 := hpick nh (fun i => t.sigma2 * z (Fin.natAdd nl i))
      have q1 : ∑ i, t.rho * t.lfFit.gls.sigma2 * ((if i.val = j.val then 1 else 0) * nugget) * z (Fin.castAdd nh i) =
        ∑ i : Fin nl, (if i.val = j.val then 1 else 0) * nugget * (t.rho * t.lfFit.gls.sigma2 * z (Fin.castAdd nh i)) := Finset.sum_congr rfl fun i _ => by ring
      have q2 : ∑ i, t.rho ^ 2 * t.lfFit.gls.sigma2 * ((if i.val = j.val then 1 else 0) * nugget) * z (Fin.natAdd nl i) =
        ∑ i : Fin nh, (if i.val = j.val then 1 else 0) * nugget * (t.rho ^ 2 * t.lfFit.gls.sigma2 * z (Fin.natAdd nl i)) := Finset.sum_congr rfl fun i _ => by ring
      have q3 : ∑ i, t.sigma2 * ((if i.val = j.val then 1 else 0) * nugget) * z (Fin.natAdd nl i) =
        ∑ i : Fin nh, (if i.val = j.val then 1 else 0) * nugget * (t.sigma2 * z (Fin.natAdd nl i)) := Finset.sum_congr rfl fun i _ => by ring
      rw [q1, q2, q3, p1, p2, p3, hnug]
      split <;> split <;> ring

/-! ### The row number matters -/

theorem isGLS_exact {K : Matrix (Fin n) (Fin n) ℝ} {F : Matrix (Fin n) (Fin q) ℝ} {g : GLS n q} {b : Fin q → ℝ} (h : IsGLS K F (F *ᵥ b) g) : g.beta = b ∧ g.gamma = 0 := by
  have hb : g.beta = b := by
    rw [h.beta, Matrix.mulVec_mulVec b K⁻¹ F, Matrix.mulVec_mulVec b Fᵀ (K⁻¹ * F), Matrix.mulVec_mulVec, Matrix.nonsing_inv_mul _ h.cholM.isUnitA, Matrix.one_mulVec]
  exact ⟨hb, by rw [h.gamma, hb, sub_self, Matrix.mulVec_zero]⟩

/-- Hierarchical Kriging models with a known noise of 1 and an exact low-fidelity model. -/
noncomputable def exHKB : HKObj 1 1 := { exHK (some 1) with lf := exGP (some 0) }

/-- C105 is false for hierarchical Kriging: with equal responses at both fidelities the rows of a batch that repeats one point differ. -/
theorem C105_hk_counterexample : ∃ (hk' : HKObj 1 1) (t : HKFit 3 3 1 1) (μ : Fin 4 → ℝ),
    exHKB.train ⟨exWorld, exWorld⟩ exX exY exX exY = .ok (hk', t) ∧ hk'.predict t (fun _ _ => 2) = .ok μ ∧ ∃ i j, μ i ≠ μ j := by
  obtain ⟨lf', lfFit, hlf⟩ := exGP_trains (some 0) exX exY 0 2 exY_ne
  have hf := C34_interpolation _ _ _ _ rfl _ _ hlf
  have hmean : mean exY = 3 := by unfold mean; rw [Fin.sum_univ_three]; simp [exY]; norm_num
  obtain ⟨hk', t, ht⟩ := C41_hk_train_succeeds exHKB ⟨exWorld, exWorld⟩ exX exY exX exY (fun _ => by simp [exHKB, exHK, exGP]) (by simp [exHKB, exHK, RBF.mk']; norm_num)
    cornerMinimizer_good (fun run h => by simp [exHKB, exHK] at h) (by simp [exWorld]) (by simp [exWorld]) 0 2 exY_ne lf' lfFit hlf _ hf 0 (by rw [hmean]; simp [exY]) (fun h => by simp [exHKB, exHK] at h)
  obtain ⟨_, smooth, hs⟩ := C105_hk_rows_partial _ _ _ _ _ _ _ _ ht
  refine ⟨hk', t, _, ht, hs 4 _, ?_⟩
  obtain ⟨hT, hX, hy, hbox, hlf', hno, hm, hsd, hys⟩ := hkTrained_of_train ht
  have hl : (hk'.lf, t.lfFit) = (lf', lfFit) := by
    have : Except.ok (hk'.lf, t.lfFit) = (Except.ok (lf', lfFit) : Py _) := hlf'.symm.trans hlf
    exact Except.ok.inj this
  obtain ⟨e1, e2⟩ := Prod.mk.inj hl
  have hF : t.yhs = t.F *ᵥ fun _ => 1 := by
    obtain ⟨f, hf', hF⟩ := hT.F
    have : f = exY := by
      unfold HKObj.predictLf at hf'
      rw [e1, e2, hX, hf] at hf'
      exact (Except.ok.inj hf').symm
    rw [hF, this, hys, hm, hsd]
    funext i
    simp [Matrix.mulVec, dotProduct, scaleCol]
  obtain ⟨hb, hg⟩ := isGLS_exact (hF ▸ hT.gls)
  obtain ⟨hTl, _⟩ := trained_of_train hlf
  have hγ : lfFit.gls.gamma ≠ 0 := fun h0 => by
    have := hTl.gls.K_gamma
    rw [h0, Matrix.mulVec_zero] at this
    exact exGP_nofit _ _ _ 0 2 exY_ne _ _ hlf _ (sub_eq_zero.mp this.symm).symm
  obtain ⟨i, hi⟩ := Function.ne_iff.mp hγ
  refine ⟨i.castSucc, Fin.last 3, ?_⟩
  simp only [Fin.val_castSucc, Fin.val_last, lt_irrefl, dite_false, add_zero]
  rw [dif_pos i.isLt, dif_pos i.isLt, hb, hg, e2]
  intro he
  have he' : smooth (fun _ => 2) + 1e-10 * (t.yhStd * 0 + 1 * (lfFit.yStd * lfFit.gls.gamma i)) = smooth (fun _ => 2) + 1e-10 * (1 * 0) := by
    simpa using he
  have : lfFit.yStd * lfFit.gls.gamma i = 0 := by linarith
  rcases mul_eq_zero.mp this with h2 | h2
  · exact hTl.stdpos.ne' h2
  · exact hi h2

theorem C105_sk_counterexample : ∃ (sk' : SKObj 1 1 1) (t : SKFit 3 3 1 1 1) (μ : Fin 4 → ℝ),
    (exSK false .error).train exSKWorld exX (fun i => 2 * exY i) exX exY = .ok (sk', t) ∧ sk'.predict t (fun _ _ => 2) = .ok μ ∧ ∃ i j, μ i ≠ μ j := by
  obtain ⟨lf', lfFit, hlf⟩ := exGP_trains (some 0) exX exY 0 2 exY_ne
  have hf := C34_interpolation _ _ _ _ rfl _ _ hlf
  have hd : getDisc 1 exY (fun i => 2 * exY i) = exY := by funext i; unfold getDisc; ring
  have htr : (exSK false .error).train exSKWorld exX (fun i => 2 * exY i) exX exY =
      .ok ({ exSK false .error with lf := lf', disc := lf', rho := 1 }, { Xh := exX, yh := fun i => 2 * exY i, lfFit := lfFit, discFit := lfFit }) := by
    refine Py.bind_ok.mpr ⟨_, hlf, Py.bind_ok.mpr ⟨_, hf, Py.bind_ok.mpr ⟨(1, exGP (some 0)), rfl, Py.bind_ok.mpr ⟨(lf', lfFit), ?_, rfl⟩⟩⟩⟩
    show (exGP (some 0)).train exWorld exX (getDisc 1 exY _) = _
    rw [hd]; exact hlf
  obtain ⟨_, smooth, hs⟩ := C105_sk_rows_partial _ _ _ _ _ _ _ _ htr
  refine ⟨_, _, _, htr, hs 4 _, ?_⟩
  obtain ⟨hT, _⟩ := trained_of_train hlf
  have hγ : lfFit.gls.gamma ≠ 0 := fun h0 => by
    have := hT.gls.K_gamma
    rw [h0, Matrix.mulVec_zero] at this
    exact exGP_nofit _ _ _ 0 2 exY_ne _ _ hlf _ (sub_eq_zero.mp this.symm).symm
  obtain ⟨i, hi⟩ := Function.ne_iff.mp hγ
  refine ⟨i.castSucc, Fin.last 3, ?_⟩
  simp only [Fin.val_castSucc, Fin.val_last, lt_irrefl, dite_false, add_zero]
  rw [dif_pos i.isLt, dif_pos i.isLt]
  have hpos := hT.stdpos
  intro he
  have he' : smooth (fun _ => 2) + 1e-10 * (1 * lfFit.yStd * lfFit.gls.gamma i + lfFit.yStd * lfFit.gls.gamma i) = smooth (fun _ => 2) + 1e-10 * 0 := he
  have : lfFit.yStd * lfFit.gls.gamma i = 0 := by linarith
  rcases mul_eq_zero.mp this with h2 | h2
  · exact hpos.ne' h2
  · exact hi h2

/-- A co-Kriging model with the scale factor fixed at 0. -/
noncomputable def exCKZ : CKObj 1 1 := { exCK none with rhoLow := 0, rhoHigh := 0 }

theorem ckTrain_diff {ck : CKObj d q} {w : CKWorld d} {Xh : Samples nh d} {yh : Fin nh → ℝ} {Xl : Samples nl d} {yl : Fin nl → ℝ}
    {ck' : CKObj d q} {t : CKFit nh nl d q} (h : ck.train w Xh yh Xl yl = .ok (ck', t)) :
    ∃ (K : Matrix (Fin nh) (Fin nh) ℝ) (g : DiffFit nh),
      IsDiff K (fun i => (yh i - mean yh) / std yh - t.rho * ck'.lf.predict t.lfFit (fun i => normPt ck.box (Xh i)) i) g ∧ t.sigma2 = g.sigma2 := by
  unfold CKObj.train at h
  obtain ⟨Xhs, h1, h⟩ := Py.bind_ok.mp h
  obtain ⟨Xls, h2, h⟩ := Py.bind_ok.mp h
  obtain ⟨yhs, h3, h⟩ := Py.bind_ok.mp h
  obtain ⟨hr, rfl⟩ := normalizeInput_ok h1
  obtain ⟨_, rfl⟩ := normalizeInput_ok h2
  obtain ⟨hs, rfl⟩ := normalizeOutput_ok h3
  obtain ⟨⟨lf, lfFit⟩, h4, h⟩ := Py.bind_ok.mp h
  obtain ⟨⟨rho, theta, noise⟩, h5, h⟩ := Py.bind_ok.mp h
  obtain ⟨g, h6, h⟩ := Py.bind_ok.mp h
  obtain ⟨LC, h7, h⟩ := Py.bind_ok.mp h
  obtain ⟨a, h8, h⟩ := Py.bind_ok.mp h
  obtain ⟨b, h9, h⟩ := Py.bind_ok.mp h
  obtain ⟨mu, h10, h⟩ := Py.bind_ok.mp h
  simp only [Except.ok.injEq, Prod.mk.injEq] at h
  obtain ⟨e1, e2⟩ := h
  subst e1 e2
  exact ⟨_, g, diffFit_ok h6, rfl⟩

/-- C105 is false for co-Kriging. -/
theorem C105_ck_counterexample : ∃ (ck' : CKObj 1 1) (t : CKFit 3 3 1 1) (μ : Fin 4 → ℝ),
    exCKZ.train exCKWorld exX exY exX exY = .ok (ck', t) ∧ ck'.predict t (fun _ _ => 2) = .ok μ ∧ ∃ i j, μ i ≠ μ j := by
  obtain ⟨ck', t, ht⟩ : ∃ ck' t, exCKZ.train exCKWorld exX exY exX exY = .ok (ck', t) := by
    have h0 : exCKZ.noise ≠ some 0 := by simp [exCKZ, exCK]
    refine C48_train_succeeds exCKZ exCKWorld exX exY exX exY (fun _ => by simp [exCKZ, exCK, exGP]) (by simp [exCKZ, exCK, RBF.mk']; norm_num) (by simp [exCKZ, exCK, RBF.mk']; norm_num)
      (by simp [exCKZ]) cornerMinimizer_good (fun run h => by simp [exCKZ, exCK] at h) cornerMinimizer_good (fun run h => by simp [exCKZ, exCK] at h)
      (by simp [exCKWorld, exWorld]) (by simp [exCKWorld, exWorld]) (by simp [exCKWorld]) (by simp [exCKWorld]) 0 2 exY_ne (by norm_num) (ordinary_indep _ (by norm_num)) ?_ (fun h => absurd h h0)
    rintro (h | ⟨_, h⟩)
    · exact absurd h h0
    · simp [exCKZ, exCK] at h
  obtain ⟨θ, σ, v, _, _, hr1, hr2, _⟩ := C79_ck_free exCKZ exCKWorld exX exY exX exY rfl rfl cornerMinimizer_good (by simp [exCKZ, exCK, RBF.mk']; norm_num) (by simp [exCKZ]) (by simp [exCKWorld]) ck' t ht
  have hrho : t.rho = 0 := le_antisymm hr2 hr1
  obtain ⟨hT, hy, hyl, hm, hsd, _⟩ := ckTrained_of_train ht
  have hspos := hT.stdpos
  obtain ⟨K, g, hG, hsg⟩ := ckTrain_diff ht
  have hne : (exY 0 - mean exY) / std exY ≠ (exY 2 - mean exY) / std exY := by
    intro h
    have h' := hsd ▸ hspos
    rw [div_left_inj' h'.ne'] at h
    exact exY_ne (by linarith)
  have hspos2 : 0 < t.sigma2 := by
    rw [hsg]
    refine hG.sigma2_pos (i := 0) (j := 2) ?_
    rw [hrho]; simpa using hne
  obtain ⟨_, _, smooth, z, hz, hs⟩ := C105_ck_rows_partial _ _ _ _ _ _ _ _ ht
  refine ⟨ck', t, _, ht, hs 4 _, ?_⟩
  by_cases hz0 : ∃ i : Fin 3, z (Fin.natAdd 3 i) ≠ 0
  · obtain ⟨i, hi⟩ := hz0
    refine ⟨i.castSucc, Fin.last 3, ?_⟩
    simp only [Fin.val_castSucc, Fin.val_last, lt_irrefl, dite_false]
    rw [dif_pos i.isLt, dif_pos i.isLt, hrho]
    intro he
    have he' : smooth (fun _ => 2) + 1e-10 * t.yhStd * (0 * t.lfFit.gls.sigma2 * z (Fin.castAdd 3 i) + (0 ^ 2 * t.lfFit.gls.sigma2 + t.sigma2) * z (Fin.natAdd 3 i)) =
      smooth (fun _ => 2) + 1e-10 * t.yhStd * (0 + 0) := he
    have : t.yhStd * t.sigma2 * z (Fin.natAdd 3 i) = 0 := by linarith
    exact hi ((mul_eq_zero.mp this).resolve_left (mul_pos hspos hspos2).ne')
  · push Not at hz0
    exfalso
    have hrow : ∀ i : Fin 3, ((t.C + (1e-10 : ℝ) • 1) *ᵥ z) (Fin.natAdd 3 i) = 0 := by
      intro i
      obtain ⟨s, _, hC⟩ := hT.C
      rw [Matrix.add_mulVec, hC, Pi.add_apply, Matrix.smul_mulVec, Matrix.one_mulVec, Pi.smul_apply, hz0 i, smul_zero, add_zero]
      simp only [Matrix.mulVec, dotProduct]
      rw [Fin.sum_univ_add]
      simp only [hz0, mul_zero, Finset.sum_const_zero, add_zero]
      refine Finset.sum_eq_zero fun j _ => ?_
      have : flat (ckCov t.lfFit.K ck'.lf.kernel.param t.lfFit.gls.sigma2 t.rho t.sigma2 (covTrain ck'.kernel.param t.Xhs s) t.Xls t.Xhs) (Fin.natAdd 3 i) (Fin.castAdd 3 j) = 0 := by
        unfold flat ckCov
        rw [Matrix.submatrix_apply, finSumFinEquiv_symm_apply_natAdd, finSumFinEquiv_symm_apply_castAdd, Matrix.fromBlocks_apply₂₁, hrho]
        simp
      rw [this, zero_mul]
    have h1 := hrow 0
    have h2 := hrow 2
    rw [hz, hT.y] at h1 h2
    simp only [Fin.append_right, hy, hm, hsd] at h1 h2
    exact hne (by linarith)

end Mfpml.Props
