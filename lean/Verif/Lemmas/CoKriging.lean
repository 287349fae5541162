import Verif.Lemmas.GP
import Verif.Model.CoKriging

/-! # Lemmas about co-Kriging -/

set_option linter.unusedSectionVars false

open scoped BigOperators Matrix

namespace Mfpml.GP

open Mfpml.Spec
open Mfpml.EA (Box)

variable {nh nl n m d q : ℕ}

/-! ### the low-fidelity model -/

/-- Facts about a trained low-fidelity model. -/
structure RawTrained (gp : RawGP d q) (t : RawFit n d q) : Prop where
  F : t.F = regrMatrix gp.regr t.X
  K : t.K = covTrain gp.kernel.param t.X t.noise
  gls : IsGLS t.K t.F t.y t.gls
  noise : gp.noise = some t.noise
  param : ∀ j, 0 < gp.kernel.param j

theorem rawTrained_of_train {gp : RawGP d q} {w : World d} {X : Samples n d} {y : Fin n → ℝ} {gp' : RawGP d q} {t : RawFit n d q}
    (h : gp.train w X y = .ok (gp', t)) : RawTrained gp' t ∧ t.X = X ∧ t.y = y ∧ gp'.regr = gp.regr ∧ (∀ s, gp.noise = some s → t.noise = s) := by
  unfold RawGP.train at h
  obtain ⟨⟨theta, noise⟩, h1, h⟩ := Py.bind_ok.mp h
  obtain ⟨g, h2, h⟩ := Py.bind_ok.mp h
  simp only [Except.ok.injEq, Prod.mk.injEq] at h
  obtain ⟨e1, e2⟩ := h
  subst e1 e2
  refine ⟨⟨rfl, rfl, glsFit_ok h2, rfl, fun j => pow10_pos theta j⟩, rfl, rfl, rfl, ?_⟩
  intro s hs
  unfold RawGP.fitHyper at h1
  rw [hs] at h1
  obtain ⟨x, _, h⟩ := Py.bind_ok.mp h1
  simp only [Except.ok.injEq, Prod.mk.injEq] at h
  exact h.2.symm

theorem rawTrain_succeeds {gp : RawGP d q} {w : World d} {X : Samples n d} {y : Fin n → ℝ} (hkb : gp.kernel.boundLow ≤ gp.kernel.boundHigh)
    (hmini : GoodMinimizer w.mini) (hopt : ∀ run, gp.optimizer = some run → 0 < d ∧ GoodPopOptimizer run) (hstarts : w.starts ≠ []) (hstartsN : w.startsNoise ≠ [])
    (hn : 0 < n) (hF : IndepColumns (regrMatrix gp.regr X)) (hfit : gp.noise = some 0 → ∀ b, regrMatrix gp.regr X *ᵥ b ≠ y) :
    ∃ gp' t, gp.train w X y = .ok (gp', t) := by
  obtain ⟨theta, noise, h5⟩ : ∃ theta noise, gp.fitHyper w X y = .ok (theta, noise) := by
    unfold RawGP.fitHyper
    cases hno : gp.noise with
    | some s =>
      obtain ⟨x, hx, _⟩ := searchHyper_good (opt := gp.optimizer) (obj := fun params => negLogLik (covTrain (pow10 params) X s) (regrMatrix gp.regr X) y (s = 0))
        (lo := fun _ => gp.kernel.boundLow) (hi := fun _ => gp.kernel.boundHigh) hmini hopt (fun _ => hkb)
        (fun x _ => negLogLik_ok _ (posDef_covTrain _ _ _) hF hn (fun hz => hfit (by rw [hno, hz]))) w.starts hstarts
      exact ⟨x, s, Py.bind_ok.mpr ⟨x, hx, rfl⟩⟩
    | none =>
      obtain ⟨x, hx, _⟩ := searchHyper_good (opt := gp.optimizer)
        (obj := fun params => negLogLik (covTrain (pow10 (fun j => params j.castSucc)) X (params (Fin.last d))) (regrMatrix gp.regr X) y False)
        (lo := Fin.snoc (α := fun _ => ℝ) (fun _ => gp.kernel.boundLow) noiseLow)
        (hi := Fin.snoc (α := fun _ => ℝ) (fun _ => gp.kernel.boundHigh) noiseHigh) hmini (fun r h => ⟨Nat.succ_pos _, (hopt r h).2⟩)
        (fun j => by
          refine Fin.lastCases ?_ (fun i => ?_) j
          · simp [noiseLow, noiseHigh]; norm_num
          · simpa using hkb)
        (fun x _ => negLogLik_ok _ (posDef_covTrain _ _ _) hF hn (fun hz => hz.elim)) w.startsNoise hstartsN
      exact ⟨_, _, Py.bind_ok.mpr ⟨x, hx, rfl⟩⟩
  obtain ⟨g, h6, _⟩ := glsFit_succeeds y (posDef_covTrain (pow10 theta) X noise) ((indep_iff _).mp hF) hn
  exact ⟨_, _, Py.bind_ok.mpr ⟨_, h5, Py.bind_ok.mpr ⟨_, h6, rfl⟩⟩⟩

/-- Prediction at its own samples of a low-fidelity model with noise 0. -/
theorem rawPredict_train {gp : RawGP d q} {t : RawFit n d q} (h : RawTrained gp t) (h0 : t.noise = 0) : gp.predict t t.X = t.y := by
  unfold RawGP.predict RBF.getKernelMatrix
  have hK := h.K
  rw [h0, covTrain_zero] at hK
  rw [← hK, ← h.F]
  exact mean_train h.gls

/-! ### the difference model -/

/-- What `diffFit` returns. -/
structure IsDiff (K : Matrix (Fin n) (Fin n) ℝ) (diff : Fin n → ℝ) (g : DiffFit n) : Prop where
  chol : IsCholesky K g.L
  pos : 0 < n
  mu : g.mu = ((fun _ => 1) ⬝ᵥ (K⁻¹ *ᵥ diff)) / ((fun _ => 1) ⬝ᵥ (K⁻¹ *ᵥ fun _ => 1))
  gamma : g.gamma = K⁻¹ *ᵥ (fun i => diff i - g.mu)
  sigma2 : g.sigma2 = ((fun i => diff i - g.mu) ⬝ᵥ g.gamma) / n

theorem npDiv_ok {a b c : ℝ} (h : npDiv a b = .ok c) : b ≠ 0 ∧ c = a / b := by
  unfold npDiv at h
  split at h
  · cases h
  · rename_i hb
    simp only [Except.ok.injEq] at h
    exact ⟨hb, h.symm⟩

theorem npDiv_eq {a b : ℝ} (hb : b ≠ 0) : npDiv a b = .ok (a / b) := by unfold npDiv; rw [if_neg hb]

theorem diffFit_ok {K : Matrix (Fin n) (Fin n) ℝ} {diff : Fin n → ℝ} {g : DiffFit n} (h : diffFit K diff = .ok g) : IsDiff K diff g := by
  unfold diffFit at h
  obtain ⟨L, hL, h⟩ := Py.bind_ok.mp h
  have hc := cholesky_ok hL
  obtain ⟨a, ha, h⟩ := Py.bind_ok.mp h
  obtain ⟨b, hb, h⟩ := Py.bind_ok.mp h
  obtain ⟨mu, hmu, h⟩ := Py.bind_ok.mp h
  obtain ⟨gam, hg, h⟩ := Py.bind_ok.mp h
  obtain ⟨s, hs, h⟩ := Py.bind_ok.mp h
  rw [cholSolveV_eq hc, Except.ok.injEq] at ha hb hg
  obtain ⟨_, hmu⟩ := npDiv_ok hmu
  obtain ⟨hn, hs⟩ := npDiv_ok hs
  simp only [Except.ok.injEq] at h
  subst h ha hb hg
  exact ⟨hc, Nat.pos_of_ne_zero (by exact_mod_cast hn), hmu, rfl, hs⟩

theorem ones_quad_pos {K : Matrix (Fin n) (Fin n) ℝ} (hK : K.PosDef) (hn : 0 < n) : 0 < (fun _ : Fin n => (1 : ℝ)) ⬝ᵥ (K⁻¹ *ᵥ fun _ => 1) := by
  have hne : (fun _ : Fin n => (1 : ℝ)) ≠ 0 := fun h => one_ne_zero (congrFun h ⟨0, hn⟩)
  simpa using hK.inv.dotProduct_mulVec_pos hne

theorem diffFit_succeeds {K : Matrix (Fin n) (Fin n) ℝ} (diff : Fin n → ℝ) (hK : K.PosDef) (hn : 0 < n) : ∃ g, diffFit K diff = .ok g ∧ IsDiff K diff g := by
  obtain ⟨L, hL, hc⟩ := cholesky_of_posDef hK
  have : ∃ g, diffFit K diff = .ok g := by
    exact ⟨_, Py.bind_ok.mpr ⟨L, hL, Py.bind_ok.mpr ⟨_, cholSolveV_eq hc _, Py.bind_ok.mpr ⟨_, cholSolveV_eq hc _,
      Py.bind_ok.mpr ⟨_, npDiv_eq (ones_quad_pos hK hn).ne', Py.bind_ok.mpr ⟨_, cholSolveV_eq hc _,
      Py.bind_ok.mpr ⟨_, npDiv_eq (by exact_mod_cast hn.ne'), rfl⟩⟩⟩⟩⟩⟩⟩
  obtain ⟨g, hg⟩ := this
  exact ⟨g, hg, diffFit_ok hg⟩

theorem IsDiff.sigma2_nonneg {K : Matrix (Fin n) (Fin n) ℝ} {diff : Fin n → ℝ} {g : DiffFit n} (h : IsDiff K diff g) : 0 ≤ g.sigma2 := by
  rw [h.sigma2]
  apply div_nonneg _ (Nat.cast_nonneg n)
  rw [h.gamma]
  simpa using h.chol.posDef.inv.posSemidef.dotProduct_mulVec_nonneg (fun i => diff i - g.mu)

theorem IsDiff.sigma2_pos {K : Matrix (Fin n) (Fin n) ℝ} {diff : Fin n → ℝ} {g : DiffFit n} (h : IsDiff K diff g) {i j : Fin n} (hij : diff i ≠ diff j) :
    0 < g.sigma2 := by
  rw [h.sigma2]
  apply div_pos _ (by exact_mod_cast h.pos)
  rw [h.gamma]
  have hne : (fun i => diff i - g.mu) ≠ 0 := by
    intro h0
    apply hij
    have h1 := congrFun h0 i
    have h2 := congrFun h0 j
    simp only [Pi.zero_apply] at h1 h2
    linarith
  simpa using h.chol.posDef.inv.dotProduct_mulVec_pos hne

open Classical in
theorem ckNegLogLik_ok {Xhs : Samples n d} {yhs predYlh : Fin n → ℝ} (rho : ℝ) (theta : Fin d → ℝ) (s : ℝ) {z : Prop} (hn : 0 < n)
    (hz : z → ∃ i j, yhs i - rho * predYlh i ≠ yhs j - rho * predYlh j) : ∃ v, ckNegLogLik Xhs yhs predYlh rho theta s z = .ok v := by
  obtain ⟨g, hg, hG⟩ := diffFit_succeeds (fun i => yhs i - rho * predYlh i) (posDef_covTrain (pow10 theta) Xhs s) hn
  unfold ckNegLogLik
  rw [hg]
  show ∃ v, (if z then _ else _) = _
  by_cases h : z
  · rw [if_pos h]
    obtain ⟨i, j, hij⟩ := hz h
    have : 0 < g.sigma2 := hG.sigma2_pos (i := i) (j := j) hij
    exact ⟨_, Py.bind_ok.mpr ⟨_, by unfold npLog; rw [if_pos this], rfl⟩⟩
  · rw [if_neg h]
    exact ⟨_, rfl⟩

/-! ### the joint covariance -/

/-- Position of a sample in its own array. -/
def sumPos {nl nh : ℕ} : Fin nl ⊕ Fin nh → ℕ := Sum.elim Fin.val Fin.val

theorem posSemidef_positions : (Matrix.of (fun a b : Fin nl ⊕ Fin nh => if sumPos a = sumPos b then (1 : ℝ) else 0)).PosSemidef := by
  let Z : Matrix (Fin nl ⊕ Fin nh) (Fin (nl + nh)) ℝ := Matrix.of (fun a k => if sumPos a = k.val then 1 else 0)
  have h := Matrix.posSemidef_self_mul_conjTranspose Z
  convert h using 1
  ext a b
  rw [Matrix.mul_apply]
  simp only [Matrix.of_apply, Matrix.conjTranspose_apply, star_trivial, Z]
  have ha : sumPos a < nl + nh := by
    rcases a with i | i
    · have := i.isLt; simp [sumPos]; omega
    · have := i.isLt; simp [sumPos]; omega
  rw [Finset.sum_eq_single ⟨sumPos a, ha⟩]
  · simp [eq_comm]
  · intro k _ hk
    rw [if_neg, zero_mul]
    intro he
    exact hk (Fin.ext he.symm)
  · intro hn; exact absurd (Finset.mem_univ _) hn

theorem posSemidef_diagonal_of_nonneg {ι : Type*} [Fintype ι] [DecidableEq ι] {v : ι → ℝ} (hv : ∀ i, 0 ≤ v i) : (Matrix.diagonal v).PosSemidef :=
  Matrix.PosSemidef.diagonal hv

theorem posSemidef_ckCov (paramL param : Fin d → ℝ) (Xl : Samples nl d) (Xh : Samples nh d) (noiseL noise rho : ℝ) {s2L s2 : ℝ} (h1 : 0 ≤ s2L) (h2 : 0 ≤ s2) :
    (ckCov (covTrain paramL Xl noiseL) paramL s2L rho s2 (covTrain param Xh noise) Xl Xh).PosSemidef := by
  let X : Fin nl ⊕ Fin nh → Fin d → ℝ := Sum.elim Xl Xh
  let D : Matrix (Fin nl ⊕ Fin nh) (Fin nl ⊕ Fin nh) ℝ := Matrix.diagonal (Sum.elim (fun _ => 1) (fun _ => rho))
  let G : Matrix (Fin nl ⊕ Fin nh) (Fin nl ⊕ Fin nh) ℝ := Matrix.of (fun a b => Real.exp (-(rbfDist paramL (X a) (X b))))
  let P : Matrix (Fin nl ⊕ Fin nh) (Fin nl ⊕ Fin nh) ℝ := Matrix.of (fun a b => if sumPos a = sumPos b then (1 : ℝ) else 0)
  let E : Matrix (Fin nl ⊕ Fin nh) (Fin nh) ℝ := Matrix.of (fun a j => Sum.elim (fun _ => 0) (fun i => if i = j then 1 else 0) a)
  have hGP : (G + nugget • P).PosSemidef := (posSemidef_gauss paramL X).add (posSemidef_positions.smul nugget_pos.le)
  have hM : (s2L • (D * (G + nugget • P) * Dᴴ)).PosSemidef := (hGP.mul_mul_conjTranspose_same D).smul h1
  have hN : (Matrix.diagonal (Sum.elim (fun _ : Fin nl => s2L * noiseL ^ 2) (fun _ : Fin nh => (0 : ℝ)))).PosSemidef :=
    Matrix.PosSemidef.diagonal (fun a => by rcases a with i | i <;> simp; positivity)
  have hK : (s2 • (E * covTrain param Xh noise * Eᴴ)).PosSemidef := ((posDef_covTrain param Xh noise).posSemidef.mul_mul_conjTranspose_same E).smul h2
  have hEl : ∀ (A : Matrix (Fin nh) (Fin nh) ℝ) (i : Fin nl) (b), (E * A * Eᴴ) (Sum.inl i) b = 0 := by
    intro A i b
    rw [Matrix.mul_apply]
    apply Finset.sum_eq_zero
    intro k _
    rw [Matrix.mul_apply]
    simp [E]
  have hEr : ∀ (A : Matrix (Fin nh) (Fin nh) ℝ) (i : Fin nl) (a), (E * A * Eᴴ) a (Sum.inl i) = 0 := by
    intro A i b
    rw [Matrix.mul_apply]
    apply Finset.sum_eq_zero
    intro k _
    simp [E]
  have hErr : ∀ (A : Matrix (Fin nh) (Fin nh) ℝ) (i j : Fin nh), (E * A * Eᴴ) (Sum.inr i) (Sum.inr j) = A i j := by
    intro A i j
    simp [Matrix.mul_apply, E]
  have hsum := (hM.add hN).add hK
  convert hsum using 1
  ext a b
  rcases a with i | i <;> rcases b with j | j
  · rw [Matrix.add_apply, Matrix.add_apply, Matrix.smul_apply (s2), hEl]
    simp [ckCov, covTrain, rbfMatrix, D, G, P, X, sumPos, Matrix.diagonal_mul, Matrix.one_apply, Fin.val_inj, Matrix.diagonal_apply]
  · rw [Matrix.add_apply, Matrix.add_apply, Matrix.smul_apply (s2), hEl]
    simp [ckCov, rbfMatrix, D, G, P, X, sumPos, Matrix.diagonal_mul]
    by_cases hij : i.val = j.val
    · simp [hij]; ring
    · simp [hij]; ring
  · rw [Matrix.add_apply, Matrix.add_apply, Matrix.smul_apply (s2), hEr]
    simp [ckCov, rbfMatrix, D, G, P, X, sumPos, Matrix.diagonal_mul]
    by_cases hij : i.val = j.val
    · simp [hij]; ring
    · simp [hij]; ring
  · rw [Matrix.add_apply, Matrix.add_apply, Matrix.smul_apply (s2), hErr]
    simp [ckCov, rbfMatrix, D, G, P, X, sumPos, Matrix.diagonal_mul]
    by_cases hij : i = j
    · simp [hij]; ring
    · simp [hij, Fin.val_inj]; ring

theorem jitter_pos : 0 < jitter := by unfold jitter; positivity

theorem posSemidef_flat {A : Matrix (Fin nl ⊕ Fin nh) (Fin nl ⊕ Fin nh) ℝ} (h : A.PosSemidef) : (flat A).PosSemidef := by
  unfold flat
  exact h.submatrix _

/-! ### training -/

/-- Facts about a trained co-Kriging model. -/
structure CKTrained (ck : CKObj d q) (t : CKFit nh nl d q) : Prop where
  range : ∀ j, ck.box.high j - ck.box.low j ≠ 0
  stdpos : 0 < t.yhStd
  lf : RawTrained ck.lf t.lfFit
  lfX : t.lfFit.X = t.Xls
  sigma2 : 0 ≤ t.sigma2
  C : ∃ noise, ck.noise = some noise ∧
    t.C = flat (ckCov t.lfFit.K ck.lf.kernel.param t.lfFit.gls.sigma2 t.rho t.sigma2 (covTrain ck.kernel.param t.Xhs noise) t.Xls t.Xhs)
  LC : IsCholesky (t.C + jitter • (1 : Matrix (Fin (nl + nh)) (Fin (nl + nh)) ℝ)) t.LC
  y : t.y = Fin.append (fun i => (t.yl i - t.yhMean) / t.yhStd) (fun i => (t.yh i - t.yhMean) / t.yhStd)
  mu : t.mu = ((fun _ => 1) ⬝ᵥ ((t.C + jitter • 1)⁻¹ *ᵥ t.y)) / ((fun _ => 1) ⬝ᵥ ((t.C + jitter • 1)⁻¹ *ᵥ fun _ => 1))
  pos : 0 < nh

/-- The low-fidelity model as `train` hands it the scaled noise (co_kriging.py:385-389). -/
noncomputable def ckLf0 (ck : CKObj d q) (s : ℝ) : RawGP d q := match ck.noise.map (· / s) with
  | some s => { ck.lf with noise := some s }
  | none => ck.lf

theorem ckTrained_of_train {ck : CKObj d q} {w : CKWorld d} {Xh : Samples nh d} {yh : Fin nh → ℝ} {Xl : Samples nl d} {yl : Fin nl → ℝ}
    {ck' : CKObj d q} {t : CKFit nh nl d q} (h : ck.train w Xh yh Xl yl = .ok (ck', t)) :
    CKTrained ck' t ∧ t.yh = yh ∧ t.yl = yl ∧ t.yhMean = mean yh ∧ t.yhStd = std yh ∧ ck'.box = ck.box ∧
      t.Xhs = (fun i => normPt ck.box (Xh i)) ∧ t.Xls = (fun i => normPt ck.box (Xl i)) ∧
      (∀ s, ck.noise = some s → ck'.noise = some (s / std yh) ∧ t.lfFit.noise = s / std yh) ∧
      (ckLf0 ck (std yh)).train w.lf t.Xls (fun i => (yl i - mean yh) / std yh) = .ok (ck'.lf, t.lfFit) := by
  unfold CKObj.train at h
  obtain ⟨Xhs, h1, h⟩ := Py.bind_ok.mp h
  obtain ⟨Xls, h2, h⟩ := Py.bind_ok.mp h
  obtain ⟨yhs, h3, h⟩ := Py.bind_ok.mp h
  obtain ⟨hr, rfl⟩ := normalizeInput_ok h1
  obtain ⟨_, rfl⟩ := normalizeInput_ok h2
  obtain ⟨hs, rfl⟩ := normalizeOutput_ok h3
  obtain ⟨⟨lf, lfFit⟩, h4, h⟩ := Py.bind_ok.mp h
  obtain ⟨⟨rho, theta, noise⟩, h5, h⟩ := Py.bind_ok.mp h
  obtain ⟨g, h6, h⟩ := Py.bind_ok.mp h
  obtain ⟨LC, h7, h⟩ := Py.bind_ok.mp h
  obtain ⟨a, h8, h⟩ := Py.bind_ok.mp h
  obtain ⟨b, h9, h⟩ := Py.bind_ok.mp h
  obtain ⟨mu, h10, h⟩ := Py.bind_ok.mp h
  have hc := cholesky_ok h7
  rw [cholSolveV_eq hc, Except.ok.injEq] at h8 h9
  obtain ⟨_, hmu⟩ := npDiv_ok h10
  have hg := diffFit_ok h6
  obtain ⟨hraw, hX, hy, _, hno⟩ := rawTrained_of_train h4
  simp only [Except.ok.injEq, Prod.mk.injEq] at h
  obtain ⟨e1, e2⟩ := h
  subst e1 e2
  have hpos : 0 < std yh := lt_of_le_of_ne (std_nonneg yh) (Ne.symm hs)
  refine ⟨⟨hr, hpos, hraw, hX, hg.sigma2_nonneg, ⟨noise, rfl, rfl⟩, hc, rfl, ?_, hg.pos⟩, rfl, rfl, rfl, rfl, rfl, rfl, rfl, ?_, h4⟩
  · simp only
    rw [hmu, ← h8, ← h9]
  · intro s hns
    have hmap : ck.noise.map (· / std yh) = some (s / std yh) := by rw [hns]; rfl
    rw [hmap] at h5 hno
    unfold CKObj.fitHyper at h5
    obtain ⟨x, _, h⟩ := Py.bind_ok.mp h5
    simp only [Except.ok.injEq, Prod.mk.injEq] at h
    exact ⟨by rw [h.2.2], hno _ rfl⟩

/-- `train` changes only the kernel parameters and the noise levels of the objects. -/
theorem ckTrain_static {ck : CKObj d q} {w : CKWorld d} {Xh : Samples nh d} {yh : Fin nh → ℝ} {Xl : Samples nl d} {yl : Fin nl → ℝ}
    {ck' : CKObj d q} {t : CKFit nh nl d q} (h : ck.train w Xh yh Xl yl = .ok (ck', t)) :
    ck'.box = ck.box ∧ ck'.rhoLow = ck.rhoLow ∧ ck'.rhoHigh = ck.rhoHigh ∧ ck'.optimizer = ck.optimizer ∧ ck'.kernel.boundLow = ck.kernel.boundLow ∧
      ck'.kernel.boundHigh = ck.kernel.boundHigh ∧ ck'.lf.kernel.boundLow = ck.lf.kernel.boundLow ∧ ck'.lf.kernel.boundHigh = ck.lf.kernel.boundHigh ∧
      ck'.lf.optimizer = ck.lf.optimizer ∧ ck'.lf.regr = ck.lf.regr := by
  unfold CKObj.train at h
  obtain ⟨Xhs, h1, h⟩ := Py.bind_ok.mp h
  obtain ⟨Xls, h2, h⟩ := Py.bind_ok.mp h
  obtain ⟨yhs, h3, h⟩ := Py.bind_ok.mp h
  obtain ⟨⟨lf, lfFit⟩, h4, h⟩ := Py.bind_ok.mp h
  obtain ⟨⟨rho, theta, noise⟩, h5, h⟩ := Py.bind_ok.mp h
  obtain ⟨g, h6, h⟩ := Py.bind_ok.mp h
  obtain ⟨LC, h7, h⟩ := Py.bind_ok.mp h
  obtain ⟨a, h8, h⟩ := Py.bind_ok.mp h
  obtain ⟨b, h9, h⟩ := Py.bind_ok.mp h
  obtain ⟨mu, h10, h⟩ := Py.bind_ok.mp h
  simp only [Except.ok.injEq, Prod.mk.injEq] at h
  obtain ⟨e1, e2⟩ := h
  subst e1
  unfold RawGP.train at h4
  obtain ⟨⟨theta', noise'⟩, h11, h4⟩ := Py.bind_ok.mp h4
  obtain ⟨g', h12, h4⟩ := Py.bind_ok.mp h4
  simp only [Except.ok.injEq, Prod.mk.injEq] at h4
  obtain ⟨e3, _⟩ := h4
  subst e3
  refine ⟨rfl, rfl, rfl, rfl, rfl, rfl, ?_⟩
  cases hno : ck.noise.map (· / std yh) <;> exact ⟨rfl, rfl, rfl, rfl⟩

end Mfpml.GP
