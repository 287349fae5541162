import Verif.Model.SurrogatesNd
import Verif.Lemmas.NdArray
import Verif.Lemmas.CoKriging

/-!
# The models with array shapes agree with the models without
-/

open scoped BigOperators Matrix

namespace Mfpml.GP

open Mfpml.EA (Box)
open Nd

/-- A sample array with two axes. -/
def Nd.ofSamples {n d : ℕ} (X : Samples n d) : Nd := Nd.mat (Matrix.of X)

theorem pyBind_ok {α β : Type} (a : α) (f : α → Py β) : ((Except.ok a : Py α) >>= f) = f a := rfl
theorem pyBind_error {α β : Type} (e : PyErr) (f : α → Py β) : ((Except.error e : Py α) >>= f) = Except.error e := rfl

theorem shape0_samples {n d : ℕ} (X : Samples n d) : (Nd.ofSamples X).shape0 = .ok n := rfl

theorem ndRbf_samples {n m d : ℕ} (param : Fin d → ℝ) (X : Samples n d) (Y : Samples m d) :
    ndRbf (.vec param) (.ofSamples X) (.ofSamples Y) = .ok (.mat (rbfMatrix param X Y)) := by
  simp only [ndRbf, Nd.ofSamples, Nd.atleast2d, Nd.map, Nd.mul, Nd.add, Nd.sub, zip_mat_vec, zip_vec_mat, pyBind_ok, Nd.sumAxis1, Nd.sumAxis1Keep, Nd.T, dot_mat_mat, zip_col_vec,
    zip_mat_mat, Nd.shape0, Nd.eye]
  congr 2

theorem ndOrdinary_samples {n d : ℕ} (X : Samples n d) : ndOrdinary (.ofSamples X) = .ok (.mat (regrMatrix (ordinary d) X)) := rfl

theorem ndLinear_samples {n d : ℕ} (X : Samples n d) : ndLinear (.ofSamples X) = .ok (.mat (regrMatrix (linear d) X)) := by
  simp only [ndLinear, Nd.ofSamples, Nd.shape0, pyBind_ok, Nd.ones, Nd.concat1, dite_true]
  congr 1
  refine mat_ext rfl (Nat.add_comm 1 d) fun i j => ?_
  refine Fin.addCases (fun k => ?_) (fun k => ?_) j
  · have h0 : Fin.cast (Nat.add_comm 1 d) (Fin.castAdd d k) = 0 := by
      apply Fin.ext; simp
    rw [Matrix.of_apply, Fin.append_left, h0]
    rfl
  · have h1 : Fin.cast (Nat.add_comm 1 d) (Fin.natAdd 1 k) = k.succ := by
      apply Fin.ext; simp
    rw [Matrix.of_apply, Fin.append_right, h1]
    rfl

theorem ndNormalizeInput_samples {n d : ℕ} (box : Box ℝ d) (X : Samples n d) :
    ndNormalizeInput box (.ofSamples X) = (normalizeInput box X).map Nd.ofSamples := by
  simp only [ndNormalizeInput, Nd.ofSamples, Nd.sub, zip_mat_vec, zip_vec_vec, pyBind_ok, div_mat_vec, normalizeInput]
  split <;> rfl

theorem ndNormalizeOutput_col {n : ℕ} (y : Fin n → ℝ) : ndNormalizeOutput (.col y) = (normalizeOutput y).map Nd.col := by
  unfold ndNormalizeOutput normalizeOutput
  rw [meanAll_col, stdAll_col, Nd.sub, Nd.col, zip_mat_scalar, pyBind_ok, div_scalar_eq, zip_mat_scalar]
  by_cases h : std y = 0
  · rw [if_pos h]
    simp only [Except.bind, if_pos h, Except.map]
  · rw [if_neg h]
    simp only [Except.bind, if_neg h, Except.map]
    rfl

theorem ndNormalizeOutput_vec {n : ℕ} (y : Fin n → ℝ) : ndNormalizeOutput (.vec y) = (normalizeOutput y).map (fun v => Nd.vec v) := by
  unfold ndNormalizeOutput normalizeOutput
  rw [meanAll_vec, stdAll_vec, Nd.sub, zip_vec_scalar, pyBind_ok, div_scalar_eq, zip_vec_scalar]
  by_cases h : std y = 0
  · rw [if_pos h]
    simp only [Except.bind, if_pos h, Except.map]
  · rw [if_neg h]
    simp only [Except.bind, if_neg h, Except.map]

theorem ndCov_samples {n d : ℕ} (param : Fin d → ℝ) (Xs : Samples n d) (sigma : ℝ) : ndCov n param (.ofSamples Xs) sigma = .ok (.mat (covTrain param Xs sigma)) := by
  unfold ndCov
  rw [ndRbf_samples, pyBind_ok, Nd.eye, Nd.map, Nd.add, zip_mat_mat]
  congr 2
  funext i j
  simp only [covTrain, Matrix.of_apply, Matrix.add_apply, Matrix.smul_apply, smul_eq_mul, Matrix.one_apply, Fin.ext_iff]
  rw [mul_comm]

/-- The fitted arrays when the responses are a column. -/
def GLS.toNd {n q : ℕ} (F : Matrix (Fin n) (Fin q) ℝ) (g : GLS n q) : NdGLS :=
  { L := .mat g.L, F := .mat F, ld := .mat g.ld, alpha := .col g.alpha, beta := .col g.beta, gamma := .col g.gamma, sigma2 := .mat (Matrix.of fun (_ _ : Fin 1) => g.sigma2) }

/-- The fitted arrays when the responses are flat. -/
def GLS.toNdFlat {n q : ℕ} (F : Matrix (Fin n) (Fin q) ℝ) (g : GLS n q) : NdGLS :=
  { L := .mat g.L, F := .mat F, ld := .mat g.ld, alpha := .vec g.alpha, beta := .vec g.beta, gamma := .vec g.gamma, sigma2 := .scalar g.sigma2 }

theorem dot_mat_col {r k : ℕ} (M : Matrix (Fin r) (Fin k) ℝ) (v : Fin k → ℝ) : (Nd.mat M).dot (.col v) = .ok (.col (M *ᵥ v)) := by
  rw [Nd.col, dot_mat_mat]; rfl

theorem sub_col_col {n : ℕ} (v w : Fin n → ℝ) : (Nd.col v).sub (.col w) = .ok (.col (v - w)) := by
  rw [Nd.col, Nd.col, Nd.sub, zip_mat_mat]; rfl

theorem add_col_col {n : ℕ} (v w : Fin n → ℝ) : (Nd.col v).add (.col w) = .ok (.col (v + w)) := by
  rw [Nd.col, Nd.col, Nd.add, zip_mat_mat]; rfl

theorem dot_colT_col {n : ℕ} (v w : Fin n → ℝ) : (Nd.col v).T.dot (.col w) = .ok (.mat (Matrix.of fun (_ _ : Fin 1) => v ⬝ᵥ w)) := by
  rw [Nd.col, Nd.col, Nd.T, dot_mat_mat]; rfl

theorem div_one_scalar (a : ℝ) (s : ℝ) : (Nd.mat (Matrix.of fun (_ _ : Fin 1) => a)).div (.scalar s) = (npDiv a s).map fun x => Nd.mat (Matrix.of fun (_ _ : Fin 1) => x) := by
  rw [div_scalar_eq, zip_mat_scalar]
  unfold npDiv
  by_cases h : s = 0
  · simp [Except.bind, Except.map, h]
  · simp only [Except.bind, Except.map, h, if_false]; rfl

theorem div_scalar_scalar (a s : ℝ) : (Nd.scalar a).div (.scalar s) = (npDiv a s).map fun x => Nd.scalar x := by
  rw [div_scalar_eq, zip_scalar_scalar]
  unfold npDiv
  by_cases h : s = 0
  · simp [Except.bind, Except.map, h]
  · simp [Except.bind, Except.map, h]

theorem map_ok {α β : Type} (f : α → β) (a : α) : (Except.ok a : Py α).map f = .ok (f a) := rfl
theorem map_error {α β : Type} (f : α → β) (e : PyErr) : (Except.error e : Py α).map f = .error e := rfl

theorem ndGls_col {n q : ℕ} (K : Matrix (Fin n) (Fin n) ℝ) (F : Matrix (Fin n) (Fin q) ℝ) (y : Fin n → ℝ) :
    ndGls n (.mat K) (.ok (.mat F)) (.col y) = (glsFit K F y).map (GLS.toNd F) := by
  unfold ndGls glsFit
  rw [chol_mat]
  cases cholesky K with
  | error e => rfl
  | ok L =>
    simp only [map_ok, pyBind_ok]
    rw [lsolve2_col]
    cases cholSolveV L y with
    | error e => rfl
    | ok alpha =>
      simp only [map_ok, pyBind_ok]
      rw [lsolve2_mat]
      cases cholSolve L F with
      | error e => rfl
      | ok KF =>
        simp only [map_ok, pyBind_ok, Nd.T, dot_mat_mat]
        rw [chol_mat]
        cases cholesky (Fᵀ * KF) with
        | error e => rfl
        | ok ld =>
          simp only [map_ok, pyBind_ok, dot_mat_col]
          rw [lsolve2_col]
          cases cholSolveV ld (Fᵀ *ᵥ alpha) with
          | error e => rfl
          | ok beta =>
            simp only [map_ok, pyBind_ok, dot_mat_col, sub_col_col]
            rw [lsolve2_col]
            cases cholSolveV L (y - F *ᵥ beta) with
            | error e => rfl
            | ok gamma =>
              simp only [map_ok, pyBind_ok]
              have h := dot_colT_col (y - F *ᵥ beta) gamma
              simp only [Nd.T] at h
              have h2 := div_one_scalar ((y - F *ᵥ beta) ⬝ᵥ gamma) n
              simp only [Nd.col] at h ⊢
              rw [h, pyBind_ok, h2]
              cases npDiv ((y - F *ᵥ beta) ⬝ᵥ gamma) n <;> rfl

theorem ndGls_vec {n q : ℕ} (K : Matrix (Fin n) (Fin n) ℝ) (F : Matrix (Fin n) (Fin q) ℝ) (y : Fin n → ℝ) :
    ndGls n (.mat K) (.ok (.mat F)) (.vec y) = (glsFit K F y).map (GLS.toNdFlat F) := by
  unfold ndGls glsFit
  rw [chol_mat]
  cases cholesky K with
  | error e => rfl
  | ok L =>
    simp only [map_ok, pyBind_ok]
    rw [lsolve2_vec]
    cases cholSolveV L y with
    | error e => rfl
    | ok alpha =>
      simp only [map_ok, pyBind_ok]
      rw [lsolve2_mat]
      cases cholSolve L F with
      | error e => rfl
      | ok KF =>
        simp only [map_ok, pyBind_ok, Nd.T, dot_mat_mat]
        rw [chol_mat]
        cases cholesky (Fᵀ * KF) with
        | error e => rfl
        | ok ld =>
          simp only [map_ok, pyBind_ok, dot_mat_vec]
          rw [lsolve2_vec]
          cases cholSolveV ld (Fᵀ *ᵥ alpha) with
          | error e => rfl
          | ok beta =>
            simp only [map_ok, pyBind_ok, dot_mat_vec, Nd.sub, zip_vec_vec]
            rw [lsolve2_vec]
            change (((cholSolveV L (y - F *ᵥ beta)).map _ : Py Nd) >>= _) = _
            cases cholSolveV L (y - F *ᵥ beta) with
            | error e => rfl
            | ok gamma =>
              simp only [map_ok, pyBind_ok, dot_vec_vec]
              rw [div_scalar_scalar]
              change (((npDiv ((y - F *ᵥ beta) ⬝ᵥ gamma) n).map _ : Py Nd) >>= _) = _
              cases npDiv ((y - F *ᵥ beta) ⬝ᵥ gamma) n <;> rfl

theorem diag_mat_sq {n : ℕ} (M : Matrix (Fin n) (Fin n) ℝ) : (Nd.mat M).diag = .ok (.vec fun i => M i i) := by
  simp only [Nd.diag]
  have h : min n n = n := Nat.min_self n
  congr 1
  refine vec_ext h fun i => ?_
  rfl

open Classical in
theorem ndLogLik_one {n : ℕ} {K L : Matrix (Fin n) (Fin n) ℝ} (hL : IsCholesky K L) {S : Nd} {s : ℝ} (hS : S = .scalar s ∨ S = .mat (Matrix.of fun (_ _ : Fin 1) => s)) (z : Prop) :
    ndLogLik n (.mat L) S z = if z then (do
      let l ← npLog s
      .ok (-(-0.5 * n * l - logDiag L))) else .ok (-(-0.5 * n * s - logDiag L)) := by
  unfold ndLogLik
  rw [diag_mat_sq, pyBind_ok]
  have hlog : (Nd.vec fun i => L i i).log = .ok (.vec fun i => Real.log (L i i)) := by
    unfold Nd.log
    rw [if_pos]
    · rfl
    · intro i _ j hj
      have := get_vec (fun i => L i i) i ⟨j, hj⟩
      rw [this]
      exact hL.diag _
  rw [hlog, pyBind_ok]
  have ht : (Nd.vec fun i => Real.log (L i i)).total = logDiag L := rfl
  rw [ht]
  rcases hS with rfl | rfl
  · by_cases hz : z
    · rw [if_pos hz, if_pos hz]
      unfold Nd.log npLog
      by_cases hs : 0 < s
      · rw [if_pos hs, if_pos (by intro i _ j _; exact hs)]
        exact item_scalar _
      · rw [if_neg hs, if_neg (fun h => hs (h 0 Nat.one_pos 0 Nat.one_pos))]
        rfl
    · rw [if_neg hz, if_neg hz]
      exact item_scalar _
  · by_cases hz : z
    · rw [if_pos hz, if_pos hz]
      unfold Nd.log npLog
      by_cases hs : 0 < s
      · rw [if_pos hs, if_pos (by intro i _ j _; rw [get_mat_one]; exact hs)]
        exact item_one _
      · rw [if_neg hs, if_neg (fun h => hs (by have := h 0 Nat.one_pos 0 Nat.one_pos; rwa [get_mat_one] at this))]
        rfl
    · rw [if_neg hz, if_neg hz]
      exact item_one _

theorem ndNegLogLik_col {n d q : ℕ} (param : Fin d → ℝ) (Xs : Samples n d) (sigma : ℝ) (F : Matrix (Fin n) (Fin q) ℝ) (y : Fin n → ℝ) (z : Prop) :
    ndNegLogLik n param (.ofSamples Xs) sigma (.ok (.mat F)) (.col y) z = negLogLik (covTrain param Xs sigma) F y z := by
  unfold ndNegLogLik negLogLik
  rw [ndCov_samples, pyBind_ok, ndGls_col]
  cases h : glsFit (covTrain param Xs sigma) F y with
  | error e => rfl
  | ok g =>
    simp only [map_ok, pyBind_ok]
    exact ndLogLik_one (glsFit_ok h).cholK (Or.inr rfl) z

theorem ndNegLogLik_vec {n d q : ℕ} (param : Fin d → ℝ) (Xs : Samples n d) (sigma : ℝ) (F : Matrix (Fin n) (Fin q) ℝ) (y : Fin n → ℝ) (z : Prop) :
    ndNegLogLik n param (.ofSamples Xs) sigma (.ok (.mat F)) (.vec y) z = negLogLik (covTrain param Xs sigma) F y z := by
  unfold ndNegLogLik negLogLik
  rw [ndCov_samples, pyBind_ok, ndGls_vec]
  cases h : glsFit (covTrain param Xs sigma) F y with
  | error e => rfl
  | ok g =>
    simp only [map_ok, pyBind_ok]
    exact ndLogLik_one (glsFit_ok h).cholK (Or.inl rfl) z

/-! ## GaussianProcessRegression -/

/-- A basis function on arrays agrees with its row-by-row description on arrays with two axes. -/
def RegrFor {d q : ℕ} (regr : Nd → Py Nd) (f : Basis d q) : Prop := ∀ (n : ℕ) (X : Samples n d), regr (.ofSamples X) = .ok (.mat (regrMatrix f X))

/-- The same object for the model with shapes. -/
def GPObj.toNd {d q : ℕ} (gp : GPObj d q) (regr : Nd → Py Nd) : NdGP d :=
  { box := gp.box, kernel := gp.kernel, regr := regr, optimizer := gp.optimizer, noise := gp.noise }

/-- The same trained model for the model with shapes. -/
def GPFit.toNd {n d q : ℕ} (t : GPFit n d q) : NdFit :=
  { Xs := .ofSamples t.Xs, ys := .col t.ys, yMean := t.yMean, yStd := t.yStd, gls := t.gls.toNd t.F, noise := t.noise }

theorem nd_gp_fitHyper {n d q : ℕ} {regr : Nd → Py Nd} (gp : GPObj d q) (hr : RegrFor regr gp.regr) (w : World d) (yStd : ℝ) (Xs : Samples n d) (ys : Fin n → ℝ) :
    ndFitHyper gp.optimizer gp.kernel gp.noise w n yStd (.ofSamples Xs) (regr (.ofSamples Xs)) (.col ys) = gp.fitHyper w yStd Xs ys := by
  unfold ndFitHyper GPObj.fitHyper
  simp only [hr n Xs, ndNegLogLik_col]
  rfl

theorem nd_gp_train {n d q : ℕ} {regr : Nd → Py Nd} (gp : GPObj d q) (hr : RegrFor regr gp.regr) (w : World d) (X : Samples n d) (y : Fin n → ℝ) {Y : Nd} (hY : Y.reshapeCol = .col y) :
    (gp.toNd regr).train w (.ofSamples X) Y = (gp.train w X y).map fun r => (r.1.toNd regr, r.2.toNd) := by
  unfold NdGP.train GPObj.train
  simp only [hY, GPObj.toNd, ndNormalizeInput_samples, ndNormalizeOutput_col, stdAll_col, meanAll_col]
  rw [shape0_samples, pyBind_ok]
  cases normalizeInput gp.box X with
  | error e => rfl
  | ok Xs =>
    simp only [map_ok, pyBind_ok]
    cases normalizeOutput y with
    | error e => rfl
    | ok ys =>
      simp only [map_ok, pyBind_ok]
      rw [nd_gp_fitHyper gp hr]
      cases gp.fitHyper w (std y) Xs ys with
      | error e => rfl
      | ok th =>
        simp only [pyBind_ok, ndCov_samples, hr n Xs, ndGls_col]
        cases glsFit (covTrain (gp.kernel.setParams th.1).param Xs (th.2 / std y)) (regrMatrix gp.regr Xs) ys with
        | error e => rfl
        | ok g =>
          simp only [map_ok, pyBind_ok, GLS.toNd, item_one]
          rfl

theorem nd_gp_predict {n d q m : ℕ} {regr : Nd → Py Nd} (gp : GPObj d q) (hr : RegrFor regr gp.regr) (t : GPFit n d q) (X : Samples m d) :
    (gp.toNd regr).predict t.toNd (.ofSamples X) = (predictMean gp t X).map Nd.col := by
  unfold NdGP.predict predictMean
  simp only [GPObj.toNd, GPFit.toNd, GLS.toNd, ndNormalizeInput_samples]
  cases normalizeInput gp.box X with
  | error e => rfl
  | ok xs =>
    have h2 : (Nd.ofSamples xs).atleast2d = .ofSamples xs := rfl
    simp only [map_ok, pyBind_ok, h2, ndRbf_samples, hr m xs, dot_mat_col, Nd.T, add_col_col]
    rfl

theorem zip_smul_vec (s : ℝ) {m : ℕ} (v : Fin m → ℝ) : (Nd.mat (Matrix.of fun (_ _ : Fin 1) => s)).mul (.vec v) = .ok (.mat (Matrix.of fun (_ : Fin 1) j => s * v j)) := by
  rw [Nd.mul, zip_one_vec]; rfl

theorem ndMse_col {n q m : ℕ} (g : GLS n q) (F : Matrix (Fin n) (Fin q) ℝ) (knew : Matrix (Fin n) (Fin m) ℝ) (f : Matrix (Fin m) (Fin q) ℝ) :
    ndMse (g.toNd F) (.mat knew) (.mat f) = (mseOf g F knew f).map fun v => Nd.mat (Matrix.of fun (_ : Fin 1) j => v j) := by
  unfold ndMse mseOf
  simp only [GLS.toNd]
  rw [lsolve2_mat]
  cases cholSolve g.L knew with
  | error e => rfl
  | ok delta =>
    simp only [map_ok, pyBind_ok, Nd.T, dot_mat_mat, Nd.sub, zip_mat_mat]
    have hR : (Matrix.of fun i j => fᵀ i j - (Fᵀ * delta) i j) = fᵀ - Fᵀ * delta := rfl
    rw [hR, lsolve2_mat]
    cases cholSolve g.ld (fᵀ - Fᵀ * delta) with
    | error e => rfl
    | ok S =>
      simp only [map_ok, pyBind_ok, dot_mat_mat, diag_mat_sq, zip_scalar_vec, Nd.add, zip_vec_vec, zip_smul_vec]

theorem ndMse_vec {n q m : ℕ} (g : GLS n q) (F : Matrix (Fin n) (Fin q) ℝ) (knew : Matrix (Fin n) (Fin m) ℝ) (f : Matrix (Fin m) (Fin q) ℝ) :
    ndMse (g.toNdFlat F) (.mat knew) (.mat f) = (mseOf g F knew f).map fun v => Nd.vec v := by
  unfold ndMse mseOf
  simp only [GLS.toNdFlat]
  rw [lsolve2_mat]
  cases cholSolve g.L knew with
  | error e => rfl
  | ok delta =>
    simp only [map_ok, pyBind_ok, Nd.T, dot_mat_mat, Nd.sub, zip_mat_mat]
    have hR : (Matrix.of fun i j => fᵀ i j - (Fᵀ * delta) i j) = fᵀ - Fᵀ * delta := rfl
    rw [hR, lsolve2_mat]
    cases cholSolve g.ld (fᵀ - Fᵀ * delta) with
    | error e => rfl
    | ok S =>
      simp only [map_ok, pyBind_ok, dot_mat_mat, diag_mat_sq, zip_scalar_vec, Nd.add, zip_vec_vec, Nd.mul]

theorem nd_gp_predictStd {n d q m : ℕ} {regr : Nd → Py Nd} (gp : GPObj d q) (hr : RegrFor regr gp.regr) (t : GPFit n d q) (X : Samples m d) :
    (gp.toNd regr).predictStd t.toNd (.ofSamples X) = (predictStd gp t X).map fun r => (Nd.col r.1, Nd.col r.2) := by
  unfold NdGP.predictStd predictStd
  rw [nd_gp_predict gp hr]
  cases predictMean gp t X with
  | error e => rfl
  | ok fmean =>
    simp only [map_ok, pyBind_ok]
    simp only [GPObj.toNd, GPFit.toNd, ndNormalizeInput_samples]
    cases normalizeInput gp.box X with
    | error e => rfl
    | ok xs =>
      have h2 : (Nd.ofSamples xs).atleast2d = .ofSamples xs := rfl
      simp only [map_ok, pyBind_ok, h2, ndRbf_samples, hr m xs, ndMse_col, RBF.getKernelMatrix]
      cases mseOf t.gls t.F (rbfMatrix gp.kernel.param t.Xs xs) (regrMatrix gp.regr xs) with
      | error e => rfl
      | ok mse =>
        simp only [map_ok, pyBind_ok, Nd.map, reshapeCol_mat_row]
        rfl

/-! ## HierarchicalKriging -/

/-- The same object for the model with shapes. -/
def HKObj.toNd {d q : ℕ} (hk : HKObj d q) (regr : Nd → Py Nd) : NdHK d :=
  { box := hk.box, kernel := hk.kernel, optimizer := hk.optimizer, noise := hk.noise, lf := hk.lf.toNd regr }

/-- The same trained model, when the high-fidelity responses are a column. -/
def HKFit.toNd {nh nl d q : ℕ} (t : HKFit nh nl d q) : NdHKFit :=
  { lfFit := t.lfFit.toNd, Xhs := .ofSamples t.Xhs, yhs := .col t.yhs, yhMean := t.yhMean, yhStd := t.yhStd, gls := t.gls.toNd t.F, noise := t.noise }

/-- The same trained model, when the high-fidelity responses are flat. -/
def HKFit.toNdFlat {nh nl d q : ℕ} (t : HKFit nh nl d q) : NdHKFit :=
  { lfFit := t.lfFit.toNd, Xhs := .ofSamples t.Xhs, yhs := .vec t.yhs, yhMean := t.yhMean, yhStd := t.yhStd, gls := t.gls.toNdFlat t.F, noise := t.noise }

theorem ndScale_col {m : ℕ} (f : Fin m → ℝ) (mu : ℝ) {s : ℝ} (hs : s ≠ 0) : ndScale (.col f) mu s = .ok (.mat (scaleCol f mu s)) := by
  unfold ndScale
  rw [Nd.col, Nd.sub, zip_mat_scalar, pyBind_ok, div_mat_scalar _ hs]
  rfl

theorem normalizeOutput_std {n : ℕ} {y ys : Fin n → ℝ} (h : normalizeOutput y = .ok ys) : std y ≠ 0 := by
  unfold normalizeOutput at h
  split at h
  · cases h
  · assumption

theorem nd_hk_fitHyper_col {n d q : ℕ} (hk : HKObj d q) (w : World d) (yStd : ℝ) (Xs : Samples n d) (F : Matrix (Fin n) (Fin 1) ℝ) (ys : Fin n → ℝ) :
    ndFitHyper hk.optimizer hk.kernel hk.noise w n yStd (.ofSamples Xs) (.ok (.mat F)) (.col ys) = hk.fitHyper w yStd Xs F ys := by
  unfold ndFitHyper HKObj.fitHyper
  simp only [ndNegLogLik_col]
  rfl

theorem nd_hk_fitHyper_vec {n d q : ℕ} (hk : HKObj d q) (w : World d) (yStd : ℝ) (Xs : Samples n d) (F : Matrix (Fin n) (Fin 1) ℝ) (ys : Fin n → ℝ) :
    ndFitHyper hk.optimizer hk.kernel hk.noise w n yStd (.ofSamples Xs) (.ok (.mat F)) (.vec ys) = hk.fitHyper w yStd Xs F ys := by
  unfold ndFitHyper HKObj.fitHyper
  simp only [ndNegLogLik_vec]
  rfl

theorem nd_hk_train_col {nh nl d q : ℕ} {regr : Nd → Py Nd} (hk : HKObj d q) (hr : RegrFor regr hk.lf.regr) (w : MFWorld d) (Xh : Samples nh d) (yh : Fin nh → ℝ) (Xl : Samples nl d)
    (yl : Fin nl → ℝ) {Yl : Nd} (hY : Yl.reshapeCol = .col yl) :
    (hk.toNd regr).train w (.ofSamples Xh) (.col yh) (.ofSamples Xl) Yl = (hk.train w Xh yh Xl yl).map fun r => (r.1.toNd regr, r.2.toNd) := by
  unfold NdHK.train HKObj.train
  simp only [HKObj.toNd, nd_gp_train hk.lf hr w.lf Xl yl hY, ndNormalizeInput_samples, ndNormalizeOutput_col, stdAll_col, meanAll_col]
  cases htr : hk.lf.train w.lf Xl yl with
  | error e => rfl
  | ok r =>
    have hr' : RegrFor regr r.1.regr := by
      have : r.1.regr = hk.lf.regr := (trained_of_train (gp' := r.1) (t := r.2) htr).2.2.2.2.1
      rw [this]; exact hr
    simp only [map_ok, pyBind_ok]
    cases normalizeInput hk.box Xh with
    | error e => rfl
    | ok Xs =>
      simp only [map_ok, pyBind_ok]
      cases hno : normalizeOutput yh with
      | error e => rfl
      | ok ys =>
        simp only [map_ok, pyBind_ok, nd_gp_predict r.1 hr']
        cases predictMean r.1 r.2 Xh with
        | error e => rfl
        | ok f =>
          simp only [map_ok, pyBind_ok, ndScale_col f (mean yh) (normalizeOutput_std hno), shape0_samples]
          rw [nd_hk_fitHyper_col hk]
          cases hk.fitHyper w.hf (std yh) Xs (scaleCol f (mean yh) (std yh)) ys with
          | error e => rfl
          | ok th =>
            simp only [pyBind_ok, ndCov_samples, ndGls_col]
            change (Except.map _ (glsFit (covTrain (hk.kernel.setParams th.1).param Xs (th.2 / std yh)) _ ys) >>= _) = Except.map _ (glsFit (covTrain (hk.kernel.setParams th.1).param Xs (th.2 / std yh)) _ ys >>= _)
            cases glsFit (covTrain (hk.kernel.setParams th.1).param Xs (th.2 / std yh)) (scaleCol f (mean yh) (std yh)) ys with
            | error e => rfl
            | ok g =>
              simp only [map_ok, pyBind_ok, GLS.toNd, item_one]
              rfl

theorem nd_hk_train_vec {nh nl d q : ℕ} {regr : Nd → Py Nd} (hk : HKObj d q) (hr : RegrFor regr hk.lf.regr) (w : MFWorld d) (Xh : Samples nh d) (yh : Fin nh → ℝ) (Xl : Samples nl d)
    (yl : Fin nl → ℝ) {Yl : Nd} (hY : Yl.reshapeCol = .col yl) :
    (hk.toNd regr).train w (.ofSamples Xh) (.vec yh) (.ofSamples Xl) Yl = (hk.train w Xh yh Xl yl).map fun r => (r.1.toNd regr, r.2.toNdFlat) := by
  unfold NdHK.train HKObj.train
  simp only [HKObj.toNd, nd_gp_train hk.lf hr w.lf Xl yl hY, ndNormalizeInput_samples, ndNormalizeOutput_vec, stdAll_vec, meanAll_vec]
  cases htr : hk.lf.train w.lf Xl yl with
  | error e => rfl
  | ok r =>
    have hr' : RegrFor regr r.1.regr := by
      have : r.1.regr = hk.lf.regr := (trained_of_train (gp' := r.1) (t := r.2) htr).2.2.2.2.1
      rw [this]; exact hr
    simp only [map_ok, pyBind_ok]
    cases normalizeInput hk.box Xh with
    | error e => rfl
    | ok Xs =>
      simp only [map_ok, pyBind_ok]
      cases hno : normalizeOutput yh with
      | error e => rfl
      | ok ys =>
        simp only [map_ok, pyBind_ok, nd_gp_predict r.1 hr']
        cases predictMean r.1 r.2 Xh with
        | error e => rfl
        | ok f =>
          simp only [map_ok, pyBind_ok, ndScale_col f (mean yh) (normalizeOutput_std hno), shape0_samples]
          rw [nd_hk_fitHyper_vec hk]
          cases hk.fitHyper w.hf (std yh) Xs (scaleCol f (mean yh) (std yh)) ys with
          | error e => rfl
          | ok th =>
            simp only [pyBind_ok, ndCov_samples, ndGls_vec]
            change (Except.map _ (glsFit (covTrain (hk.kernel.setParams th.1).param Xs (th.2 / std yh)) _ ys) >>= _) = Except.map _ (glsFit (covTrain (hk.kernel.setParams th.1).param Xs (th.2 / std yh)) _ ys >>= _)
            cases glsFit (covTrain (hk.kernel.setParams th.1).param Xs (th.2 / std yh)) (scaleCol f (mean yh) (std yh)) ys with
            | error e => rfl
            | ok g =>
              simp only [map_ok, pyBind_ok, GLS.toNdFlat, item_scalar]
              rfl

theorem nd_hk_predict_col {nh nl d q m : ℕ} {regr : Nd → Py Nd} (hk : HKObj d q) (hr : RegrFor regr hk.lf.regr) (t : HKFit nh nl d q) (hs : t.yhStd ≠ 0) (X : Samples m d) :
    (hk.toNd regr).predict t.toNd (.ofSamples X) = (hk.predict t X).map Nd.col := by
  unfold NdHK.predict HKObj.predict HKObj.predictLf
  simp only [HKObj.toNd, HKFit.toNd, GLS.toNd, ndNormalizeInput_samples, nd_gp_predict hk.lf hr]
  cases normalizeInput hk.box X with
  | error e => rfl
  | ok xs =>
    have h2 : (Nd.ofSamples xs).atleast2d = .ofSamples xs := rfl
    simp only [map_ok, pyBind_ok, h2, ndRbf_samples]
    cases predictMean hk.lf t.lfFit X with
    | error e => rfl
    | ok fl =>
      simp only [map_ok, pyBind_ok, ndScale_col fl t.yhMean hs, dot_mat_col, Nd.T, add_col_col]
      rw [show ∀ v : Fin m → ℝ, (Nd.col v).map (fun x => x * t.yhStd + t.yhMean) = Nd.col (fun j => v j * t.yhStd + t.yhMean) from fun v => rfl, reshapeCol_col]
      rfl

theorem nd_hk_predict_vec {nh nl d q m : ℕ} {regr : Nd → Py Nd} (hk : HKObj d q) (hr : RegrFor regr hk.lf.regr) (t : HKFit nh nl d q) (hs : t.yhStd ≠ 0) (X : Samples m d) :
    (hk.toNd regr).predict t.toNdFlat (.ofSamples X) = (hk.predict t X).map Nd.col := by
  unfold NdHK.predict HKObj.predict HKObj.predictLf
  simp only [HKObj.toNd, HKFit.toNdFlat, GLS.toNdFlat, ndNormalizeInput_samples, nd_gp_predict hk.lf hr]
  cases normalizeInput hk.box X with
  | error e => rfl
  | ok xs =>
    have h2 : (Nd.ofSamples xs).atleast2d = .ofSamples xs := rfl
    simp only [map_ok, pyBind_ok, h2, ndRbf_samples]
    cases predictMean hk.lf t.lfFit X with
    | error e => rfl
    | ok fl =>
      simp only [map_ok, pyBind_ok, ndScale_col fl t.yhMean hs, dot_mat_vec, Nd.T, Nd.add, zip_vec_vec]
      rfl

theorem nd_hk_predictStd_col {nh nl d q m : ℕ} {regr : Nd → Py Nd} (hk : HKObj d q) (hr : RegrFor regr hk.lf.regr) (t : HKFit nh nl d q) (hs : t.yhStd ≠ 0) (X : Samples m d) :
    (hk.toNd regr).predictStd t.toNd (.ofSamples X) = (hk.predictStd t X).map fun r => (Nd.col r.1, Nd.col r.2) := by
  unfold NdHK.predictStd HKObj.predictStd
  rw [nd_hk_predict_col hk hr t hs]
  cases hk.predict t X with
  | error e => rfl
  | ok fmean =>
    simp only [map_ok, pyBind_ok]
    simp only [HKObj.toNd, HKFit.toNd, ndNormalizeInput_samples, HKObj.predictLf, nd_gp_predict hk.lf hr]
    cases normalizeInput hk.box X with
    | error e => rfl
    | ok xs =>
      have h2 : (Nd.ofSamples xs).atleast2d = .ofSamples xs := rfl
      simp only [map_ok, pyBind_ok, h2, ndRbf_samples]
      cases predictMean hk.lf t.lfFit X with
      | error e => rfl
      | ok fl =>
        simp only [map_ok, pyBind_ok, ndScale_col fl t.yhMean hs, ndMse_col, RBF.getKernelMatrix]
        cases mseOf t.gls t.F (rbfMatrix hk.kernel.param t.Xhs xs) (scaleCol fl t.yhMean t.yhStd) with
        | error e => rfl
        | ok mse =>
          simp only [map_ok, pyBind_ok, Nd.map, reshapeCol_mat_row]
          rfl

theorem nd_hk_predictStd_vec {nh nl d q m : ℕ} {regr : Nd → Py Nd} (hk : HKObj d q) (hr : RegrFor regr hk.lf.regr) (t : HKFit nh nl d q) (hs : t.yhStd ≠ 0) (X : Samples m d) :
    (hk.toNd regr).predictStd t.toNdFlat (.ofSamples X) = (hk.predictStd t X).map fun r => (Nd.col r.1, Nd.col r.2) := by
  unfold NdHK.predictStd HKObj.predictStd
  rw [nd_hk_predict_vec hk hr t hs]
  cases hk.predict t X with
  | error e => rfl
  | ok fmean =>
    simp only [map_ok, pyBind_ok]
    simp only [HKObj.toNd, HKFit.toNdFlat, ndNormalizeInput_samples, HKObj.predictLf, nd_gp_predict hk.lf hr]
    cases normalizeInput hk.box X with
    | error e => rfl
    | ok xs =>
      have h2 : (Nd.ofSamples xs).atleast2d = .ofSamples xs := rfl
      simp only [map_ok, pyBind_ok, h2, ndRbf_samples]
      cases predictMean hk.lf t.lfFit X with
      | error e => rfl
      | ok fl =>
        simp only [map_ok, pyBind_ok, ndScale_col fl t.yhMean hs, ndMse_vec, RBF.getKernelMatrix]
        cases mseOf t.gls t.F (rbfMatrix hk.kernel.param t.Xhs xs) (scaleCol fl t.yhMean t.yhStd) with
        | error e => rfl
        | ok mse =>
          simp only [map_ok, pyBind_ok, Nd.map, reshapeCol_vec]
          rfl

/-! ## CoKriging -/

/-- The same object for the model with shapes. -/
def RawGP.toNd {d q : ℕ} (gp : RawGP d q) (regr : Nd → Py Nd) : NdRaw d := { kernel := gp.kernel, regr := regr, optimizer := gp.optimizer, noise := gp.noise }

/-- The same trained model for the model with shapes. -/
def RawFit.toNd {n d q : ℕ} (t : RawFit n d q) : NdRawFit := { X := .ofSamples t.X, K := .mat t.K, gls := t.gls.toNd t.F, noise := t.noise }

theorem nd_raw_fitHyper {n d q : ℕ} {regr : Nd → Py Nd} (gp : RawGP d q) (hr : RegrFor regr gp.regr) (w : World d) (X : Samples n d) (y : Fin n → ℝ) :
    ndFitHyper gp.optimizer gp.kernel gp.noise w n 1 (.ofSamples X) (regr (.ofSamples X)) (.col y) = gp.fitHyper w X y := by
  unfold ndFitHyper RawGP.fitHyper
  simp only [hr n X, ndNegLogLik_col, div_one, mul_one]
  cases gp.noise <;> rfl

theorem nd_raw_train {n d q : ℕ} {regr : Nd → Py Nd} (gp : RawGP d q) (hr : RegrFor regr gp.regr) (w : World d) (X : Samples n d) (y : Fin n → ℝ) {Y : Nd} (hY : Y.reshapeCol = .col y) :
    (gp.toNd regr).train w (.ofSamples X) Y = (gp.train w X y).map fun r => (r.1.toNd regr, r.2.toNd) := by
  unfold NdRaw.train RawGP.train
  simp only [hY, RawGP.toNd, shape0_samples, pyBind_ok]
  rw [nd_raw_fitHyper gp hr]
  cases gp.fitHyper w X y with
  | error e => rfl
  | ok th =>
    simp only [pyBind_ok, ndCov_samples, hr n X, ndGls_col]
    cases glsFit (covTrain (gp.kernel.setParams th.1).param X th.2) (regrMatrix gp.regr X) y with
    | error e => rfl
    | ok g =>
      simp only [map_ok, pyBind_ok, GLS.toNd, item_one]
      rfl

theorem nd_raw_predict {n d q m : ℕ} {regr : Nd → Py Nd} (gp : RawGP d q) (hr : RegrFor regr gp.regr) (t : RawFit n d q) (X : Samples m d) :
    (gp.toNd regr).predict t.toNd (.ofSamples X) = .ok (.col (gp.predict t X)) := by
  unfold NdRaw.predict RawGP.predict
  have h2 : (Nd.ofSamples X).atleast2d = .ofSamples X := rfl
  simp only [RawGP.toNd, RawFit.toNd, GLS.toNd, h2, ndRbf_samples, pyBind_ok, hr m X, dot_mat_col, Nd.T, add_col_col]
  rfl

/-- The arrays of the difference model. -/
def DiffFit.toNd {n : ℕ} (g : DiffFit n) : NdDiff := { L := .mat g.L, mu := .scalar g.mu, gamma := .col g.gamma, sigma2 := .mat (Matrix.of fun (_ _ : Fin 1) => g.sigma2) }

theorem map_col {n : ℕ} (f : ℝ → ℝ) (v : Fin n → ℝ) : (Nd.col v).map f = .col fun i => f (v i) := rfl

theorem ones_eq_col (n : ℕ) : Nd.ones n 1 = .col fun _ : Fin n => (1 : ℝ) := rfl

theorem sub_col_scalar {n : ℕ} (v : Fin n → ℝ) (a : ℝ) : (Nd.col v).sub (.scalar a) = .ok (.col fun i => v i - a) := by
  rw [Nd.col, Nd.sub, zip_mat_scalar]; rfl

theorem ndDiff_col {n : ℕ} (K : Matrix (Fin n) (Fin n) ℝ) (yhs p : Fin n → ℝ) (rho : ℝ) {trend : Nd → Py Nd}
    (ht : ∀ v : ℝ, trend (.mat (Matrix.of fun (_ _ : Fin 1) => v)) = .ok (.scalar v)) :
    ndDiff n (.mat K) (.col yhs) (.col p) rho trend = (diffFit K fun i => yhs i - rho * p i).map DiffFit.toNd := by
  unfold ndDiff diffFit
  rw [chol_mat]
  cases cholesky K with
  | error e => rfl
  | ok L =>
    simp only [map_ok, pyBind_ok, map_col, sub_col_col, ones_eq_col]
    have hd : (yhs - fun i => rho * p i) = fun i => yhs i - rho * p i := rfl
    rw [hd, lsolve2_col]
    cases cholSolveV L (fun i => yhs i - rho * p i) with
    | error e => rfl
    | ok alpha =>
      simp only [map_ok, pyBind_ok]
      rw [lsolve2_col]
      cases cholSolveV L (fun _ => 1) with
      | error e => rfl
      | ok beta =>
        simp only [map_ok, pyBind_ok, dot_colT_col]
        rw [div_one_one]
        simp only [Matrix.of_apply]
        cases npDiv ((fun _ => 1) ⬝ᵥ alpha) ((fun _ => 1) ⬝ᵥ beta) with
        | error e => rfl
        | ok mu =>
          simp only [map_ok, pyBind_ok, ht, sub_col_scalar]
          rw [lsolve2_col]
          cases cholSolveV L (fun i => yhs i - rho * p i - mu) with
          | error e => rfl
          | ok gamma =>
            simp only [map_ok, pyBind_ok, dot_colT_col]
            rw [div_one_scalar]
            cases npDiv ((fun i => yhs i - rho * p i - mu) ⬝ᵥ gamma) n <;> rfl

theorem squeeze_one (v : ℝ) : (Nd.mat (Matrix.of fun (_ _ : Fin 1) => v)).squeeze = .scalar v := by
  simp [Nd.squeeze]

theorem ndCkLogLik_col {n d : ℕ} (Xhs : Samples n d) (yhs p : Fin n → ℝ) (rho : ℝ) (theta : Fin d → ℝ) (s : ℝ) (z : Prop) :
    ndCkLogLik n (.ofSamples Xhs) (.col yhs) (.col p) rho theta s z = ckNegLogLik Xhs yhs p rho theta s z := by
  unfold ndCkLogLik ckNegLogLik
  rw [ndCov_samples, pyBind_ok, ndDiff_col _ _ _ _ (fun v => by rw [squeeze_one])]
  cases h : diffFit (covTrain (pow10 theta) Xhs s) fun i => yhs i - rho * p i with
  | error e => rfl
  | ok g =>
    simp only [map_ok, pyBind_ok]
    exact ndLogLik_one (diffFit_ok h).chol (Or.inr rfl) z

/-- The same object for the model with shapes. -/
def CKObj.toNd {d q : ℕ} (ck : CKObj d q) (regr : Nd → Py Nd) : NdCK d :=
  { box := ck.box, kernel := ck.kernel, optimizer := ck.optimizer, rhoLow := ck.rhoLow, rhoHigh := ck.rhoHigh, noise := ck.noise, lf := ck.lf.toNd regr }

/-- The same trained model for the model with shapes. -/
def CKFit.toNd {nh nl d q : ℕ} (t : CKFit nh nl d q) : NdCKFit :=
  { Xhs := .ofSamples t.Xhs, Xls := .ofSamples t.Xls, yhMean := t.yhMean, yhStd := t.yhStd, lfFit := t.lfFit.toNd, rho := t.rho, sigma2 := t.sigma2, LC := .mat t.LC, y := .col t.y,
    mu := .mat (Matrix.of fun (_ _ : Fin 1) => t.mu) }

theorem nd_ck_fitHyper {n d q : ℕ} {regr : Nd → Py Nd} (ck : CKObj d q) (w : CKWorld d) (noise : Option ℝ) (yStd : ℝ) (Xhs : Samples n d) (yhs p : Fin n → ℝ) :
    (ck.toNd regr).fitHyper w noise n yStd (.ofSamples Xhs) (.col yhs) (.col p) = ck.fitHyper w noise yStd Xhs yhs p := by
  unfold NdCK.fitHyper CKObj.fitHyper
  simp only [ndCkLogLik_col]
  rfl

theorem mul_one_mat {r c : ℕ} (s : ℝ) (M : Matrix (Fin r) (Fin c) ℝ) : (Nd.mat (Matrix.of fun (_ _ : Fin 1) => s)).mul (.mat M) = .ok (.mat (s • M)) := by
  rw [Nd.mul, zip_one_mat]; rfl

theorem map_one (f : ℝ → ℝ) (s : ℝ) : (Nd.mat (Matrix.of fun (_ _ : Fin 1) => s)).map f = .mat (Matrix.of fun (_ _ : Fin 1) => f s) := rfl

theorem concat1_mat {r c c' : ℕ} (A : Matrix (Fin r) (Fin c) ℝ) (B : Matrix (Fin r) (Fin c') ℝ) :
    (Nd.mat A).concat1 (.mat B) = .ok (.mat (Matrix.of fun i j => Fin.append (fun j => A i j) (fun j => B i j) j)) := by
  simp only [Nd.concat1, dite_true]
  rfl

theorem concat0_mat {r r' c : ℕ} (A : Matrix (Fin r) (Fin c) ℝ) (B : Matrix (Fin r') (Fin c) ℝ) :
    (Nd.mat A).concat0 (.mat B) = .ok (.mat (Matrix.of fun i j => Fin.append (fun i => A i j) (fun i => B i j) i)) := by
  simp only [Nd.concat0, dite_true]
  rfl

theorem map_mat_smul {r c : ℕ} (a : ℝ) (M : Matrix (Fin r) (Fin c) ℝ) : (Nd.mat M).map (a * ·) = .mat (a • M) := rfl

theorem add_mat_mat {r c : ℕ} (A B : Matrix (Fin r) (Fin c) ℝ) : (Nd.mat A).add (.mat B) = .ok (.mat (A + B)) := by
  rw [Nd.add, zip_mat_mat]; rfl

theorem ndCkCov_eq {nl nh d : ℕ} (paramL : Fin d → ℝ) (Kl : Matrix (Fin nl) (Fin nl) ℝ) (sigma2L rho sigma2 : ℝ) (K : Matrix (Fin nh) (Fin nh) ℝ) (Xls : Samples nl d) (Xhs : Samples nh d) :
    ndCkCov paramL (.mat Kl) (.mat (Matrix.of fun (_ _ : Fin 1) => sigma2L)) rho sigma2 (.mat K) (.ofSamples Xls) (.ofSamples Xhs) =
      .ok (.mat (flat (ckCov Kl paramL sigma2L rho sigma2 K Xls Xhs))) := by
  unfold ndCkCov
  rw [map_one, map_one, map_mat_smul]
  simp only [mul_one_mat, pyBind_ok, ndRbf_samples, concat1_mat, add_mat_mat, concat0_mat]
  congr 2
  funext i j
  refine Fin.addCases (fun a => ?_) (fun a => ?_) i <;> refine Fin.addCases (fun b => ?_) (fun b => ?_) j
  all_goals
    simp only [Matrix.of_apply, Fin.append_left, Fin.append_right, flat, Matrix.submatrix_apply, finSumFinEquiv_symm_apply_castAdd,
      finSumFinEquiv_symm_apply_natAdd, ckCov,
      Matrix.fromBlocks_apply₁₁, Matrix.fromBlocks_apply₁₂, Matrix.fromBlocks_apply₂₁, Matrix.fromBlocks_apply₂₂]

theorem concat0_col {a b : ℕ} (v : Fin a → ℝ) (w : Fin b → ℝ) : (Nd.col v).concat0 (.col w) = .ok (.col (Fin.append v w)) := by
  simp only [Nd.col, Nd.concat0, dite_true]
  rfl

theorem ndCkMu_eq {nl nh : ℕ} (C : Matrix (Fin (nl + nh)) (Fin (nl + nh)) ℝ) (yls : Fin nl → ℝ) (yhs : Fin nh → ℝ) :
    ndCkMu (.mat C) (.col yls) (.col yhs) = (do
      let LC ← cholesky (C + jitter • (1 : Matrix (Fin (nl + nh)) (Fin (nl + nh)) ℝ))
      let a ← cholSolveV LC (Fin.append yls yhs)
      let b ← cholSolveV LC (fun _ => 1)
      let mu ← npDiv ((fun _ => 1) ⬝ᵥ a) ((fun _ => 1) ⬝ᵥ b)
      .ok (Nd.mat LC, Nd.col (Fin.append yls yhs), Nd.mat (Matrix.of fun (_ _ : Fin 1) => mu))) := by
  unfold ndCkMu
  rw [concat0_col, pyBind_ok]
  have hC : (Nd.mat C).add ((Nd.eye (Nd.mat C).cols (Nd.mat C).cols).map (· * jitter)) = .ok (.mat (C + jitter • (1 : Matrix (Fin (nl + nh)) (Fin (nl + nh)) ℝ))) := by
    simp only [Nd.cols, Nd.eye, Nd.map, Nd.add, zip_mat_mat]
    congr 2
    funext i j
    simp only [Matrix.of_apply, Matrix.add_apply, Matrix.smul_apply, smul_eq_mul, Matrix.one_apply, Fin.ext_iff]
    rw [mul_comm]
    rfl
  rw [hC, pyBind_ok, chol_mat]
  cases cholesky (C + jitter • (1 : Matrix (Fin (nl + nh)) (Fin (nl + nh)) ℝ)) with
  | error e => rfl
  | ok LC =>
    simp only [map_ok, pyBind_ok, Nd.rows, ones_eq_col]
    rw [lsolve2_col]
    cases cholSolveV LC (Fin.append yls yhs) with
    | error e => rfl
    | ok a =>
      simp only [map_ok, pyBind_ok, dot_colT_col]
      rw [lsolve2_col]
      cases cholSolveV LC (fun _ => 1) with
      | error e => rfl
      | ok b =>
        simp only [map_ok, pyBind_ok, dot_colT_col, item_one, Matrix.of_apply, div_one_scalar]
        cases npDiv ((fun _ => 1) ⬝ᵥ a) ((fun _ => 1) ⬝ᵥ b) <;> rfl

/-- co_kriging.py:379-382. -/
def RawGP.withNoise {d q : ℕ} (gp : RawGP d q) : Option ℝ → RawGP d q
  | some s => { gp with noise := some s }
  | none => gp

theorem nd_ck_train {nh nl d q : ℕ} {regr : Nd → Py Nd} (ck : CKObj d q) (hr : RegrFor regr ck.lf.regr) (w : CKWorld d) (Xh : Samples nh d) (yh : Fin nh → ℝ) (Xl : Samples nl d)
    (yl : Fin nl → ℝ) :
    (ck.toNd regr).train w (.ofSamples Xh) (.col yh) (.ofSamples Xl) (.col yl) = (ck.train w Xh yh Xl yl).map fun r => (r.1.toNd regr, r.2.toNd) := by
  unfold NdCK.train CKObj.train
  simp only [ndNormalizeInput_samples, ndNormalizeOutput_col, stdAll_col, meanAll_col, shape0_samples]
  change (Except.map _ (normalizeInput ck.box Xh) >>= _) = _
  cases normalizeInput ck.box Xh with
  | error e => rfl
  | ok Xhs =>
    simp only [map_ok, pyBind_ok]
    change (Except.map _ (normalizeInput ck.box Xl) >>= _) = _
    cases normalizeInput ck.box Xl with
    | error e => rfl
    | ok Xls =>
      simp only [map_ok, pyBind_ok]
      cases hno : normalizeOutput yh with
      | error e => rfl
      | ok yhs =>
        have hsc : ndScale (.col yl) (mean yh) (std yh) = .ok (.col fun i => (yl i - mean yh) / std yh) := ndScale_col yl (mean yh) (normalizeOutput_std hno)
        simp only [map_ok, pyBind_ok, hsc]
        have hlf : (ck.toNd regr).lf.withNoise ((ck.toNd regr).noise.map (· / std yh)) = (ck.lf.withNoise (ck.noise.map (· / std yh))).toNd regr := by
          change (ck.lf.toNd regr).withNoise (ck.noise.map (· / std yh)) = _
          cases ck.noise.map (· / std yh) <;> rfl
        have hr0 : RegrFor regr (ck.lf.withNoise (ck.noise.map (· / std yh))).regr := by
          cases ck.noise.map (· / std yh) <;> exact hr
        rw [hlf, nd_raw_train _ hr0 w.lf Xls _ (reshapeCol_col _)]
        change _ = Except.map _ ((ck.lf.withNoise (ck.noise.map (· / std yh))).train w.lf Xls (fun i => (yl i - mean yh) / std yh) >>= _)
        generalize ck.lf.withNoise (ck.noise.map (· / std yh)) = lf0 at hr0 ⊢
        cases htr : lf0.train w.lf Xls (fun i => (yl i - mean yh) / std yh) with
        | error e => rfl
        | ok r =>
          have hr' : RegrFor regr r.1.regr := by
            have : r.1.regr = lf0.regr := (rawTrained_of_train (gp' := r.1) (t := r.2) htr).2.2.2.1
            rw [this]; exact hr0
          simp only [map_ok, pyBind_ok, nd_raw_predict r.1 hr']
          rw [nd_ck_fitHyper]
          change (ck.fitHyper w (ck.noise.map (· / std yh)) (std yh) Xhs yhs _ >>= _) = _
          cases ck.fitHyper w (ck.noise.map (· / std yh)) (std yh) Xhs yhs (r.1.predict r.2 Xhs) with
          | error e => rfl
          | ok th =>
            simp only [pyBind_ok, ndCov_samples]
            rw [ndDiff_col _ _ _ _ (fun v => by rw [item_one]; rfl)]
            change (Except.map _ (diffFit (covTrain (ck.kernel.setParams th.2.1).param Xhs th.2.2) _) >>= _) = _
            cases diffFit (covTrain (ck.kernel.setParams th.2.1).param Xhs th.2.2) fun i => yhs i - th.1 * r.1.predict r.2 Xhs i with
            | error e => rfl
            | ok g =>
              simp only [map_ok, pyBind_ok, DiffFit.toNd, item_one, Matrix.of_apply, RawFit.toNd, GLS.toNd]
              change (ndCkCov r.1.kernel.param _ _ _ _ (.mat (covTrain (ck.kernel.setParams th.2.1).param Xhs th.2.2)) _ _ >>= _) = _
              rw [ndCkCov_eq, pyBind_ok, ndCkMu_eq]
              generalize cholesky _ = cC
              cases cC with
              | error e => rfl
              | ok LC =>
                simp only [pyBind_ok]
                cases cholSolveV LC (Fin.append (fun i => (yl i - mean yh) / std yh) yhs) with
                | error e => rfl
                | ok a =>
                  simp only [pyBind_ok]
                  cases cholSolveV LC (fun _ => 1) with
                  | error e => rfl
                  | ok b =>
                    simp only [pyBind_ok]
                    cases npDiv ((fun _ => 1) ⬝ᵥ a) ((fun _ => 1) ⬝ᵥ b) <;> rfl

theorem ndCross_eq {nh nl d q m : ℕ} {regr : Nd → Py Nd} (ck : CKObj d q) (t : CKFit nh nl d q) (xs : Samples m d) :
    ndCross (ck.toNd regr) t.toNd (.ofSamples xs) = .ok (.mat (crossCov ck t xs)) := by
  unfold ndCross
  simp only [CKObj.toNd, RawGP.toNd, CKFit.toNd, RawFit.toNd, GLS.toNd]
  rw [map_one, map_one]
  simp only [ndRbf_samples, pyBind_ok, mul_one_mat, map_mat_smul, add_mat_mat, concat0_mat]
  congr 2
  funext i j
  refine Fin.addCases (fun a => ?_) (fun a => ?_) i
  · simp only [Matrix.of_apply, Fin.append_left, crossCov, finSumFinEquiv_symm_apply_castAdd]
    rfl
  · simp only [Matrix.of_apply, Fin.append_right, crossCov, finSumFinEquiv_symm_apply_natAdd]
    rfl

theorem sub_col_one {n : ℕ} (v : Fin n → ℝ) (a : ℝ) : (Nd.col v).sub (.mat (Matrix.of fun (_ _ : Fin 1) => a)) = .ok (.col fun i => v i - a) := by
  rw [Nd.col, Nd.sub, zip_mat_one]; rfl

theorem add_one_col {n : ℕ} (a : ℝ) (v : Fin n → ℝ) : (Nd.mat (Matrix.of fun (_ _ : Fin 1) => a)).add (.col v) = .ok (.col fun i => a + v i) := by
  rw [Nd.col, Nd.add, zip_one_mat]; rfl

theorem nd_ck_predict {nh nl d q m : ℕ} {regr : Nd → Py Nd} (ck : CKObj d q) (t : CKFit nh nl d q) (X : Samples m d) :
    (ck.toNd regr).predict t.toNd (.ofSamples X) = (ck.predict t X).map Nd.col := by
  unfold NdCK.predict CKObj.predict
  rw [ndNormalizeInput_samples]
  change (Except.map _ (normalizeInput ck.box X) >>= _) = _
  cases normalizeInput ck.box X with
  | error e => rfl
  | ok xs =>
    have h2 : (Nd.ofSamples xs).atleast2d = .ofSamples xs := rfl
    simp only [map_ok, pyBind_ok, h2, ndCross_eq]
    simp only [CKFit.toNd, sub_col_one, pyBind_ok]
    rw [lsolve2_col]
    cases cholSolveV t.LC (fun i => t.y i - t.mu) with
    | error e => rfl
    | ok z =>
      simp only [map_ok, pyBind_ok, Nd.T, dot_mat_col, add_one_col, map_col, reshapeCol_col]

/-! ## ScaledKriging -/

/-- The same object for the model with shapes. -/
def SKObj.toNd {d ql qd : ℕ} (sk : SKObj d ql qd) (regrL regrD : Nd → Py Nd) : NdSK d := { lf := sk.lf.toNd regrL, disc := sk.disc.toNd regrD, rho := sk.rho }

/-- The same trained model for the model with shapes. -/
def SKFit.toNd {nh nl d ql qd : ℕ} (t : SKFit nh nl d ql qd) : NdSKFit := { lfFit := t.lfFit.toNd, discFit := t.discFit.toNd }

theorem nd_sk_train {nh nl d ql qd : ℕ} {regrL regrD : Nd → Py Nd} (sk : SKObj d ql qd) (hl : RegrFor regrL sk.lf.regr) (hd : RegrFor regrD sk.disc.regr) (w : SKWorld d)
    (hrho : sk.rhoOptimize = false) (Xh : Samples nh d) (yh : Fin nh → ℝ) (Xl : Samples nl d) (yl : Fin nl → ℝ) {Yh Yl : Nd} (hYh : Yh.reshapeCol = .col yh) (hYl : Yl.reshapeCol = .col yl) :
    (sk.toNd regrL regrD).train ⟨w.lf, w.disc⟩ (.ofSamples Xh) Yh (.ofSamples Xl) Yl = (sk.train w Xh yh Xl yl).map fun r => (r.1.toNd regrL regrD, r.2.toNd) := by
  unfold NdSK.train SKObj.train
  rw [hrho]
  simp only [SKObj.toNd, nd_gp_train sk.lf hl w.lf Xl yl hYl, hYh]
  cases htr : sk.lf.train w.lf Xl yl with
  | error e => rfl
  | ok r =>
    have hr' : RegrFor regrL r.1.regr := by
      have : r.1.regr = sk.lf.regr := (trained_of_train (gp' := r.1) (t := r.2) htr).2.2.2.2.1
      rw [this]; exact hl
    simp only [map_ok, pyBind_ok, nd_gp_predict r.1 hr']
    cases predictMean r.1 r.2 Xh with
    | error e => rfl
    | ok p =>
      simp only [map_ok, pyBind_ok, map_col, sub_col_col]
      have hdsc : (Nd.col (yh - fun i => sk.rho * p i)).reshapeCol = .col (getDisc sk.rho p yh) := reshapeCol_col _
      rw [nd_gp_train sk.disc hd w.disc Xh (getDisc sk.rho p yh) hdsc]
      simp only [Bool.false_eq_true, if_false, pyBind_ok]
      cases sk.disc.train w.disc Xh (getDisc sk.rho p yh) <;> rfl

theorem nd_sk_predict {nh nl d ql qd m : ℕ} {regrL regrD : Nd → Py Nd} (sk : SKObj d ql qd) (hl : RegrFor regrL sk.lf.regr) (hd : RegrFor regrD sk.disc.regr) (t : SKFit nh nl d ql qd)
    (X : Samples m d) : (sk.toNd regrL regrD).predict t.toNd (.ofSamples X) = (sk.predict t X).map Nd.col := by
  unfold NdSK.predict SKObj.predict
  simp only [SKObj.toNd, SKFit.toNd, nd_gp_predict sk.lf hl, nd_gp_predict sk.disc hd]
  cases predictMean sk.disc t.discFit X with
  | error e => rfl
  | ok a =>
    simp only [map_ok, pyBind_ok]
    cases predictMean sk.lf t.lfFit X with
    | error e => rfl
    | ok b =>
      simp only [map_ok, pyBind_ok, map_col, add_col_col]
      rfl

end Mfpml.GP
