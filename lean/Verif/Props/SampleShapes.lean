import Verif.Props.ArrayShapes

/-!
# C125: shapes of the arrays of samples
-/

open scoped BigOperators Matrix

namespace Mfpml.Props

open Mfpml Mfpml.GP Mfpml.GP.Nd Mfpml.EA Mfpml.Spec

variable {n nh nl d q ql qd m k : ℕ}

/-! ## One point as a flat array -/

theorem normIn_flat (box : Box ℝ d) (x : Fin d → ℝ) :
    (∃ e, ndNormalizeInput box (array1 x) = .error e ∧ ndNormalizeInput box (array2 fun _ : Fin 1 => x) = .error e) ∨
    ∃ v : Fin d → ℝ, ndNormalizeInput box (array1 x) = .ok (array1 v) ∧ ndNormalizeInput box (array2 fun _ : Fin 1 => x) = .ok (array2 fun _ : Fin 1 => v) := by
  unfold ndNormalizeInput array1 array2
  simp only [Nd.sub, zip_vec_vec, zip_mat_vec, pyBind_ok, div_vec_vec, div_mat_vec]
  split
  · exact .inr ⟨_, rfl, rfl⟩
  · exact .inl ⟨_, rfl, rfl⟩

/-- C125 (one point). A point given as an array of shape `(d,)` is predicted like the same point of shape `(1, d)`, by every model. -/
theorem C125_point_gp (gp : NdGP d) (t : NdFit) (x : Fin d → ℝ) :
    gp.predict t (array1 x) = gp.predict t (array2 fun _ : Fin 1 => x) ∧ gp.predictStd t (array1 x) = gp.predictStd t (array2 fun _ : Fin 1 => x) := by
  have h1 : gp.predict t (array1 x) = gp.predict t (array2 fun _ : Fin 1 => x) := by
    unfold NdGP.predict
    rcases normIn_flat gp.box x with ⟨e, h, h'⟩ | ⟨v, h, h'⟩
    · rw [h, h']
    · rw [h, h']; rfl
  refine ⟨h1, ?_⟩
  unfold NdGP.predictStd
  rw [h1]
  congr 1
  funext fm
  rcases normIn_flat gp.box x with ⟨e, h, h'⟩ | ⟨v, h, h'⟩
  · rw [h, h']
  · rw [h, h']; rfl

/-- C125 (one point, HierarchicalKriging). -/
theorem C125_point_hk (hk : NdHK d) (t : NdHKFit) (x : Fin d → ℝ) :
    hk.predict t (array1 x) = hk.predict t (array2 fun _ : Fin 1 => x) ∧ hk.predictStd t (array1 x) = hk.predictStd t (array2 fun _ : Fin 1 => x) := by
  have h1 : hk.predict t (array1 x) = hk.predict t (array2 fun _ : Fin 1 => x) := by
    unfold NdHK.predict
    rw [(C125_point_gp hk.lf t.lfFit x).1]
    rcases normIn_flat hk.box x with ⟨e, h, h'⟩ | ⟨v, h, h'⟩
    · rw [h, h']
    · rw [h, h']; rfl
  refine ⟨h1, ?_⟩
  unfold NdHK.predictStd
  rw [h1, (C125_point_gp hk.lf t.lfFit x).1]
  congr 1
  funext fm
  rcases normIn_flat hk.box x with ⟨e, h, h'⟩ | ⟨v, h, h'⟩
  · rw [h, h']
  · rw [h, h']; rfl

/-- C125 (one point, ScaledKriging). -/
theorem C125_point_sk (sk : NdSK d) (t : NdSKFit) (x : Fin d → ℝ) : sk.predict t (array1 x) = sk.predict t (array2 fun _ : Fin 1 => x) := by
  unfold NdSK.predict
  rw [(C125_point_gp sk.disc t.discFit x).1, (C125_point_gp sk.lf t.lfFit x).1]

/-- C125 (one point, CoKriging). -/
theorem C125_point_ck (ck : NdCK d) (t : NdCKFit) (x : Fin d → ℝ) : ck.predict t (array1 x) = ck.predict t (array2 fun _ : Fin 1 => x) := by
  unfold NdCK.predict
  rcases normIn_flat ck.box x with ⟨e, h, h'⟩ | ⟨v, h, h'⟩
  · rw [h, h']
  · rw [h, h']; rfl

/-! ## A wrong number of columns -/

theorem normIn_wrong (box : Box ℝ d) (X : Samples n k) (h : k ≠ d) (hk : k ≠ 1) (hd : d ≠ 1) : ndNormalizeInput box (array2 X) = .error .valueError := by
  have : Nd.zip (· - ·) (.mat (Matrix.of X)) (.vec box.low) = .error .valueError := by
    unfold Nd.zip
    simp only [Nd.cols, bdim_ne h hk hd]
    split
    · simp_all
    · rfl
  unfold ndNormalizeInput array2
  rw [Nd.sub, this]
  rfl

/-- C125 (wrong number of columns, GP). In a problem with `d ≥ 2` variables, samples or points with `k` columns, `k ≠ d` and `k ≠ 1`, are refused with `ValueError`. -/
theorem C125_columns_gp_partial (gp : NdGP d) (w : World d) (t : NdFit) (X : Samples n k) (Y : Nd) (h : k ≠ d) (hk : k ≠ 1) (hd : d ≠ 1) :
    gp.train w (array2 X) Y = .error .valueError ∧ gp.predict t (array2 X) = .error .valueError ∧ gp.predictStd t (array2 X) = .error .valueError := by
  have hp : gp.predict t (array2 X) = .error .valueError := by
    unfold NdGP.predict
    rw [normIn_wrong gp.box X h hk hd]; rfl
  refine ⟨?_, hp, ?_⟩
  · unfold NdGP.train
    rw [normIn_wrong gp.box X h hk hd]; rfl
  · unfold NdGP.predictStd
    rw [hp]; rfl

/-- C125 (wrong number of columns, multi-fidelity models): `ValueError` for low-fidelity samples and for points, an exception for high-fidelity samples. -/
theorem C125_columns_mf_partial (hk : NdHK d) (sk : NdSK d) (ck : NdCK d) (w : MFWorld d) (w' : CKWorld d) (th : NdHKFit) (ts : NdSKFit) (tc : NdCKFit) (X : Samples n k) (X' Yh Yl : Nd)
    (h : k ≠ d) (h1 : k ≠ 1) (hd : d ≠ 1) :
    Raises (hk.train w (array2 X) Yh X' Yl) ∧ Raises (hk.train w X' Yh (array2 X) Yl) ∧ hk.predict th (array2 X) = .error .valueError ∧
    Raises (sk.train w (array2 X) Yh X' Yl) ∧ Raises (sk.train w X' Yh (array2 X) Yl) ∧ sk.predict ts (array2 X) = .error .valueError ∧
    Raises (ck.train w' (array2 X) Yh X' Yl) ∧ Raises (ck.train w' X' Yh (array2 X) Yl) ∧ ck.predict tc (array2 X) = .error .valueError := by
  refine ⟨?_, ?_, ?_, ?_, ?_, ?_, ?_, ?_, ?_⟩
  · unfold NdHK.train
    rw [normIn_wrong hk.box X h h1 hd]
    cases hk.lf.train w.lf X' Yl with
    | error e => exact ⟨e, rfl⟩
    | ok r => exact ⟨_, rfl⟩
  · unfold NdHK.train
    rw [(C125_columns_gp_partial hk.lf w.lf th.lfFit X Yl h h1 hd).1]
    exact ⟨_, rfl⟩
  · unfold NdHK.predict
    rw [normIn_wrong hk.box X h h1 hd]; rfl
  · unfold NdSK.train
    cases sk.lf.train w.lf X' Yl with
    | error e => exact ⟨e, rfl⟩
    | ok r =>
      simp only [pyBind_ok]
      rw [(C125_columns_gp_partial r.1 w.lf r.2 X Yl h h1 hd).2.1]
      exact ⟨_, rfl⟩
  · unfold NdSK.train
    rw [(C125_columns_gp_partial sk.lf w.lf ts.lfFit X Yl h h1 hd).1]
    exact ⟨_, rfl⟩
  · unfold NdSK.predict
    rw [(C125_columns_gp_partial sk.disc w.lf ts.discFit X Yl h h1 hd).2.1]
    rfl
  · unfold NdCK.train
    rw [normIn_wrong ck.box X h h1 hd]
    exact ⟨_, rfl⟩
  · unfold NdCK.train
    rw [normIn_wrong ck.box X h h1 hd]
    cases ndNormalizeInput ck.box X' with
    | error e => exact ⟨e, rfl⟩
    | ok r => exact ⟨_, rfl⟩
  · unfold NdCK.predict
    rw [normIn_wrong ck.box X h h1 hd]; rfl

theorem normIn_column (box : Box ℝ d) (x : Fin m → ℝ) : ndNormalizeInput box (column x) = ndNormalizeInput box (array2 fun i (_ : Fin d) => x i) := by
  unfold ndNormalizeInput column array2
  simp only [Nd.sub, zip_vec_vec, zip_mat_vec, zip_col_vec, pyBind_ok]
  rfl

/-- C125 (one column). Samples or points of shape `(n, 1)` are never refused for their shape: in a problem with `d` variables they are used as if each number were repeated `d` times. -/
theorem C125_one_column (gp : NdGP d) (w : World d) (t : NdFit) (x : Fin m → ℝ) (Y : Nd) :
    gp.train w (column x) Y = gp.train w (array2 fun i (_ : Fin d) => x i) Y ∧ gp.predict t (column x) = gp.predict t (array2 fun i (_ : Fin d) => x i) ∧
    gp.predictStd t (column x) = gp.predictStd t (array2 fun i (_ : Fin d) => x i) := by
  have h1 : gp.predict t (column x) = gp.predict t (array2 fun i (_ : Fin d) => x i) := by
    unfold NdGP.predict
    rw [normIn_column]
  refine ⟨?_, h1, ?_⟩
  · unfold NdGP.train
    rw [normIn_column]
    rfl
  · unfold NdGP.predictStd
    rw [normIn_column, h1]

/-- The same for the multi-fidelity models. -/
theorem C125_one_column_mf (hk : NdHK d) (sk : NdSK d) (ck : NdCK d) (w : MFWorld d) (w' : CKWorld d) (th : NdHKFit) (ts : NdSKFit) (tc : NdCKFit) (x : Fin m → ℝ) (X' Yh Yl : Nd) :
    hk.train w (column x) Yh X' Yl = hk.train w (array2 fun i (_ : Fin d) => x i) Yh X' Yl ∧ hk.predict th (column x) = hk.predict th (array2 fun i (_ : Fin d) => x i) ∧
    sk.train w (column x) Yh X' Yl = sk.train w (array2 fun i (_ : Fin d) => x i) Yh X' Yl ∧ sk.predict ts (column x) = sk.predict ts (array2 fun i (_ : Fin d) => x i) ∧
    ck.train w' (column x) Yh X' Yl = ck.train w' (array2 fun i (_ : Fin d) => x i) Yh X' Yl ∧ ck.predict tc (column x) = ck.predict tc (array2 fun i (_ : Fin d) => x i) := by
  have hp : ∀ (gp : NdGP d) (t : NdFit), gp.predict t (column x) = gp.predict t (array2 fun i (_ : Fin d) => x i) := fun gp t => (C125_one_column gp w.lf t x Yl).2.1
  have ht : ∀ (gp : NdGP d) (w : World d) (Y : Nd), gp.train w (column x) Y = gp.train w (array2 fun i (_ : Fin d) => x i) Y := fun gp w Y => (C125_one_column gp w th.lfFit x Y).1
  refine ⟨?_, ?_, ?_, ?_, ?_, ?_⟩
  · unfold NdHK.train; simp only [normIn_column, hp]; rfl
  · unfold NdHK.predict; simp only [normIn_column, hp]
  · unfold NdSK.train; simp only [ht, hp]
  · unfold NdSK.predict; simp only [hp]
  · unfold NdCK.train; simp only [normIn_column]; rfl
  · unfold NdCK.predict; simp only [normIn_column]

/-- C125 is false for one column: with the default trend and well-behaved optimisers a `d`-dimensional model trains on samples with one column whenever the responses vary, for every `d`. -/
theorem C125_one_column_counterexample (gp : GPObj d 1) (w : World d) (hu : Usual gp w) (x y : Fin n → ℝ) (hy : Varies y) :
    ∃ r, (gp.toNd ndOrdinary).train w (column x) (column y) = .ok r := by
  obtain ⟨gp', t, h⟩ := (usual_trains_iff hu (fun i (_ : Fin d) => x i) y).mpr hy
  have h' := nd_gp_train gp (regr := ndOrdinary) (by rw [hu.regr]; exact regrFor_ordinary d) w (fun i (_ : Fin d) => x i) y (reshapeCol_col y)
  rw [h, map_ok] at h'
  exact ⟨_, ((C125_one_column _ w t.toNd x _).1).trans h'⟩

/-- A two-dimensional model for which this happens. -/
noncomputable def exGP2 : GPObj 2 1 :=
  { box := { low := fun _ => 0, high := fun _ => 4 }, kernel := RBF.mk' (fun _ => 0) (-2) 3, regr := ordinary 2, optimizer := none, noise := none }

/-- Its environment. -/
noncomputable def exWorld2 : World 2 := { mini := cornerMinimizer, starts := [fun _ => 0], startsNoise := [fun _ => 0] }

example : ∃ r, (exGP2.toNd ndOrdinary).train exWorld2 (column ![1, 1, 3]) (column exY) = .ok r :=
  C125_one_column_counterexample exGP2 exWorld2 ⟨rfl, fun _ => by simp [exGP2], by simp [exGP2, RBF.mk']; norm_num, cornerMinimizer_good, fun run h => by simp [exGP2] at h,
    by simp [exWorld2], by simp [exWorld2]⟩ _ _ ⟨0, 2, exY_ne⟩

/-- The refusal of three columns in the same problem. -/
example : (exGP2.toNd ndOrdinary).train exWorld2 (array2 (fun _ _ => 1 : Samples 3 3)) (column exY) = .error .valueError := by
  have t : NdFit := ⟨.scalar 0, .scalar 0, 0, 0, ⟨.scalar 0, .scalar 0, .scalar 0, .scalar 0, .scalar 0, .scalar 0, .scalar 0⟩, 0⟩
  exact (C125_columns_gp_partial _ _ t _ _ (by norm_num) (by norm_num) (by norm_num)).1

/-! ## Training that goes through for other shapes -/

/-- Training with estimated noise works for samples of any shape whose covariance matrix comes out right. -/
theorem nd_train_of_cov (gp : GPObj d 1) (w : World d) (hu : Usual gp w) (hno : gp.noise = none) (X Xs : Nd) (y : Fin n → ℝ) (hy : Varies y) (hX : X.shape0 = .ok n)
    (hXs : ndNormalizeInput gp.box X = .ok Xs) (hXs0 : Xs.shape0 = .ok n)
    (hcov : ∀ (param : Fin d → ℝ) (sigma : ℝ), 0 < sigma → ∃ K : Matrix (Fin n) (Fin n) ℝ, ndCov n param Xs sigma = .ok (.mat K) ∧ K.PosDef) :
    ∃ r, (gp.toNd ndOrdinary).train w X (column y) = .ok r ∧ r.2.Xs = Xs ∧ r.1.box = gp.box := by
  obtain ⟨i0, j0, hij⟩ := hy
  have hn : 0 < n := lt_of_le_of_lt (Nat.zero_le _) i0.isLt
  have hs : std y ≠ 0 := fun h => hij ((std_eq_zero_iff y).mp h i0 j0)
  set ys : Fin n → ℝ := fun i => (y i - mean y) / std y with hys
  have hYs : normalizeOutput y = .ok ys := normalizeOutput_eq hs
  set F : Matrix (Fin n) (Fin 1) ℝ := Matrix.of fun _ _ => 1 with hF
  have hreg : ndOrdinary Xs = .ok (.mat F) := by
    unfold ndOrdinary; rw [hXs0]; rfl
  have hind : IndepColumns F := ordinary_indep (d := d) (fun _ _ => 0) hn
  have hobj : ∀ (param : Fin d → ℝ) (sigma : ℝ), 0 < sigma → ∃ v, ndNegLogLik n param Xs sigma (.ok (.mat F)) (.col ys) False = .ok v := by
    intro param sigma hsig
    obtain ⟨K, hK, hpd⟩ := hcov param sigma hsig
    obtain ⟨g, hg, hG⟩ := glsFit_succeeds ys hpd ((indep_iff F).mp hind) hn
    unfold ndNegLogLik
    rw [hK, pyBind_ok, ndGls_col, hg, map_ok, pyBind_ok]
    have := ndLogLik_one (S := (GLS.toNd F g).sigma2) (s := g.sigma2) hG.cholK (.inr rfl) False
    change ∃ v, ndLogLik n (.mat g.L) (GLS.toNd F g).sigma2 False = .ok v
    rw [this]
    simp
  obtain ⟨x, hx, hb⟩ := searchHyper_good (opt := gp.optimizer)
      (obj := fun params : Fin (d + 1) → ℝ => ndNegLogLik n (pow10 (fun j => params j.castSucc)) Xs (params (Fin.last d)) (.ok (.mat F)) (.col ys) False)
      (lo := Fin.snoc (α := fun _ => ℝ) (fun _ => gp.kernel.boundLow) noiseLow)
      (hi := Fin.snoc (α := fun _ => ℝ) (fun _ => gp.kernel.boundHigh) noiseHigh) hu.mini (fun r h => ⟨Nat.succ_pos _, (hu.opt r h).2⟩)
      (fun j => by
        refine Fin.lastCases ?_ (fun i => ?_) j
        · simp [noiseLow, noiseHigh]; norm_num
        · simpa using hu.bounds)
      (fun x hx => hobj _ _ (lt_of_lt_of_le (b := noiseLow) (by norm_num [noiseLow]) (by simpa using (hx (Fin.last d)).1))) w.startsNoise hu.startsNoise
  have hpos : 0 < x (Fin.last d) := lt_of_lt_of_le (b := noiseLow) (by norm_num [noiseLow]) (by simpa using (hb (Fin.last d)).1)
  obtain ⟨K, hK, hpd⟩ := hcov (gp.kernel.setParams fun j => x j.castSucc).param (x (Fin.last d)) hpos
  obtain ⟨g, hg, hG⟩ := glsFit_succeeds ys hpd ((indep_iff F).mp hind) hn
  have hsame : x (Fin.last d) * std y / std y = x (Fin.last d) := by field_simp
  refine ⟨_, Py.bind_ok.mpr ⟨n, hX, Py.bind_ok.mpr ⟨Xs, hXs, Py.bind_ok.mpr ⟨.col ys, ?_, Py.bind_ok.mpr ⟨(fun j => x j.castSucc, x (Fin.last d) * std y), ?_,
    Py.bind_ok.mpr ⟨.mat K, ?_, Py.bind_ok.mpr ⟨GLS.toNd F g, ?_, Py.bind_ok.mpr ⟨g.sigma2, item_one _, rfl⟩⟩⟩⟩⟩⟩⟩, rfl, rfl⟩
  · rw [column_eq, reshapeCol_col, ndNormalizeOutput_col, hYs]; rfl
  · change ndFitHyper gp.optimizer gp.kernel gp.noise w n (column y).reshapeCol.stdAll Xs (ndOrdinary Xs) (.col ys) = _
    rw [hno, column_eq, reshapeCol_col, stdAll_col, hreg]
    exact Py.bind_ok.mpr ⟨x, hx, rfl⟩
  · rw [column_eq, reshapeCol_col, stdAll_col, hsame]
    exact hK
  · change ndGls n (.mat K) (ndOrdinary Xs) (.col ys) = _
    rw [hreg, ndGls_col, hg]; rfl

theorem zip_mat_single (f : ℝ → ℝ → ℝ) {r c : ℕ} (A : Matrix (Fin r) (Fin c) ℝ) (v : Fin 1 → ℝ) : Nd.zip f (.mat A) (.vec v) = .ok (.mat <| Matrix.of fun i j => f (A i j) (v 0)) := by
  simp [Nd.zip, Nd.rows, Nd.cols, Nd.ndim, bdim_one_right, get_mat, get_vec_one]

theorem zip_single_mat (f : ℝ → ℝ → ℝ) {r c : ℕ} (v : Fin 1 → ℝ) (A : Matrix (Fin r) (Fin c) ℝ) : Nd.zip f (.vec v) (.mat A) = .ok (.mat <| Matrix.of fun i j => f (v 0) (A i j)) := by
  simp [Nd.zip, Nd.rows, Nd.cols, Nd.ndim, bdim_one_left, get_mat, get_vec_one]

theorem zip_vec_single (f : ℝ → ℝ → ℝ) {c : ℕ} (u : Fin c → ℝ) (v : Fin 1 → ℝ) : Nd.zip f (.vec u) (.vec v) = .ok (.vec fun j => f (u j) (v 0)) := by
  simp only [Nd.zip, Nd.rows, Nd.cols, Nd.ndim, bdim_one_right, get_vec, get_vec_one]
  rfl

theorem div_single (a : Nd) {v : Fin 1 → ℝ} (hv : v 0 ≠ 0) : a.div (.vec v) = Nd.zip (· / ·) a (.vec v) := by
  unfold Nd.div
  cases Nd.zip (· / ·) a (.vec v) with
  | error e => rfl
  | ok q => simp [bind, Except.bind, Nd.rows, Nd.cols, get_vec_one, hv]

theorem normIn_flat_single {box : Box ℝ 1} (hb : box.low 0 < box.high 0) (x : Fin n → ℝ) : ∃ v : Fin n → ℝ, ndNormalizeInput box (array1 x) = .ok (array1 v) := by
  unfold ndNormalizeInput array1
  rw [Nd.sub, zip_vec_single, pyBind_ok, Nd.sub, zip_vec_vec, pyBind_ok, div_single _ (by linarith), zip_vec_single]
  exact ⟨_, rfl⟩

theorem normIn_single {box : Box ℝ 1} (hb : box.low 0 < box.high 0) (X : Samples n k) : ∃ Z : Samples n k, ndNormalizeInput box (array2 X) = .ok (array2 Z) := by
  unfold ndNormalizeInput array2
  rw [Nd.sub, zip_mat_single, pyBind_ok, Nd.sub, zip_vec_vec, pyBind_ok, div_single _ (by linarith), zip_mat_single]
  exact ⟨_, rfl⟩

theorem ndCov_flat (param : Fin 1 → ℝ) (x : Fin n → ℝ) (sigma : ℝ) :
    ∃ a, 0 < a ∧ ndCov n param (array1 x) sigma = .ok (.mat (Matrix.of fun i j : Fin n => a + (if i.val = j.val then 1 else 0) * sigma ^ 2)) := by
  unfold ndCov ndRbf array1
  simp only [Nd.atleast2d, Nd.map, Nd.mul, Nd.add, Nd.sub, zip_mat_single, zip_single_mat, pyBind_ok, Nd.sumAxis1, Nd.sumAxis1Keep, Nd.T, dot_mat_mat, Nd.shape0, Nd.eye, zip_one_mat, zip_mat_mat]
  refine ⟨_, ?_, rfl⟩
  simp only [Matrix.of_apply]
  have : 0 < nugget := by unfold nugget; positivity
  have h1 := fun v : ℝ => Real.exp_pos (-v)
  refine add_pos (h1 _) ?_
  simpa using this

theorem posDef_flat {a sigma : ℝ} (ha : 0 < a) (hs : 0 < sigma) : (Matrix.of fun i j : Fin n => a + (if i.val = j.val then 1 else 0) * sigma ^ 2).PosDef := by
  have h1 : (a • Matrix.vecMulVec (fun _ : Fin n => (1 : ℝ)) (star fun _ : Fin n => (1 : ℝ))).PosSemidef := (Matrix.posSemidef_vecMulVec_self_star _).smul ha.le
  have h2 : (Matrix.of fun i j : Fin n => a + (if i.val = j.val then 1 else 0) * sigma ^ 2) =
      sigma ^ 2 • (1 : Matrix (Fin n) (Fin n) ℝ) + a • Matrix.vecMulVec (fun _ : Fin n => (1 : ℝ)) (star fun _ : Fin n => (1 : ℝ)) := by
    ext i j
    simp only [Matrix.of_apply, Matrix.add_apply, Matrix.smul_apply, Matrix.one_apply, Matrix.vecMulVec_apply, Pi.star_apply, star_trivial, smul_eq_mul, Fin.ext_iff]
    split <;> ring
  rw [h2]
  exact (posDef_smul_one (by positivity)).add_posSemidef h1

theorem ndCov_columns (param : Fin 1 → ℝ) (Z : Samples n k) (sigma : ℝ) : ndCov n param (array2 Z) sigma = .ok (.mat (covTrain (fun _ : Fin k => param 0) Z sigma)) := by
  rw [← ndCov_samples]
  unfold ndCov
  congr 1
  rw [ndRbf_samples]
  unfold ndRbf array2
  simp only [Nd.atleast2d, Nd.map, Nd.mul, Nd.add, Nd.sub, zip_mat_single, zip_single_mat, pyBind_ok, Nd.sumAxis1, Nd.sumAxis1Keep, Nd.T, dot_mat_mat, Nd.shape0, Nd.eye, zip_col_vec, zip_mat_mat]
  congr 2

/-- C125 is false in one dimension: a one-dimensional model with estimated noise trains on samples with any number of columns whenever the responses vary; its covariance matrix is that of
a problem with as many variables as columns. -/
theorem C125_extra_columns_counterexample (gp : GPObj 1 1) (w : World 1) (hu : Usual gp w) (hno : gp.noise = none) (X : Samples n k) (y : Fin n → ℝ) (hy : Varies y) :
    ∃ r, (gp.toNd ndOrdinary).train w (array2 X) (column y) = .ok r := by
  obtain ⟨Z, hZ⟩ := normIn_single (hu.box 0) X
  obtain ⟨r, hr, _⟩ := nd_train_of_cov gp w hu hno (array2 X) (array2 Z) y hy rfl hZ rfl (fun param sigma _ => ⟨_, ndCov_columns param Z sigma, posDef_covTrain _ _ _⟩)
  exact ⟨r, hr⟩

/-- Three columns in a one-dimensional problem. -/
example : ∃ r, ((exGP none).toNd ndOrdinary).train exWorld (array2 (fun i j => i + j : Samples 3 3)) (column exY) = .ok r :=
  C125_extra_columns_counterexample (exGP none) exWorld (exGP_usual _) rfl _ _ ⟨0, 2, exY_ne⟩

/-! ## Flat arrays of samples in one dimension -/

/-- C125 (flat samples). In a one-dimensional problem, if training on a flat array of two or more samples succeeds, every later prediction at points of shape `(m, 1)` raises
`ValueError`, whatever the data, the trend and the optimisers. -/
theorem C125_flat_samples_unusable (gp gp' : NdGP 1) (w : World 1) (x : Fin n → ℝ) (Y : Nd) (t : NdFit) (hn : 2 ≤ n) (h : gp.train w (array1 x) Y = .ok (gp', t)) (Z : Samples m 1) :
    gp'.predict t (array2 Z) = .error .valueError := by
  unfold NdGP.train at h
  obtain ⟨n', h1, h⟩ := Py.bind_ok.mp h
  obtain ⟨Xs, h2, h⟩ := Py.bind_ok.mp h
  obtain ⟨ys, h3, h⟩ := Py.bind_ok.mp h
  obtain ⟨th, h4, h⟩ := Py.bind_ok.mp h
  obtain ⟨K, h5, h⟩ := Py.bind_ok.mp h
  obtain ⟨g, h6, h⟩ := Py.bind_ok.mp h
  obtain ⟨s2, h7, h⟩ := Py.bind_ok.mp h
  obtain ⟨e1, e2⟩ := Prod.mk.inj (Except.ok.inj h)
  have hbox : gp'.box = gp.box := by rw [← e1]
  have hXs : t.Xs = Xs := by rw [← e2]
  have hb : gp.box.high 0 - gp.box.low 0 ≠ 0 := by
    intro h0
    unfold ndNormalizeInput array1 at h2
    rw [Nd.sub, zip_vec_single, pyBind_ok, Nd.sub, zip_vec_vec, pyBind_ok] at h2
    obtain ⟨q, _, h2⟩ := Py.bind_ok.mp h2
    split at h2
    · rename_i hall
      exact hall 0 (by simp [Nd.rows]) 0 (by simp [Nd.cols]) (by rw [get_vec_one]; exact h0)
    · cases h2
  obtain ⟨v, hv⟩ : ∃ v : Fin n → ℝ, Xs = array1 v := by
    unfold ndNormalizeInput array1 at h2
    rw [Nd.sub, zip_vec_single, pyBind_ok, Nd.sub, zip_vec_vec, pyBind_ok, div_single _ hb, zip_vec_single] at h2
    exact ⟨_, (Except.ok.inj h2).symm⟩
  obtain ⟨Zs, hZ⟩ : ∃ Zs : Samples m 1, ndNormalizeInput gp.box (array2 Z) = .ok (array2 Zs) := by
    unfold ndNormalizeInput array2
    rw [Nd.sub, zip_mat_single, pyBind_ok, Nd.sub, zip_vec_vec, pyBind_ok, div_single _ hb, zip_mat_single]
    exact ⟨_, rfl⟩
  unfold NdGP.predict
  rw [hbox, hZ, pyBind_ok, hXs, hv]
  have : ndRbf (.vec gp'.kernel.param) (array1 v) (array2 Zs).atleast2d = .error .valueError := by
    unfold ndRbf array1 array2
    simp only [Nd.atleast2d, Nd.map, Nd.mul, zip_mat_single, zip_single_mat, pyBind_ok, Nd.sumAxis1, Nd.sumAxis1Keep, Nd.T]
    rw [dot_mat_mat_ne _ _ (by omega)]
    rfl
  simp only [this]
  rfl

/-- C125 is false for flat samples: training a one-dimensional model with estimated noise on them works whenever the responses vary, and no prediction at points of shape `(m, 1)` works
afterwards. -/
theorem C125_flat_samples_counterexample (gp : GPObj 1 1) (w : World 1) (hu : Usual gp w) (hno : gp.noise = none) (x y : Fin n → ℝ) (hy : Varies y) :
    ∃ gp' t, (gp.toNd ndOrdinary).train w (array1 x) (column y) = .ok (gp', t) ∧ ∀ (m : ℕ) (Z : Samples m 1), gp'.predict t (array2 Z) = .error .valueError := by
  obtain ⟨v, hv⟩ := normIn_flat_single (hu.box 0) x
  obtain ⟨r, hr, _⟩ := nd_train_of_cov gp w hu hno (array1 x) (array1 v) y hy rfl hv rfl (fun param sigma hs => by
    obtain ⟨a, ha, hK⟩ := ndCov_flat param v sigma
    exact ⟨_, hK, posDef_flat ha hs⟩)
  refine ⟨r.1, r.2, hr, fun m Z => C125_flat_samples_unusable _ _ w x _ _ ?_ hr Z⟩
  obtain ⟨i, j, hij⟩ := hy
  have : i.val ≠ j.val := fun h => hij (by rw [Fin.ext h])
  have := i.isLt; have := j.isLt
  omega

example : ∃ gp' t, ((exGP none).toNd ndOrdinary).train exWorld (array1 ![1, 1, 3]) (column exY) = .ok (gp', t) ∧ ∀ (m : ℕ) (Z : Samples m 1), gp'.predict t (array2 Z) = .error .valueError :=
  C125_flat_samples_counterexample (exGP none) exWorld (exGP_usual _) rfl _ _ ⟨0, 2, exY_ne⟩

end Mfpml.Props
