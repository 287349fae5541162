import Verif.Lemmas.NdShapes
import Verif.Spec.ArrayShapes
import Verif.Props.MFTrains
import Verif.Props.CoKriging

/-!
# C123, C124, C125: shapes of response and sample arrays
-/

open scoped BigOperators Matrix

namespace Mfpml.Props

open Mfpml Mfpml.GP Mfpml.GP.Nd Mfpml.EA Mfpml.Spec

variable {n nh nl d q ql qd m : ℕ}

/-! ## Objects with and without shapes -/

/-- The object of `Model/GP.lean` with the same attributes. -/
def ofNdGP (gp : NdGP d) (f : Basis d q) : GPObj d q := { box := gp.box, kernel := gp.kernel, regr := f, optimizer := gp.optimizer, noise := gp.noise }
/-- The object of `Model/HierarchicalKriging.lean` with the same attributes. -/
def ofNdHK (hk : NdHK d) (f : Basis d q) : HKObj d q := { box := hk.box, kernel := hk.kernel, optimizer := hk.optimizer, noise := hk.noise, lf := ofNdGP hk.lf f }
/-- The object of `Model/CoKriging.lean` with the same attributes. -/
def ofNdCK (ck : NdCK d) (f : Basis d q) : CKObj d q :=
  { box := ck.box, kernel := ck.kernel, optimizer := ck.optimizer, rhoLow := ck.rhoLow, rhoHigh := ck.rhoHigh, noise := ck.noise,
    lf := { kernel := ck.lf.kernel, regr := f, optimizer := ck.lf.optimizer, noise := ck.lf.noise } }

theorem column_eq {n : ℕ} (x : Fin n → ℝ) : column x = .col x := rfl
theorem array2_eq {n d : ℕ} (X : Samples n d) : array2 X = .ofSamples X := rfl

/-- The default basis functions are among those the theorems speak about. -/
theorem regrFor_ordinary (d : ℕ) : RegrFor (d := d) ndOrdinary (ordinary d) := fun _ X => ndOrdinary_samples X
/-- So is the linear basis. -/
theorem regrFor_linear (d : ℕ) : RegrFor (d := d) ndLinear (linear d) := fun _ X => ndLinear_samples X

theorem sameOutcome_map {α β γ : Type} {R : β → γ → Prop} {f : α → β} {g : α → γ} (x : Py α) (h : ∀ a, x = .ok a → R (f a) (g a)) : SameOutcome R (x.map f) (x.map g) := by
  cases x with
  | error e => rfl
  | ok a => exact h a rfl

/-! ## C123: flat and column responses -/

/-- C123 (GP). Responses of shape `(n,)` and `(n, 1)` give the same trained model or the same exception, for samples of any shape. -/
theorem C123_gp (gp : NdGP d) (w : World d) (X : Nd) (y : Fin n → ℝ) : gp.train w X (array1 y) = gp.train w X (column y) := by
  unfold NdGP.train
  rw [show (array1 y).reshapeCol = (column y).reshapeCol from (reshapeCol_col y).symm]

/-- C123 (GP). On samples of shape `(n, d)` it is the model of the other properties that is trained, and its predictions are columns. -/
theorem C123_gp_reference (gp : NdGP d) (f : Basis d q) (hr : RegrFor gp.regr f) (w : World d) (X : Samples n d) (y : Fin n → ℝ) :
    SameOutcome (fun a b => ∀ (m : ℕ) (Z : Samples m d),
        SameOutcome (fun p v => p = column v) (a.1.predict a.2 (array2 Z)) (GP.predictMean b.1 b.2 Z) ∧
        SameOutcome (fun p v => p.1 = column v.1 ∧ p.2 = column v.2) (a.1.predictStd a.2 (array2 Z)) (GP.predictStd b.1 b.2 Z))
      (gp.train w (array2 X) (column y)) ((ofNdGP gp f).train w X y) := by
  have h := nd_gp_train (ofNdGP gp f) hr w X y (reshapeCol_col y)
  change gp.train w (array2 X) (column y) = _ at h
  rw [h]
  cases htr : (ofNdGP gp f).train w X y with
  | error e => exact rfl
  | ok r =>
    intro m Z
    have hr' : RegrFor gp.regr r.1.regr := by
      rw [(trained_of_train (gp' := r.1) (t := r.2) htr).2.2.2.2.1]; exact hr
    have h1 := nd_gp_predict r.1 hr' r.2 Z
    have h2 := nd_gp_predictStd r.1 hr' r.2 Z
    constructor
    · change SameOutcome _ ((r.1.toNd gp.regr).predict r.2.toNd (.ofSamples Z)) _
      rw [h1]
      cases GP.predictMean r.1 r.2 Z <;> rfl
    · change SameOutcome _ ((r.1.toNd gp.regr).predictStd r.2.toNd (.ofSamples Z)) _
      rw [h2]
      cases GP.predictStd r.1 r.2 Z with
      | error e => rfl
      | ok v => exact ⟨rfl, rfl⟩

/-- C123 (ScaledKriging with fixed scale factor). Flat or column responses, for either fidelity, give the same model. -/
theorem C123_sk (sk : NdSK d) (w : MFWorld d) (Xh Xl : Nd) (yh : Fin nh → ℝ) (yl : Fin nl → ℝ) :
    sk.train w Xh (array1 yh) Xl (array1 yl) = sk.train w Xh (column yh) Xl (column yl) ∧
    sk.train w Xh (array1 yh) Xl (column yl) = sk.train w Xh (column yh) Xl (column yl) ∧
    sk.train w Xh (column yh) Xl (array1 yl) = sk.train w Xh (column yh) Xl (column yl) := by
  have e : (array1 yh).reshapeCol = (column yh).reshapeCol := (reshapeCol_col yh).symm
  unfold NdSK.train
  rw [C123_gp, e]
  exact ⟨rfl, rfl, rfl⟩

/-- C123 (HierarchicalKriging). Flat or column responses, for either fidelity: the same exception, or models with the same predictions and standard deviations. -/
theorem C123_hk (hk : NdHK d) (f : Basis d q) (hr : RegrFor hk.lf.regr f) (w : MFWorld d) (Xh : Samples nh d) (Xl : Samples nl d) (yh : Fin nh → ℝ) (yl : Fin nl → ℝ)
    (Yh Yl : Nd) (hYh : Yh = array1 yh ∨ Yh = column yh) (hYl : Yl = array1 yl ∨ Yl = column yl) :
    SameOutcome (fun a b => ∀ (m : ℕ) (Z : Samples m d), a.1.predict a.2 (array2 Z) = b.1.predict b.2 (array2 Z) ∧ a.1.predictStd a.2 (array2 Z) = b.1.predictStd b.2 (array2 Z))
      (hk.train w (array2 Xh) Yh (array2 Xl) Yl) (hk.train w (array2 Xh) (column yh) (array2 Xl) (column yl)) := by
  have hl : Yl.reshapeCol = .col yl := by
    rcases hYl with rfl | rfl
    · rfl
    · exact reshapeCol_col yl
  have h2 : hk.train w (array2 Xh) (column yh) (array2 Xl) (column yl) = _ := nd_hk_train_col (ofNdHK hk f) hr w Xh yh Xl yl (reshapeCol_col yl)
  have hlf : ∀ r, (ofNdHK hk f).train w Xh yh Xl yl = .ok r → RegrFor hk.lf.regr r.1.lf.regr ∧ r.2.yhStd ≠ 0 := by
    intro r h
    unfold HKObj.train at h
    obtain ⟨⟨lf, lfFit⟩, h1, h⟩ := Py.bind_ok.mp h
    obtain ⟨Xhs, h2, h⟩ := Py.bind_ok.mp h
    obtain ⟨yhs, h3, h⟩ := Py.bind_ok.mp h
    obtain ⟨f', h4, h⟩ := Py.bind_ok.mp h
    obtain ⟨th, h5, h⟩ := Py.bind_ok.mp h
    obtain ⟨g, h6, h⟩ := Py.bind_ok.mp h
    rw [← Except.ok.inj h]
    refine ⟨?_, normalizeOutput_std h3⟩
    show RegrFor hk.lf.regr lf.regr
    rw [(trained_of_train h1).2.2.2.2.1]; exact hr
  rcases hYh with rfl | rfl
  · have h1 : hk.train w (array2 Xh) (array1 yh) (array2 Xl) Yl = _ := nd_hk_train_vec (ofNdHK hk f) hr w Xh yh Xl yl hl
    rw [h1, h2]
    refine sameOutcome_map _ fun r hrr m Z => ?_
    obtain ⟨hr', hs⟩ := hlf r hrr
    exact ⟨(nd_hk_predict_vec r.1 hr' r.2 hs Z).trans (nd_hk_predict_col r.1 hr' r.2 hs Z).symm,
      (nd_hk_predictStd_vec r.1 hr' r.2 hs Z).trans (nd_hk_predictStd_col r.1 hr' r.2 hs Z).symm⟩
  · have h1 : hk.train w (array2 Xh) (column yh) (array2 Xl) Yl = _ := nd_hk_train_col (ofNdHK hk f) hr w Xh yh Xl yl hl
    rw [h1, h2]
    exact sameOutcome_map _ fun r _ m Z => ⟨rfl, rfl⟩

/-! ## Shapes along the way -/

theorem reshapeCol_shape (Y : Nd) : ∃ y : Fin (count Y) → ℝ, Y.reshapeCol = .col y := by
  cases Y with
  | scalar a => exact ⟨fun _ => a, rfl⟩
  | vec v => exact ⟨v, rfl⟩
  | mat M => exact ⟨fun k => M k.divNat k.modNat, rfl⟩

theorem ndGls_col_ne {n m : ℕ} (h : n ≠ m) (k : ℕ) (K : Matrix (Fin n) (Fin n) ℝ) (F : Py Nd) (y : Fin m → ℝ) (g : NdGLS) : ndGls k (.mat K) F (.col y) ≠ .ok g := by
  intro hg
  unfold ndGls at hg
  obtain ⟨L, h1, hg⟩ := Py.bind_ok.mp hg
  rw [chol_mat] at h1
  cases hL : cholesky K with
  | error e => rw [hL] at h1; cases h1
  | ok L' =>
    rw [hL, map_ok] at h1
    cases h1
    obtain ⟨F', _, hg⟩ := Py.bind_ok.mp hg
    obtain ⟨a, h2, _⟩ := Py.bind_ok.mp hg
    rw [Nd.lsolve2, Nd.col, lsolve_mat_ne _ _ h] at h2
    cases h2

/-- C124 (GP). Training on `n` samples with another number of responses, in an array of any shape, raises an exception, whatever the optimiser does. -/
theorem C124_gp (gp : NdGP d) (w : World d) (X : Samples n d) (Y : Nd) (h : count Y ≠ n) : Raises (gp.train w (array2 X) Y) := by
  cases htr : gp.train w (array2 X) Y with
  | error e => exact ⟨e, rfl⟩
  | ok r =>
    exfalso
    obtain ⟨y, hy⟩ := reshapeCol_shape Y
    unfold NdGP.train at htr
    rw [hy] at htr
    obtain ⟨n', h1, htr⟩ := Py.bind_ok.mp htr
    obtain ⟨Xs, h2, htr⟩ := Py.bind_ok.mp htr
    obtain ⟨ys, h3, htr⟩ := Py.bind_ok.mp htr
    obtain ⟨th, h4, htr⟩ := Py.bind_ok.mp htr
    obtain ⟨K, h5, htr⟩ := Py.bind_ok.mp htr
    obtain ⟨g, h6, htr⟩ := Py.bind_ok.mp htr
    have e1 : n = n' := Except.ok.inj h1
    subst e1
    rw [array2_eq, ndNormalizeInput_samples] at h2
    cases hX : normalizeInput gp.box X with
    | error e => rw [hX] at h2; cases h2
    | ok Xs' =>
      rw [hX, map_ok] at h2
      cases h2
      rw [ndNormalizeOutput_col] at h3
      cases hY : normalizeOutput y with
      | error e => rw [hY] at h3; cases h3
      | ok ys' =>
        rw [hY, map_ok] at h3
        cases h3
        rw [ndCov_samples] at h5
        cases h5
        exact ndGls_col_ne (Ne.symm h) _ _ _ _ _ h6

/-- The same for the low-fidelity model inside `CoKriging`. -/
theorem raw_train_count (gp : NdRaw d) (w : World d) (X : Samples n d) (Y : Nd) (h : count Y ≠ n) : Raises (gp.train w (.ofSamples X) Y) := by
  cases htr : gp.train w (.ofSamples X) Y with
  | error e => exact ⟨e, rfl⟩
  | ok r =>
    exfalso
    obtain ⟨y, hy⟩ := reshapeCol_shape Y
    unfold NdRaw.train at htr
    rw [hy] at htr
    obtain ⟨n', h1, htr⟩ := Py.bind_ok.mp htr
    obtain ⟨th, h4, htr⟩ := Py.bind_ok.mp htr
    obtain ⟨K, h5, htr⟩ := Py.bind_ok.mp htr
    obtain ⟨g, h6, htr⟩ := Py.bind_ok.mp htr
    have e1 : n = n' := Except.ok.inj h1
    subst e1
    rw [ndCov_samples] at h5
    cases h5
    exact ndGls_col_ne (Ne.symm h) _ _ _ _ _ h6

/-- The low-fidelity model of the multi-fidelity models, trained on an array of responses of any shape: its predictions at samples of shape `(m, d)` are a column. -/
theorem gp_predicts_column {gp gp' : NdGP d} {f : Basis d q} (hr : RegrFor gp.regr f) {w : World d} {X : Samples n d} {Y : Nd} {t : NdFit} (h : gp.train w (.ofSamples X) Y = .ok (gp', t))
    (Z : Samples m d) {p : Nd} (hp : gp'.predict t (.ofSamples Z) = .ok p) : ∃ v : Fin m → ℝ, p = .col v := by
  have hc : count Y = n := by
    by_contra hc
    obtain ⟨e, he⟩ := C124_gp gp w X Y hc
    rw [array2_eq, h] at he; cases he
  obtain ⟨y, hy⟩ := reshapeCol_shape Y
  subst hc
  have h' : gp.train w (.ofSamples X) Y = _ := nd_gp_train (ofNdGP gp f) hr w X y hy
  rw [h] at h'
  cases htr : (ofNdGP gp f).train w X y with
  | error e => rw [htr] at h'; cases h'
  | ok r =>
    rw [htr, map_ok] at h'
    obtain ⟨e1, e2⟩ := Prod.mk.inj (Except.ok.inj h')
    have hr' : RegrFor gp.regr r.1.regr := by
      rw [(trained_of_train (gp' := r.1) (t := r.2) htr).2.2.2.2.1]; exact hr
    have h1 := nd_gp_predict r.1 hr' r.2 Z
    rw [e1, e2] at hp
    change (r.1.toNd gp.regr).predict r.2.toNd (.ofSamples Z) = .ok p at hp
    rw [h1] at hp
    cases hm : GP.predictMean r.1 r.2 Z with
    | error e => rw [hm] at hp; cases hp
    | ok v => rw [hm] at hp; cases hp; exact ⟨v, rfl⟩

/-- C124 (HierarchicalKriging). If training succeeds there are as many low-fidelity responses as low-fidelity samples, and the high-fidelity responses are as many as the samples, in a
flat array or a column; every other number or arrangement raises an exception, whatever the optimisers do. -/
theorem C124_hk (hk : NdHK d) (f : Basis d q) (hr : RegrFor hk.lf.regr f) (w : MFWorld d) (Xh : Samples nh d) (Xl : Samples nl d) (Yh Yl : Nd)
    (h : ¬ Raises (hk.train w (array2 Xh) Yh (array2 Xl) Yl)) : count Yl = nl ∧ ∃ yh : Fin nh → ℝ, Yh = array1 yh ∨ Yh = column yh := by
  cases htr : hk.train w (array2 Xh) Yh (array2 Xl) Yl with
  | error e => exact absurd ⟨e, htr⟩ h
  | ok r =>
    unfold NdHK.train at htr
    obtain ⟨⟨lf, lfFit⟩, h1, htr⟩ := Py.bind_ok.mp htr
    obtain ⟨Xhs, h2, htr⟩ := Py.bind_ok.mp htr
    obtain ⟨yhs, h3, htr⟩ := Py.bind_ok.mp htr
    obtain ⟨p, h4, htr⟩ := Py.bind_ok.mp htr
    obtain ⟨F, h5, htr⟩ := Py.bind_ok.mp htr
    obtain ⟨n, h6, htr⟩ := Py.bind_ok.mp htr
    obtain ⟨th, h7, htr⟩ := Py.bind_ok.mp htr
    obtain ⟨K, h8, htr⟩ := Py.bind_ok.mp htr
    obtain ⟨g, h9, htr⟩ := Py.bind_ok.mp htr
    obtain ⟨s2, h10, htr⟩ := Py.bind_ok.mp htr
    have e1 : nh = n := Except.ok.inj h6
    subst e1
    refine ⟨?_, ?_⟩
    · by_contra hc
      obtain ⟨e, he⟩ := C124_gp hk.lf w.lf Xl Yl hc
      rw [h1] at he; cases he
    rw [array2_eq, ndNormalizeInput_samples] at h2
    cases hX : normalizeInput hk.box Xh with
    | error e => rw [hX] at h2; cases h2
    | ok Xs' =>
      rw [hX, map_ok] at h2
      cases h2
      obtain ⟨v, rfl⟩ := gp_predicts_column hr h1 Xh h4
      obtain ⟨F, rfl⟩ := isMat_scale h5
      rw [ndCov_samples] at h8
      cases h8
      cases Yh with
      | scalar a => exact absurd h3 (normalizeOutput_scalar a _)
      | @vec k y =>
        rw [ndNormalizeOutput_vec] at h3
        cases hY : normalizeOutput y with
        | error e => rw [hY] at h3; cases h3
        | ok ys =>
          rw [hY, map_ok] at h3
          cases h3
          by_cases hk' : nh = k
          · subst hk'; exact ⟨y, .inl rfl⟩
          · exact absurd h9 (ndGls_vec_ne hk' _ _ _ _)
      | @mat a b M =>
        obtain ⟨-, ys, rfl⟩ := isMat_normalizeOutput h3
        obtain ⟨e1, hs⟩ := isMat_gls h9
        obtain ⟨-, e2⟩ := isMat_item hs h10
        subst e1 e2
        refine ⟨fun i => M i 0, .inr ?_⟩
        rw [column, array2]
        congr 1
        funext i j
        rw [Fin.fin_one_eq_zero j]; rfl

/-- C124 (ScaledKriging with fixed scale factor). A wrong number of low-fidelity responses raises an exception, and so does a wrong number of high-fidelity responses, unless there is
exactly one of them. -/
theorem C124_sk_partial (sk : NdSK d) (f : Basis d q) (hr : RegrFor sk.lf.regr f) (w : MFWorld d) (Xh : Samples nh d) (Xl : Samples nl d) (Yh Yl : Nd)
    (h : ¬ Raises (sk.train w (array2 Xh) Yh (array2 Xl) Yl)) : count Yl = nl ∧ (count Yh = nh ∨ count Yh = 1) := by
  cases htr : sk.train w (array2 Xh) Yh (array2 Xl) Yl with
  | error e => exact absurd ⟨e, htr⟩ h
  | ok r =>
    unfold NdSK.train at htr
    obtain ⟨⟨lf, lfFit⟩, h1, htr⟩ := Py.bind_ok.mp htr
    obtain ⟨p, h2, htr⟩ := Py.bind_ok.mp htr
    obtain ⟨dsc, h3, htr⟩ := Py.bind_ok.mp htr
    obtain ⟨⟨disc, discFit⟩, h4, htr⟩ := Py.bind_ok.mp htr
    refine ⟨?_, ?_⟩
    · by_contra hc
      obtain ⟨e, he⟩ := C124_gp sk.lf w.lf Xl Yl hc
      rw [h1] at he; cases he
    · obtain ⟨v, rfl⟩ := gp_predicts_column hr h1 Xh h2
      obtain ⟨y, hy⟩ := reshapeCol_shape Yh
      rw [hy, map_col] at h3
      by_contra hc
      push Not at hc
      obtain ⟨R, C, hR, hC, D, rfl⟩ := isMat_zip h3
      rw [bdim_self] at hC
      cases hC
      unfold bdim at hR
      rw [if_neg hc.1, if_neg hc.2] at hR
      split at hR
      · rename_i h0
        cases hR
        obtain ⟨e, he⟩ := C124_gp sk.disc w.hf Xh (.mat D) (by show _ * 1 ≠ nh; rw [Nat.mul_one]; exact hc.1)
        rw [h4] at he; cases he
      · cases hR

/-- C124 is false for `ScaledKriging`: one high-fidelity response with any number of high-fidelity samples is silently used for all of them. -/
theorem C124_sk_one_response (sk : NdSK d) (f : Basis d q) (hr : RegrFor sk.lf.regr f) (w : MFWorld d) (Xh : Samples nh d) (Xl : Samples nl d) (y : ℝ) (Yl : Nd) :
    sk.train w (array2 Xh) (array1 ![y]) (array2 Xl) Yl = sk.train w (array2 Xh) (column fun _ : Fin nh => y) (array2 Xl) Yl := by
  unfold NdSK.train
  cases h1 : sk.lf.train w.lf (array2 Xl) Yl with
  | error e => rfl
  | ok r =>
    simp only [pyBind_ok]
    cases h2 : r.1.predict r.2 (array2 Xh) with
    | error e => rfl
    | ok p =>
      obtain ⟨v, rfl⟩ := gp_predicts_column hr h1 Xh h2
      simp only [pyBind_ok]
      have e : (array1 ![y]).reshapeCol.sub ((Nd.col v).map (sk.rho * ·)) = ((column fun _ : Fin nh => y).reshapeCol).sub ((Nd.col v).map (sk.rho * ·)) := by
        rw [column_eq, reshapeCol_col, array1, reshapeCol_vec, map_col, sub_col_col, Nd.sub, Nd.col, Nd.col, zip_one_mat]
        rfl
      rw [e]

/-- Training that works although one response is given for three samples. -/
theorem C124_sk_counterexample : ∃ r, NdSK.train { lf := (exGP (some 0)).toNd ndOrdinary, disc := (exGP (some 0)).toNd ndOrdinary, rho := 1 } ⟨exWorld, exWorld⟩
    (array2 exX) (array1 ![7]) (array2 exX) (array1 exY) = .ok r := by
  rw [C124_sk_one_response _ (ordinary 1) (regrFor_ordinary 1)]
  have h := nd_sk_train (exSK false .error) (regrFor_ordinary 1) (regrFor_ordinary 1) exSKWorld rfl exX (fun _ => 7) exX exY (Yh := column fun _ => 7) (Yl := array1 exY)
    (reshapeCol_col _) rfl
  have htr : ∃ sk' t, (exSK false .error).train exSKWorld exX (fun _ => 7) exX exY = .ok (sk', t) := by
    refine (C107_sk_trains_iff (exSK false .error) exSKWorld (exGP_usual _) (exGP_usual _) rfl exX _ exX exY).mpr ⟨⟨0, 2, exY_ne⟩, fun lf' lfFit f h1 h2 => ?_⟩
    rw [C34_interpolation _ _ _ _ rfl _ _ h1] at h2
    rw [← Except.ok.inj h2]
    refine ⟨0, 2, ?_⟩
    simp only [exSK, SKObj.new, one_mul]
    intro he
    exact exY_ne (by linarith)
  obtain ⟨sk', t, htr⟩ := htr
  rw [htr, map_ok] at h
  exact ⟨_, h⟩

/-- C124, C123 (CoKriging). Training succeeds only if both response arrays are columns, `(nh, 1)` and `(nl, 1)`, with the numbers of samples; every other number or arrangement of
responses raises an exception, whatever the optimisers do. -/
theorem C124_ck (ck : NdCK d) (f : Basis d q) (hr : RegrFor ck.lf.regr f) (w : CKWorld d) (Xh : Samples nh d) (Xl : Samples nl d) (Yh Yl : Nd)
    (h : ¬ Raises (ck.train w (array2 Xh) Yh (array2 Xl) Yl)) : (∃ yh : Fin nh → ℝ, Yh = column yh) ∧ ∃ yl : Fin nl → ℝ, Yl = column yl := by
  cases htr : ck.train w (array2 Xh) Yh (array2 Xl) Yl with
  | error e => exact absurd ⟨e, htr⟩ h
  | ok r =>
    clear h
    unfold NdCK.train at htr
    obtain ⟨Xhs, h1, htr⟩ := Py.bind_ok.mp htr
    obtain ⟨Xls, h2, htr⟩ := Py.bind_ok.mp htr
    obtain ⟨yhs, h3, htr⟩ := Py.bind_ok.mp htr
    obtain ⟨yls, h4, htr⟩ := Py.bind_ok.mp htr
    obtain ⟨⟨lf, lfFit⟩, h5, htr⟩ := Py.bind_ok.mp htr
    obtain ⟨p, h6, htr⟩ := Py.bind_ok.mp htr
    obtain ⟨n, h7, htr⟩ := Py.bind_ok.mp htr
    obtain ⟨⟨rho, theta, noise'⟩, h8, htr⟩ := Py.bind_ok.mp htr
    obtain ⟨K, h9, htr⟩ := Py.bind_ok.mp htr
    obtain ⟨g, h10, htr⟩ := Py.bind_ok.mp htr
    obtain ⟨s2, h11, htr⟩ := Py.bind_ok.mp htr
    obtain ⟨C, h12, htr⟩ := Py.bind_ok.mp htr
    obtain ⟨lym, h13, htr⟩ := Py.bind_ok.mp htr
    clear h8 htr h11 h12
    have e1 : nh = n := Except.ok.inj h7
    subst e1
    rw [array2_eq, ndNormalizeInput_samples] at h1 h2
    cases hX : normalizeInput ck.box Xh with
    | error e => rw [hX] at h1; cases h1
    | ok Xhs' =>
    cases hXl : normalizeInput ck.box Xl with
    | error e => rw [hXl] at h2; cases h2
    | ok Xls' =>
    rw [hX, map_ok] at h1
    cases h1
    rw [hXl, map_ok] at h2
    cases h2
    rw [ndCov_samples] at h9
    cases h9
    -- the number of low-fidelity responses
    have hcl : count yls = nl := by
      by_contra hc
      obtain ⟨e, he⟩ := raw_train_count (ck.lf.withNoise (ck.noise.map (· / Yh.stdAll))) w.lf Xls' yls hc
      rw [h5] at he; cases he
    -- the low-fidelity predictions are a column
    have hp : ∃ v : Fin nh → ℝ, p = .col v := by
      obtain ⟨y, hy⟩ := reshapeCol_shape yls
      subst hcl
      have hr2 : (ck.lf.withNoise (ck.noise.map (· / Yh.stdAll))).regr = ck.lf.regr := by
        cases ck.noise <;> rfl
      generalize ck.lf.withNoise (ck.noise.map (· / Yh.stdAll)) = gp at h5 hr2
      have hr3 : RegrFor gp.regr f := hr2 ▸ hr
      have h' : gp.train w.lf (.ofSamples Xls') yls = _ := nd_raw_train ⟨gp.kernel, f, gp.optimizer, gp.noise⟩ hr3 w.lf Xls' y hy
      rw [h5] at h'
      cases htr : RawGP.train ⟨gp.kernel, f, gp.optimizer, gp.noise⟩ w.lf Xls' y with
      | error e => rw [htr] at h'; cases h'
      | ok r =>
        rw [htr, map_ok] at h'
        obtain ⟨e1, e2⟩ := Prod.mk.inj (Except.ok.inj h')
        have hr' : RegrFor gp.regr r.1.regr := by
          rw [(rawTrained_of_train (gp' := r.1) (t := r.2) htr).2.2.2.1]; exact hr3
        have h1 := nd_raw_predict r.1 hr' r.2 Xhs'
        rw [e1, e2] at h6
        exact ⟨_, Except.ok.inj (h6.symm.trans h1)⟩
    obtain ⟨v, rfl⟩ := hp
    have hyh : (∃ yh : Fin nh → ℝ, Yh = column yh) ∧ ∃ r c, yhs.IsMat r c ∧ c = 1 := by
      cases Yh with
      | scalar a => exact absurd h3 (normalizeOutput_scalar a _)
      | @vec k y =>
        exfalso
        rw [ndNormalizeOutput_vec] at h3
        cases hY : normalizeOutput y with
        | error e => rw [hY] at h3; cases h3
        | ok ys =>
          rw [hY, map_ok] at h3
          cases h3
          obtain ⟨-, e2⟩ := isMat_diff (by rw [map_col, Nd.sub, Nd.col, zip_vec_col]) h10
          subst e2
          exact normalizeOutput_std hY ((std_eq_zero_iff y).mpr fun i j => by rw [Subsingleton.elim i j])
      | @mat a b M =>
        obtain ⟨hs, ys, rfl⟩ := isMat_normalizeOutput h3
        obtain ⟨D, hD, -⟩ := Py.bind_ok.mp (Py.bind_ok.mp h10).choose_spec.2
        obtain ⟨R, C, hR, hC, D, rfl⟩ := isMat_zip hD
        obtain ⟨e1, e2⟩ := isMat_diff hD h10
        rw [bdim_one_right] at hC
        cases hC
        subst e1 e2
        have hab : a = R := by
          unfold bdim at hR
          split at hR
          · assumption
          · split at hR
            · rename_i h1
              subst h1
              exact absurd (stdAll_one M) hs
            · split at hR
              · exact Option.some.inj hR
              · cases hR
        subst hab
        refine ⟨⟨fun i => M i 0, ?_⟩, _, _, ⟨ys, rfl⟩, rfl⟩
        rw [column, array2]
        congr 1
        funext i j
        rw [Fin.fin_one_eq_zero j]; rfl
    obtain ⟨hyh, r', c', ⟨ys, rfl⟩, rfl⟩ := hyh
    refine ⟨hyh, ?_⟩
    unfold ndCkMu at h13
    obtain ⟨y, hy, -⟩ := Py.bind_ok.mp h13
    cases Yl with
    | scalar a =>
      unfold ndScale at h4
      rw [Nd.sub, zip_scalar_scalar, pyBind_ok, div_scalar_eq, zip_scalar_scalar] at h4
      simp only [Except.bind] at h4
      split at h4
      · cases h4
      · cases h4; simp [Nd.concat0] at hy
    | vec yl =>
      unfold ndScale at h4
      rw [Nd.sub, zip_vec_scalar, pyBind_ok, div_scalar_eq, zip_vec_scalar] at h4
      simp only [Except.bind] at h4
      split at h4
      · cases h4
      · cases h4; simp [Nd.concat0] at hy
    | @mat a b M =>
      obtain ⟨yl, rfl⟩ := isMat_scale h4
      have hb : b = 1 := by
        simp only [Nd.concat0] at hy
        split at hy
        · assumption
        · cases hy
      subst hb
      have ha : a = nl := by simpa [count] using hcl
      subst ha
      refine ⟨fun i => M i 0, ?_⟩
      rw [column, array2]
      congr 1
      funext i j
      rw [Fin.fin_one_eq_zero j]; rfl

theorem column_inj_shape {n : ℕ} {k : ℕ} {x : Fin k → ℝ} {y : Fin n → ℝ} (h : array1 x = column y) : False := by
  cases h

/-- C123 is false for `CoKriging`: flat responses raise an exception for either fidelity, whatever the data and the optimisers, although the same call with columns works. -/
theorem C123_ck_counterexample :
    (∀ (d q nh nl : ℕ) (ck : NdCK d) (f : Basis d q), RegrFor ck.lf.regr f → ∀ (w : CKWorld d) (Xh : Samples nh d) (Xl : Samples nl d) (yh : Fin nh → ℝ) (yl : Fin nl → ℝ) (Y : Nd),
      Raises (ck.train w (array2 Xh) (array1 yh) (array2 Xl) Y) ∧ Raises (ck.train w (array2 Xh) Y (array2 Xl) (array1 yl))) ∧
    ∃ r, ((exCK none).toNd ndOrdinary).train exCKWorld (array2 exX) (column exY) (array2 exX) (column exY) = .ok r := by
  refine ⟨fun d q nh nl ck f hr w Xh Xl yh yl Y => ⟨?_, ?_⟩, ?_⟩
  · by_contra h
    obtain ⟨⟨_, hy⟩, _⟩ := C124_ck ck f hr w Xh Xl _ _ h
    exact column_inj_shape hy
  · by_contra h
    obtain ⟨_, _, hy⟩ := C124_ck ck f hr w Xh Xl _ _ h
    exact column_inj_shape hy
  · obtain ⟨ck', t, h⟩ := exCK_trains none (by simp) exX exY exX exY 0 2 exY_ne (by norm_num)
    have h' := nd_ck_train (exCK none) (regrFor_ordinary 1) exCKWorld exX exY exX exY
    rw [h, map_ok] at h'
    exact ⟨_, h'⟩

/-- C123 (CoKriging, what holds). With column responses it is the model of the other properties that is trained, and its predictions are columns. -/
theorem C123_ck_partial (ck : NdCK d) (f : Basis d q) (hr : RegrFor ck.lf.regr f) (w : CKWorld d) (Xh : Samples nh d) (Xl : Samples nl d) (yh : Fin nh → ℝ) (yl : Fin nl → ℝ) :
    SameOutcome (fun a b => ∀ (m : ℕ) (Z : Samples m d), SameOutcome (fun p v => p = column v) (a.1.predict a.2 (array2 Z)) (b.1.predict b.2 Z))
      (ck.train w (array2 Xh) (column yh) (array2 Xl) (column yl)) ((ofNdCK ck f).train w Xh yh Xl yl) := by
  have h : ck.train w (array2 Xh) (column yh) (array2 Xl) (column yl) = _ := nd_ck_train (ofNdCK ck f) hr w Xh yh Xl yl
  rw [h]
  cases htr : (ofNdCK ck f).train w Xh yh Xl yl with
  | error e => exact rfl
  | ok r =>
    intro m Z
    have h1 := nd_ck_predict (regr := ck.lf.regr) r.1 r.2 Z
    change SameOutcome _ ((r.1.toNd ck.lf.regr).predict r.2.toNd (.ofSamples Z)) _
    rw [h1]
    cases r.1.predict r.2 Z <;> rfl

/-- C123 (HierarchicalKriging). With column responses (and so, by `C123_hk`, with flat ones) it is the model of the other properties that is trained. -/
theorem C123_hk_reference (hk : NdHK d) (f : Basis d q) (hr : RegrFor hk.lf.regr f) (w : MFWorld d) (Xh : Samples nh d) (Xl : Samples nl d) (yh : Fin nh → ℝ) (yl : Fin nl → ℝ) :
    SameOutcome (fun a b => ∀ (m : ℕ) (Z : Samples m d),
        SameOutcome (fun p v => p = column v) (a.1.predict a.2 (array2 Z)) (b.1.predict b.2 Z) ∧
        SameOutcome (fun p v => p.1 = column v.1 ∧ p.2 = column v.2) (a.1.predictStd a.2 (array2 Z)) (b.1.predictStd b.2 Z))
      (hk.train w (array2 Xh) (column yh) (array2 Xl) (column yl)) ((ofNdHK hk f).train w Xh yh Xl yl) := by
  have h : hk.train w (array2 Xh) (column yh) (array2 Xl) (column yl) = _ := nd_hk_train_col (ofNdHK hk f) hr w Xh yh Xl yl (reshapeCol_col yl)
  rw [h]
  cases htr : (ofNdHK hk f).train w Xh yh Xl yl with
  | error e => exact rfl
  | ok r =>
    intro m Z
    obtain ⟨hT, _, _, _, h1, _, _, hs, _⟩ := hkTrained_of_train (hk' := r.1) (t := r.2) htr
    have hr' : RegrFor hk.lf.regr r.1.lf.regr := by
      rw [(trained_of_train h1).2.2.2.2.1]; exact hr
    have h1 := nd_hk_predict_col r.1 hr' r.2 hT.stdpos.ne' Z
    have h2 := nd_hk_predictStd_col r.1 hr' r.2 hT.stdpos.ne' Z
    constructor
    · change SameOutcome _ ((r.1.toNd hk.lf.regr).predict r.2.toNd (.ofSamples Z)) _
      rw [h1]
      cases r.1.predict r.2 Z <;> rfl
    · change SameOutcome _ ((r.1.toNd hk.lf.regr).predictStd r.2.toNd (.ofSamples Z)) _
      rw [h2]
      cases r.1.predictStd r.2 Z with
      | error e => rfl
      | ok v => exact ⟨rfl, rfl⟩

/-- C123 (ScaledKriging, fixed scale factor). It is the model of the other properties that is trained. -/
theorem C123_sk_reference (sk : SKObj d ql qd) (regrL regrD : Nd → Py Nd) (hl : RegrFor regrL sk.lf.regr) (hd : RegrFor regrD sk.disc.regr) (w : SKWorld d) (hoff : sk.rhoOptimize = false)
    (Xh : Samples nh d) (Xl : Samples nl d) (yh : Fin nh → ℝ) (yl : Fin nl → ℝ) :
    SameOutcome (fun a b => ∀ (m : ℕ) (Z : Samples m d), SameOutcome (fun p v => p = column v) (a.1.predict a.2 (array2 Z)) (b.1.predict b.2 Z))
      (NdSK.train { lf := sk.lf.toNd regrL, disc := sk.disc.toNd regrD, rho := sk.rho } ⟨w.lf, w.disc⟩ (array2 Xh) (column yh) (array2 Xl) (column yl)) (sk.train w Xh yh Xl yl) := by
  have h : NdSK.train { lf := sk.lf.toNd regrL, disc := sk.disc.toNd regrD, rho := sk.rho } ⟨w.lf, w.disc⟩ (array2 Xh) (column yh) (array2 Xl) (column yl) = _ :=
    nd_sk_train sk hl hd w hoff Xh yh Xl yl (reshapeCol_col yh) (reshapeCol_col yl)
  rw [h]
  cases htr : sk.train w Xh yh Xl yl with
  | error e => exact rfl
  | ok r =>
    intro m Z
    obtain ⟨f, disc, h1, h2, h3, h4, _⟩ := skTrain_ok (show sk.train w Xh yh Xl yl = .ok (r.1, r.2) from htr)
    rw [hoff] at h3
    obtain ⟨_, e2⟩ := Prod.mk.inj (Except.ok.inj h3)
    have hl' : RegrFor regrL r.1.lf.regr := by
      rw [(trained_of_train h1).2.2.2.2.1]; exact hl
    have hd' : RegrFor regrD r.1.disc.regr := by
      rw [(trained_of_train h4).2.2.2.2.1, ← e2]; exact hd
    have h1 := nd_sk_predict r.1 hl' hd' r.2 Z
    change SameOutcome _ ((r.1.toNd regrL regrD).predict r.2.toNd (.ofSamples Z)) _
    rw [h1]
    cases r.1.predict r.2 Z <;> rfl

/-! ## The hypotheses are met -/

/-- A GP trained on flat responses. -/
example : ∃ r, ((exGP none).toNd ndOrdinary).train exWorld (array2 exX) (array1 exY) = .ok r := by
  obtain ⟨gp', t, h⟩ := exGP_trains none exX exY 0 2 exY_ne
  have h' := nd_gp_train (exGP none) (regrFor_ordinary 1) exWorld exX exY (Y := array1 exY) rfl
  rw [h, map_ok] at h'
  exact ⟨_, h'⟩

/-- Hierarchical Kriging trained on flat responses; `C124_hk` applies to this call. -/
example : ∃ r, ((exHK (some 0)).toNd ndOrdinary).train ⟨exWorld, exWorld⟩ (array2 (fun i _ => ![0, 1, 2] i : Samples 3 1)) (array1 (n := 3) ![0, 1, 5]) (array2 (fun i _ => ![0, 1, 2] i : Samples 3 1))
    (array1 (n := 3) ![0, 1, 2]) = .ok r := by
  obtain ⟨hk', t, h⟩ := exHK_trains
  have h' := nd_hk_train_vec (exHK (some 0)) (regrFor_ordinary 1) ⟨exWorld, exWorld⟩ (fun i _ => ![0, 1, 2] i : Samples 3 1) ![0, 1, 5]
    (fun i _ => ![0, 1, 2] i : Samples 3 1) ![0, 1, 2] (Yl := array1 (n := 3) ![0, 1, 2]) rfl
  rw [h, map_ok] at h'
  exact ⟨_, h'⟩

/-- Two responses for three samples: `C124_gp` applies. -/
example : Raises (((exGP none).toNd ndOrdinary).train exWorld (array2 exX) (array1 ![1, 2])) := C124_gp _ _ _ _ (by simp [count, array1])

end Mfpml.Props
