import Verif.Props.ArrayShapes
import Verif.Model.ScaledKrigingNd

/-!
# C123 and C124 for `ScaledKriging` with the search for the scale factor
-/

open scoped BigOperators Matrix

namespace Mfpml.Props

open Mfpml Mfpml.GP Mfpml.GP.Nd Mfpml.EA Mfpml.Spec

variable {n nh nl d q ql qd m : ℕ}

/-! ## Array operations of this class -/

/-- A number, or an array of shape `(1,)` with this number. -/
def IsNumber (a : Nd) (r : ℝ) : Prop := a = .scalar r ∨ a = .vec fun _ : Fin 1 => r

theorem number_mul_col {a : Nd} {r : ℝ} (h : IsNumber a r) (v : Fin n → ℝ) : a.mul (.col v) = .ok (.col fun i => r * v i) := by
  rcases h with rfl | rfl
  · rw [Nd.mul, Nd.col, zip_scalar_mat]; rfl
  · rw [Nd.mul, Nd.col, zip_vec_col]; rfl

theorem col_mul_number {a : Nd} {r : ℝ} (h : IsNumber a r) (v : Fin n → ℝ) : (Nd.col v).mul a = .ok (.col fun i => v i * r) := by
  rcases h with rfl | rfl
  · rw [Nd.mul, Nd.col, zip_mat_scalar]; rfl
  · rw [Nd.mul, Nd.col, zip_col_vec]; rfl

theorem number_sq {a : Nd} {r : ℝ} (h : IsNumber a r) : IsNumber (a.map (· ^ 2)) (r ^ 2) := by
  rcases h with rfl | rfl
  · exact .inl rfl
  · exact .inr rfl

theorem vec_isNumber (x : Fin 1 → ℝ) : IsNumber (.vec x) (x 0) := .inr (by congr; funext i; rw [Fin.fin_one_eq_zero i])

theorem ravel_col (v : Fin n → ℝ) : (Nd.col v).ravel = .vec v := by
  refine vec_ext (Nat.mul_one n) fun i => ?_
  have h1 : i.divNat = Fin.cast (Nat.mul_one n) i := by
    apply Fin.ext
    simp
  show v i.divNat = _
  rw [h1]

theorem tileCol_col (r : Fin m → ℝ) : (Nd.col r).tileCol n = .mat (Matrix.of fun (k : Fin m) (_ : Fin n) => r k) := by
  unfold Nd.tileCol
  rw [reshapeCol_col]
  show Nd.mat (Matrix.of fun (k : Fin m) (_ : Fin n) => (Nd.col r).get k 0) = _
  congr 1
  funext k i
  have hk := k.pos
  simp only [Nd.get, Nd.col, Matrix.of_apply]
  by_cases hm : m = 1
  · subst hm
    rw [Fin.fin_one_eq_zero k]
    simp
  · simp [hm]

theorem tileCol_vecs (r : Fin m → ℝ) : (Nd.vec r).tileCol n = .mat (Matrix.of fun (k : Fin m) (_ : Fin n) => r k) := by
  rw [← tileCol_col]
  unfold Nd.tileCol
  rw [reshapeCol_vec, reshapeCol_col]

theorem tileCol_vec (r : Fin 1 → ℝ) : (Nd.vec r).tileCol n = .mat (Matrix.of fun (_ : Fin 1) (_ : Fin n) => r 0) := by
  unfold Nd.tileCol
  rw [reshapeCol_vec]
  show Nd.mat (Matrix.of fun (k : Fin 1) (_ : Fin n) => (Nd.col r).get k 0) = _
  simp [Nd.get, Nd.col]

/-- C45 (array shapes). The error criterion of scaled Kriging, called with any number of candidates as an array of shape `(m,)` or `(m, 1)`, returns an array of shape `(m,)` with the sum of the squared differences of each candidate. -/
theorem C45_sk_error_shapes (p yh : Fin n → ℝ) (r : Fin m → ℝ) :
    ndEvalError n (.col p) (.col yh) (.vec r) = .ok (.vec fun k => ∑ i, (r k * p i - yh i) ^ 2) ∧ ndEvalError n (.col p) (.col yh) (.col r) = .ok (.vec fun k => ∑ i, (r k * p i - yh i) ^ 2) := by
  unfold ndEvalError
  rw [tileCol_vecs, tileCol_col, ravel_col, ravel_col, Nd.mul, zip_mat_vec, pyBind_ok, Nd.sub, zip_mat_vec, pyBind_ok]
  exact ⟨rfl, rfl⟩

/-- Two candidates, two samples. -/
example : ndEvalError 2 (.col ![1, 2]) (.col ![2, 4]) (.vec ![2, 1]) = .ok (.vec ![0, 5]) := by
  rw [(C45_sk_error_shapes _ _ _).1]
  congr 2
  funext k
  fin_cases k <;> norm_num [Fin.sum_univ_two]

theorem evalError_col (p yh : Fin n → ℝ) (r : Fin 1 → ℝ) : ndEvalError n (.col p) (.col yh) (.vec r) = .ok (.vec (evalError p yh r)) := by
  unfold ndEvalError
  rw [tileCol_vec, ravel_col, ravel_col, Nd.mul, zip_mat_vec, pyBind_ok, Nd.sub, zip_mat_vec, pyBind_ok]
  show Except.ok _ = _
  congr 2
  funext k
  rw [Fin.fin_one_eq_zero k]
  rfl

theorem item_vec (v : Fin 1 → ℝ) : (Nd.vec v).item = .ok (v 0) := by simp [Nd.item, Nd.size, Nd.rows, Nd.cols, get_vec_one]

theorem getDisc_col {a : Nd} {r : ℝ} (h : IsNumber a r) (p yh : Fin n → ℝ) : ndGetDisc a (.col p) (.col yh) = .ok (.col (getDisc r p yh)) := by
  unfold ndGetDisc
  rw [number_mul_col h, pyBind_ok, sub_col_col]
  rfl

/-! ## The same object with and without shapes -/

/-- The same object for the model with shapes; `a` is the array with the scale factor. -/
def toNdR (sk : SKObj d ql qd) (a : Nd) (regrL regrD : Nd → Py Nd) : NdSKR d :=
  { lf := sk.lf.toNd regrL, disc := sk.disc.toNd regrD, rho := a, rhoOptimize := sk.rhoOptimize, rhoMethod := sk.rhoMethod, rhoLow := sk.rhoLow, rhoHigh := sk.rhoHigh,
    rhoOptimizer := sk.rhoOptimizer }

theorem gp_train_regr {gp gp' : GPObj d q} {w : World d} {X : Samples n d} {y : Fin n → ℝ} {t : GPFit n d q} (h : gp.train w X y = .ok (gp', t)) : gp'.regr = gp.regr :=
  (trained_of_train h).2.2.2.2.1

theorem evalBumpiness_nd {regr : Nd → Py Nd} (disc : GPObj d q) (hr : RegrFor regr disc.regr) (w : World d) (Xh : Samples n d) (p yh : Fin n → ℝ) (r : ℝ) :
    ndEvalBumpiness (disc.toNd regr) w n (.ofSamples Xh) (.col p) (.col yh) r = (evalBumpiness disc w Xh yh p r).map fun x => (x.1.toNd regr, x.2) := by
  unfold ndEvalBumpiness evalBumpiness
  have hn : IsNumber (.vec ![r]) r := vec_isNumber ![r]
  rw [evalError_col, pyBind_ok, getDisc_col hn, pyBind_ok, nd_gp_train disc hr w Xh (getDisc r p yh) (reshapeCol_col _)]
  cases disc.train w Xh (getDisc r p yh) with
  | error e => rfl
  | ok x =>
    simp only [map_ok, pyBind_ok]
    rw [show ∀ (v : Fin 1 → ℝ) f, (Nd.vec v).map f = .vec fun i => f (v i) from fun _ _ => rfl, item_vec]
    rfl

theorem bumpRun_nd {regr : Nd → Py Nd} (Xh : Samples n d) (p yh : Fin n → ℝ) : ∀ (l : List (ℝ × World d)) (disc : GPObj d q), RegrFor regr disc.regr →
    ndBumpRun n (.ofSamples Xh) (.col p) (.col yh) l (disc.toNd regr) = (bumpRun Xh yh p l disc).map fun x => x.toNd regr
  | [], _, _ => rfl
  | (r, w) :: l, disc, hr => by
    unfold ndBumpRun bumpRun
    rw [evalBumpiness_nd disc hr]
    cases he : evalBumpiness disc w Xh yh p r with
    | error e => rfl
    | ok x =>
      simp only [map_ok, pyBind_ok]
      refine bumpRun_nd Xh p yh l x.1 ?_
      unfold evalBumpiness at he
      obtain ⟨⟨g, t⟩, h1, h2⟩ := Py.bind_ok.mp he
      cases h2
      rw [show (g, _).1.regr = _ from gp_train_regr h1]
      exact hr

theorem bumpRun_regr_eq {Xh : Samples n d} {p yh : Fin n → ℝ} : ∀ {l : List (ℝ × World d)} {disc disc' : GPObj d q}, bumpRun Xh yh p l disc = .ok disc' → disc'.regr = disc.regr
  | [], _, _, h => by cases h; rfl
  | (r, w) :: l, disc, disc', h => by
    unfold bumpRun at h
    obtain ⟨x, he, h⟩ := Py.bind_ok.mp h
    unfold evalBumpiness at he
    obtain ⟨⟨g, t⟩, h1, h2⟩ := Py.bind_ok.mp he
    cases h2
    exact (bumpRun_regr_eq h).trans (gp_train_regr h1)

/-- The choice of the scale factor in the two models. -/
theorem chooseRho_nd {regrL regrD : Nd → Py Nd} (sk : SKObj d ql qd) (hd : RegrFor regrD sk.disc.regr) (w : SKWorld d) (Xh : Samples nh d) (p yh : Fin nh → ℝ) {a : Nd} (ha : IsNumber a sk.rho) :
    SameOutcome (fun x y => IsNumber x.1 y.1 ∧ x.2 = y.2.toNd regrD ∧ RegrFor regrD y.2.regr) ((toNdR sk a regrL regrD).chooseRho w nh (.ofSamples Xh) (.col p) (.col yh))
      (if sk.rhoOptimize then sk.optimizeRho w Xh yh p else .ok (sk.rho, sk.disc) : Py (ℝ × GPObj d qd)) := by
  have hobj : (fun r : Fin 1 → ℝ => ndEvalError nh (.col p) (.col yh) (.vec r) >>= Nd.item) = fun r => .ok (evalError p yh r 0) := by
    funext r
    rw [evalError_col, pyBind_ok, item_vec]
  unfold NdSKR.chooseRho
  show SameOutcome _ (if sk.rhoOptimize then _ else _) _
  cases sk.rhoOptimize with
  | false => exact ⟨ha, rfl, hd⟩
  | true =>
    simp only [if_true]
    unfold NdSKR.optimizeRho SKObj.optimizeRho
    show SameOutcome _ (match sk.rhoMethod with | .error => _ | .bumpiness => _ | .other => _) _
    cases sk.rhoMethod with
    | other => rfl
    | bumpiness =>
      simp only
      rw [show (toNdR sk a regrL regrD).disc = sk.disc.toNd regrD from rfl, bumpRun_nd Xh p yh w.bumpEvals sk.disc hd]
      cases hb : bumpRun Xh yh p w.bumpEvals sk.disc with
      | error e => rfl
      | ok g => exact ⟨vec_isNumber ![w.bumpX], rfl, by rw [bumpRun_regr_eq hb]; exact hd⟩
    | error =>
      simp only
      rw [show (toNdR sk a regrL regrD).rhoOptimizer = sk.rhoOptimizer from rfl]
      cases sk.rhoOptimizer with
      | none =>
        simp only
        rw [hobj]
        show SameOutcome _ (w.mini 1 _ _ (fun _ => sk.rhoLow) (fun _ => sk.rhoHigh) >>= _) _
        cases w.mini 1 (fun r => .ok (evalError p yh r 0)) (fun _ => w.x0) (fun _ => sk.rhoLow) (fun _ => sk.rhoHigh) with
        | error e => rfl
        | ok x => exact ⟨vec_isNumber _, rfl, hd⟩
      | some run =>
        simp only
        rw [hobj]
        show SameOutcome _ (run 1 _ (fun _ => sk.rhoLow) (fun _ => sk.rhoHigh) >>= _) _
        cases run 1 (fun r => .ok (evalError p yh r 0)) (fun _ => sk.rhoLow) (fun _ => sk.rhoHigh) with
        | error e => rfl
        | ok x => exact ⟨vec_isNumber _, rfl, hd⟩

theorem train_ndR {regrL regrD : Nd → Py Nd} (sk : SKObj d ql qd) (hl : RegrFor regrL sk.lf.regr) (hd : RegrFor regrD sk.disc.regr) (w : SKWorld d) {a : Nd} (ha : IsNumber a sk.rho)
    (Xh : Samples nh d) (yh : Fin nh → ℝ) (Xl : Samples nl d) (yl : Fin nl → ℝ) {Yh Yl : Nd} (hYh : Yh.reshapeCol = .col yh) (hYl : Yl.reshapeCol = .col yl) :
    SameOutcome (fun x y => (∃ a', IsNumber a' y.1.rho ∧ x.1 = toNdR y.1 a' regrL regrD) ∧ x.2 = y.2.toNd ∧ RegrFor regrL y.1.lf.regr ∧ RegrFor regrD y.1.disc.regr)
      ((toNdR sk a regrL regrD).train w (.ofSamples Xh) Yh (.ofSamples Xl) Yl) (sk.train w Xh yh Xl yl) := by
  unfold NdSKR.train SKObj.train
  rw [show (toNdR sk a regrL regrD).lf = sk.lf.toNd regrL from rfl, nd_gp_train sk.lf hl w.lf Xl yl hYl, hYh]
  cases htr : sk.lf.train w.lf Xl yl with
  | error e => rfl
  | ok r =>
    have hr' : RegrFor regrL r.1.regr := by
      rw [gp_train_regr (gp' := r.1) (t := r.2) htr]; exact hl
    simp only [map_ok, pyBind_ok, nd_gp_predict r.1 hr', shape0_samples]
    cases predictMean r.1 r.2 Xh with
    | error e => rfl
    | ok p =>
      simp only [map_ok, pyBind_ok]
      have hc := chooseRho_nd (regrL := regrL) sk hd w Xh p yh ha
      revert hc
      generalize (toNdR sk a regrL regrD).chooseRho w nh (.ofSamples Xh) (.col p) (.col yh) = c1
      generalize (if sk.rhoOptimize then sk.optimizeRho w Xh yh p else .ok (sk.rho, sk.disc) : Py (ℝ × GPObj d qd)) = c2
      intro hc
      cases c1 with
      | error e =>
        cases c2 with
        | error e' => exact hc
        | ok _ => exact hc.elim
      | ok x =>
        cases c2 with
        | error e' => exact hc.elim
        | ok y =>
          obtain ⟨h1, h2, h3⟩ := hc
          simp only [pyBind_ok, getDisc_col h1, h2, nd_gp_train y.2 h3 w.disc Xh (getDisc y.1 p yh) (reshapeCol_col _)]
          cases hdt : y.2.train w.disc Xh (getDisc y.1 p yh) with
          | error e => rfl
          | ok z =>
            refine ⟨⟨x.1, h1, rfl⟩, rfl, hr', ?_⟩
            show RegrFor regrD z.1.regr
            rw [gp_train_regr (gp' := z.1) (t := z.2) hdt]
            exact h3

/-! ## C123 -/

/-- C123 (ScaledKriging, any way of choosing the scale factor). Flat or column responses, for either fidelity, give the same model or the same exception. -/
theorem C123_sk_search (sk : NdSKR d) (w : SKWorld d) (Xh Xl : Nd) (yh : Fin nh → ℝ) (yl : Fin nl → ℝ) (Yh Yl : Nd) (hYh : Yh = array1 yh ∨ Yh = column yh)
    (hYl : Yl = array1 yl ∨ Yl = column yl) : sk.train w Xh Yh Xl Yl = sk.train w Xh (column yh) Xl (column yl) := by
  have e : Yh.reshapeCol = (column yh).reshapeCol := by
    rcases hYh with rfl | rfl
    · exact (reshapeCol_col yh).symm
    · rfl
  have e' : sk.lf.train w.lf Xl Yl = sk.lf.train w.lf Xl (column yl) := by
    rcases hYl with rfl | rfl
    · exact C123_gp _ _ _ _
    · rfl
  unfold NdSKR.train
  rw [e, e']

/-- C123 (ScaledKriging, any way of choosing the scale factor, a scale factor stored as a number or as an array of shape `(1,)`). It is the model of the other properties that is trained, with
the same scale factor, and its predictions and standard deviations are columns. -/
theorem C123_sk_search_reference (sk : SKObj d ql qd) (regrL regrD : Nd → Py Nd) (hl : RegrFor regrL sk.lf.regr) (hd : RegrFor regrD sk.disc.regr) (w : SKWorld d) (a : Nd) (ha : IsNumber a sk.rho)
    (Xh : Samples nh d) (Xl : Samples nl d) (yh : Fin nh → ℝ) (yl : Fin nl → ℝ) :
    SameOutcome (fun x y => IsNumber x.1.rho y.1.rho ∧ ∀ (m : ℕ) (Z : Samples m d),
        SameOutcome (fun p v => p = column v) (x.1.predict x.2 (array2 Z)) (y.1.predict y.2 Z) ∧
        SameOutcome (fun p v => p.1 = column v.1 ∧ p.2 = column v.2) (x.1.predictStd x.2 (array2 Z)) (y.1.predictStd y.2 Z))
      (NdSKR.train { lf := sk.lf.toNd regrL, disc := sk.disc.toNd regrD, rho := a, rhoOptimize := sk.rhoOptimize, rhoMethod := sk.rhoMethod, rhoLow := sk.rhoLow, rhoHigh := sk.rhoHigh, rhoOptimizer := sk.rhoOptimizer } w (array2 Xh) (column yh) (array2 Xl) (column yl)) (sk.train w Xh yh Xl yl) := by
  have h := train_ndR sk hl hd w ha Xh yh Xl yl (Yh := column yh) (Yl := column yl) (reshapeCol_col yh) (reshapeCol_col yl)
  revert h
  show SameOutcome _ ((toNdR sk a regrL regrD).train w (array2 Xh) (column yh) (array2 Xl) (column yl)) _ → _
  change _ → SameOutcome _ ((toNdR sk a regrL regrD).train w (array2 Xh) (column yh) (array2 Xl) (column yl)) _
  generalize (toNdR sk a regrL regrD).train w (array2 Xh) (column yh) (array2 Xl) (column yl) = c1
  generalize sk.train w Xh yh Xl yl = c2
  intro h
  cases c1 with
  | error e =>
    cases c2 with
    | error e' => exact h
    | ok _ => exact h.elim
  | ok x =>
    cases c2 with
    | error e' => exact h.elim
    | ok y =>
      obtain ⟨⟨a', ha', e1⟩, e2, hl', hd'⟩ := h
      obtain ⟨x1, x2⟩ := x
      simp only at e1 e2
      subst e1 e2
      refine ⟨ha', fun m Z => ⟨?_, ?_⟩⟩
      · show SameOutcome _ (NdSKR.predict (toNdR y.1 a' regrL regrD) y.2.toNd (.ofSamples Z)) _
        unfold NdSKR.predict SKObj.predict
        simp only [toNdR, SKFit.toNd, nd_gp_predict y.1.lf hl', nd_gp_predict y.1.disc hd']
        cases predictMean y.1.disc y.2.discFit Z with
        | error e => rfl
        | ok u =>
          simp only [map_ok, pyBind_ok]
          cases predictMean y.1.lf y.2.lfFit Z with
          | error e => rfl
          | ok v =>
            simp only [map_ok, pyBind_ok, col_mul_number ha', add_col_col]
            rfl
      · show SameOutcome _ (NdSKR.predictStd (toNdR y.1 a' regrL regrD) y.2.toNd (.ofSamples Z)) _
        unfold NdSKR.predictStd SKObj.predictStd
        simp only [toNdR, SKFit.toNd, nd_gp_predictStd y.1.lf hl', nd_gp_predictStd y.1.disc hd']
        cases GP.predictStd y.1.lf y.2.lfFit Z with
        | error e => rfl
        | ok u =>
          simp only [map_ok, pyBind_ok]
          cases GP.predictStd y.1.disc y.2.discFit Z with
          | error e => rfl
          | ok v =>
            simp only [map_ok, pyBind_ok, map_col, number_mul_col ha', number_mul_col (number_sq ha'), add_col_col]
            exact ⟨rfl, rfl⟩

/-! ## C124 -/

/-- C124 (ScaledKriging, any way of choosing the scale factor). A wrong number of low-fidelity responses raises an exception, and so does a wrong number of high-fidelity responses, unless there
is exactly one of them. -/
theorem C124_sk_search_partial (sk : NdSKR d) (f : Basis d q) (hr : RegrFor sk.lf.regr f) (r₀ : ℝ) (h0 : IsNumber sk.rho r₀) (w : SKWorld d) (Xh : Samples nh d) (Xl : Samples nl d) (Yh Yl : Nd)
    (h : ¬ Raises (sk.train w (array2 Xh) Yh (array2 Xl) Yl)) : count Yl = nl ∧ (count Yh = nh ∨ count Yh = 1) := by
  cases htr : sk.train w (array2 Xh) Yh (array2 Xl) Yl with
  | error e => exact absurd ⟨e, htr⟩ h
  | ok r =>
    unfold NdSKR.train at htr
    obtain ⟨⟨lf, lfFit⟩, h1, htr⟩ := Py.bind_ok.mp htr
    obtain ⟨p, h2, htr⟩ := Py.bind_ok.mp htr
    obtain ⟨n, hn, htr⟩ := Py.bind_ok.mp htr
    cases hn
    obtain ⟨⟨a, disc⟩, h3, htr⟩ := Py.bind_ok.mp htr
    obtain ⟨dsc, h5, htr⟩ := Py.bind_ok.mp htr
    obtain ⟨⟨disc', discFit⟩, h4, htr⟩ := Py.bind_ok.mp htr
    have ha : ∃ r, IsNumber a r := by
      unfold NdSKR.chooseRho at h3
      split at h3
      · unfold NdSKR.optimizeRho at h3
        split at h3
        · split at h3
          · obtain ⟨x, _, h3⟩ := Py.bind_ok.mp h3
            cases h3
            exact ⟨_, vec_isNumber _⟩
          · obtain ⟨x, _, h3⟩ := Py.bind_ok.mp h3
            cases h3
            exact ⟨_, vec_isNumber _⟩
        · obtain ⟨x, _, h3⟩ := Py.bind_ok.mp h3
          cases h3
          exact ⟨_, vec_isNumber _⟩
        · cases h3
      · cases h3
        exact ⟨_, h0⟩
    obtain ⟨ρ, ha⟩ := ha
    refine ⟨?_, ?_⟩
    · by_contra hc
      obtain ⟨e, he⟩ := C124_gp sk.lf w.lf Xl Yl hc
      rw [h1] at he; cases he
    · obtain ⟨v, rfl⟩ := gp_predicts_column hr h1 Xh h2
      obtain ⟨y, hy⟩ := reshapeCol_shape Yh
      unfold ndGetDisc at h5
      rw [number_mul_col ha, pyBind_ok, hy] at h5
      by_contra hc
      push Not at hc
      obtain ⟨R, C, hR, hC, D, rfl⟩ := isMat_zip h5
      rw [bdim_self] at hC
      cases hC
      unfold bdim at hR
      rw [if_neg hc.1, if_neg hc.2] at hR
      split at hR
      · rename_i h0
        cases hR
        obtain ⟨e, he⟩ := C124_gp disc w.disc Xh (.mat D) (by show _ * 1 ≠ nh; rw [Nat.mul_one]; exact hc.1)
        rw [h4] at he; cases he
      · cases hR

theorem zip_mat_vecOne {f : ℝ → ℝ → ℝ} {r c : ℕ} (A : Matrix (Fin r) (Fin c) ℝ) (v : Fin 1 → ℝ) : Nd.zip f (.mat A) (.vec v) = .ok (.mat (Matrix.of fun i j => f (A i j) (v 0))) := by
  simp [Nd.zip, Nd.rows, Nd.cols, Nd.ndim, bdim_one_right, get_mat, get_vec_one]

theorem evalError_one (p : Fin n → ℝ) (y : ℝ) (r : Fin 1 → ℝ) : ndEvalError n (.col p) (.col ![y]) (.vec r) = ndEvalError n (.col p) (.col fun _ : Fin n => y) (.vec r) := by
  unfold ndEvalError
  rw [tileCol_vec, ravel_col, ravel_col, ravel_col, Nd.mul, zip_mat_vec, pyBind_ok, pyBind_ok]
  unfold Nd.sub
  rw [zip_mat_vecOne, zip_mat_vec]
  rfl

theorem getDisc_one {a : Nd} {r : ℝ} (h : IsNumber a r) (p : Fin n → ℝ) (y : ℝ) : ndGetDisc a (.col p) (.col ![y]) = ndGetDisc a (.col p) (.col fun _ : Fin n => y) := by
  unfold ndGetDisc
  rw [number_mul_col h, pyBind_ok, pyBind_ok, sub_col_col, Nd.sub, Nd.col, Nd.col, zip_one_mat]
  rfl

theorem bumpRun_one (Xh : Nd) (p : Fin n → ℝ) (y : ℝ) : ∀ (l : List (ℝ × World d)) (disc : NdGP d),
    ndBumpRun n Xh (.col p) (.col ![y]) l disc = ndBumpRun n Xh (.col p) (.col fun _ : Fin n => y) l disc
  | [], _ => rfl
  | (r, w) :: l, disc => by
    unfold ndBumpRun ndEvalBumpiness
    rw [evalError_one, getDisc_one (vec_isNumber ![r])]
    simp only [bumpRun_one Xh p y l]

/-- C124 is false for `ScaledKriging` also if the scale factor is searched for: one high-fidelity response with any number of high-fidelity samples is silently used for all of them. -/
theorem C124_sk_search_one_response (sk : NdSKR d) (f : Basis d q) (hr : RegrFor sk.lf.regr f) (r₀ : ℝ) (h0 : IsNumber sk.rho r₀) (w : SKWorld d) (Xh : Samples nh d) (Xl : Samples nl d) (y : ℝ)
    (Yl : Nd) : sk.train w (array2 Xh) (array1 ![y]) (array2 Xl) Yl = sk.train w (array2 Xh) (column fun _ : Fin nh => y) (array2 Xl) Yl := by
  unfold NdSKR.train
  cases h1 : sk.lf.train w.lf (array2 Xl) Yl with
  | error e => rfl
  | ok r =>
    simp only [pyBind_ok]
    cases h2 : r.1.predict r.2 (array2 Xh) with
    | error e => rfl
    | ok p =>
      obtain ⟨v, rfl⟩ := gp_predicts_column hr h1 Xh h2
      simp only [pyBind_ok, array2_eq, shape0_samples]
      rw [column_eq, reshapeCol_col, array1, reshapeCol_vec]
      have hch : sk.chooseRho w nh (.ofSamples Xh) (.col v) (.col ![y]) = sk.chooseRho w nh (.ofSamples Xh) (.col v) (.col fun _ : Fin nh => y) := by
        unfold NdSKR.chooseRho NdSKR.optimizeRho
        simp only [evalError_one, bumpRun_one]
      rw [hch]
      cases hc : sk.chooseRho w nh (.ofSamples Xh) (.col v) (.col fun _ : Fin nh => y) with
      | error e => rfl
      | ok x =>
        have ha : ∃ r, IsNumber x.1 r := by
          unfold NdSKR.chooseRho at hc
          split at hc
          · unfold NdSKR.optimizeRho at hc
            split at hc
            · split at hc
              · obtain ⟨x, _, hc⟩ := Py.bind_ok.mp hc
                cases hc
                exact ⟨_, vec_isNumber _⟩
              · obtain ⟨x, _, hc⟩ := Py.bind_ok.mp hc
                cases hc
                exact ⟨_, vec_isNumber _⟩
            · obtain ⟨x, _, hc⟩ := Py.bind_ok.mp hc
              cases hc
              exact ⟨_, vec_isNumber _⟩
            · cases hc
          · cases hc
            exact ⟨_, h0⟩
        obtain ⟨ρ, ha⟩ := ha
        simp only [pyBind_ok, getDisc_one ha]

/-! ## The hypotheses are met -/

/-- Scaled Kriging trained on flat responses, with a search for the scale factor. -/
theorem exSK_search_trains : ∃ r, (toNdR (exSK true .error) (.scalar 1) ndOrdinary ndOrdinary).train exSKWorld (array2 (fun i _ => ![0, 1, 2] i : Samples 3 1)) (array1 (n := 3) ![0, 1, 5])
    (array2 (fun i _ => ![0, 1, 2] i : Samples 3 1)) (array1 (n := 3) ![0, 1, 2]) = .ok r := by
  obtain ⟨sk', t, h, _⟩ := exSK_trains
  have h' := train_ndR (exSK true .error) (regrFor_ordinary 1) (regrFor_ordinary 1) exSKWorld (a := .scalar 1) (.inl rfl) (fun i _ => ![0, 1, 2] i : Samples 3 1) ![0, 1, 5]
    (fun i _ => ![0, 1, 2] i : Samples 3 1) ![0, 1, 2] (Yh := array1 (n := 3) ![0, 1, 5]) (Yl := array1 (n := 3) ![0, 1, 2]) rfl rfl
  rw [h] at h'
  revert h'
  show SameOutcome _ ((toNdR (exSK true .error) (.scalar 1) ndOrdinary ndOrdinary).train exSKWorld (array2 (fun i _ => ![0, 1, 2] i : Samples 3 1)) (array1 (n := 3) ![0, 1, 5])
    (array2 (fun i _ => ![0, 1, 2] i : Samples 3 1)) (array1 (n := 3) ![0, 1, 2])) _ → _
  generalize (toNdR (exSK true .error) (.scalar 1) ndOrdinary ndOrdinary).train exSKWorld (array2 (fun i _ => ![0, 1, 2] i : Samples 3 1)) (array1 (n := 3) ![0, 1, 5])
    (array2 (fun i _ => ![0, 1, 2] i : Samples 3 1)) (array1 (n := 3) ![0, 1, 2]) = c
  intro h'
  cases c with
  | error e => exact h'.elim
  | ok r => exact ⟨r, rfl⟩

/-- `C124_sk_search_partial` applies to this call. -/
example : ¬ Raises ((toNdR (exSK true .error) (.scalar 1) ndOrdinary ndOrdinary).train exSKWorld (array2 (fun i _ => ![0, 1, 2] i : Samples 3 1)) (array1 (n := 3) ![0, 1, 5])
    (array2 (fun i _ => ![0, 1, 2] i : Samples 3 1)) (array1 (n := 3) ![0, 1, 2])) := by
  obtain ⟨r, h⟩ := exSK_search_trains
  rintro ⟨e, he⟩
  rw [h] at he
  cases he

end Mfpml.Props
