import Mathlib.Algebra.BigOperators.Fin
import Verif.Lemmas.Py
import Verif.Spec.FiniteAgrees
import Verif.Props.CoKriging
import Verif.Props.MFKriging

/-!
# On finite numbers the program of C155 and C164 is the program of the other surrogate properties
-/

open scoped Matrix BigOperators

set_option linter.unusedSectionVars false

namespace Mfpml.Props

open Mfpml.NonFinite Mfpml.GP Mfpml.Spec

variable {A : Arith} (hA : ExactArith A)

include hA

theorem exact_add (a b : ℝ) : A.add (.num a) (.num b) = .num (a + b) := hA _
theorem exact_sub (a b : ℝ) : A.sub (.num a) (.num b) = .num (a - b) := by rw [sub_eq_add_neg]; exact hA _
theorem exact_mul (a b : ℝ) : A.mul (.num a) (.num b) = .num (a * b) := hA _
theorem exact_div (a : ℝ) {b : ℝ} (h : b ≠ 0) : A.div (.num a) (.num b) = .num (a / b) := by simp only [Arith.div, if_neg h]; exact hA _
theorem exact_sqrt {a : ℝ} (h : 0 ≤ a) : A.sqrt (.num a) = .num (Real.sqrt a) := by simp only [Arith.sqrt, if_neg (not_lt.mpr h)]; exact hA _
theorem exact_log {a : ℝ} (h : 0 < a) : A.log (.num a) = .num (Real.log a) := by simp only [Arith.log, if_neg (not_lt.mpr h.le), if_neg h.ne']; exact hA _

theorem exact_foldl (l : List ℝ) (a : ℝ) : (l.map XF.num).foldl A.add (.num a) = .num (a + l.sum) := by
  induction l generalizing a with
  | nil => simp
  | cons x l ih => rw [List.map_cons, List.foldl_cons, exact_add hA, ih, List.sum_cons, add_assoc]

theorem exact_sum (l : List ℝ) : A.sum (l.map XF.num) = .num l.sum := by rw [Arith.sum, exact_foldl hA, zero_add]

theorem exact_sum_ofFn {n : ℕ} (f : Fin n → ℝ) : A.sum (List.ofFn fun i => XF.num (f i)) = .num (∑ i, f i) := by
  rw [← List.sum_ofFn, ← exact_sum hA, List.map_ofFn]; rfl

theorem exact_dot {m n k : ℕ} (M : Matrix (Fin m) (Fin n) ℝ) (N : Matrix (Fin n) (Fin k) ℝ) : dot A (up M) (up N) = up (M * N) := by
  funext i j
  simp only [dot, up, exact_mul hA, exact_sum_ofFn hA, Matrix.mul_apply]

theorem exact_dot_col {m n : ℕ} (M : Matrix (Fin m) (Fin n) ℝ) (v : Fin n → ℝ) : dot A (up M) (upCol v) = upCol (M *ᵥ v) := by
  funext i j
  simp only [dot, up, upCol, exact_mul hA, exact_sum_ofFn hA, Matrix.mulVec, dotProduct]

theorem exact_dot_cols {n : ℕ} (u v : Fin n → ℝ) : dot A (tr (upCol u)) (upCol v) 0 0 = .num (u ⬝ᵥ v) := by
  simp only [dot, upCol, tr, exact_mul hA, exact_sum_ofFn hA, dotProduct]

theorem exact_subCol {n : ℕ} (u v : Fin n → ℝ) : matSub A (upCol u) (upCol v) = upCol (u - v) := by
  funext i j
  simp only [matSub, upCol, exact_sub hA, Pi.sub_apply]

theorem exact_matSub {m n : ℕ} (M N : Matrix (Fin m) (Fin n) ℝ) : matSub A (up M) (up N) = up (M - N) := by
  funext i j
  simp only [matSub, up, exact_sub hA, Matrix.sub_apply]

theorem exact_mean {n : ℕ} (hn : 0 < n) (y : Fin n → ℝ) : A.mean (List.ofFn fun i => .num (y i)) = .num (GP.mean y) := by
  rw [Arith.mean, exact_sum_ofFn hA, List.length_ofFn, exact_div hA _ (by positivity)]
  rfl

theorem exact_std {n : ℕ} (hn : 0 < n) (y : Fin n → ℝ) : A.std (List.ofFn fun i => .num (y i)) = .num (GP.std y) := by
  have h : ((List.ofFn fun i => XF.num (y i)).map fun z => A.mul (A.sub z (.num (GP.mean y))) (A.sub z (.num (GP.mean y)))) = List.ofFn fun i => .num ((y i - GP.mean y) ^ 2) := by
    rw [List.map_ofFn]
    congr 1
    funext i
    simp only [Function.comp, exact_sub hA, exact_mul hA, sq]
  simp only [Arith.std, exact_mean hA hn, h, exact_sum_ofFn hA, List.length_ofFn]
  rw [exact_div hA _ (by positivity), exact_sqrt hA (by positivity)]
  rfl

omit hA

variable {Θ W : Type} {L : Lib Θ W} (hL : ExactLib L)

include hL

omit hL in
theorem mapBind {α β γ : Type} (x : Py α) (f : α → β) (g : β → Py γ) : (x.map f >>= g) = x >>= fun a => g (f a) := by cases x <;> rfl

omit hL in
theorem bindMap {α β γ : Type} (x : Py α) (f : β → γ) (g : α → Py β) : (x >>= g).map f = x >>= fun a => (g a).map f := by cases x <;> rfl

omit hL in
theorem tr_up {m n : ℕ} (M : Matrix (Fin m) (Fin n) ℝ) : tr (up M) = up Mᵀ := rfl

theorem exact_solve2 {n k : ℕ} (M : Matrix (Fin n) (Fin n) ℝ) (B : Matrix (Fin n) (Fin k) ℝ) : solve2 L (up M) (up B) = (GP.cholSolve M B).map up := by
  unfold solve2 GP.cholSolve
  rw [hL.solve]
  cases h : GP.solve M B with
  | error e => rfl
  | ok z => exact hL.solve Mᵀ z

omit hL in
theorem upCol_up {n : ℕ} (v : Fin n → ℝ) : upCol v = up (Matrix.of fun i (_ : Fin 1) => v i) := rfl

omit hL in
theorem solve_col {n : ℕ} (M : Matrix (Fin n) (Fin n) ℝ) (v : Fin n → ℝ) : GP.solve M (Matrix.of fun i (_ : Fin 1) => v i) = (GP.solveV M v).map fun z => Matrix.of fun i (_ : Fin 1) => z i := by
  unfold GP.solve GP.solveV
  split_ifs
  · refine congrArg Except.ok ?_
    ext i j
    simp only [Matrix.mul_apply, Matrix.of_apply, Matrix.mulVec, dotProduct]
  · rfl

theorem exact_solve2_col {n : ℕ} (M : Matrix (Fin n) (Fin n) ℝ) (v : Fin n → ℝ) : solve2 L (up M) (upCol v) = (GP.cholSolveV M v).map upCol := by
  rw [upCol_up, exact_solve2 hL]
  unfold GP.cholSolve GP.cholSolveV
  rw [solve_col]
  cases h : GP.solveV M v with
  | error e => rfl
  | ok z =>
    change Except.map up (GP.solve Mᵀ (Matrix.of fun i (_ : Fin 1) => z i)) = Except.map upCol (GP.solveV Mᵀ z)
    rw [solve_col]
    cases GP.solveV Mᵀ z <;> rfl

include hA

theorem exact_cov {n : ℕ} (K : Matrix (Fin n) (Fin n) ℝ) (s : ℝ) :
    (fun i j => A.add (up K i j) (eyeTimes A n (.num s) i j)) = up (K + s ^ 2 • (1 : Matrix (Fin n) (Fin n) ℝ)) := by
  funext i j
  simp only [up, eyeTimes, exact_mul hA, exact_add hA, Matrix.add_apply, Matrix.smul_apply, Matrix.one_apply, smul_eq_mul]
  congr 2
  by_cases h : i = j <;> simp [h, sq]

/-- The fitted quantities. -/
theorem exact_refit {X : Type} {n q : ℕ} (hn : 0 < n) (xs : Fin n → X) (t : Θ) (mean std noise : XF) (s : ℝ) (K : Matrix (Fin n) (Fin n) ℝ) (F : Matrix (Fin n) (Fin q) ℝ) (y : Fin n → ℝ) :
    refit A L xs t mean std noise (.num s) (up K) (up F) (upCol y) = (glsFit (K + s ^ 2 • (1 : Matrix (Fin n) (Fin n) ℝ)) F y).map fun g =>
      { xs := xs, param := t, mean := mean, std := std, noise := noise, l := up g.L, ld := up g.ld, f := up F, beta := upCol g.beta, gamma := upCol g.gamma, sigma2 := .num g.sigma2 } := by
  have hn' : (n : ℝ) ≠ 0 := by positivity
  simp only [refit, glsFit, exact_cov hA hL, hL.cholesky, mapBind, bindMap, exact_solve2_col hL, exact_solve2 hL, tr_up, exact_dot hA, exact_dot_col hA, exact_subCol hA, exact_dot_cols hA, exact_div hA _ hn', npDiv, if_neg hn']
  rfl

/-- The objective of the hyper-parameter search. -/
theorem exact_nll {n q : ℕ} (hn : 0 < n) (noise : Option ℝ) (s : ℝ) (K : Matrix (Fin n) (Fin n) ℝ) (F : Matrix (Fin n) (Fin q) ℝ) (y : Fin n → ℝ) {v : ℝ}
    (h : negLogLik (K + s ^ 2 • (1 : Matrix (Fin n) (Fin n) ℝ)) F y (noise = some 0) = .ok v) : nll A L (noise.map .num) (.num s) (up K) (up F) (upCol y) = .ok (.num v) := by
  have hn' : (n : ℝ) ≠ 0 := by positivity
  obtain ⟨g, hg, h⟩ := Py.bind_ok.mp h
  obtain ⟨l, h1, hg⟩ := Py.bind_ok.mp hg
  obtain ⟨alpha, h2, hg⟩ := Py.bind_ok.mp hg
  obtain ⟨kf, h3, hg⟩ := Py.bind_ok.mp hg
  obtain ⟨ld, h4, hg⟩ := Py.bind_ok.mp hg
  obtain ⟨beta, h5, hg⟩ := Py.bind_ok.mp hg
  obtain ⟨gamma, h6, hg⟩ := Py.bind_ok.mp hg
  obtain ⟨s2, h7, hg⟩ := Py.bind_ok.mp hg
  obtain rfl := Except.ok.inj hg
  have hs2 : (y - F *ᵥ beta) ⬝ᵥ gamma / n = s2 := by
    simp only [npDiv, if_neg hn'] at h7
    exact Except.ok.inj h7
  have hdiag : ∀ i, 0 < l i i := by
    unfold GP.cholesky at h1
    split_ifs at h1 with hex
    rw [← Except.ok.inj h1]
    exact hex.choose_spec.diag
  have hlog : (List.ofFn fun i => A.log (up l i i)) = List.ofFn fun i => XF.num (Real.log (l i i)) := by
    congr 1
    funext i
    exact exact_log hA (hdiag i)
  simp only [nll, exact_cov hA hL, hL.cholesky, mapBind, exact_solve2_col hL, exact_solve2 hL, tr_up, exact_dot hA, exact_dot_col hA, exact_subCol hA, exact_dot_cols hA, exact_div hA _ hn']
  refine Py.bind_ok.mpr ⟨l, h1, Py.bind_ok.mpr ⟨alpha, h2, Py.bind_ok.mpr ⟨kf, h3, Py.bind_ok.mpr ⟨ld, h4, Py.bind_ok.mpr ⟨beta, h5, Py.bind_ok.mpr ⟨gamma, h6, ?_⟩⟩⟩⟩⟩⟩
  simp only [hlog, exact_sum_ofFn hA, exact_mul hA, hs2]
  have hz : isZero (noise.map .num) = true ↔ noise = some 0 := by
    cases noise with
    | none => simp [isZero]
    | some x => simp [isZero]
  by_cases h0 : noise = some 0
  · rw [if_pos h0] at h
    obtain ⟨ll, hll, h⟩ := Py.bind_ok.mp h
    unfold npLog at hll
    split_ifs at hll with hpos
    obtain rfl := Except.ok.inj hll
    rw [if_pos (hz.mpr h0), exact_log hA hpos, exact_mul hA, exact_sub hA, ← Except.ok.inj h]
    simp only [Arith.neg, logDiag]
    norm_num
  · rw [if_neg h0] at h
    rw [if_neg (fun e => h0 (hz.mp e)), exact_mul hA, exact_sub hA, ← Except.ok.inj h]
    simp only [Arith.neg, logDiag]
    norm_num

omit hA hL in
/-- The likelihood for basis values `F`. -/
noncomputable def likOf {n d q : ℕ} (noise : Option ℝ) (yStd : ℝ) (Xs : Samples n d) (F : Matrix (Fin n) (Fin q) ℝ) (ys : Fin n → ℝ) (t : (Fin d → ℝ) × ℝ) : Py ℝ :=
  match noise with
  | none => negLogLik (covTrain (pow10 t.1) Xs t.2) F ys False
  | some s => negLogLik (covTrain (pow10 t.1) Xs (s / yStd)) F ys (s = 0)

omit hA hL in
/-- The likelihood as the generic search sees it. -/
theorem lik_covTrain {n d q : ℕ} (box : EA.Box ℝ d) (noise : Option ℝ) (yStd : ℝ) (X : Samples n d) (F : Matrix (Fin n) (Fin q) ℝ) (ys : Fin n → ℝ) (t : (Fin d → ℝ) × ℝ) :
    likOf noise yStd (scaledBy box X) F ys t = negLogLik (rbfMatrix (pow10 t.1) (scaledBy box X) (scaledBy box X) + (match noise with | none => t.2 | some s => s / yStd) ^ 2 • (1 : Matrix (Fin n) (Fin n) ℝ)) F ys (noise = some 0) := by
  cases noise with
  | none => simp only [likOf, covTrain, reduceCtorEq]
  | some s => simp only [likOf, covTrain, Option.some.injEq]

omit hA hL in
/-- What training leaves when the fitted quantities are `g`. -/
noncomputable def fitOf {d n q : ℕ} (X : Samples n d) (t : (Fin d → ℝ) × ℝ) (y : Fin n → ℝ) (noise : ℝ) (F : Matrix (Fin n) (Fin q) ℝ) (g : GLS n q) : Fit (Fin d → ℝ) ((Fin d → ℝ) × ℝ) n q :=
  { xs := X, param := t, mean := .num (GP.mean y), std := .num (GP.std y), noise := .num noise, l := up g.L, ld := up g.ld, f := up F, beta := upCol g.beta, gamma := upCol g.gamma, sigma2 := .num g.sigma2 }

omit hL hA

include hA in
theorem exact_scaled {n : ℕ} (y : Fin n → ℝ) (m : ℝ) {s : ℝ} (hs : s ≠ 0) : scaled A (upVec y) (.num m) (.num s) = upCol fun i => (y i - m) / s := by
  funext i j
  simp only [scaled, upVec, upCol, exact_sub hA, exact_div hA _ hs]

include hA in
/-- Search and refit. -/
theorem exact_trainOn {n d q r : ℕ} {L' : Lib ((Fin d → ℝ) × ℝ) W} (hL' : ExactLib L') (hn : 0 < n) (box : EA.Box ℝ d) (noise : Option ℝ) (regr : Basis d r) (X : Samples n d) (F : Matrix (Fin n) (Fin q) ℝ) (y : Fin n → ℝ)
    (hstd : GP.std y ≠ 0) {opt : Opt ((Fin d → ℝ) × ℝ) W} {w w' : W} {t : (Fin d → ℝ) × ℝ} {noise' : ℝ} (hnoise : noise' = (noise.getD (t.2 * GP.std y)))
    (hopt : Finds opt (likOf noise (GP.std y) (scaledBy box X) F (fun i => (y i - GP.mean y) / GP.std y)) w t w')
    {g : GLS n q} (hg : glsFit (covTrain (pow10 t.1) (scaledBy box X) (noise' / GP.std y)) F (fun i => (y i - GP.mean y) / GP.std y) = .ok g) :
    trainOn A L' (krigOf box noise regr) opt (up F) X (upVec y) w = .ok (fitOf X t y noise' F g, w') := by
  have hsearch : opt (fun t => nll A L' (krigOf box noise regr).noise (match (krigOf box noise regr).noise with | none => (krigOf box noise regr).sigmaOf t | some s => A.div s (.num (GP.std y)))
      ((krigOf box noise regr).kern X X t) (up F) (upCol fun i => (y i - GP.mean y) / GP.std y)) w = .ok (t, w') := by
    refine hopt _ fun t v hv => ?_
    have h := (lik_covTrain box noise (GP.std y) X F (fun i => (y i - GP.mean y) / GP.std y) t).symm.trans hv
    have h := exact_nll hA hL' hn _ _ _ _ _ h
    cases noise with
    | none => exact h
    | some s =>
      simp only [krigOf, Option.map_some, exact_div hA _ hstd]
      exact h
  have hr := exact_refit (Θ := (Fin d → ℝ) × ℝ) hA hL' hn X t (.num (GP.mean y)) (.num (GP.std y)) (.num noise') (noise' / GP.std y) (rbfMatrix (pow10 t.1) (scaledBy box X) (scaledBy box X)) F
    (fun i => (y i - GP.mean y) / GP.std y)
  rw [show rbfMatrix (pow10 t.1) (scaledBy box X) (scaledBy box X) + (noise' / GP.std y) ^ 2 • (1 : Matrix (Fin n) (Fin n) ℝ) = covTrain (pow10 t.1) (scaledBy box X) (noise' / GP.std y) from rfl, hg] at hr
  unfold trainOn
  have e1 : A.mean (List.ofFn (upVec y)) = .num (GP.mean y) := exact_mean hA hn y
  have e2 : A.std (List.ofFn (upVec y)) = .num (GP.std y) := exact_std hA hn y
  simp only [e1, e2, exact_scaled hA y _ hstd]
  refine Py.bind_ok.mpr ⟨(t, w'), hsearch, ?_⟩
  cases noise with
  | none =>
    obtain rfl : noise' = t.2 * GP.std y := hnoise
    simp only [krigOf, Option.map_none, exact_mul hA, exact_div hA _ hstd]
    exact Py.bind_ok.mpr ⟨_, hr, rfl⟩
  | some s =>
    obtain rfl : noise' = s := hnoise
    simp only [krigOf, Option.map_some, exact_div hA _ hstd]
    exact Py.bind_ok.mpr ⟨_, hr, rfl⟩

/-! ### Predictions -/

include hA in
theorem exact_meanAt {n d q k : ℕ} (X : Samples n d) (t : (Fin d → ℝ) × ℝ) (y : Fin n → ℝ) (noise : ℝ) (F : Matrix (Fin n) (Fin q) ℝ) (g : GLS n q) (knew : Matrix (Fin n) (Fin k) ℝ) (f : Matrix (Fin k) (Fin q) ℝ) :
    (fitOf X t y noise F g).meanAt A (up knew) (up f) = upVec fun j => (f *ᵥ g.beta + knewᵀ *ᵥ g.gamma) j * GP.std y + GP.mean y := by
  funext i
  simp only [Fit.meanAt, fitOf, tr_up, exact_dot_col hA]
  simp only [upCol, exact_add hA, exact_mul hA, upVec, Pi.add_apply]

include hA in
theorem exact_mseAt {n d q k : ℕ} {L' : Lib ((Fin d → ℝ) × ℝ) W} (hL' : ExactLib L') (X : Samples n d) (t : (Fin d → ℝ) × ℝ) (y : Fin n → ℝ) (noise : ℝ) (F : Matrix (Fin n) (Fin q) ℝ) (g : GLS n q)
    (knew : Matrix (Fin n) (Fin k) ℝ) (f : Matrix (Fin k) (Fin q) ℝ) : (fitOf X t y noise F g).mseAt A L' (up knew) (up f) = (mseOf g F knew f).map upVec := by
  simp only [Fit.mseAt, mseOf, fitOf, tr_up, exact_solve2 hL', mapBind, bindMap, exact_dot hA, exact_matSub hA]
  simp only [up, exact_mul hA, exact_add hA, exact_sub hA]
  rfl

omit hA in
theorem gpLik_likOf {n d q : ℕ} (gp : GPObj d q) (yStd : ℝ) (Xs : Samples n d) (ys : Fin n → ℝ) : gpLik gp yStd Xs ys = likOf gp.noise yStd Xs (regrMatrix gp.regr Xs) ys := by
  funext t
  unfold gpLik likOf
  cases gp.noise with
  | none => simp only [GPObj.logLikFree, Fin.snoc_castSucc, Fin.snoc_last]
  | some s => rfl

omit hA in
theorem hkLik_likOf {n d : ℕ} (noise : Option ℝ) (yStd : ℝ) (Xs : Samples n d) (F : Matrix (Fin n) (Fin 1) ℝ) (ys : Fin n → ℝ) : hkLik noise yStd Xs F ys = likOf noise yStd Xs F ys := by
  funext t
  unfold hkLik likOf
  cases noise with
  | none => simp only [hkLogLikFree, Fin.snoc_castSucc, Fin.snoc_last]
  | some s => rfl

omit hA in
theorem normIn_ok {n d : ℕ} {b : EA.Box ℝ d} {X Xs : Samples n d} (h : normalizeInput b X = .ok Xs) : Xs = scaledBy b X := by
  unfold normalizeInput at h
  split_ifs at h
  exact (Except.ok.inj h).symm

omit hA in
theorem normOut_ok {n : ℕ} {y ys : Fin n → ℝ} (h : GP.normalizeOutput y = .ok ys) : GP.std y ≠ 0 ∧ 0 < n ∧ ys = fun i => (y i - GP.mean y) / GP.std y := by
  unfold GP.normalizeOutput at h
  split_ifs at h with h0
  refine ⟨h0, Nat.pos_of_ne_zero fun e => h0 ?_, (Except.ok.inj h).symm⟩
  subst e
  simp [GP.std]

omit hA in
/-- What a completed `train` has computed. -/
theorem gp_train_fit {n d q : ℕ} {gp gp' : GPObj d q} {o : World d} {X : Samples n d} {y : Fin n → ℝ} {t : GPFit n d q} (h : gp.train o X y = .ok (gp', t)) :
    GP.std y ≠ 0 ∧ 0 < n ∧ ∃ (p : (Fin d → ℝ) × ℝ) (noise : ℝ) (g : GLS n q), noise = gp.noise.getD (p.2 * GP.std y) ∧
      gp' = { gp with kernel := gp.kernel.setParams p.1, noise := some noise } ∧
      glsFit (covTrain (pow10 p.1) (scaledBy gp.box X) (noise / GP.std y)) (regrMatrix gp.regr (scaledBy gp.box X)) (fun i => (y i - GP.mean y) / GP.std y) = .ok g ∧
      t = { X := X, Xs := scaledBy gp.box X, y := y, ys := fun i => (y i - GP.mean y) / GP.std y, yMean := GP.mean y, yStd := GP.std y, F := regrMatrix gp.regr (scaledBy gp.box X), K := covTrain (pow10 p.1) (scaledBy gp.box X) (noise / GP.std y), gls := g, noise := noise } := by
  obtain ⟨Xs, h1, h⟩ := Py.bind_ok.mp h
  obtain ⟨ys, h2, h⟩ := Py.bind_ok.mp h
  obtain ⟨⟨theta, noise⟩, h3, h⟩ := Py.bind_ok.mp h
  obtain ⟨g, h4, h⟩ := Py.bind_ok.mp h
  obtain rfl := normIn_ok h1
  obtain ⟨hstd, hn, rfl⟩ := normOut_ok h2
  obtain ⟨rfl, rfl⟩ := Prod.mk.inj (Except.ok.inj h)
  refine ⟨hstd, hn, ?_⟩
  unfold GPObj.fitHyper at h3
  cases hno : gp.noise with
  | none =>
    rw [hno] at h3
    obtain ⟨x, hx, h3⟩ := Py.bind_ok.mp h3
    obtain ⟨rfl, rfl⟩ := Prod.mk.inj (Except.ok.inj h3)
    exact ⟨(fun j => x j.castSucc, x (Fin.last d)), _, g, rfl, rfl, h4, rfl⟩
  | some s =>
    rw [hno] at h3
    obtain ⟨x, hx, h3⟩ := Py.bind_ok.mp h3
    obtain ⟨rfl, rfl⟩ := Prod.mk.inj (Except.ok.inj h3)
    exact ⟨(x, 0), _, g, rfl, rfl, h4, rfl⟩

include hA in
theorem exact_krigMean {n d q k : ℕ} {gp : GPObj d q} {X : Samples n d} {y : Fin n → ℝ} {p : (Fin d → ℝ) × ℝ} {noise : ℝ} {g : GLS n q} {F : Matrix (Fin n) (Fin q) ℝ} {t : GPFit n d q} (hX : t.Xs = scaledBy gp.box X)
    (hm : t.yMean = GP.mean y) (hs : t.yStd = GP.std y) (hg : t.gls = g) {Z : Samples k d} {μ : Fin k → ℝ}
    (h : predictMean { gp with kernel := gp.kernel.setParams p.1, noise := some noise } t Z = .ok μ) : (krigOf gp.box gp.noise gp.regr).mean A (fitOf X p y noise F g) Z = upVec μ := by
  obtain ⟨zs, h1, h⟩ := Py.bind_ok.mp h
  obtain rfl := normIn_ok h1
  rw [← Except.ok.inj h, hX, hm, hs, hg]
  exact exact_meanAt hA X p y noise F g _ _

include hA in
theorem exact_krigStd {n d q k : ℕ} {L' : Lib ((Fin d → ℝ) × ℝ) W} (hL' : ExactLib L') {gp : GPObj d q} {X : Samples n d} {y : Fin n → ℝ} {p : (Fin d → ℝ) × ℝ} {noise : ℝ} {g : GLS n q} {F : Matrix (Fin n) (Fin q) ℝ} {t : GPFit n d q}
    (hX : t.Xs = scaledBy gp.box X) (hs : t.yStd = GP.std y) (hg : t.gls = g) (hF : t.F = F) (hno : t.noise = noise) {Z : Samples k d} {μ σ : Fin k → ℝ}
    (h : predictStd { gp with kernel := gp.kernel.setParams p.1, noise := some noise } t Z = .ok (μ, σ)) : (krigOf gp.box gp.noise gp.regr).std A L' (fitOf X p y noise F g) Z = .ok (upVec σ) := by
  obtain ⟨fm, h0, h⟩ := Py.bind_ok.mp h
  obtain ⟨zs, h1, h⟩ := Py.bind_ok.mp h
  obtain rfl := normIn_ok h1
  dsimp only at h
  obtain ⟨mse, h2, h⟩ := Py.bind_ok.mp h
  obtain ⟨rfl, rfl⟩ := Prod.mk.inj (Except.ok.inj h)
  rw [hX, hg, hF] at h2
  have e := exact_mseAt hA hL' X p y noise F g (rbfMatrix (pow10 p.1) (scaledBy gp.box X) (scaledBy gp.box Z)) (regrMatrix gp.regr (scaledBy gp.box Z))
  rw [show mseOf g F (rbfMatrix (pow10 p.1) (scaledBy gp.box X) (scaledBy gp.box Z)) (regrMatrix gp.regr (scaledBy gp.box Z)) = .ok mse from h2] at e
  refine Py.bind_ok.mpr ⟨upVec mse, e, congrArg Except.ok ?_⟩
  funext i
  simp only [fitOf, upVec, exact_mul hA, exact_add hA, XF.max0, hs, hno]
  rw [exact_sqrt hA (le_max_right _ _), sq, sq]

include hA in
/-- **C164 (finite responses, Kriging).** On finite responses, with exact arithmetic, the program with `nan` and infinities is the program of the other Kriging properties: the search is given the same likelihood, and if it finds the
same parameters, training completes and every predicted mean and standard deviation is the same finite number. -/
theorem C164_finite_kriging {n d q : ℕ} {L' : Lib ((Fin d → ℝ) × ℝ) W} (hL' : ExactLib L') {gp gp' : GPObj d q} {o : World d} {X : Samples n d} {y : Fin n → ℝ} {t : GPFit n d q} (h : gp.train o X y = .ok (gp', t)) :
    ∃ p : (Fin d → ℝ) × ℝ, gp'.kernel.param = pow10 p.1 ∧ gp'.noise = some (gp.noise.getD (p.2 * GP.std y)) ∧
      ∀ (opt : Opt ((Fin d → ℝ) × ℝ) W) (w w' : W), Finds opt (gpLik gp (GP.std y) t.Xs t.ys) w p w' →
        ∃ m, (krigOf gp.box gp.noise gp.regr).trainBy A L' opt X (upVec y) w = .ok (m, w') ∧ ∀ (k : ℕ) (Z : Samples k d),
          (∀ μ, predictMean gp' t Z = .ok μ → (krigOf gp.box gp.noise gp.regr).mean A m Z = upVec μ) ∧
          (∀ μ σ, predictStd gp' t Z = .ok (μ, σ) → (krigOf gp.box gp.noise gp.regr).std A L' m Z = .ok (upVec σ)) := by
  obtain ⟨hstd, hn, p, noise, g, hnoise, rfl, hg, rfl⟩ := gp_train_fit h
  refine ⟨p, rfl, congrArg some hnoise, fun opt w w' hopt => ?_⟩
  rw [gpLik_likOf] at hopt
  exact ⟨_, exact_trainOn hA hL' hn gp.box gp.noise gp.regr X _ y hstd hnoise hopt hg, fun k Z => ⟨fun μ hμ => exact_krigMean hA rfl rfl rfl rfl hμ, fun μ σ hσ => exact_krigStd hA hL' rfl rfl rfl rfl rfl hσ⟩⟩

include hA in
theorem exact_scaledCol {n : ℕ} (y : Fin n → ℝ) (m : ℝ) {s : ℝ} (hs : s ≠ 0) : scaled A (upVec y) (.num m) (.num s) = up (scaleCol y m s) := exact_scaled hA y m hs

include hA in
/-- **C164 (finite responses, hierarchical Kriging).** The same for hierarchical Kriging. -/
theorem C164_finite_hk {nh nl d q r : ℕ} {L' : Lib ((Fin d → ℝ) × ℝ) W} (hL' : ExactLib L') {hk hk' : HKObj d q} {o : MFWorld d} {Xh : Samples nh d} {yh : Fin nh → ℝ} {Xl : Samples nl d} {yl : Fin nl → ℝ}
    {t : HKFit nh nl d q} (h : hk.train o Xh yh Xl yl = .ok (hk', t)) (unused : Basis d r) :
    ∃ pl ph : (Fin d → ℝ) × ℝ, hk'.lf.kernel.param = pow10 pl.1 ∧ hk'.lf.noise = some (hk.lf.noise.getD (pl.2 * GP.std yl)) ∧ hk'.kernel.param = pow10 ph.1 ∧ hk'.noise = some (hk.noise.getD (ph.2 * GP.std yh)) ∧
      ∀ (optL optH : Opt ((Fin d → ℝ) × ℝ) W) (w w' w'' : W), Finds optL (gpLik hk.lf (GP.std yl) t.lfFit.Xs t.lfFit.ys) w pl w' → Finds optH (hkLik hk.noise (GP.std yh) t.Xhs t.F t.yhs) w' ph w'' →
        ∃ m, trainHKBy A L' (krigOf hk.lf.box hk.lf.noise hk.lf.regr) (krigOf hk.box hk.noise unused) optL optH Xl (upVec yl) Xh (upVec yh) w = .ok (m, w'') ∧ ∀ (k : ℕ) (Z : Samples k d),
          (∀ μ, hk'.predict t Z = .ok μ → hkMean A (krigOf hk.lf.box hk.lf.noise hk.lf.regr) (krigOf hk.box hk.noise unused) m Z = upVec μ) ∧
          (∀ μ σ, hk'.predictStd t Z = .ok (μ, σ) → hkStd A L' (krigOf hk.lf.box hk.lf.noise hk.lf.regr) (krigOf hk.box hk.noise unused) m Z = .ok (upVec σ)) := by
  obtain ⟨⟨lf, lfFit⟩, h1, h⟩ := Py.bind_ok.mp h
  obtain ⟨Xhs, h2, h⟩ := Py.bind_ok.mp h
  obtain ⟨yhs, h3, h⟩ := Py.bind_ok.mp h
  obtain ⟨f, h4, h⟩ := Py.bind_ok.mp h
  dsimp only at h
  obtain ⟨⟨theta, noise⟩, h5, h⟩ := Py.bind_ok.mp h
  dsimp only at h
  obtain ⟨g, h6, h⟩ := Py.bind_ok.mp h
  obtain rfl := normIn_ok h2
  obtain ⟨hstd, hn, rfl⟩ := normOut_ok h3
  obtain ⟨rfl, rfl⟩ := Prod.mk.inj (Except.ok.inj h)
  obtain ⟨pl, kl, nl', Fl⟩ := C164_finite_kriging hA hL' h1
  obtain ⟨ph, rfl, hnoise⟩ : ∃ ph : (Fin d → ℝ) × ℝ, theta = ph.1 ∧ noise = hk.noise.getD (ph.2 * GP.std yh) := by
    unfold HKObj.fitHyper at h5
    cases hno : hk.noise with
    | none =>
      rw [hno] at h5
      obtain ⟨x, hx, h5⟩ := Py.bind_ok.mp h5
      obtain ⟨rfl, rfl⟩ := Prod.mk.inj (Except.ok.inj h5)
      exact ⟨(fun j => x j.castSucc, x (Fin.last d)), rfl, rfl⟩
    | some s =>
      rw [hno] at h5
      obtain ⟨x, hx, h5⟩ := Py.bind_ok.mp h5
      obtain ⟨rfl, rfl⟩ := Prod.mk.inj (Except.ok.inj h5)
      exact ⟨(x, 0), rfl, rfl⟩
  refine ⟨pl, ph, kl, nl', rfl, congrArg some hnoise, fun optL optH w w' w'' hoptL hoptH => ?_⟩
  obtain ⟨ml, tl, ql⟩ := Fl optL w w' hoptL
  rw [hkLik_likOf] at hoptH
  have th := exact_trainOn hA hL' hn hk.box hk.noise unused Xh _ yh hstd hnoise hoptH h6
  have e1 : A.mean (List.ofFn (upVec yh)) = .num (GP.mean yh) := exact_mean hA hn yh
  have e2 : A.std (List.ofFn (upVec yh)) = .num (GP.std yh) := exact_std hA hn yh
  refine ⟨(ml, fitOf Xh ph yh noise (scaleCol f (GP.mean yh) (GP.std yh)) g), Py.bind_ok.mpr ⟨_, tl, Py.bind_ok.mpr ⟨(fitOf Xh ph yh noise (scaleCol f (GP.mean yh) (GP.std yh)) g, w''), ?_, rfl⟩⟩, fun k Z => ⟨fun μ hμ => ?_, fun μ σ hσ => ?_⟩⟩
  · rw [(ql _ Xh).1 f h4, e1, e2, exact_scaledCol hA _ _ hstd]
    exact th
  · obtain ⟨zs, g1, hμ⟩ := Py.bind_ok.mp hμ
    obtain ⟨fl, g2, hμ⟩ := Py.bind_ok.mp hμ
    obtain rfl := normIn_ok g1
    rw [← Except.ok.inj hμ]
    unfold hkMean
    rw [(ql _ Z).1 fl g2]
    exact (congrArg (fun F => Fit.meanAt A _ _ F) (exact_scaledCol hA fl _ hstd)).trans (exact_meanAt hA Xh ph yh noise _ g _ _)
  · obtain ⟨fm, g0, hσ⟩ := Py.bind_ok.mp hσ
    obtain ⟨zs, g1, hσ⟩ := Py.bind_ok.mp hσ
    obtain rfl := normIn_ok g1
    dsimp only at hσ
    obtain ⟨fl, g2, hσ⟩ := Py.bind_ok.mp hσ
    obtain ⟨mse, g3, hσ⟩ := Py.bind_ok.mp hσ
    obtain ⟨rfl, rfl⟩ := Prod.mk.inj (Except.ok.inj hσ)
    have e := exact_mseAt hA hL' Xh ph yh noise (scaleCol f (GP.mean yh) (GP.std yh)) g (rbfMatrix (pow10 ph.1) (scaledBy hk.box Xh) (scaledBy hk.box Z)) (scaleCol fl (GP.mean yh) (GP.std yh))
    rw [show mseOf g (scaleCol f (GP.mean yh) (GP.std yh)) (rbfMatrix (pow10 ph.1) (scaledBy hk.box Xh) (scaledBy hk.box Z)) (scaleCol fl (GP.mean yh) (GP.std yh)) = .ok mse from g3] at e
    unfold hkStd
    rw [(ql _ Z).1 fl g2]
    refine Py.bind_ok.mpr ⟨upVec mse, (congrArg (fun F => Fit.mseAt A L' _ _ F) (exact_scaledCol hA fl _ hstd)).trans e, congrArg Except.ok ?_⟩
    funext i
    simp only [fitOf, upVec, XF.max0]
    rw [exact_sqrt hA (le_max_right _ _), exact_mul hA, exact_mul hA, exact_mul hA, exact_add hA, exact_sqrt hA (add_nonneg (mul_self_nonneg _) (mul_self_nonneg _)), sq, sq]

include hA in
/-- **C164 (finite responses, scaled Kriging).** The same for scaled Kriging, with the scale factor that training has set: given, or searched for the smallest error. -/
theorem C164_finite_sk {nh nl d ql qd : ℕ} {L' : Lib ((Fin d → ℝ) × ℝ) W} (hL' : ExactLib L') {sk sk' : SKObj d ql qd} {o : SKWorld d} {Xh : Samples nh d} {yh : Fin nh → ℝ} {Xl : Samples nl d} {yl : Fin nl → ℝ}
    {t : SKFit nh nl d ql qd} (h : sk.train o Xh yh Xl yl = .ok (sk', t)) (hm : sk.rhoOptimize = false ∨ sk.rhoMethod = .error) :
    ∃ pl pd : (Fin d → ℝ) × ℝ, sk'.lf.kernel.param = pow10 pl.1 ∧ sk'.disc.kernel.param = pow10 pd.1 ∧ sk'.lf.noise = some (sk.lf.noise.getD (pl.2 * GP.std yl)) ∧
      sk'.disc.noise = some (sk.disc.noise.getD (pd.2 * t.discFit.yStd)) ∧
      ∀ (optL optD : Opt ((Fin d → ℝ) × ℝ) W) (w w' w'' : W), Finds optL (gpLik sk.lf (GP.std yl) t.lfFit.Xs t.lfFit.ys) w pl w' →
        Finds optD (gpLik sk.disc t.discFit.yStd t.discFit.Xs t.discFit.ys) w' pd w'' →
        ∃ m, trainSKBy A L' (krigOf sk.lf.box sk.lf.noise sk.lf.regr) (krigOf sk.disc.box sk.disc.noise sk.disc.regr) optL optD (.num sk'.rho) Xl (upVec yl) Xh (upVec yh) w = .ok (m, w'') ∧ ∀ (k : ℕ) (Z : Samples k d),
          (∀ μ, sk'.predict t Z = .ok μ → skMean A (krigOf sk.lf.box sk.lf.noise sk.lf.regr) (krigOf sk.disc.box sk.disc.noise sk.disc.regr) (.num sk'.rho) m Z = upVec μ) ∧
          (∀ μ σ, sk'.predictStd t Z = .ok (μ, σ) → skBoth A L' (krigOf sk.lf.box sk.lf.noise sk.lf.regr) (krigOf sk.disc.box sk.disc.noise sk.disc.regr) (.num sk'.rho) m Z = .ok (upVec μ, upVec σ)) := by
  obtain ⟨⟨lf, lfFit⟩, h1, h⟩ := Py.bind_ok.mp h
  obtain ⟨f, h2, h⟩ := Py.bind_ok.mp h
  dsimp only at h
  obtain ⟨⟨rho, disc⟩, h3, h⟩ := Py.bind_ok.mp h
  obtain ⟨⟨disc', discFit⟩, h4, h⟩ := Py.bind_ok.mp h
  obtain ⟨rfl, rfl⟩ := Prod.mk.inj (Except.ok.inj h)
  obtain rfl : disc = sk.disc := by
    split_ifs at h3 with ho
    · rcases hm with hm | hm
      · rw [hm] at ho; cases ho
      · unfold SKObj.optimizeRho at h3
        rw [hm] at h3
        dsimp only at h3
        split at h3
        · obtain ⟨x, _, h3⟩ := Py.bind_ok.mp h3
          exact (Prod.mk.inj (Except.ok.inj h3)).2.symm
        · obtain ⟨x, _, h3⟩ := Py.bind_ok.mp h3
          exact (Prod.mk.inj (Except.ok.inj h3)).2.symm
    · exact (Prod.mk.inj (Except.ok.inj h3)).2.symm
  obtain ⟨pl, kl, nl', Fl⟩ := C164_finite_kriging hA hL' h1
  obtain ⟨pd, kd, nd', Fd⟩ := C164_finite_kriging hA hL' h4
  have hy : discFit.yStd = GP.std (getDisc rho f yh) := by
    obtain ⟨_, _, _, _, _, _, _, _, rfl⟩ := gp_train_fit h4
    rfl
  refine ⟨pl, pd, kl, kd, nl', by rw [hy]; exact nd', fun optL optD w w' w'' hoptL hoptD => ?_⟩
  dsimp only at hoptD
  rw [hy] at hoptD
  obtain ⟨ml, tl, ql'⟩ := Fl optL w w' hoptL
  obtain ⟨md, td, qd'⟩ := Fd optD w' w'' hoptD
  refine ⟨(ml, md), Py.bind_ok.mpr ⟨_, tl, Py.bind_ok.mpr ⟨(md, w''), ?_, rfl⟩⟩, fun k Z => ⟨fun μ hμ => ?_, fun μ σ hσ => ?_⟩⟩
  · rw [← td]
    congr 1
    funext i
    rw [(ql' _ Xh).1 f h2]
    simp only [upVec, exact_mul hA, exact_sub hA, getDisc]
  · obtain ⟨a, g1, hμ⟩ := Py.bind_ok.mp hμ
    obtain ⟨b, g2, hμ⟩ := Py.bind_ok.mp hμ
    rw [← Except.ok.inj hμ]
    funext i
    unfold skMean
    rw [(qd' _ Z).1 a g1, (ql' _ Z).1 b g2]
    simp only [upVec, exact_mul hA, exact_add hA]
  · obtain ⟨⟨ml', sl⟩, g1, hσ⟩ := Py.bind_ok.mp hσ
    obtain ⟨⟨md', sd⟩, g2, hσ⟩ := Py.bind_ok.mp hσ
    obtain ⟨rfl, rfl⟩ := Prod.mk.inj (Except.ok.inj hσ)
    have g1' : predictMean lf lfFit Z = .ok ml' := by
      obtain ⟨fm, g0, g⟩ := Py.bind_ok.mp g1
      obtain ⟨_, _, g⟩ := Py.bind_ok.mp g
      dsimp only at g
      obtain ⟨_, _, g⟩ := Py.bind_ok.mp g
      rw [g0, (Prod.mk.inj (Except.ok.inj g)).1]
    have g2' : predictMean disc' discFit Z = .ok md' := by
      obtain ⟨fm, g0, g⟩ := Py.bind_ok.mp g2
      obtain ⟨_, _, g⟩ := Py.bind_ok.mp g
      dsimp only at g
      obtain ⟨_, _, g⟩ := Py.bind_ok.mp g
      rw [g0, (Prod.mk.inj (Except.ok.inj g)).1]
    refine Py.bind_ok.mpr ⟨_, (ql' _ Z).2 _ _ g1, Py.bind_ok.mpr ⟨_, (qd' _ Z).2 _ _ g2, ?_⟩⟩
    rw [(qd' _ Z).1 _ g2', (ql' _ Z).1 _ g1']
    simp only [upVec, exact_mul hA, exact_add hA]
    refine congrArg (fun s => Except.ok (_, s)) ?_
    funext i
    rw [exact_sqrt hA (by nlinarith [mul_self_nonneg (rho * sl i), mul_self_nonneg (sd i)])]
    simp only [upVec, sq]

/-- What training of the low-fidelity model of co-Kriging leaves. -/
noncomputable def rawFitOf {d n q : ℕ} (X : Samples n d) (t : (Fin d → ℝ) × ℝ) (noise : ℝ) (F : Matrix (Fin n) (Fin q) ℝ) (g : GLS n q) : Fit (Fin d → ℝ) ((Fin d → ℝ) × ℝ) n q :=
  { xs := X, param := t, mean := .num 0, std := .num 1, noise := .num noise, l := up g.L, ld := up g.ld, f := up F, beta := upCol g.beta, gamma := upCol g.gamma, sigma2 := .num g.sigma2 }

include hA in
theorem exact_trainCKLow {n d q : ℕ} {L' : Lib ((Fin d → ℝ) × ℝ) W} (hL' : ExactLib L') (hn : 0 < n) (box : EA.Box ℝ d) (own : Option ℝ) (lf : RawGP d q) (noise : Option ℝ) (X : Samples n d) (y : Fin n → ℝ)
    {opt : Opt ((Fin d → ℝ) × ℝ) W} {w w' : W} {t : (Fin d → ℝ) × ℝ} (hopt : Finds opt (rawLik lf noise (scaledBy box X) y) w t w')
    {g : GLS n q} (hg : glsFit (covTrain (pow10 t.1) (scaledBy box X) (noise.getD t.2)) (regrMatrix lf.regr (scaledBy box X)) y = .ok g) :
    trainCKLow A L' (krigOf box own lf.regr) (noise.map .num) opt X (upCol y) w =
      .ok (rawFitOf X t (noise.getD t.2) (regrMatrix lf.regr (scaledBy box X)) g, w') := by
  have hs : ∀ t : (Fin d → ℝ) × ℝ, (noise.map XF.num).getD ((krigOf box own lf.regr).sigmaOf t) = .num (noise.getD t.2) := fun t => by cases noise <;> rfl
  have hsearch : opt (fun t => nll A L' (noise.map .num) ((noise.map XF.num).getD ((krigOf box own lf.regr).sigmaOf t)) ((krigOf box own lf.regr).kern X X t) ((krigOf box own lf.regr).basis X) (upCol y)) w = .ok (t, w') := by
    refine hopt _ fun t v hv => ?_
    rw [hs]
    refine exact_nll hA hL' hn _ _ _ _ _ ?_
    rw [← hv]
    cases noise with
    | none => simp only [rawLik, covTrain, reduceCtorEq, Option.getD_none]; congr
    | some s => simp only [rawLik, covTrain, Option.some.injEq, Option.getD_some]; congr
  have hr := exact_refit (Θ := (Fin d → ℝ) × ℝ) hA hL' hn X t (.num 0) (.num 1) (.num (noise.getD t.2)) (noise.getD t.2) (rbfMatrix (pow10 t.1) (scaledBy box X) (scaledBy box X)) (regrMatrix lf.regr (scaledBy box X)) y
  rw [show rbfMatrix (pow10 t.1) (scaledBy box X) (scaledBy box X) + noise.getD t.2 ^ 2 • (1 : Matrix (Fin n) (Fin n) ℝ) = covTrain (pow10 t.1) (scaledBy box X) (noise.getD t.2) from rfl, hg] at hr
  unfold trainCKLow
  refine Py.bind_ok.mpr ⟨(t, w'), hsearch, ?_⟩
  simp only [hs]
  exact Py.bind_ok.mpr ⟨_, hr, rfl⟩

/-- What a completed training of the low-fidelity model of co-Kriging has computed. -/
theorem raw_train_fit {n d q : ℕ} {gp gp' : RawGP d q} {o : World d} {X : Samples n d} {y : Fin n → ℝ} {t : RawFit n d q} (h : gp.train o X y = .ok (gp', t)) :
    ∃ (p : (Fin d → ℝ) × ℝ), gp' = { gp with kernel := gp.kernel.setParams p.1, noise := some (gp.noise.getD p.2) } ∧
      glsFit (covTrain (pow10 p.1) X (gp.noise.getD p.2)) (regrMatrix gp.regr X) y = .ok t.gls := by
  obtain ⟨⟨theta, noise⟩, h3, h⟩ := Py.bind_ok.mp h
  dsimp only at h
  obtain ⟨g, h4, h⟩ := Py.bind_ok.mp h
  obtain ⟨rfl, rfl⟩ := Prod.mk.inj (Except.ok.inj h)
  unfold RawGP.fitHyper at h3
  cases hno : gp.noise with
  | none =>
    rw [hno] at h3
    obtain ⟨x, hx, h3⟩ := Py.bind_ok.mp h3
    obtain ⟨rfl, rfl⟩ := Prod.mk.inj (Except.ok.inj h3)
    exact ⟨(fun j => x j.castSucc, x (Fin.last d)), rfl, h4⟩
  | some s =>
    rw [hno] at h3
    obtain ⟨x, hx, h3⟩ := Py.bind_ok.mp h3
    obtain ⟨rfl, rfl⟩ := Prod.mk.inj (Except.ok.inj h3)
    exact ⟨(x, 0), rfl, h4⟩

include hA in
/-- **C164 (finite responses, co-Kriging).** The same for co-Kriging: the low-fidelity search is given the same likelihood, and if it and the rest of training set the same values, training completes and every predicted mean and
standard deviation is the same finite number. -/
theorem C164_finite_ck {nh nl d q : ℕ} {L' : Lib ((Fin d → ℝ) × ℝ) W} (hL' : ExactLib L') (hnl : 0 < nl) {ck ck' : CKObj d q} {o : CKWorld d} {Xh : Samples nh d} {yh : Fin nh → ℝ} {Xl : Samples nl d} {yl : Fin nl → ℝ}
    {t : GP.CKFit nh nl d q} (h : ck.train o Xh yh Xl yl = .ok (ck', t)) :
    ∃ pl : (Fin d → ℝ) × ℝ, ck'.lf.kernel.param = pow10 pl.1 ∧
      ∀ (opt : Opt ((Fin d → ℝ) × ℝ) W) (w w' : W), Finds opt (rawLik ck.lf ((ck.noise.map (· / GP.std yh)).or ck.lf.noise) t.Xls (fun i => (yl i - GP.mean yh) / GP.std yh)) w pl w' →
        ∃ low : Fit (Fin d → ℝ) ((Fin d → ℝ) × ℝ) nl q, ∀ (rest : CKRest (Fin d → ℝ) ((Fin d → ℝ) × ℝ) W nl nh q) (w'' : W) (ph : (Fin d → ℝ) × ℝ) (s : ℝ), ck'.kernel.param = pow10 ph.1 → ck'.noise = some s →
          rest low (ck.noise.map fun s => .num (s / GP.std yh)) (upCol fun i => (yl i - GP.mean yh) / GP.std yh) (upCol fun i => (yh i - GP.mean yh) / GP.std yh) w' =
            .ok ((.num t.rho, ph, .num s, .num t.sigma2, .num t.mu, up t.LC), w'') →
          ∃ m, trainCKBy A L' (krigOf ck.box ck.lf.noise ck.lf.regr) (ck.noise.map .num) opt rest Xl (upVec yl) Xh (upVec yh) w = .ok (m, w'') ∧ ∀ (k : ℕ) (Z : Samples k d),
            (∀ μ, ck'.predict t Z = .ok μ → ckMean A L' (krigOf ck.box ck.lf.noise ck.lf.regr) (fun _ _ X Y p => up (rbfMatrix (pow10 p.1) (scaledBy ck.box X) (scaledBy ck.box Y))) m Z = .ok (upVec μ)) ∧
            (∀ c μ σ, ck'.predictStd t Z = .ok (c, μ, σ) →
              ckStd A L' (krigOf ck.box ck.lf.noise ck.lf.regr) (fun _ _ X Y p => up (rbfMatrix (pow10 p.1) (scaledBy ck.box X) (scaledBy ck.box Y))) m Z = .ok (upVec σ)) := by
  obtain ⟨Xhs, h1, h⟩ := Py.bind_ok.mp h
  obtain ⟨Xls, h2, h⟩ := Py.bind_ok.mp h
  obtain ⟨yhs, h3, h⟩ := Py.bind_ok.mp h
  obtain rfl := normIn_ok h1
  obtain rfl := normIn_ok h2
  obtain ⟨hstd, hn, rfl⟩ := normOut_ok h3
  dsimp only at h
  obtain ⟨⟨lf, lfFit⟩, h4, h⟩ := Py.bind_ok.mp h
  dsimp only at h
  obtain ⟨⟨rho, theta, noise'⟩, h5, h⟩ := Py.bind_ok.mp h
  dsimp only at h
  obtain ⟨g, h6, h⟩ := Py.bind_ok.mp h
  obtain ⟨LC, h7, h⟩ := Py.bind_ok.mp h
  obtain ⟨a, h8, h⟩ := Py.bind_ok.mp h
  obtain ⟨b, h9, h⟩ := Py.bind_ok.mp h
  obtain ⟨mu, h10, h⟩ := Py.bind_ok.mp h
  obtain ⟨hck, ht⟩ := Prod.mk.inj (Except.ok.inj h)
  clear h
  obtain ⟨lf0, h4, e1, e2⟩ : ∃ lf0 : RawGP d q, lf0.train o.lf (scaledBy ck.box Xl) (fun i => (yl i - GP.mean yh) / GP.std yh) = .ok (lf, lfFit) ∧ lf0.noise = (ck.noise.map (· / GP.std yh)).or ck.lf.noise ∧
      lf0.regr = ck.lf.regr := by
    cases hno : ck.noise with
    | none => rw [hno] at h4; exact ⟨_, h4, rfl, rfl⟩
    | some s => rw [hno] at h4; exact ⟨_, h4, rfl, rfl⟩
  obtain ⟨pl, rfl, hg⟩ := raw_train_fit h4
  rw [e1, e2] at hg
  have t1 : t.Xls = scaledBy ck.box Xl := by rw [← ht]
  have t2 : t.Xhs = scaledBy ck.box Xh := by rw [← ht]
  have t3 : t.rho = rho := by rw [← ht]
  have t4 : t.lfFit = lfFit := by rw [← ht]
  have t5 : t.sigma2 = g.sigma2 := by rw [← ht]
  have t6 : t.mu = mu := by rw [← ht]
  have t7 : t.LC = LC := by rw [← ht]
  have t8 : t.y = Fin.append (fun i => (yl i - GP.mean yh) / GP.std yh) fun i => (yh i - GP.mean yh) / GP.std yh := by rw [← ht]
  have t9 : t.yhStd = GP.std yh := by rw [← ht]
  have t10 : t.yhMean = GP.mean yh := by rw [← ht]
  have k0 : ck'.box = ck.box := by rw [← hck]
  have k2 : ck'.lf.kernel.param = pow10 pl.1 := by rw [← hck]; rfl
  clear ht hck
  refine ⟨pl, k2, fun opt w w' hopt => ?_⟩
  rw [t1] at hopt
  have hlow := exact_trainCKLow hA hL' hnl ck.box ck.lf.noise ck.lf ((ck.noise.map (· / GP.std yh)).or ck.lf.noise) Xl (fun i => (yl i - GP.mean yh) / GP.std yh) hopt hg
  refine ⟨rawFitOf Xl pl (((ck.noise.map (· / GP.std yh)).or ck.lf.noise).getD pl.2) (regrMatrix ck.lf.regr (scaledBy ck.box Xl)) lfFit.gls, fun rest w'' ph s hph hs hrest => ?_⟩
  rw [t3, t5, t6, t7] at hrest
  have hnoise : (ck.noise.map XF.num).map (fun s => A.div s (.num (GP.std yh))) = ck.noise.map fun s => .num (s / GP.std yh) := by
    cases ck.noise with
    | none => rfl
    | some s => simp only [Option.map_some, exact_div hA _ hstd]
  have hnoise' : (ck.noise.map fun s => XF.num (s / GP.std yh)).or (ck.lf.noise.map .num) = ((ck.noise.map (· / GP.std yh)).or ck.lf.noise).map .num := by
    cases ck.noise <;> rfl
  have hm : A.mean (List.ofFn (upVec yh)) = .num (GP.mean yh) := exact_mean hA hn yh
  have hsd : A.std (List.ofFn (upVec yh)) = .num (GP.std yh) := exact_std hA hn yh
  obtain ⟨m, hm'⟩ : ∃ m : NonFinite.CKFit (Fin d → ℝ) ((Fin d → ℝ) × ℝ) nl nh q, m = { mean := .num (GP.mean yh), std := .num (GP.std yh), low := rawFitOf Xl pl (((ck.noise.map (· / GP.std yh)).or ck.lf.noise).getD pl.2) (regrMatrix ck.lf.regr (scaledBy ck.box Xl)) lfFit.gls, xh := Xh, y := Fin.append (upCol fun i => (yl i - GP.mean yh) / GP.std yh) (upCol fun i => (yh i - GP.mean yh) / GP.std yh), rho := .num rho, param := ph, noise := .num s, sigma2 := .num g.sigma2, mu := .num mu, lc := up LC } := ⟨_, rfl⟩
  have hmy : m.y = upCol (Fin.append (fun i => (yl i - GP.mean yh) / GP.std yh) fun i => (yh i - GP.mean yh) / GP.std yh) := by
    rw [hm']
    funext a j
    refine Fin.addCases (fun i => ?_) (fun i => ?_) a
    · simp only [Fin.append_left, upCol]
    · simp only [Fin.append_right, upCol]
  have m1 : m.lc = up LC := by rw [hm']
  have m2 : m.mu = .num mu := by rw [hm']
  have m3 : m.std = .num (GP.std yh) := by rw [hm']
  have m4 : m.mean = .num (GP.mean yh) := by rw [hm']
  have m5 : m.rho = .num rho := by rw [hm']
  have m6 : m.sigma2 = .num g.sigma2 := by rw [hm']
  have m7 : m.noise = .num s := by rw [hm']
  have m8 : m.low.sigma2 = .num lfFit.gls.sigma2 := by rw [hm']; rfl
  refine ⟨m, ?_, fun k Z => ?_⟩
  · unfold trainCKBy
    simp only [hm, hsd, hnoise, exact_scaled hA _ _ hstd]
    rw [hm']
    refine Py.bind_ok.mpr ⟨(rawFitOf Xl pl (((ck.noise.map (· / GP.std yh)).or ck.lf.noise).getD pl.2) (regrMatrix ck.lf.regr (scaledBy ck.box Xl)) lfFit.gls, w'), ?_, Py.bind_ok.mpr ⟨((.num rho, ph, .num s, .num g.sigma2, .num mu, up LC), w''), hrest, rfl⟩⟩
    rw [← hlow, ← hnoise']
    rfl
  have hc : NonFinite.ckCov A (krigOf ck.box ck.lf.noise ck.lf.regr) (fun _ _ X Y p => up (rbfMatrix (pow10 p.1) (scaledBy ck.box X) (scaledBy ck.box Y))) m Z = up (crossCov ck' t (scaledBy ck.box Z)) := by
    rw [hm']
    funext a j
    refine Fin.addCases (fun i => ?_) (fun i => ?_) a
    · simp only [NonFinite.ckCov, crossCov, RBF.getKernelMatrix, Fin.append_left, finSumFinEquiv_symm_apply_castAdd, up, rawFitOf, krigOf, exact_mul hA, t1, t3, t4, k2]
    · simp only [NonFinite.ckCov, crossCov, RBF.getKernelMatrix, Fin.append_right, finSumFinEquiv_symm_apply_natAdd, up, rawFitOf, krigOf, exact_mul hA, exact_add hA, sq, t2, t3, t4, t5, hph, k2]
  refine ⟨fun μ hμ => ?_, fun c μ σ hσ => ?_⟩
  · obtain ⟨xs, g1, hμ⟩ := Py.bind_ok.mp hμ
    rw [k0] at g1
    obtain rfl := normIn_ok g1
    obtain ⟨z, g2, hμ⟩ := Py.bind_ok.mp hμ
    obtain rfl := Except.ok.inj hμ
    have e := exact_solve2_col hL' LC (fun i => Fin.append (fun i => (yl i - GP.mean yh) / GP.std yh) (fun i => (yh i - GP.mean yh) / GP.std yh) i - mu)
    rw [t6, t7, t8] at g2
    rw [g2] at e
    unfold ckMean
    rw [hc, hmy]
    refine Py.bind_ok.mpr ⟨upCol z, ?_, congrArg Except.ok ?_⟩
    · refine Eq.trans ?_ e
      rw [m1, m2]
      simp only [upCol, exact_sub hA]
      rfl
    · rw [m2, m3, m4, tr_up, exact_dot_col hA]
      funext i
      simp only [upCol, upVec, exact_add hA, exact_mul hA, t6, t9, t10]
  · obtain ⟨fm, g0, hσ⟩ := Py.bind_ok.mp hσ
    obtain ⟨xs, g1, hσ⟩ := Py.bind_ok.mp hσ
    rw [k0] at g1
    obtain rfl := normIn_ok g1
    dsimp only at hσ
    obtain ⟨z, g2, hσ⟩ := Py.bind_ok.mp hσ
    rw [hs] at hσ
    dsimp only at hσ
    obtain ⟨-, hσ⟩ := Prod.mk.inj (Except.ok.inj hσ)
    obtain ⟨-, rfl⟩ := Prod.mk.inj hσ
    have e := exact_solve2 hL' LC (crossCov ck' t (scaledBy ck.box Z))
    rw [t7] at g2
    rw [g2] at e
    unfold ckStd
    rw [hc]
    refine Py.bind_ok.mpr ⟨up z, ?_, congrArg Except.ok ?_⟩
    · rw [m1]
      exact e
    · rw [m3, m5, m6, m7, m8, tr_up, exact_dot hA]
      funext i
      simp only [up, upVec, exact_add hA, exact_mul hA, exact_sub hA, XF.max0, t3, t4, t5, t9]
      rw [exact_sqrt hA (le_max_right _ _), exact_mul hA, exact_mul hA, exact_add hA, exact_sqrt hA (add_nonneg (mul_self_nonneg _) (mul_self_nonneg _)), sq, sq, sq]

/-! ### The hypotheses can be met -/

open Classical in
/-- numpy's `cholesky` and `solve` for finite entries; anything else raises. -/
noncomputable def exactLib (Θ W : Type) : Lib Θ W where
  cholesky := fun M => if h : ∃ N, M = up N then (GP.cholesky h.choose).map up else .error .linAlgError
  solve := fun M B => if h : ∃ N : Matrix _ _ ℝ × Matrix _ _ ℝ, M = up N.1 ∧ B = up N.2 then (GP.solve h.choose.1 h.choose.2).map up else .error .linAlgError
  minimize := fun _ _ => .error .valueError

theorem up_injective {m n : ℕ} {M N : Matrix (Fin m) (Fin n) ℝ} (h : up M = up N) : M = N := by
  ext i j
  exact XF.num.inj (congrFun (congrFun h i) j)

theorem exactLib_exact (Θ W : Type) : ExactLib (exactLib Θ W) where
  cholesky := fun M => by
    have h : ∃ N, up M = up N := ⟨M, rfl⟩
    simp only [exactLib, dif_pos h]
    rw [← up_injective h.choose_spec]
  solve := fun M B => by
    have h : ∃ N : Matrix _ _ ℝ × Matrix _ _ ℝ, up M = up N.1 ∧ up B = up N.2 := ⟨(M, B), rfl, rfl⟩
    simp only [exactLib, dif_pos h]
    rw [← up_injective h.choose_spec.1, ← up_injective h.choose_spec.2]

/-- Exact arithmetic and an exact library exist, and a search that always returns the same parameters finds them. -/
example {Θ W : Type} (lik : Θ → Py ℝ) (t : Θ) (w : W) : ExactArith ⟨.num⟩ ∧ ExactLib (exactLib Θ W) ∧ Finds (fun _ w => .ok (t, w)) lik w t w :=
  ⟨fun _ => rfl, exactLib_exact Θ W, fun _ _ => rfl⟩

/-- Kriging on three points: the two programs train, and agree. -/
example (noise : Option ℝ) : ∃ gp' t p m, (exGP noise).train exWorld exX exY = .ok (gp', t) ∧ gp'.kernel.param = pow10 p.1 ∧
    (krigOf (exGP noise).box noise (exGP noise).regr).trainBy ⟨.num⟩ (exactLib _ Unit) (fun _ w => .ok (p, w)) exX (upVec exY) () = .ok (m, ()) := by
  obtain ⟨gp', t, h⟩ := exGP_trains noise exX exY 0 2 exY_ne
  obtain ⟨p, hp, -, hall⟩ := C164_finite_kriging (A := ⟨.num⟩) (fun _ => rfl) (exactLib_exact _ Unit) h
  obtain ⟨m, hm, -⟩ := hall (fun _ w => .ok (p, w)) () () fun _ _ => rfl
  exact ⟨gp', t, p, m, h, hp, hm⟩

example : ∃ hk' t, (exHK (some 0)).train ⟨exWorld, exWorld⟩ (fun i _ => ![0, 1, 2] i : Samples 3 1) ![0, 1, 5] (fun i _ => ![0, 1, 2] i : Samples 3 1) ![0, 1, 2] = .ok (hk', t) := exHK_trains

example : ∃ sk' t, (exSK true .error).train exSKWorld (fun i _ => ![0, 1, 2] i : Samples 3 1) ![0, 1, 5] (fun i _ => ![0, 1, 2] i : Samples 3 1) ![0, 1, 2] = .ok (sk', t) ∧ (exSK true .error).rhoMethod = .error := by
  obtain ⟨sk', t, h, _⟩ := exSK_trains
  exact ⟨sk', t, h, rfl⟩

/-- Co-Kriging on three points of each fidelity: the two programs train, and agree. -/
example (noise : Option ℝ) (h0 : noise ≠ some 0) : ∃ ck' t pl ph s m, (exCK noise).train exCKWorld exX exY exX exY = .ok (ck', t) ∧
    trainCKBy ⟨.num⟩ (exactLib _ Unit) (krigOf (exCK noise).box (exCK noise).lf.noise (exCK noise).lf.regr) ((exCK noise).noise.map .num) (fun _ w => .ok (pl, w))
      (fun _ _ _ _ w => .ok ((.num t.rho, ph, .num s, .num t.sigma2, .num t.mu, up t.LC), w)) exX (upVec exY) exX (upVec exY) () = .ok (m, ()) := by
  obtain ⟨ck', t, h⟩ := exCK_trains noise h0 exX exY exX exY 0 2 exY_ne (by norm_num)
  obtain ⟨pl, -, hall⟩ := C164_finite_ck (A := ⟨.num⟩) (fun _ => rfl) (exactLib_exact _ Unit) (by norm_num) h
  obtain ⟨low, hall⟩ := hall (fun _ w => .ok (pl, w)) () () fun _ _ => rfl
  obtain ⟨θ, s, hk, hs⟩ : ∃ θ s, ck'.kernel.param = pow10 θ ∧ ck'.noise = some s := by
    obtain ⟨_, _, h⟩ := Py.bind_ok.mp h
    obtain ⟨_, _, h⟩ := Py.bind_ok.mp h
    obtain ⟨_, _, h⟩ := Py.bind_ok.mp h
    dsimp only at h
    obtain ⟨⟨_, _⟩, _, h⟩ := Py.bind_ok.mp h
    dsimp only at h
    obtain ⟨⟨_, θ, s⟩, _, h⟩ := Py.bind_ok.mp h
    dsimp only at h
    obtain ⟨_, _, h⟩ := Py.bind_ok.mp h
    obtain ⟨_, _, h⟩ := Py.bind_ok.mp h
    obtain ⟨_, _, h⟩ := Py.bind_ok.mp h
    obtain ⟨_, _, h⟩ := Py.bind_ok.mp h
    obtain ⟨_, _, h⟩ := Py.bind_ok.mp h
    obtain ⟨rfl, _⟩ := Prod.mk.inj (Except.ok.inj h)
    exact ⟨θ, s, rfl, rfl⟩
  obtain ⟨m, hm, -⟩ := hall (fun _ _ _ _ w => .ok ((.num t.rho, (θ, 0), .num s, .num t.sigma2, .num t.mu, up t.LC), w)) () (θ, 0) s hk hs rfl
  exact ⟨ck', t, pl, (θ, 0), s, m, h, hm⟩

end Mfpml.Props
