import Mathlib.Analysis.Complex.ExponentialBounds
import Verif.Lemmas.Units
import Verif.Props.GP
import Verif.Props.MFKriging
import Verif.Props.CoKriging
import Verif.Props.BestPrediction

/-!
# Units of the responses (C103)
-/

set_option linter.unusedSectionVars false

open scoped BigOperators Matrix

namespace Mfpml.Props

open Mfpml.GP Mfpml.Spec
open Mfpml.EA (Box)

variable {n m d q ql qd nh nl : ℕ}

theorem map_error {α β : Type} {x : Py α} {f : α → β} {e : PyErr} : x.map f = .error e ↔ x = .error e := by
  cases x with
  | error e' => simp [Except.map]
  | ok v => simp [Except.map]

/-- C103 (Gaussian process). Let the responses be expressed in other units, `a y + b` with `a ≠ 0`, and a known noise level (if there is one) in the same units.  Training raises an exception in one
unit system exactly when it raises the same one in the other.  Otherwise it finds the same length scales and the same noise (in the respective units), and every later prediction, with and without
standard deviations, is the same in the respective units.  (`Except.map`: the result is transformed, an exception is passed on.) -/
theorem C103_gp_units (gp : GPObj d q) (w : World d) (X : Samples n d) (y : Fin n → ℝ) (a b : ℝ) (ha : a ≠ 0) :
    (∀ e, ({ gp with noise := gp.noise.map (|a| * ·) } : GPObj d q).train w X (fun i => a * y i + b) = .error e ↔ gp.train w X y = .error e) ∧
    ∀ gp' t, gp.train w X y = .ok (gp', t) →
      ∃ t', ({ gp with noise := gp.noise.map (|a| * ·) } : GPObj d q).train w X (fun i => a * y i + b) = .ok ({ gp' with noise := gp'.noise.map (|a| * ·) }, t') ∧
        ∀ (m : ℕ) (Xnew : Samples m d),
          predictMean { gp' with noise := gp'.noise.map (|a| * ·) } t' Xnew = (predictMean gp' t Xnew).map (fun μ j => a * μ j + b) ∧
          predictStd { gp' with noise := gp'.noise.map (|a| * ·) } t' Xnew = (predictStd gp' t Xnew).map (fun r => (fun j => a * r.1 j + b, fun j => |a| * r.2 j)) := by
  have h := gp_train_units ha b gp w X y
  unfold GPObj.units at h
  refine ⟨fun e => by rw [h, map_error], fun gp' t ht => ?_⟩
  rw [h, ht]
  exact ⟨t.units a b, rfl, fun m Xnew => ⟨gp_predict_units ha b gp' t Xnew, gp_predictStd_units ha b gp' t Xnew⟩⟩

/-- The example model, with and without known noise, and both kinds of outcome: it can be trained on responses that are not all equal, not on equal ones. -/
example (noise : Option ℝ) : (∃ gp' t, (exGP noise).train exWorld exX exY = .ok (gp', t)) ∧ (exGP noise).train exWorld exX (fun _ => 1) = .error .nonFinite := by
  refine ⟨exGP_trains noise exX exY 0 2 exY_ne, ?_⟩
  have hr : ∀ j, (exGP noise).box.high j - (exGP noise).box.low j ≠ 0 := fun j => by simp [exGP]
  unfold GPObj.train
  rw [normalizeInput_eq exX hr]
  show (normalizeOutput _ >>= _) = _
  unfold normalizeOutput
  rw [if_pos ((std_eq_zero_iff _).mpr (fun _ _ => rfl))]
  rfl

/-- C103 (hierarchical Kriging). As `C103_gp_units`, both fidelities and both noise levels expressed in the other units. -/
theorem C103_hk_units (hk : HKObj d q) (w : MFWorld d) (Xh : Samples nh d) (yh : Fin nh → ℝ) (Xl : Samples nl d) (yl : Fin nl → ℝ) (a b : ℝ) (ha : a ≠ 0) :
    let U : HKObj d q → HKObj d q := fun hk => { hk with noise := hk.noise.map (|a| * ·), lf := { hk.lf with noise := hk.lf.noise.map (|a| * ·) } }
    (∀ e, (U hk).train w Xh (fun i => a * yh i + b) Xl (fun i => a * yl i + b) = .error e ↔ hk.train w Xh yh Xl yl = .error e) ∧
    ∀ hk' t, hk.train w Xh yh Xl yl = .ok (hk', t) →
      ∃ t', (U hk).train w Xh (fun i => a * yh i + b) Xl (fun i => a * yl i + b) = .ok (U hk', t') ∧
        ∀ (m : ℕ) (Xnew : Samples m d),
          (U hk').predict t' Xnew = (hk'.predict t Xnew).map (fun μ j => a * μ j + b) ∧
          (U hk').predictStd t' Xnew = (hk'.predictStd t Xnew).map (fun r => (fun j => a * r.1 j + b, fun j => |a| * r.2 j)) ∧
          (U hk').predictLf t' Xnew = (hk'.predictLf t Xnew).map (fun μ j => a * μ j + b) := by
  intro U
  have h := hk_train_units ha b hk w Xh yh Xl yl
  refine ⟨fun e => by rw [show U hk = hk.units a from rfl, h, map_error], fun hk' t ht => ?_⟩
  rw [show U hk = hk.units a from rfl, h, ht]
  exact ⟨t.units a b, rfl, fun m Xnew => ⟨hk_predict_units ha b hk' t Xnew, hk_predictStd_units ha b hk' t Xnew, gp_predict_units ha b hk'.lf t.lfFit Xnew⟩⟩

example : ∃ hk' t, (exHK (some 0)).train ⟨exWorld, exWorld⟩ (fun i _ => ![0, 1, 2] i : Samples 3 1) ![0, 1, 5] (fun i _ => ![0, 1, 2] i : Samples 3 1) ![0, 1, 2] = .ok (hk', t) :=
  exHK_trains

/-- C103 (scaled Kriging). As `C103_gp_units`, for a scale factor that is not optimised and has its value 1 (see `C44_sk_rho_off`). -/
theorem C103_sk_units (sk : SKObj d ql qd) (hopt : sk.rhoOptimize = false) (hrho : sk.rho = 1) (w : SKWorld d)
    (Xh : Samples nh d) (yh : Fin nh → ℝ) (Xl : Samples nl d) (yl : Fin nl → ℝ) (a b : ℝ) (ha : a ≠ 0) :
    let U : SKObj d ql qd → SKObj d ql qd := fun sk =>
      { sk with lf := { sk.lf with noise := sk.lf.noise.map (|a| * ·) }, disc := { sk.disc with noise := sk.disc.noise.map (|a| * ·) } }
    (∀ e, (U sk).train w Xh (fun i => a * yh i + b) Xl (fun i => a * yl i + b) = .error e ↔ sk.train w Xh yh Xl yl = .error e) ∧
    ∀ sk' t, sk.train w Xh yh Xl yl = .ok (sk', t) →
      ∃ t', (U sk).train w Xh (fun i => a * yh i + b) Xl (fun i => a * yl i + b) = .ok (U sk', t') ∧
        ∀ (m : ℕ) (Xnew : Samples m d),
          (U sk').predict t' Xnew = (sk'.predict t Xnew).map (fun μ j => a * μ j + b) ∧
          (U sk').predictStd t' Xnew = (sk'.predictStd t Xnew).map (fun r => (fun j => a * r.1 j + b, fun j => |a| * r.2 j)) := by
  intro U
  have h := sk_train_units ha b sk hopt w Xh yh Xl yl
  refine ⟨fun e => by rw [show U sk = sk.units a from rfl, h, map_error], fun sk' t ht => ?_⟩
  have hr : sk'.rho = sk.rho := by
    obtain ⟨f, disc, _, _, h3, _⟩ := skTrain_ok ht
    rw [hopt] at h3
    simp only [Bool.false_eq_true, if_false, Except.ok.injEq, Prod.mk.injEq] at h3
    exact h3.1.symm
  rw [show U sk = sk.units a from rfl, h, ht]
  refine ⟨t.units a b sk.rho, rfl, fun m Xnew => ⟨?_, ?_⟩⟩
  · have := sk_predict_units ha b sk' t Xnew
    rw [hr, hrho] at this
    rw [hrho]
    simp only [sub_self, mul_zero, zero_mul, add_zero] at this
    exact this
  · have := sk_predictStd_units ha b sk' t Xnew
    rw [hr] at this
    exact this

example : (exSK false .error).rhoOptimize = false ∧ (exSK false .error).rho = 1 ∧
    ∃ sk' t, (exSK false .error).train exSKWorld (fun i _ => ![0, 1, 2] i : Samples 3 1) ![0, 2, 2] (fun i _ => ![0, 1, 2] i : Samples 3 1) ![0, 1, 2] = .ok (sk', t) := by
  refine ⟨rfl, rfl, ?_⟩
  obtain ⟨lf', lfFit, hlf⟩ := exGP_trains (some 0) (fun i _ => ![0, 1, 2] i : Samples 3 1) ![0, 1, 2] 0 1 (by norm_num)
  have hf := C34_interpolation _ _ _ _ rfl _ _ hlf
  obtain ⟨disc', discFit, hd⟩ := exGP_trains (some 0) (fun i _ => ![0, 1, 2] i : Samples 3 1) (getDisc 1 ![0, 1, 2] ![0, 2, 2]) 0 1
    (by simp [getDisc]; norm_num)
  exact ⟨_, _, Py.bind_ok.mpr ⟨_, hlf, Py.bind_ok.mpr ⟨_, hf, Py.bind_ok.mpr ⟨(1, exGP (some 0)), rfl, Py.bind_ok.mpr ⟨_, hd, rfl⟩⟩⟩⟩⟩

/-- C103 (co-Kriging, what holds). As `C103_gp_units`, when the noise level is unknown or known to be 0; the object is left in the same state (its attributes refer to normalised responses).
Missing: other known noise levels, for which it is false (`C103_ck_counterexample`). -/
theorem C103_ck_units_partial (ck : CKObj d q) (hno : ck.noise = none ∨ ck.noise = some 0) (w : CKWorld d)
    (Xh : Samples nh d) (yh : Fin nh → ℝ) (Xl : Samples nl d) (yl : Fin nl → ℝ) (a b : ℝ) (ha : a ≠ 0) :
    (∀ e, ck.train w Xh (fun i => a * yh i + b) Xl (fun i => a * yl i + b) = .error e ↔ ck.train w Xh yh Xl yl = .error e) ∧
    ∀ ck' t, ck.train w Xh yh Xl yl = .ok (ck', t) →
      ∃ t', ck.train w Xh (fun i => a * yh i + b) Xl (fun i => a * yl i + b) = .ok (ck', t') ∧
        ∀ (m : ℕ) (Xnew : Samples m d),
          ck'.predict t' Xnew = (ck'.predict t Xnew).map (fun μ j => a * μ j + b) ∧
          (ck'.predictStd t' Xnew).map Prod.snd = (ck'.predictStd t Xnew).map (fun r => (fun j => a * r.2.1 j + b, fun j => |a| * r.2.2 j)) ∧
          ck'.predictLfStd t' Xnew = (ck'.predictLfStd t Xnew).map (fun r => (fun j => a * r.1 j + b, fun j => |a| * r.2 j)) := by
  have hu : ck.units a = ck := by
    unfold CKObj.units
    rcases hno with h | h
    · rw [h, Option.map]; cases ck; simp_all
    · rw [h, Option.map]; cases ck; simp_all
  have h := ck_train_units ha b ck (fun s hs => by rcases hno with h | h <;> rw [h] at hs <;> simp_all) w Xh yh Xl yl
  rw [hu] at h
  refine ⟨fun e => by rw [h, map_error], fun ck' t ht => ?_⟩
  rw [h, ht]
  refine ⟨t.units a b, rfl, fun m Xnew => ⟨ck_predict_units ha b ck' t Xnew, ?_, ck_predictLf_units ha b ck' t Xnew⟩⟩
  rw [ck_predictStd_units ha b ck' t Xnew]
  cases ck'.predictStd t Xnew with
  | error e => rfl
  | ok r => rfl

example : ∃ ck' t, (exCK none).train exCKWorld exX exY exX exY = .ok (ck', t) := exCK_trains none (by simp) exX exY exX exY 0 2 exY_ne (by norm_num)

/-! ### co-Kriging with a known noise level -/

open Classical in
/-- A local search that does not move: it reports its start (or the lower corner, for a start outside the bounds).  With restarts the best start is chosen. -/
noncomputable def startMinimizer : Minimizer := fun _ obj x0 lo hi => do
  let x := if Between lo hi x0 then x0 else lo
  let f ← obj x
  .ok (x, f)

theorem startMinimizer_good : GoodMinimizer startMinimizer := by
  intro p obj x0 lo hi hb hobj
  unfold startMinimizer
  by_cases hx : Between lo hi x0
  · obtain ⟨v, hv⟩ := hobj x0 hx
    refine ⟨x0, v, ?_, hx, hv⟩
    simp only [if_pos hx]
    rw [hv]; rfl
  · obtain ⟨v, hv⟩ := hobj lo (fun j => ⟨le_refl _, hb j⟩)
    refine ⟨lo, v, ?_, fun j => ⟨le_refl _, hb j⟩, hv⟩
    simp only [if_neg hx]
    rw [hv]; rfl

/-- The search with two starts. -/
theorem start_search {p : ℕ} {obj : (Fin p → ℝ) → Py ℝ} {lo hi x1 x2 x : Fin p → ℝ} {v1 v2 : ℝ} (h1 : Between lo hi x1) (h2 : Between lo hi x2) (e1 : obj x1 = .ok v1)
    (e2 : obj x2 = .ok v2) (h : searchHyper none startMinimizer obj lo hi [x1, x2] = .ok x) : (v2 < v1 → x = x2) ∧ (v1 < v2 → x = x1) := by
  unfold searchHyper at h
  simp only [restartLoop, startMinimizer, if_pos h1, if_pos h2, e1, e2, bind, Except.bind] at h
  constructor
  · intro hv
    simp only [WithTop.coe_lt_top, if_true, WithTop.coe_lt_coe, hv, Except.ok.injEq] at h
    exact h.symm
  · intro hv
    simp only [WithTop.coe_lt_top, if_true, WithTop.coe_lt_coe, not_lt.mpr hv.le, if_false, Except.ok.injEq] at h
    exact h.symm

/-- Two samples at the ends of `[0, 4]`. -/
def exEnds : Samples 2 1 := fun i _ => ![0, 4] i

/-- Opposite responses. -/
def exOpp (S : ℝ) : Fin 2 → ℝ := ![-S, S]

/-- A co-Kriging model whose low-fidelity length scale is fixed, with known noise `S`. -/
noncomputable def exCKN (S : ℝ) : CKObj 1 1 :=
  { box := (exGP none).box, kernel := RBF.mk' (fun _ => 0) (-2) 3, optimizer := none, rhoLow := 1 / 100, rhoHigh := 100, noise := some S,
    lf := { kernel := RBF.mk' (fun _ => 0) 0 0, regr := ordinary 1, optimizer := none, noise := some S } }

/-- Two starts of the `(rho, theta)` search. -/
noncomputable def exCKNWorld : CKWorld 1 := { lf := exWorld, mini := startMinimizer, starts := [![1 / 100, 1], ![1 / 3, 0]], startsNoise := [fun _ => 0] }

theorem exCKN_trains {S : ℝ} (hS : 0 < S) : ∃ ck' t, (exCKN S).train exCKNWorld exEnds (exOpp S) exEnds (exOpp S) = .ok (ck', t) := by
  have h0 : (exCKN S).noise ≠ some 0 := by simp [exCKN, hS.ne']
  refine C48_train_succeeds (exCKN S) exCKNWorld _ _ _ _ (fun _ => by simp [exCKN, exGP]) (by simp [exCKN, RBF.mk']; norm_num) (by simp [exCKN, RBF.mk'])
    (by simp [exCKN]; norm_num) cornerMinimizer_good (fun run h => by simp [exCKN] at h) startMinimizer_good (fun run h => by simp [exCKN] at h)
    (by simp [exCKNWorld, exWorld]) (by simp [exCKNWorld, exWorld]) (by simp [exCKNWorld]) (by simp [exCKNWorld]) 0 1 ?_ (by norm_num)
    (ordinary_indep _ (by norm_num)) ?_ (fun h => absurd h h0)
  · simp [exOpp]; intro h; linarith
  · rintro (h | ⟨h, _⟩)
    · exact absurd h h0
    · simp [exCKN] at h

theorem exOpp_mean (S : ℝ) : mean (exOpp S) = 0 := by unfold mean exOpp; rw [Fin.sum_univ_two]; simp

theorem exOpp_std {S : ℝ} (hS : 0 < S) : std (exOpp S) = S := by
  unfold std
  rw [exOpp_mean, Fin.sum_univ_two]
  show Real.sqrt (((-S - 0) ^ 2 + (S - 0) ^ 2) / ((2 : ℕ) : ℝ)) = S
  rw [show ((-S - 0) ^ 2 + (S - 0) ^ 2) / ((2 : ℕ) : ℝ) = S ^ 2 by push_cast; ring]
  exact Real.sqrt_sq hS.le

theorem exOpp_scaled {S : ℝ} (hS : 0 < S) : (fun i => (exOpp S i - mean (exOpp S)) / std (exOpp S)) = ![-1, 1] := by
  funext i
  rw [exOpp_mean, exOpp_std hS]
  fin_cases i
  · simp [exOpp, neg_div, hS.ne']
  · simp [exOpp, hS.ne']

/-- The samples in the unit box. -/
theorem exEnds_unit : (fun i => normPt (exGP none).box (exEnds i)) = fun i _ => (![0, 1] : Fin 2 → ℝ) i := by
  funext i k
  fin_cases i <;> simp [normPt, exGP, exEnds]

/-- Covariance of two samples at distance 1. -/
theorem cov_two (param : Fin 1 → ℝ) (hp : 0 < param 0) (s : ℝ) :
    covTrain param (fun i _ => (![0, 1] : Fin 2 → ℝ) i : Samples 2 1) s =
      !![1 + 1e-10 + s ^ 2, Real.exp (-(param 0)); Real.exp (-(param 0)), 1 + 1e-10 + s ^ 2] := by
  rw [covTrain_apply param (fun k => by rw [Subsingleton.elim k 0]; exact hp.le)]
  ext i j
  fin_cases i <;> fin_cases j <;> simp [gaussCorr] <;> ring

theorem inv_mulVec_eigen {K : Matrix (Fin n) (Fin n) ℝ} (hK : K.PosDef) {v : Fin n → ℝ} {l : ℝ} (hl : l ≠ 0) (h : K *ᵥ v = l • v) : K⁻¹ *ᵥ v = l⁻¹ • v := by
  have hu : IsUnit K.det := isUnit_iff_ne_zero.mpr hK.det_pos.ne'
  have : K⁻¹ *ᵥ (K *ᵥ v) = v := by rw [Matrix.mulVec_mulVec, Matrix.nonsing_inv_mul _ hu, Matrix.one_mulVec]
  rw [h, Matrix.mulVec_smul] at this
  rw [← this, smul_smul, inv_mul_cancel₀ hl, one_smul]
  rw [this]

theorem opp_eigen (c k x : ℝ) : (!![c, k; k, c] : Matrix (Fin 2) (Fin 2) ℝ) *ᵥ ![-x, x] = (c - k) • ![-x, x] := by
  funext i
  fin_cases i <;> simp [Matrix.mulVec, dotProduct, Fin.sum_univ_two] <;> ring

theorem ones_opp (x : ℝ) : (fun _ : Fin 2 => (1 : ℝ)) ⬝ᵥ ![-x, x] = 0 := by simp [dotProduct, Fin.sum_univ_two]

/-- The number minimised, for opposite discrepancies. -/
theorem ckNegLogLik_two (theta : Fin 1 → ℝ) (yhs p : Fin 2 → ℝ) (rho s x : ℝ) {z : Prop} (hz : ¬ z) (hd : (fun i => yhs i - rho * p i) = ![-x, x]) :
    ckNegLogLik (fun i _ => (![0, 1] : Fin 2 → ℝ) i : Samples 2 1) yhs p rho theta s z =
      .ok (x ^ 2 / (1 + 1e-10 + s ^ 2 - Real.exp (-(10 : ℝ) ^ theta 0)) +
        1 / 2 * Real.log ((1 + 1e-10 + s ^ 2) ^ 2 - Real.exp (-(10 : ℝ) ^ theta 0) ^ 2)) := by
  have hpd := posDef_covTrain (pow10 theta) (fun i _ => (![0, 1] : Fin 2 → ℝ) i : Samples 2 1) s
  obtain ⟨g, hg, hG⟩ := diffFit_succeeds (fun i => yhs i - rho * p i) hpd (by norm_num)
  unfold ckNegLogLik
  rw [hg]
  simp only [bind, Except.bind, if_neg hz]
  rw [logDiag_eq hG.chol]
  have hK := cov_two (pow10 theta) (pow10_pos theta 0) s
  set c := 1 + 1e-10 + s ^ 2 with hc
  set k := Real.exp (-(pow10 theta 0)) with hk
  have hk1 : k < 1 := by rw [hk, Real.exp_lt_one_iff]; linarith [pow10_pos theta 0]
  have hl : c - k ≠ 0 := by
    have : 0 < c - k := by rw [hc]; nlinarith [sq_nonneg s]
    exact this.ne'
  have hinv : (covTrain (pow10 theta) (fun i _ => (![0, 1] : Fin 2 → ℝ) i : Samples 2 1) s)⁻¹ *ᵥ ![-x, x] = (c - k)⁻¹ • ![-x, x] :=
    inv_mulVec_eigen hpd hl (by rw [hK]; exact opp_eigen c k x)
  have hmu : g.mu = 0 := by
    rw [hG.mu, hd, hinv, dotProduct_smul, ones_opp, smul_zero, zero_div]
  have hsig : g.sigma2 = x ^ 2 / (c - k) := by
    have hd' : (fun i => yhs i - rho * p i - g.mu) = ![-x, x] := by rw [hmu]; simpa using hd
    rw [hG.sigma2, hG.gamma, hd', hinv]
    simp [dotProduct, Fin.sum_univ_two]
    field_simp
  have hdet : (covTrain (pow10 theta) (fun i _ => (![0, 1] : Fin 2 → ℝ) i : Samples 2 1) s).det = c ^ 2 - k ^ 2 := by
    rw [hK, Matrix.det_fin_two_of]; ring
  rw [hsig, hdet]
  show Except.ok _ = Except.ok (x ^ 2 / (c - k) + 1 / 2 * Real.log (c ^ 2 - k ^ 2))
  congr 1
  push_cast
  ring

/-- Low-fidelity prediction at the samples in the example, for any unit `S`. -/
theorem exCKN_lf {S : ℝ} (hS : 0 < S) {ck' : CKObj 1 1} {t : CKFit 2 2 1 1} (h : (exCKN S).train exCKNWorld exEnds (exOpp S) exEnds (exOpp S) = .ok (ck', t)) :
    let p := (1 + 1e-10 - Real.exp (-1)) / (2 + 1e-10 - Real.exp (-1))
    ck'.lf.predict t.lfFit (fun i _ => (![0, 1] : Fin 2 → ℝ) i : Samples 2 1) = ![-p, p] := by
  intro p
  obtain ⟨hT, _, _, _, _, _, _, hXl, hno, hlf⟩ := ckTrained_of_train h
  rw [exOpp_scaled hS] at hlf
  have hXl' : t.Xls = fun i _ => (![0, 1] : Fin 2 → ℝ) i := by rw [hXl]; exact exEnds_unit
  rw [hXl'] at hlf
  obtain ⟨hraw, hX, hy, hregr, _⟩ := rawTrained_of_train hlf
  have hn1 : t.lfFit.noise = 1 := by
    rw [(hno S rfl).2, exOpp_std hS, div_self hS.ne']
  have hpar : ck'.lf.kernel.param = fun _ => 1 := by
    unfold RawGP.train at hlf
    obtain ⟨⟨theta, noise⟩, h1, h2⟩ := Py.bind_ok.mp hlf
    obtain ⟨g, _, h2⟩ := Py.bind_ok.mp h2
    simp only [Except.ok.injEq, Prod.mk.injEq] at h2
    have hlf0 : ckLf0 (exCKN S) (std (exOpp S)) = { (exCKN S).lf with noise := some (S / std (exOpp S)) } := rfl
    rw [hlf0] at h1 h2
    unfold RawGP.fitHyper at h1
    obtain ⟨x, hx, h1⟩ := Py.bind_ok.mp h1
    simp only [Except.ok.injEq, Prod.mk.injEq] at h1
    have hc := corner_search (x0 := fun _ => 0) hx
    rw [← h2.1]
    show pow10 theta = _
    rw [← h1.1, hc]
    funext j
    simp [pow10, exCKN, RBF.mk']
  have hregr' : ck'.lf.regr = ordinary 1 := by rw [hregr]; rfl
  have hK := hraw.K
  rw [hX, hn1, hpar, cov_two _ one_pos] at hK
  set k := Real.exp (-1) with hk
  have hk1 : k < 1 := by rw [hk, Real.exp_lt_one_iff]; norm_num
  have hG := hraw.gls
  have hl : (1 + 1e-10 + 1 ^ 2 - k : ℝ) ≠ 0 := by
    have : 0 < (1 + 1e-10 + 1 ^ 2 - k : ℝ) := by norm_num; linarith
    exact this.ne'
  have hinv : t.lfFit.K⁻¹ *ᵥ ![-1, 1] = (1 + 1e-10 + 1 ^ 2 - k : ℝ)⁻¹ • ![-1, 1] := inv_mulVec_eigen hG.posDef hl (by rw [hK]; exact opp_eigen _ _ _)
  have hF : t.lfFit.F = fun _ _ => 1 := by rw [hraw.F, hregr']; rfl
  have hbeta : t.lfFit.gls.beta = 0 := by
    rw [hG.beta, hy, hinv, Matrix.mulVec_smul]
    have : t.lfFit.Fᵀ *ᵥ ![-1, 1] = 0 := by
      funext j
      rw [hF]
      exact ones_opp 1
    rw [this, smul_zero, Matrix.mulVec_zero]
  have hgamma : t.lfFit.gls.gamma = (1 + 1e-10 + 1 ^ 2 - k : ℝ)⁻¹ • ![-1, 1] := by
    rw [hG.gamma, hbeta, Matrix.mulVec_zero, sub_zero, hy, hinv]
  have hcross : rbfMatrix (fun _ => 1) (fun i _ => (![0, 1] : Fin 2 → ℝ) i : Samples 2 1) (fun i _ => (![0, 1] : Fin 2 → ℝ) i : Samples 2 1) = !![1 + 1e-10, k; k, 1 + 1e-10] := by
    have := cov_two (fun _ => 1) one_pos 0
    rw [covTrain_zero] at this
    rw [this]
    simp [hk]
  unfold RawGP.predict RBF.getKernelMatrix
  rw [hbeta, Matrix.mulVec_zero, zero_add, hX, hpar, hcross, hgamma, Matrix.mulVec_smul]
  have htr : (!![1 + 1e-10, k; k, 1 + 1e-10] : Matrix (Fin 2) (Fin 2) ℝ)ᵀ = !![1 + 1e-10, k; k, 1 + 1e-10] := by
    ext i j; fin_cases i <;> fin_cases j <;> rfl
  rw [htr, opp_eigen]
  have hp : p = (1 + 1e-10 + 1 ^ 2 - k : ℝ)⁻¹ * (1 + 1e-10 - k) := by
    show (1 + 1e-10 - k) / (2 + 1e-10 - k) = _
    rw [show (2 + 1e-10 - k : ℝ) = 1 + 1e-10 + 1 ^ 2 - k by ring, div_eq_inv_mul]
  funext i
  fin_cases i
  · simp [hp]; ring
  · simp [hp]

theorem exp_bounds : 0.367 < Real.exp (-1) ∧ Real.exp (-1) < 0.368 ∧ 0 < Real.exp (-10) ∧ Real.exp (-10) < 0.001 := by
  have h1 := Real.exp_one_gt_d9
  have h2 := Real.exp_one_lt_d9
  have hpos := Real.exp_pos 1
  have e1 : Real.exp (-1) < 0.368 := by
    rw [Real.exp_neg, inv_lt_comm₀ hpos (by norm_num)]
    norm_num; linarith
  refine ⟨?_, e1, Real.exp_pos _, ?_⟩
  · rw [Real.exp_neg, lt_inv_comm₀ (by norm_num) hpos]
    norm_num; linarith
  · have : Real.exp (-10) = Real.exp (-1) ^ 10 := by rw [← Real.exp_nat_mul]; norm_num
    rw [this]
    calc Real.exp (-1) ^ 10 < 0.368 ^ 10 := pow_lt_pow_left₀ e1 (Real.exp_pos _).le (by norm_num)
      _ < 0.001 := by norm_num

/-- Which start the search chooses in the example, for any unit `S`; `v1`, `v2` are the values of the two starts. -/
theorem exCKN_choice {S : ℝ} (hS : 0 < S) {ck' : CKObj 1 1} {t : CKFit 2 2 1 1} (h : (exCKN S).train exCKNWorld exEnds (exOpp S) exEnds (exOpp S) = .ok (ck', t)) :
    let p := (1 + 1e-10 - Real.exp (-1)) / (2 + 1e-10 - Real.exp (-1))
    let c := 1 + 1e-10 + (1 / S) ^ 2
    let v1 := (1 - 1 / 100 * p) ^ 2 / (c - Real.exp (-10)) + 1 / 2 * Real.log (c ^ 2 - Real.exp (-10) ^ 2)
    let v2 := (1 - 1 / 3 * p) ^ 2 / (c - Real.exp (-1)) + 1 / 2 * Real.log (c ^ 2 - Real.exp (-1) ^ 2)
    (v2 < v1 → t.rho = 1 / 3 ∧ ck'.kernel.param 0 = 1) ∧ (v1 < v2 → t.rho = 1 / 100 ∧ ck'.kernel.param 0 = 10) := by
  intro p c v1 v2
  have hpred := exCKN_lf hS h
  have hlft := (ckTrained_of_train h).2.2.2.2.2.2.2.2.2
  unfold CKObj.train at h
  obtain ⟨Xhs, h1, h⟩ := Py.bind_ok.mp h
  obtain ⟨Xls, h2, h⟩ := Py.bind_ok.mp h
  obtain ⟨yhs, h3, h⟩ := Py.bind_ok.mp h
  obtain ⟨hr, rfl⟩ := normalizeInput_ok h1
  obtain ⟨_, rfl⟩ := normalizeInput_ok h2
  obtain ⟨hs, rfl⟩ := normalizeOutput_ok h3
  obtain ⟨⟨lf, lfFit⟩, h4, h⟩ := Py.bind_ok.mp h
  obtain ⟨⟨rho, theta, noise⟩, h5, h⟩ := Py.bind_ok.mp h
  obtain ⟨g, h6, h⟩ := Py.bind_ok.mp h
  obtain ⟨LC, h7, h⟩ := Py.bind_ok.mp h
  obtain ⟨a, h8, h⟩ := Py.bind_ok.mp h
  obtain ⟨b, h9, h⟩ := Py.bind_ok.mp h
  obtain ⟨mu, h10, h⟩ := Py.bind_ok.mp h
  simp only [Except.ok.injEq, Prod.mk.injEq] at h
  obtain ⟨e1, e2⟩ := h
  subst e1 e2
  simp only [] at hpred h5 ⊢
  rw [exOpp_scaled hS, show (exCKN S).box = (exGP none).box from rfl, exEnds_unit, hpred, exOpp_std hS,
    show (exCKN S).noise.map (· / S) = some 1 by simp [exCKN, hS.ne']] at h5
  unfold CKObj.fitHyper at h5
  obtain ⟨x, hx, h5⟩ := Py.bind_ok.mp h5
  simp only [Except.ok.injEq, Prod.mk.injEq] at h5
  have hb1 : Between (Fin.cons (exCKN S).rhoLow (fun _ => (exCKN S).kernel.boundLow)) (Fin.cons (exCKN S).rhoHigh (fun _ => (exCKN S).kernel.boundHigh)) (![1 / 100, 1] : Fin 2 → ℝ) := by
    intro j
    fin_cases j
    · simp [exCKN]; norm_num
    · simp [exCKN, RBF.mk']; norm_num
  have hb2 : Between (Fin.cons (exCKN S).rhoLow (fun _ => (exCKN S).kernel.boundLow)) (Fin.cons (exCKN S).rhoHigh (fun _ => (exCKN S).kernel.boundHigh)) (![1 / 3, 0] : Fin 2 → ℝ) := by
    intro j
    fin_cases j
    · simp [exCKN]; norm_num
    · simp [exCKN, RBF.mk']
  have hd : ∀ r : ℝ, (fun i => (![-1, 1] : Fin 2 → ℝ) i - r * (![-p, p] : Fin 2 → ℝ) i) = ![-(1 - r * p), 1 - r * p] := by
    intro r
    funext i
    fin_cases i
    · simp; ring
    · simp
  have ev1 := ckNegLogLik_two (fun j => (![1 / 100, 1] : Fin 2 → ℝ) j.succ) ![-1, 1] ![-p, p] ((![1 / 100, 1] : Fin 2 → ℝ) 0) (1 / S) (1 - 1 / 100 * p) (z := (1 : ℝ) = 0) one_ne_zero (hd _)
  have ev2 := ckNegLogLik_two (fun j => (![1 / 3, 0] : Fin 2 → ℝ) j.succ) ![-1, 1] ![-p, p] ((![1 / 3, 0] : Fin 2 → ℝ) 0) (1 / S) (1 - 1 / 3 * p) (z := (1 : ℝ) = 0) one_ne_zero (hd _)
  have hx1 : (-(10 : ℝ) ^ (![1 / 100, 1] : Fin 2 → ℝ) (Fin.succ 0)) = -10 := by simp
  have hx2 : (-(10 : ℝ) ^ (![1 / 3, 0] : Fin 2 → ℝ) (Fin.succ 0)) = -1 := by simp
  rw [hx1] at ev1
  rw [hx2] at ev2
  obtain ⟨c1, c2⟩ := start_search hb1 hb2 ev1 ev2 hx
  constructor
  · intro hv
    have := c1 hv
    rw [← h5.1, ← h5.2.1, this]
    simp [RBF.setParams, pow10]
  · intro hv
    have := c2 hv
    rw [← h5.1, ← h5.2.1, this]
    simp [RBF.setParams, pow10]

/-- C103 is false of co-Kriging with a known noise level: in training the noise is divided by the spread of the responses twice, so a model trained on the same data in other units (responses and noise
multiplied by 100) chooses another scale factor and another length scale, although the local search is the same. -/
theorem C103_ck_counterexample : ∃ (ck ck₁ ck₂ : CKObj 1 1) (w : CKWorld 1) (X : Samples 2 1) (yh yl : Fin 2 → ℝ) (a : ℝ) (t₁ t₂ : CKFit 2 2 1 1),
    GoodMinimizer w.mini ∧ GoodMinimizer w.lf.mini ∧ 0 < a ∧ ck.train w X yh X yl = .ok (ck₁, t₁) ∧
    ({ ck with noise := ck.noise.map (a * ·), lf := { ck.lf with noise := ck.lf.noise.map (a * ·) } } : CKObj 1 1).train w X (fun i => a * yh i) X (fun i => a * yl i) = .ok (ck₂, t₂) ∧
    t₁.rho ≠ t₂.rho ∧ ck₁.kernel.param ≠ ck₂.kernel.param := by
  obtain ⟨ck₁, t₁, h1⟩ := exCKN_trains (S := 1) one_pos
  obtain ⟨ck₂, t₂, h2⟩ := exCKN_trains (S := 100) (by norm_num)
  have hy : (fun i => 100 * exOpp 1 i) = exOpp 100 := by funext i; fin_cases i <;> simp [exOpp]
  have ho : ({ exCKN 1 with noise := (exCKN 1).noise.map (100 * ·), lf := { (exCKN 1).lf with noise := (exCKN 1).lf.noise.map (100 * ·) } } : CKObj 1 1) = exCKN 100 := by
    simp [exCKN]
  refine ⟨exCKN 1, ck₁, ck₂, exCKNWorld, exEnds, exOpp 1, exOpp 1, 100, t₁, t₂, startMinimizer_good, cornerMinimizer_good, by norm_num, h1, by rw [ho, hy]; exact h2, ?_⟩
  obtain ⟨k1, k2, k3, k4⟩ := exp_bounds
  have hp1 : 0.387 < (1 + 1e-10 - Real.exp (-1)) / (2 + 1e-10 - Real.exp (-1)) := by
    rw [lt_div_iff₀ (by linarith)]; nlinarith
  have hp2 : (1 + 1e-10 - Real.exp (-1)) / (2 + 1e-10 - Real.exp (-1)) < 0.388 := by
    rw [div_lt_iff₀ (by linarith)]; nlinarith
  have c1 := (exCKN_choice one_pos h1).1
  have c2 := (exCKN_choice (S := 100) (by norm_num) h2).2
  set p := (1 + 1e-10 - Real.exp (-1)) / (2 + 1e-10 - Real.exp (-1)) with hp
  set k := Real.exp (-1) with hk
  set l := Real.exp (-10) with hl
  have r1 := c1 (by
    have hlog : Real.log ((1 + 1e-10 + (1 / 1) ^ 2 : ℝ) ^ 2 - k ^ 2) ≤ Real.log ((1 + 1e-10 + (1 / 1) ^ 2 : ℝ) ^ 2 - l ^ 2) :=
      Real.log_le_log (by nlinarith) (by nlinarith)
    have h1 : (1 - 1 / 3 * p) ^ 2 / ((1 + 1e-10 + (1 / 1) ^ 2 : ℝ) - k) < 0.48 := by
      rw [div_lt_iff₀ (by norm_num; linarith)]; norm_num; nlinarith
    have h2 : 0.49 < (1 - 1 / 100 * p) ^ 2 / ((1 + 1e-10 + (1 / 1) ^ 2 : ℝ) - l) := by
      rw [lt_div_iff₀ (by norm_num; linarith)]; norm_num; nlinarith
    linarith)
  have r2 := c2 (by
    have hlog1 : Real.log ((1 + 1e-10 + (1 / 100) ^ 2 : ℝ) ^ 2 - l ^ 2) ≤ 0.001 := by
      have := Real.log_le_sub_one_of_pos (x := (1 + 1e-10 + (1 / 100) ^ 2 : ℝ) ^ 2 - l ^ 2) (by nlinarith)
      nlinarith
    have hlog2 : -0.16 ≤ Real.log ((1 + 1e-10 + (1 / 100) ^ 2 : ℝ) ^ 2 - k ^ 2) := by
      have hpos : 0 < (1 + 1e-10 + (1 / 100) ^ 2 : ℝ) ^ 2 - k ^ 2 := by nlinarith
      have := Real.one_sub_inv_le_log_of_pos hpos
      have h3 : ((1 + 1e-10 + (1 / 100) ^ 2 : ℝ) ^ 2 - k ^ 2)⁻¹ ≤ 1.16 := by
        rw [inv_le_comm₀ hpos (by norm_num)]; norm_num; nlinarith
      linarith
    have h1 : (1 - 1 / 100 * p) ^ 2 / ((1 + 1e-10 + (1 / 100) ^ 2 : ℝ) - l) < 1.01 := by
      rw [div_lt_iff₀ (by norm_num; linarith)]; norm_num; nlinarith
    have h2 : 1.18 < (1 - 1 / 3 * p) ^ 2 / ((1 + 1e-10 + (1 / 100) ^ 2 : ℝ) - k) := by
      rw [lt_div_iff₀ (by norm_num; linarith)]; norm_num; nlinarith
    linarith)
  refine ⟨by rw [r1.1, r2.1]; norm_num, fun he => ?_⟩
  have := congrFun he 0
  rw [r1.2, r2.2] at this
  norm_num at this

end Mfpml.Props
