import Verif.Lemmas.Units
import Verif.Props.Units

/-!
# Units of the inputs (C104)
-/

set_option linter.unusedSectionVars false

open scoped BigOperators Matrix

namespace Mfpml.Props

open Mfpml.GP Mfpml.Spec
open Mfpml.EA (Box)

variable {n m d q ql qd nh nl : ℕ}

/-- Every input variable in its own new unit: `x_k` becomes `α_k x_k + β_k`. -/
def rescalePt (α β : Fin d → ℝ) (x : Fin d → ℝ) : Fin d → ℝ := fun k => α k * x k + β k

/-- The design space in the new units. -/
def rescaleBox (α β : Fin d → ℝ) (b : Box ℝ d) : Box ℝ d := { low := rescalePt α β b.low, high := rescalePt α β b.high }

theorem normalizeInput_rescale {α β : Fin d → ℝ} (hα : ∀ k, α k ≠ 0) (b : Box ℝ d) (X : Samples n d) :
    normalizeInput (rescaleBox α β b) (fun i => rescalePt α β (X i)) = normalizeInput b X := by
  have h1 : (∀ j, (rescaleBox α β b).high j - (rescaleBox α β b).low j ≠ 0) ↔ ∀ j, b.high j - b.low j ≠ 0 := by
    refine forall_congr' fun j => ?_
    rw [show (rescaleBox α β b).high j - (rescaleBox α β b).low j = α j * (b.high j - b.low j) by simp only [rescaleBox, rescalePt]; ring]
    simp [hα j]
  by_cases h : ∀ j, b.high j - b.low j ≠ 0
  · rw [normalizeInput_eq X h, normalizeInput_eq _ (h1.mpr h)]
    congr 1
    funext i k
    have := h k
    have := hα k
    simp only [normPt, rescaleBox, rescalePt]
    rw [show α k * X i k + β k - (α k * b.low k + β k) = α k * (X i k - b.low k) by ring,
      show α k * b.high k + β k - (α k * b.low k + β k) = α k * (b.high k - b.low k) by ring, mul_div_mul_left _ _ (hα k)]
  · unfold normalizeInput
    rw [if_neg h, if_neg (fun h' => h (h1.mp h'))]

/-- A Kriging model whose design space is given in the new units. -/
def inUnitsGP (α β : Fin d → ℝ) (gp : GPObj d q) : GPObj d q := { gp with box := rescaleBox α β gp.box }

/-- A hierarchical Kriging model, with its low-fidelity model, whose design space is given in the new units. -/
def inUnitsHK (α β : Fin d → ℝ) (hk : HKObj d q) : HKObj d q := { hk with box := rescaleBox α β hk.box, lf := inUnitsGP α β hk.lf }

/-- A scaled Kriging model, with its two Kriging models, whose design space is given in the new units. -/
def inUnitsSK (α β : Fin d → ℝ) (sk : SKObj d ql qd) : SKObj d ql qd :=
  { sk with box := rescaleBox α β sk.box, lf := inUnitsGP α β sk.lf, disc := inUnitsGP α β sk.disc }

/-- A co-Kriging model whose design space is given in the new units. -/
def inUnitsCK (α β : Fin d → ℝ) (ck : CKObj d q) : CKObj d q := { ck with box := rescaleBox α β ck.box }

/-- A set of points in the new units. -/
def inUnits (α β : Fin d → ℝ) (X : Samples n d) : Samples n d := fun i => rescalePt α β (X i)

def gpFitInUnits (α β : Fin d → ℝ) (t : GPFit n d q) : GPFit n d q := { t with X := inUnits α β t.X }

def hkFitInUnits (α β : Fin d → ℝ) (t : HKFit nh nl d q) : HKFit nh nl d q := { t with Xh := inUnits α β t.Xh, lfFit := gpFitInUnits α β t.lfFit }

def skFitInUnits (α β : Fin d → ℝ) (t : SKFit nh nl d ql qd) : SKFit nh nl d ql qd :=
  { t with Xh := inUnits α β t.Xh, lfFit := gpFitInUnits α β t.lfFit, discFit := gpFitInUnits α β t.discFit }

theorem normalizeInput_inUnits {α β : Fin d → ℝ} (hα : ∀ k, α k ≠ 0) (b : Box ℝ d) (X : Samples n d) :
    normalizeInput (rescaleBox α β b) (inUnits α β X) = normalizeInput b X := normalizeInput_rescale hα b X

theorem gp_train_inUnits {α β : Fin d → ℝ} (hα : ∀ k, α k ≠ 0) (gp : GPObj d q) (w : World d) (X : Samples n d) (y : Fin n → ℝ) :
    (inUnitsGP α β gp).train w (inUnits α β X) y = (gp.train w X y).map (fun r => (inUnitsGP α β r.1, gpFitInUnits α β r.2)) := by
  unfold GPObj.train
  simp only [inUnitsGP, normalizeInput_inUnits hα]
  cases normalizeInput gp.box X with
  | error e => rfl
  | ok Xs =>
    simp only [bind, Except.bind]
    cases normalizeOutput y with
    | error e => rfl
    | ok ys =>
      simp only
      have hf : GPObj.fitHyper { gp with box := rescaleBox α β gp.box } w (std y) Xs ys = gp.fitHyper w (std y) Xs ys := rfl
      rw [hf]
      cases gp.fitHyper w (std y) Xs ys with
      | error e => rfl
      | ok r =>
        simp only
        cases glsFit (covTrain (gp.kernel.setParams r.1).param Xs (r.2 / std y)) (regrMatrix gp.regr Xs) ys with
        | error e => rfl
        | ok g => rfl

theorem gp_predict_inUnits {α β : Fin d → ℝ} (hα : ∀ k, α k ≠ 0) (gp : GPObj d q) (t : GPFit n d q) (Xnew : Samples m d) :
    predictMean (inUnitsGP α β gp) (gpFitInUnits α β t) (inUnits α β Xnew) = predictMean gp t Xnew := by
  unfold predictMean
  simp only [inUnitsGP, gpFitInUnits, normalizeInput_inUnits hα]

theorem gp_predictStd_inUnits {α β : Fin d → ℝ} (hα : ∀ k, α k ≠ 0) (gp : GPObj d q) (t : GPFit n d q) (Xnew : Samples m d) :
    predictStd (inUnitsGP α β gp) (gpFitInUnits α β t) (inUnits α β Xnew) = predictStd gp t Xnew := by
  unfold predictStd
  rw [gp_predict_inUnits hα]
  simp only [inUnitsGP, gpFitInUnits, normalizeInput_inUnits hα]

/-- C104 (Kriging).  Let every input variable have its own new unit: samples, prediction points and design space all become `α_k x_k + β_k`.  Training raises the same exception
or gives the same model (length scales, noise: everything but the design space), and the predictions are the same. -/
theorem C104_gp_inputs (gp : GPObj d q) (w : World d) (X : Samples n d) (y : Fin n → ℝ) (α β : Fin d → ℝ) (hα : ∀ k, α k ≠ 0) :
    (∀ e, (inUnitsGP α β gp).train w (inUnits α β X) y = .error e ↔ gp.train w X y = .error e) ∧
    ∀ gp' t, gp.train w X y = .ok (gp', t) →
      ∃ t', (inUnitsGP α β gp).train w (inUnits α β X) y = .ok (inUnitsGP α β gp', t') ∧
        ∀ (m : ℕ) (Xnew : Samples m d),
          predictMean (inUnitsGP α β gp') t' (inUnits α β Xnew) = predictMean gp' t Xnew ∧
          predictStd (inUnitsGP α β gp') t' (inUnits α β Xnew) = predictStd gp' t Xnew := by
  have h := gp_train_inUnits (β := β) hα gp w X y
  refine ⟨fun e => by rw [h, map_error], fun gp' t ht => ?_⟩
  rw [h, ht]
  exact ⟨_, rfl, fun m Xnew => ⟨gp_predict_inUnits hα gp' t Xnew, gp_predictStd_inUnits hα gp' t Xnew⟩⟩

theorem hk_train_inUnits {α β : Fin d → ℝ} (hα : ∀ k, α k ≠ 0) (hk : HKObj d q) (w : MFWorld d) (Xh : Samples nh d) (yh : Fin nh → ℝ) (Xl : Samples nl d) (yl : Fin nl → ℝ) :
    (inUnitsHK α β hk).train w (inUnits α β Xh) yh (inUnits α β Xl) yl =
      (hk.train w Xh yh Xl yl).map (fun r => (inUnitsHK α β r.1, hkFitInUnits α β r.2)) := by
  unfold HKObj.train
  simp only [inUnitsHK, gp_train_inUnits hα, normalizeInput_inUnits hα]
  cases hk.lf.train w.lf Xl yl with
  | error e => rfl
  | ok r =>
    obtain ⟨lf, lfFit⟩ := r
    simp only [bind, Except.bind, Except.map]
    cases normalizeInput hk.box Xh with
    | error e => rfl
    | ok Xhs =>
      simp only
      cases normalizeOutput yh with
      | error e => rfl
      | ok yhs =>
        simp only
        rw [gp_predict_inUnits hα]
        cases predictMean lf lfFit Xh with
        | error e => rfl
        | ok f =>
          simp only
          have hf : ∀ F, HKObj.fitHyper { hk with box := rescaleBox α β hk.box, lf := inUnitsGP α β hk.lf } w.hf (std yh) Xhs F yhs =
            hk.fitHyper w.hf (std yh) Xhs F yhs := fun _ => rfl
          rw [hf]
          cases hk.fitHyper w.hf (std yh) Xhs (scaleCol f (mean yh) (std yh)) yhs with
          | error e => rfl
          | ok r =>
            simp only
            cases glsFit (rbfMatrix (hk.kernel.setParams r.1).param Xhs Xhs + ((r.2 / std yh) ^ 2) • (1 : Matrix (Fin nh) (Fin nh) ℝ))
              (scaleCol f (mean yh) (std yh)) yhs with
            | error e => rfl
            | ok g => rfl

theorem hk_predictLf_inUnits {α β : Fin d → ℝ} (hα : ∀ k, α k ≠ 0) (hk : HKObj d q) (t : HKFit nh nl d q) (Xnew : Samples m d) :
    (inUnitsHK α β hk).predictLf (hkFitInUnits α β t) (inUnits α β Xnew) = hk.predictLf t Xnew := gp_predict_inUnits hα hk.lf t.lfFit Xnew

theorem hk_predict_inUnits {α β : Fin d → ℝ} (hα : ∀ k, α k ≠ 0) (hk : HKObj d q) (t : HKFit nh nl d q) (Xnew : Samples m d) :
    (inUnitsHK α β hk).predict (hkFitInUnits α β t) (inUnits α β Xnew) = hk.predict t Xnew := by
  unfold HKObj.predict
  rw [hk_predictLf_inUnits hα]
  simp only [inUnitsHK, hkFitInUnits, normalizeInput_inUnits hα]

theorem hk_predictStd_inUnits {α β : Fin d → ℝ} (hα : ∀ k, α k ≠ 0) (hk : HKObj d q) (t : HKFit nh nl d q) (Xnew : Samples m d) :
    (inUnitsHK α β hk).predictStd (hkFitInUnits α β t) (inUnits α β Xnew) = hk.predictStd t Xnew := by
  unfold HKObj.predictStd
  rw [hk_predict_inUnits hα, hk_predictLf_inUnits hα]
  simp only [inUnitsHK, hkFitInUnits, normalizeInput_inUnits hα]

/-- C104 (hierarchical Kriging). -/
theorem C104_hk_inputs (hk : HKObj d q) (w : MFWorld d) (Xh : Samples nh d) (yh : Fin nh → ℝ) (Xl : Samples nl d) (yl : Fin nl → ℝ) (α β : Fin d → ℝ) (hα : ∀ k, α k ≠ 0) :
    (∀ e, (inUnitsHK α β hk).train w (inUnits α β Xh) yh (inUnits α β Xl) yl = .error e ↔ hk.train w Xh yh Xl yl = .error e) ∧
    ∀ hk' t, hk.train w Xh yh Xl yl = .ok (hk', t) →
      ∃ t', (inUnitsHK α β hk).train w (inUnits α β Xh) yh (inUnits α β Xl) yl = .ok (inUnitsHK α β hk', t') ∧
        ∀ (m : ℕ) (Xnew : Samples m d),
          (inUnitsHK α β hk').predict t' (inUnits α β Xnew) = hk'.predict t Xnew ∧
          (inUnitsHK α β hk').predictStd t' (inUnits α β Xnew) = hk'.predictStd t Xnew ∧
          (inUnitsHK α β hk').predictLf t' (inUnits α β Xnew) = hk'.predictLf t Xnew := by
  have h := hk_train_inUnits (β := β) hα hk w Xh yh Xl yl
  refine ⟨fun e => by rw [h, map_error], fun hk' t ht => ?_⟩
  rw [h, ht]
  exact ⟨_, rfl, fun m Xnew => ⟨hk_predict_inUnits hα hk' t Xnew, hk_predictStd_inUnits hα hk' t Xnew, hk_predictLf_inUnits hα hk' t Xnew⟩⟩

theorem evalBumpiness_inUnits {α β : Fin d → ℝ} (hα : ∀ k, α k ≠ 0) (disc : GPObj d q) (w : World d) (Xh : Samples nh d) (yh f : Fin nh → ℝ) (rho : ℝ) :
    evalBumpiness (inUnitsGP α β disc) w (inUnits α β Xh) yh f rho = (evalBumpiness disc w Xh yh f rho).map (fun r => (inUnitsGP α β r.1, r.2)) := by
  unfold evalBumpiness
  simp only [gp_train_inUnits hα]
  cases disc.train w Xh (getDisc rho f yh) with
  | error e => rfl
  | ok r => rfl

theorem bumpRun_inUnits {α β : Fin d → ℝ} (hα : ∀ k, α k ≠ 0) (Xh : Samples nh d) (yh f : Fin nh → ℝ) :
    ∀ (l : List (ℝ × World d)) (disc : GPObj d q),
      bumpRun (inUnits α β Xh) yh f l (inUnitsGP α β disc) = (bumpRun Xh yh f l disc).map (inUnitsGP α β)
  | [], disc => rfl
  | (r, w) :: rest, disc => by
    simp only [bumpRun, evalBumpiness_inUnits hα]
    cases evalBumpiness disc w Xh yh f r with
    | error e => rfl
    | ok x => exact bumpRun_inUnits hα Xh yh f rest x.1

theorem optimizeRho_inUnits {α β : Fin d → ℝ} (hα : ∀ k, α k ≠ 0) (sk : SKObj d ql qd) (w : SKWorld d) (Xh : Samples nh d) (yh f : Fin nh → ℝ) :
    (inUnitsSK α β sk).optimizeRho w (inUnits α β Xh) yh f = (sk.optimizeRho w Xh yh f).map (fun r => (r.1, inUnitsGP α β r.2)) := by
  unfold SKObj.optimizeRho
  simp only [inUnitsSK, bumpRun_inUnits hα]
  cases sk.rhoMethod with
  | error =>
    cases sk.rhoOptimizer with
    | none =>
      simp only
      cases w.mini 1 (fun r => .ok (evalError f yh r 0)) (fun _ => w.x0) (fun _ => sk.rhoLow) (fun _ => sk.rhoHigh) with
      | error e => rfl
      | ok r => rfl
    | some run =>
      simp only
      cases run 1 (fun r => .ok (evalError f yh r 0)) (fun _ => sk.rhoLow) (fun _ => sk.rhoHigh) with
      | error e => rfl
      | ok r => rfl
  | bumpiness =>
    simp only
    cases bumpRun Xh yh f w.bumpEvals sk.disc with
    | error e => rfl
    | ok r => rfl
  | other => rfl

theorem sk_train_inUnits {α β : Fin d → ℝ} (hα : ∀ k, α k ≠ 0) (sk : SKObj d ql qd) (w : SKWorld d) (Xh : Samples nh d) (yh : Fin nh → ℝ) (Xl : Samples nl d) (yl : Fin nl → ℝ) :
    (inUnitsSK α β sk).train w (inUnits α β Xh) yh (inUnits α β Xl) yl =
      (sk.train w Xh yh Xl yl).map (fun r => (inUnitsSK α β r.1, skFitInUnits α β r.2)) := by
  unfold SKObj.train
  simp only [optimizeRho_inUnits hα]
  rw [show (inUnitsSK α β sk).lf = inUnitsGP α β sk.lf from rfl, gp_train_inUnits hα]
  cases sk.lf.train w.lf Xl yl with
  | error e => rfl
  | ok r =>
    obtain ⟨lf, lfFit⟩ := r
    simp only [bind, Except.bind, Except.map]
    rw [gp_predict_inUnits hα]
    cases predictMean lf lfFit Xh with
    | error e => rfl
    | ok f =>
      simp only
      have hif : (if (inUnitsSK α β sk).rhoOptimize then (sk.optimizeRho w Xh yh f).map (fun r => (r.1, inUnitsGP α β r.2))
          else .ok ((inUnitsSK α β sk).rho, (inUnitsSK α β sk).disc) : Py (ℝ × GPObj d qd)) =
          (if sk.rhoOptimize then sk.optimizeRho w Xh yh f else .ok (sk.rho, sk.disc) : Py (ℝ × GPObj d qd)).map (fun r => (r.1, inUnitsGP α β r.2)) := by
        show (if sk.rhoOptimize then _ else _) = _
        by_cases h : sk.rhoOptimize
        · rw [if_pos h, if_pos h]
        · rw [if_neg h, if_neg h]; rfl
      simp only [Except.map] at hif
      rw [hif]
      cases (if sk.rhoOptimize then sk.optimizeRho w Xh yh f else .ok (sk.rho, sk.disc) : Py (ℝ × GPObj d qd)) with
      | error e => rfl
      | ok r =>
        obtain ⟨rho, disc⟩ := r
        simp only
        rw [gp_train_inUnits hα]
        cases disc.train w.disc Xh (getDisc rho f yh) with
        | error e => rfl
        | ok r => rfl

theorem sk_predict_inUnits {α β : Fin d → ℝ} (hα : ∀ k, α k ≠ 0) (sk : SKObj d ql qd) (t : SKFit nh nl d ql qd) (Xnew : Samples m d) :
    (inUnitsSK α β sk).predict (skFitInUnits α β t) (inUnits α β Xnew) = sk.predict t Xnew := by
  unfold SKObj.predict
  simp only [inUnitsSK, skFitInUnits, gp_predict_inUnits hα]

theorem sk_predictStd_inUnits {α β : Fin d → ℝ} (hα : ∀ k, α k ≠ 0) (sk : SKObj d ql qd) (t : SKFit nh nl d ql qd) (Xnew : Samples m d) :
    (inUnitsSK α β sk).predictStd (skFitInUnits α β t) (inUnits α β Xnew) = sk.predictStd t Xnew := by
  unfold SKObj.predictStd
  simp only [inUnitsSK, skFitInUnits, gp_predictStd_inUnits hα]

/-- C104 (scaled Kriging), with any way of choosing the scale factor. -/
theorem C104_sk_inputs (sk : SKObj d ql qd) (w : SKWorld d) (Xh : Samples nh d) (yh : Fin nh → ℝ) (Xl : Samples nl d) (yl : Fin nl → ℝ) (α β : Fin d → ℝ) (hα : ∀ k, α k ≠ 0) :
    (∀ e, (inUnitsSK α β sk).train w (inUnits α β Xh) yh (inUnits α β Xl) yl = .error e ↔ sk.train w Xh yh Xl yl = .error e) ∧
    ∀ sk' t, sk.train w Xh yh Xl yl = .ok (sk', t) →
      ∃ t', (inUnitsSK α β sk).train w (inUnits α β Xh) yh (inUnits α β Xl) yl = .ok (inUnitsSK α β sk', t') ∧
        ∀ (m : ℕ) (Xnew : Samples m d),
          (inUnitsSK α β sk').predict t' (inUnits α β Xnew) = sk'.predict t Xnew ∧
          (inUnitsSK α β sk').predictStd t' (inUnits α β Xnew) = sk'.predictStd t Xnew := by
  have h := sk_train_inUnits (β := β) hα sk w Xh yh Xl yl
  refine ⟨fun e => by rw [h, map_error], fun sk' t ht => ?_⟩
  rw [h, ht]
  exact ⟨_, rfl, fun m Xnew => ⟨sk_predict_inUnits hα sk' t Xnew, sk_predictStd_inUnits hα sk' t Xnew⟩⟩

theorem ck_train_inUnits {α β : Fin d → ℝ} (hα : ∀ k, α k ≠ 0) (ck : CKObj d q) (w : CKWorld d) (Xh : Samples nh d) (yh : Fin nh → ℝ) (Xl : Samples nl d) (yl : Fin nl → ℝ) :
    (inUnitsCK α β ck).train w (inUnits α β Xh) yh (inUnits α β Xl) yl = (ck.train w Xh yh Xl yl).map (fun r => (inUnitsCK α β r.1, r.2)) := by
  unfold CKObj.train
  simp only [inUnitsCK, normalizeInput_inUnits hα]
  cases normalizeInput ck.box Xh with
  | error e => rfl
  | ok Xhs =>
    simp only [bind, Except.bind]
    cases normalizeInput ck.box Xl with
    | error e => rfl
    | ok Xls =>
      simp only
      cases normalizeOutput yh with
      | error e => rfl
      | ok yhs =>
        simp only
        have hf : ∀ no (p : Fin nh → ℝ), CKObj.fitHyper { ck with box := rescaleBox α β ck.box } w no (std yh) Xhs yhs p = ck.fitHyper w no (std yh) Xhs yhs p := fun _ _ => rfl
        simp only [hf]
        generalize Option.map (· / std yh) ck.noise = no
        cases no with
        | none =>
          simp only
          cases ck.lf.train w.lf Xls (fun i => (yl i - mean yh) / std yh) with
          | error e => rfl
          | ok r =>
            simp only
            cases ck.fitHyper w none (std yh) Xhs yhs (r.1.predict r.2 Xhs) with
            | error e => rfl
            | ok p =>
              simp only
              cases diffFit (covTrain (ck.kernel.setParams p.2.1).param Xhs p.2.2) (fun i => yhs i - p.1 * r.1.predict r.2 Xhs i) with
              | error e => rfl
              | ok g =>
                simp only
                cases cholesky (flat (ckCov r.2.K r.1.kernel.param r.2.gls.sigma2 p.1 g.sigma2 (covTrain (ck.kernel.setParams p.2.1).param Xhs p.2.2) Xls Xhs) +
                  jitter • (1 : Matrix (Fin (nl + nh)) (Fin (nl + nh)) ℝ)) with
                | error e => rfl
                | ok LC =>
                  simp only
                  cases cholSolveV LC (Fin.append (fun i => (yl i - mean yh) / std yh) yhs) with
                  | error e => rfl
                  | ok a =>
                    simp only
                    cases cholSolveV LC (fun _ => 1) with
                    | error e => rfl
                    | ok b =>
                      simp only
                      cases npDiv ((fun _ => 1) ⬝ᵥ a) ((fun _ => 1) ⬝ᵥ b) with
                      | error e => rfl
                      | ok mu => rfl
        | some s =>
          simp only
          cases ({ ck.lf with noise := some s } : RawGP d q).train w.lf Xls (fun i => (yl i - mean yh) / std yh) with
          | error e => rfl
          | ok r =>
            simp only
            cases ck.fitHyper w (some s) (std yh) Xhs yhs (r.1.predict r.2 Xhs) with
            | error e => rfl
            | ok p =>
              simp only
              cases diffFit (covTrain (ck.kernel.setParams p.2.1).param Xhs p.2.2) (fun i => yhs i - p.1 * r.1.predict r.2 Xhs i) with
              | error e => rfl
              | ok g =>
                simp only
                cases cholesky (flat (ckCov r.2.K r.1.kernel.param r.2.gls.sigma2 p.1 g.sigma2 (covTrain (ck.kernel.setParams p.2.1).param Xhs p.2.2) Xls Xhs) +
                  jitter • (1 : Matrix (Fin (nl + nh)) (Fin (nl + nh)) ℝ)) with
                | error e => rfl
                | ok LC =>
                  simp only
                  cases cholSolveV LC (Fin.append (fun i => (yl i - mean yh) / std yh) yhs) with
                  | error e => rfl
                  | ok a =>
                    simp only
                    cases cholSolveV LC (fun _ => 1) with
                    | error e => rfl
                    | ok b =>
                      simp only
                      cases npDiv ((fun _ => 1) ⬝ᵥ a) ((fun _ => 1) ⬝ᵥ b) with
                      | error e => rfl
                      | ok mu => rfl

theorem ck_predict_inUnits {α β : Fin d → ℝ} (hα : ∀ k, α k ≠ 0) (ck : CKObj d q) (t : CKFit nh nl d q) (Xnew : Samples m d) :
    (inUnitsCK α β ck).predict t (inUnits α β Xnew) = ck.predict t Xnew := by
  unfold CKObj.predict
  simp only [inUnitsCK, normalizeInput_inUnits hα]
  rfl

theorem ck_predictStd_inUnits {α β : Fin d → ℝ} (hα : ∀ k, α k ≠ 0) (ck : CKObj d q) (t : CKFit nh nl d q) (Xnew : Samples m d) :
    (inUnitsCK α β ck).predictStd t (inUnits α β Xnew) = (ck.predictStd t Xnew).map (fun r => (inUnitsCK α β r.1, r.2)) := by
  unfold CKObj.predictStd
  rw [ck_predict_inUnits hα]
  simp only [inUnitsCK, normalizeInput_inUnits hα]
  cases ck.predict t Xnew with
  | error e => rfl
  | ok μ =>
    simp only [bind, Except.bind]
    cases normalizeInput ck.box Xnew with
    | error e => rfl
    | ok xs =>
      simp only
      have hc : crossCov { ck with box := rescaleBox α β ck.box } t xs = crossCov ck t xs := rfl
      rw [hc]
      cases cholSolve t.LC (crossCov ck t xs) with
      | error e => rfl
      | ok z =>
        simp only
        cases ck.noise with
        | none => rfl
        | some s => rfl

theorem ck_predictLfStd_inUnits {α β : Fin d → ℝ} (hα : ∀ k, α k ≠ 0) (ck : CKObj d q) (t : CKFit nh nl d q) (Xnew : Samples m d) :
    (inUnitsCK α β ck).predictLfStd t (inUnits α β Xnew) = ck.predictLfStd t Xnew := by
  unfold CKObj.predictLfStd
  simp only [inUnitsCK, normalizeInput_inUnits hα]

/-- C104 (co-Kriging). -/
theorem C104_ck_inputs (ck : CKObj d q) (w : CKWorld d) (Xh : Samples nh d) (yh : Fin nh → ℝ) (Xl : Samples nl d) (yl : Fin nl → ℝ) (α β : Fin d → ℝ) (hα : ∀ k, α k ≠ 0) :
    (∀ e, (inUnitsCK α β ck).train w (inUnits α β Xh) yh (inUnits α β Xl) yl = .error e ↔ ck.train w Xh yh Xl yl = .error e) ∧
    ∀ ck' t, ck.train w Xh yh Xl yl = .ok (ck', t) →
      (inUnitsCK α β ck).train w (inUnits α β Xh) yh (inUnits α β Xl) yl = .ok (inUnitsCK α β ck', t) ∧
        ∀ (m : ℕ) (Xnew : Samples m d),
          (inUnitsCK α β ck').predict t (inUnits α β Xnew) = ck'.predict t Xnew ∧
          ((inUnitsCK α β ck').predictStd t (inUnits α β Xnew)).map Prod.snd = (ck'.predictStd t Xnew).map Prod.snd ∧
          (inUnitsCK α β ck').predictLfStd t (inUnits α β Xnew) = ck'.predictLfStd t Xnew := by
  have h := ck_train_inUnits (β := β) hα ck w Xh yh Xl yl
  refine ⟨fun e => by rw [h, map_error], fun ck' t ht => ?_⟩
  rw [h, ht]
  refine ⟨rfl, fun m Xnew => ⟨ck_predict_inUnits hα ck' t Xnew, ?_, ck_predictLfStd_inUnits hα ck' t Xnew⟩⟩
  rw [ck_predictStd_inUnits hα]
  cases ck'.predictStd t Xnew <;> rfl

/-- Each of the four models can be trained, so the theorems above say that it can be trained with the input in units of 1/1000, counted backwards from 7. -/
example : (∃ gp' t, (inUnitsGP (fun _ => -1000) (fun _ => 7) (exGP (some 0))).train exWorld (inUnits (fun _ => -1000) (fun _ => 7) exX) exY = .ok (gp', t)) ∧
    (∃ ck' t, (inUnitsCK (fun _ => -1000) (fun _ => 7) (exCK (some 1))).train exCKWorld (inUnits (fun _ => -1000) (fun _ => 7) exX) exY (inUnits (fun _ => -1000) (fun _ => 7) exX) exY =
      .ok (ck', t)) := by
  obtain ⟨gp', t, h⟩ := exGP_trains (some 0) exX exY 0 2 exY_ne
  obtain ⟨ck', t', h'⟩ := exCK_trains (some 1) (by simp) exX exY exX exY 0 2 exY_ne (by norm_num)
  obtain ⟨t₁, h₁, _⟩ := (C104_gp_inputs _ _ _ _ (fun _ => -1000) (fun _ => 7) (fun _ => by norm_num)).2 _ _ h
  exact ⟨⟨_, _, h₁⟩, _, _, ((C104_ck_inputs _ _ _ _ _ _ (fun _ => -1000) (fun _ => 7) (fun _ => by norm_num)).2 _ _ h').1⟩

end Mfpml.Props
