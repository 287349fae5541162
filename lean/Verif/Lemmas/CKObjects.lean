import Verif.Lemmas.CoKriging
import Verif.Model.CKObjects

/-! # Lemmas about `CoKriging` objects -/

open scoped BigOperators Matrix

namespace Mfpml.CKObjects

open Mfpml.GP Mfpml.Spec
open Mfpml.EA (Box)
open Mfpml.GPObjects (attr dotT)

variable {n m nh nl d q : ℕ}

/-- The attribute with this content. -/
def Noise.ofOption : Option ℝ → Noise
  | some s => .known s
  | none => .unknown

/-- The low-fidelity object after a training that returned. -/
noncomputable def rawAfter (s : RawModel d q) (gp : RawGP d q) (t : RawFit n d q) : RawModel d q :=
  { s with kernel := gp.kernel, noise := .ofOption gp.noise, X := some ⟨n, t.X⟩, weights := some ⟨n, ⟨t.F, t.K, t.gls⟩⟩ }

theorem rawTrain_eq {s : RawModel d q} (hs : s.noise ≠ .nonFinite) (w : World d) (X : Samples n d) (y : Fin n → ℝ) :
    (∀ gp t, s.view.train w X y = .ok (gp, t) → s.train w X ⟨n, y⟩ = (rawAfter s gp t, .ok ⟨t.F, t.K, t.gls⟩)) ∧ (∀ e, s.view.train w X y = .error e → (s.train w X ⟨n, y⟩).2 = .error e) := by
  have hunf : s.train w X ⟨n, y⟩ = ({ s with X := some ⟨n, X⟩ } : RawModel d q).fit w X y := by
    obtain ⟨k, r, o, v, X0, W0⟩ := s
    unfold RawModel.train
    cases v with
    | nonFinite => exact absurd rfl hs
    | unknown => dsimp only; exact dif_pos rfl
    | known v => dsimp only; exact dif_pos rfl
  rw [hunf]
  unfold RawGP.train RawModel.fit
  have hv : ({ s with X := some ⟨n, X⟩ } : RawModel d q).view = s.view := rfl
  rw [hv]
  cases h1 : s.view.fitHyper w X y with
  | error e =>
    refine ⟨fun gp t h => ?_, fun e' h => ?_⟩
    · cases h
    · obtain rfl : e = e' := Except.error.inj h
      rfl
  | ok p =>
    obtain ⟨theta, noise⟩ := p
    simp only
    cases h2 : glsFit (covTrain (s.kernel.setParams theta).param X noise) (regrMatrix s.regr X) y with
    | error e =>
      have h3 : (glsFit (covTrain (s.view.kernel.setParams theta).param X noise) (regrMatrix s.view.regr X) y) = .error e := h2
      refine ⟨fun gp t h => ?_, fun e' h => ?_⟩
      · obtain ⟨_, e1, h⟩ := Py.bind_ok.mp h
        obtain rfl := Except.ok.inj e1
        obtain ⟨g, hg, _⟩ := Py.bind_ok.mp h
        rw [h3] at hg
        cases hg
      · rcases Py.bind_error.mp h with h | ⟨_, e1, h⟩
        · cases h
        · obtain rfl := Except.ok.inj e1
          rcases Py.bind_error.mp h with h | ⟨g, hg, _⟩
          · rw [h3] at h
            obtain rfl := Except.error.inj h
            rfl
          · rw [h3] at hg
            cases hg
    | ok g =>
      have h3 : (glsFit (covTrain (s.view.kernel.setParams theta).param X noise) (regrMatrix s.view.regr X) y) = .ok g := h2
      refine ⟨fun gp t h => ?_, fun e' h => ?_⟩
      · obtain ⟨_, e1, h⟩ := Py.bind_ok.mp h
        obtain rfl := Except.ok.inj e1
        obtain ⟨g', hg, h⟩ := Py.bind_ok.mp h
        rw [h3] at hg
        obtain rfl := Except.ok.inj hg
        have e1 := congrArg Prod.fst (Except.ok.inj h)
        have e2 := congrArg Prod.snd (Except.ok.inj h)
        simp only at e1 e2
        subst e1 e2
        rfl
      · rcases Py.bind_error.mp h with h | ⟨_, e1, h⟩
        · cases h
        · obtain rfl := Except.ok.inj e1
          rcases Py.bind_error.mp h with h | ⟨g, hg, h⟩
          · rw [h3] at h
            cases h
          · cases h

/-- Settings of the low-fidelity object. -/
structure RawSettings (s s' : RawModel d q) : Prop where
  regr : s'.regr = s.regr
  optimizer : s'.optimizer = s.optimizer
  low : s'.kernel.boundLow = s.kernel.boundLow
  high : s'.kernel.boundHigh = s.kernel.boundHigh

theorem rawTrain_settings (s : RawModel d q) (w : World d) (X : Samples n d) (y : Σ n, Fin n → ℝ) : RawSettings s (s.train w X y).1 := by
  unfold RawModel.train RawModel.fit
  simp only
  split
  · exact ⟨rfl, rfl, rfl, rfl⟩
  · split
    · split
      · exact ⟨rfl, rfl, rfl, rfl⟩
      · split
        · exact ⟨rfl, rfl, rfl, rfl⟩
        · exact ⟨rfl, rfl, rfl, rfl⟩
    · exact ⟨rfl, rfl, rfl, rfl⟩

/-- What a training that raised changes in the low-fidelity object besides its samples: nothing that it needs for predicting, if the search for the hyper-parameters raised. -/
theorem rawTrain_mismatch {s : RawModel d q} (hs : s.noise ≠ .nonFinite) (w : World d) (X : Samples n d) (y : Σ n, Fin n → ℝ) (hn : y.1 ≠ n) :
    s.train w X y = ({ s with X := some ⟨n, X⟩ }, .error .valueError) := by
  unfold RawModel.train
  cases h : s.noise with
  | nonFinite => exact absurd h hs
  | unknown => simp only [h, dif_neg hn]
  | known v => simp only [h, dif_neg hn]

theorem rawTrain_nonFinite {s : RawModel d q} (hs : s.noise = .nonFinite) (w : World d) (X : Samples n d) (y : Σ n, Fin n → ℝ) :
    s.train w X y = ({ s with X := some ⟨n, X⟩ }, .error .nonFinite) := by
  unfold RawModel.train
  simp only [hs]

/-- The object after a training that returned. -/
noncomputable def ckAfter (s : CKModel d q) (ck : CKObj d q) (t : CKFit nh nl d q) : CKModel d q :=
  { s with kernel := ck.kernel, noise := .ofOption ck.noise, lf := rawAfter s.lf ck.lf t.lfFit, xhs := some ⟨nh, t.Xhs⟩, xls := some ⟨nl, t.Xls⟩, yhMean := some t.yhMean, yhStd := some t.yhStd, rho := some t.rho, sigma2 := some t.sigma2, y := some ⟨nl + nh, t.y⟩, LC := some ⟨nl + nh, t.LC⟩, mu := some t.mu }

theorem load_known {s : CKModel d q} {σ : ℝ} (hs : s.noise = .known σ) {sd : ℝ} (hsd : sd ≠ 0) (xh xl : Option (Σ n, Samples n d)) (ym : ℝ) :
    s.load xh xl ym sd = { s with xhs := xh, xls := xl, yhMean := some ym, yhStd := some sd, noise := .known (σ / sd), lf := { s.lf with noise := .known (σ / sd) } } := by
  unfold CKModel.load
  have : s.noise.div sd = .known (σ / sd) := by rw [hs]; exact if_neg hsd
  rw [this]

theorem load_flat {s : CKModel d q} {σ : ℝ} (hs : s.noise = .known σ) (xh xl : Option (Σ n, Samples n d)) (ym : ℝ) :
    s.load xh xl ym 0 = { s with xhs := xh, xls := xl, yhMean := some ym, yhStd := some 0, noise := .nonFinite, lf := { s.lf with noise := .nonFinite } } := by
  unfold CKModel.load
  have : s.noise.div 0 = .nonFinite := by rw [hs]; exact if_pos rfl
  rw [this]

theorem load_nonFinite {s : CKModel d q} (hs : s.noise = .nonFinite) (xh xl : Option (Σ n, Samples n d)) (ym sd : ℝ) :
    s.load xh xl ym sd = { s with xhs := xh, xls := xl, yhMean := some ym, yhStd := some sd, noise := .nonFinite, lf := { s.lf with noise := .nonFinite } } := by
  unfold CKModel.load
  have : s.noise.div sd = .nonFinite := by rw [hs]; rfl
  rw [this]

/-- The steps of `update` as one computation. -/
theorem update_eq (s : CKModel d q) (W : RawWeights nl q) (rho : ℝ) (K : Matrix (Fin nh) (Fin nh) ℝ) (Xls : Samples nl d) (Xhs : Samples nh d) (yls : Fin nl → ℝ) (yhs p : Fin nh → ℝ) (e : PyErr) :
    ((s.update W rho K Xls Xhs yls yhs p).2 = .error e ↔ (do
      let g ← diffFit K (fun i => yhs i - rho * p i)
      let LC ← cholesky (flat (ckCov W.K s.lf.kernel.param W.gls.sigma2 rho g.sigma2 K Xls Xhs) + jitter • (1 : Matrix (Fin (nl + nh)) (Fin (nl + nh)) ℝ))
      let a ← cholSolveV LC (Fin.append yls yhs)
      let b ← cholSolveV LC (fun _ => 1)
      npDiv ((fun _ => 1) ⬝ᵥ a) ((fun _ => 1) ⬝ᵥ b) : Py ℝ) = .error e) ∧
    ∀ g LC a b mu, diffFit K (fun i => yhs i - rho * p i) = .ok g →
      cholesky (flat (ckCov W.K s.lf.kernel.param W.gls.sigma2 rho g.sigma2 K Xls Xhs) + jitter • (1 : Matrix (Fin (nl + nh)) (Fin (nl + nh)) ℝ)) = .ok LC →
      cholSolveV LC (Fin.append yls yhs) = .ok a → cholSolveV LC (fun _ => 1) = .ok b → npDiv ((fun _ => 1) ⬝ᵥ a) ((fun _ => 1) ⬝ᵥ b) = .ok mu →
      s.update W rho K Xls Xhs yls yhs p = ({ s with sigma2 := some g.sigma2, y := some ⟨nl + nh, Fin.append yls yhs⟩, LC := some ⟨nl + nh, LC⟩, mu := some mu }, .ok ()) := by
  constructor
  · unfold CKModel.update
    cases h1 : diffFit K (fun i => yhs i - rho * p i) with
    | error e1 => exact ⟨fun h => by { obtain rfl : e1 = e := Except.error.inj h; rfl }, fun h => by { obtain rfl : e1 = e := Except.error.inj h; rfl }⟩
    | ok g =>
      simp only
      cases h2 : cholesky (flat (ckCov W.K s.lf.kernel.param W.gls.sigma2 rho g.sigma2 K Xls Xhs) + jitter • (1 : Matrix (Fin (nl + nh)) (Fin (nl + nh)) ℝ)) with
      | error e1 =>
        simp only
        constructor
        · intro h
          obtain rfl := Except.error.inj h
          exact Py.bind_error.mpr (.inr ⟨g, rfl, Py.bind_error.mpr (.inl h2)⟩)
        · intro h
          rcases Py.bind_error.mp h with h | ⟨g', hg, h⟩
          · cases h
          · obtain rfl := Except.ok.inj hg
            rcases Py.bind_error.mp h with h | ⟨LC, hL, _⟩
            · rw [h2] at h; rw [Except.error.inj h]
            · rw [h2] at hL; cases hL
      | ok LC =>
        simp only
        cases h3 : (do
          let a ← cholSolveV LC (Fin.append yls yhs)
          let b ← cholSolveV LC (fun _ => 1)
          npDiv ((fun _ => 1) ⬝ᵥ a) ((fun _ => 1) ⬝ᵥ b) : Py ℝ) with
        | error e1 =>
          simp only
          constructor
          · intro h
            obtain rfl := Except.error.inj h
            exact Py.bind_error.mpr (.inr ⟨g, rfl, Py.bind_error.mpr (.inr ⟨LC, h2, h3⟩)⟩)
          · intro h
            rcases Py.bind_error.mp h with h | ⟨g', hg, h⟩
            · cases h
            · obtain rfl := Except.ok.inj hg
              rcases Py.bind_error.mp h with h | ⟨LC', hL, h⟩
              · rw [h2] at h; cases h
              · rw [h2] at hL
                obtain rfl := Except.ok.inj hL
                rw [h3] at h; rw [Except.error.inj h]
        | ok mu =>
          simp only
          constructor
          · intro h; cases h
          · intro h
            rcases Py.bind_error.mp h with h | ⟨g', hg, h⟩
            · cases h
            · obtain rfl := Except.ok.inj hg
              rcases Py.bind_error.mp h with h | ⟨LC', hL, h⟩
              · rw [h2] at h; cases h
              · rw [h2] at hL
                obtain rfl := Except.ok.inj hL
                rw [h3] at h; cases h
  · intro g LC a b mu h1 h2 h3 h4 h5
    unfold CKModel.update
    have h6 : (do
          let a ← cholSolveV LC (Fin.append yls yhs)
          let b ← cholSolveV LC (fun _ => 1)
          npDiv ((fun _ => 1) ⬝ᵥ a) ((fun _ => 1) ⬝ᵥ b) : Py ℝ) = .ok mu := Py.bind_ok.mpr ⟨a, h3, Py.bind_ok.mpr ⟨b, h4, h5⟩⟩
    rw [h1]
    simp only
    rw [h2]
    simp only
    rw [h6]

theorem ck_fitHyper_congr {s s' : CKModel d q} (h1 : s'.optimizer = s.optimizer) (h2 : s'.rhoLow = s.rhoLow) (h3 : s'.rhoHigh = s.rhoHigh) (h4 : s'.kernel = s.kernel) (w : CKWorld d)
    (v : Option ℝ) (sd : ℝ) (X : Samples n d) (y p : Fin n → ℝ) : s'.view.fitHyper w v sd X y p = s.view.fitHyper w v sd X y p := by
  unfold CKObj.fitHyper CKModel.view
  simp only [h1, h2, h3, h4]

theorem predYlh_eq {s : RawModel d q} {lf : RawGP d q} {t : RawFit nl d q} {Xls : Samples nl d} {Xhs : Samples nh d} (hX : t.X = Xls) (hreg : lf.regr = s.regr) :
    regrMatrix (rawAfter s lf t).regr Xhs *ᵥ t.gls.beta + ((rawAfter s lf t).kernel.getKernelMatrix Xls Xhs)ᵀ *ᵥ t.gls.gamma = lf.predict t Xhs := by
  unfold RawGP.predict rawAfter
  rw [hX, hreg]

theorem trainHf_ok {s : CKModel d q} {w : CKWorld d} {W : RawWeights nl q} {yStd : ℝ} {Xls : Samples nl d} {Xhs : Samples nh d} {yls : Fin nl → ℝ} {yhs p : Fin nh → ℝ}
    (hp : regrMatrix s.lf.regr Xhs *ᵥ W.gls.beta + (s.lf.kernel.getKernelMatrix Xls Xhs)ᵀ *ᵥ W.gls.gamma = p) {rho : ℝ} {theta : Fin d → ℝ} {v : ℝ}
    (h5 : s.view.fitHyper w s.noise.toOption yStd Xhs yhs p = .ok (rho, theta, v)) {g : DiffFit nh} {LC : Matrix (Fin (nl + nh)) (Fin (nl + nh)) ℝ} {a b : Fin (nl + nh) → ℝ} {mu : ℝ}
    (h6 : diffFit (covTrain (s.kernel.setParams theta).param Xhs v) (fun i => yhs i - rho * p i) = .ok g)
    (h7 : cholesky (flat (ckCov W.K s.lf.kernel.param W.gls.sigma2 rho g.sigma2 (covTrain (s.kernel.setParams theta).param Xhs v) Xls Xhs) + jitter • (1 : Matrix (Fin (nl + nh)) (Fin (nl + nh)) ℝ)) = .ok LC)
    (h8 : cholSolveV LC (Fin.append yls yhs) = .ok a) (h9 : cholSolveV LC (fun _ => 1) = .ok b) (h10 : npDiv ((fun _ => 1) ⬝ᵥ a) ((fun _ => 1) ⬝ᵥ b) = .ok mu) :
    s.trainHf w W yStd Xls Xhs yls yhs = ({ s with rho := some rho, noise := .known v, kernel := s.kernel.setParams theta, sigma2 := some g.sigma2, y := some ⟨nl + nh, Fin.append yls yhs⟩, LC := some ⟨nl + nh, LC⟩, mu := some mu }, .ok ()) := by
  unfold CKModel.trainHf
  rw [hp]
  dsimp only
  rw [h5]
  dsimp only
  exact (update_eq { s with rho := some rho, noise := .known v, kernel := s.kernel.setParams theta } W rho _ Xls Xhs yls yhs p .valueError).2 g LC a b mu h6 h7 h8 h9 h10

theorem trainHf_error_search {s : CKModel d q} {w : CKWorld d} {W : RawWeights nl q} {yStd : ℝ} {Xls : Samples nl d} {Xhs : Samples nh d} {yls : Fin nl → ℝ} {yhs p : Fin nh → ℝ}
    (hp : regrMatrix s.lf.regr Xhs *ᵥ W.gls.beta + (s.lf.kernel.getKernelMatrix Xls Xhs)ᵀ *ᵥ W.gls.gamma = p) {e : PyErr}
    (h5 : s.view.fitHyper w s.noise.toOption yStd Xhs yhs p = .error e) : (s.trainHf w W yStd Xls Xhs yls yhs).2 = .error e := by
  unfold CKModel.trainHf
  rw [hp]
  dsimp only
  rw [h5]

theorem trainHf_error_update {s : CKModel d q} {w : CKWorld d} {W : RawWeights nl q} {yStd : ℝ} {Xls : Samples nl d} {Xhs : Samples nh d} {yls : Fin nl → ℝ} {yhs p : Fin nh → ℝ}
    (hp : regrMatrix s.lf.regr Xhs *ᵥ W.gls.beta + (s.lf.kernel.getKernelMatrix Xls Xhs)ᵀ *ᵥ W.gls.gamma = p) {e : PyErr} {rho : ℝ} {theta : Fin d → ℝ} {v : ℝ}
    (h5 : s.view.fitHyper w s.noise.toOption yStd Xhs yhs p = .ok (rho, theta, v))
    (h6 : (do
      let g ← diffFit (covTrain (s.kernel.setParams theta).param Xhs v) (fun i => yhs i - rho * p i)
      let LC ← cholesky (flat (ckCov W.K s.lf.kernel.param W.gls.sigma2 rho g.sigma2 (covTrain (s.kernel.setParams theta).param Xhs v) Xls Xhs) + jitter • (1 : Matrix (Fin (nl + nh)) (Fin (nl + nh)) ℝ))
      let a ← cholSolveV LC (Fin.append yls yhs)
      let b ← cholSolveV LC (fun _ => 1)
      npDiv ((fun _ => 1) ⬝ᵥ a) ((fun _ => 1) ⬝ᵥ b) : Py ℝ) = .error e) : (s.trainHf w W yStd Xls Xhs yls yhs).2 = .error e := by
  unfold CKModel.trainHf
  rw [hp]
  dsimp only
  rw [h5]
  exact (update_eq { s with rho := some rho, noise := .known v, kernel := s.kernel.setParams theta } W rho _ Xls Xhs yls yhs p e).1.mpr h6

/-- Training the object is training the value. -/
theorem train_eq {s : CKModel d q} {σ : ℝ} (hs : s.noise = .known σ) (w : CKWorld d) (Xh : Samples nh d) (yh : Fin nh → ℝ) (Xl : Samples nl d) (yl : Fin nl → ℝ) :
    (∀ ck t, s.view.train w Xh yh Xl yl = .ok (ck, t) → s.train w ⟨nh, Xh⟩ ⟨nh, yh⟩ ⟨nl, Xl⟩ ⟨nl, yl⟩ = (ckAfter s ck t, .ok ())) ∧
    (∀ e, s.view.train w Xh yh Xl yl = .error e → (s.train w ⟨nh, Xh⟩ ⟨nh, yh⟩ ⟨nl, Xl⟩ ⟨nl, yl⟩).2 = .error e) := by
  have hmap : s.view.noise.map (· / std yh) = some (σ / std yh) := by
    unfold CKModel.view Noise.toOption
    rw [hs]; rfl
  cases h1 : normalizeInput s.box Xh with
  | error e1 =>
    have e3 : s.view.train w Xh yh Xl yl = .error e1 := by
      unfold CKObj.train
      exact Py.bind_error.mpr (.inl h1)
    have e4 : (s.train w ⟨nh, Xh⟩ ⟨nh, yh⟩ ⟨nl, Xl⟩ ⟨nl, yl⟩).2 = .error e1 := by
      unfold CKModel.train
      simp only
      rw [h1]
      rfl
    rw [e3]
    exact ⟨fun _ _ h => by { cases h }, fun e h => by { rw [e4, Except.error.inj h] }⟩
  | ok Xhs =>
    cases h2 : normalizeInput s.box Xl with
    | error e1 =>
      have e3 : s.view.train w Xh yh Xl yl = .error e1 := by
        unfold CKObj.train
        exact Py.bind_error.mpr (.inr ⟨Xhs, h1, Py.bind_error.mpr (.inl h2)⟩)
      have e4 : (s.train w ⟨nh, Xh⟩ ⟨nh, yh⟩ ⟨nl, Xl⟩ ⟨nl, yl⟩).2 = .error e1 := by
        unfold CKModel.train
        simp only
        rw [h1, h2]
        rfl
      rw [e3]
      exact ⟨fun _ _ h => by { cases h }, fun e h => by { rw [e4, Except.error.inj h] }⟩
    | ok Xls =>
      by_cases hsd : std yh = 0
      · have h3 : normalizeOutput yh = .error .nonFinite := by unfold normalizeOutput; rw [if_pos hsd]
        have e3 : s.view.train w Xh yh Xl yl = .error .nonFinite := by
          unfold CKObj.train
          exact Py.bind_error.mpr (.inr ⟨Xhs, h1, Py.bind_error.mpr (.inr ⟨Xls, h2, Py.bind_error.mpr (.inl h3)⟩)⟩)
        have e4 : (s.train w ⟨nh, Xh⟩ ⟨nh, yh⟩ ⟨nl, Xl⟩ ⟨nl, yl⟩).2 = .error .nonFinite := by
          unfold CKModel.train
          simp only
          rw [h1, h2]
          show (if std yh = 0 then _ else _ : CKModel d q × Py Unit).2 = _
          rw [if_pos hsd]
        rw [e3]
        exact ⟨fun _ _ h => by { cases h }, fun e h => by { rw [e4, Except.error.inj h] }⟩
      · have h3 := normalizeOutput_eq hsd
        have e5 : s.train w ⟨nh, Xh⟩ ⟨nh, yh⟩ ⟨nl, Xl⟩ ⟨nl, yl⟩ =
            (match ({ s.lf with noise := .known (σ / std yh) } : RawModel d q).train w.lf Xls ⟨nl, fun i => (yl i - mean yh) / std yh⟩ with
            | (lf, .error e) => ({ s with xhs := some ⟨nh, Xhs⟩, xls := some ⟨nl, Xls⟩, yhMean := some (mean yh), yhStd := some (std yh), noise := .known (σ / std yh), lf := lf }, .error e)
            | (lf, .ok W) => ({ s with xhs := some ⟨nh, Xhs⟩, xls := some ⟨nl, Xls⟩, yhMean := some (mean yh), yhStd := some (std yh), noise := .known (σ / std yh), lf := lf } : CKModel d q).trainHf w W (std yh) Xls Xhs
                (fun i => (yl i - mean yh) / std yh) (fun i => (yh i - mean yh) / std yh)) := by
          unfold CKModel.train
          simp only
          rw [h1, h2]
          show (if std yh = 0 then _ else _ : CKModel d q × Py Unit) = _
          rw [if_neg hsd, load_known hs hsd]
          simp only
          split
          · rename_i hx
            rw [hx]
          · rename_i hx
            rw [hx]
            exact dif_pos ⟨trivial, trivial⟩
        have hraw := rawTrain_eq (s := ({ s.lf with noise := .known (σ / std yh) } : RawModel d q)) (by simp) w.lf Xls (fun i => (yl i - mean yh) / std yh)
        have hlf0 : ckLf0 s.view (std yh) = ({ s.lf with noise := .known (σ / std yh) } : RawModel d q).view := by
          unfold ckLf0
          rw [hmap]
          rfl
        rw [← hlf0] at hraw
        have hn : normalizeOutput yh = .ok fun i => (yh i - mean yh) / std yh := h3
        rw [e5]
        refine ⟨fun ck t h => ?_, fun e h => ?_⟩
        · unfold CKObj.train at h
          obtain ⟨Xhs', e1, h⟩ := Py.bind_ok.mp h
          obtain ⟨Xls', e2, h⟩ := Py.bind_ok.mp h
          obtain ⟨yhs, e3, h⟩ := Py.bind_ok.mp h
          obtain rfl : Xhs = Xhs' := Except.ok.inj (h1.symm.trans e1)
          obtain rfl : Xls = Xls' := Except.ok.inj (h2.symm.trans e2)
          obtain rfl := Except.ok.inj (h3.symm.trans e3)
          obtain ⟨⟨lf, lfFit⟩, h4, h⟩ := Py.bind_ok.mp h
          have h4' : (ckLf0 s.view (std yh)).train w.lf Xls (fun i => (yl i - mean yh) / std yh) = .ok (lf, lfFit) := h4
          rw [hraw.1 lf lfFit h4']
          obtain ⟨_, hX, _, hreg, _⟩ := rawTrained_of_train h4'
          have hreg' : lf.regr = s.lf.regr := hreg.trans (by rw [hlf0]; rfl)
          obtain ⟨⟨rho, theta, noise⟩, h5, h⟩ := Py.bind_ok.mp h
          obtain ⟨g, h6, h⟩ := Py.bind_ok.mp h
          obtain ⟨LC, h7, h⟩ := Py.bind_ok.mp h
          obtain ⟨a, h8, h⟩ := Py.bind_ok.mp h
          obtain ⟨b, h9, h⟩ := Py.bind_ok.mp h
          obtain ⟨mu, h10, h⟩ := Py.bind_ok.mp h
          have e6 := congrArg Prod.fst (Except.ok.inj h)
          have e7 := congrArg Prod.snd (Except.ok.inj h)
          simp only at e6 e7
          subst e6 e7
          rw [hmap] at h5
          refine (trainHf_ok (s := { s with xhs := some ⟨nh, Xhs⟩, xls := some ⟨nl, Xls⟩, yhMean := some (mean yh), yhStd := some (std yh), noise := .known (σ / std yh), lf := rawAfter { s.lf with noise := .known (σ / std yh) } lf lfFit }) (W := ⟨lfFit.F, lfFit.K, lfFit.gls⟩) (Xls := Xls) (predYlh_eq hX hreg') ?_ h6 h7 h8 h9 h10).trans ?_
          · exact h5
          · rfl
        · unfold CKObj.train at h
          rcases Py.bind_error.mp h with h | ⟨Xhs', e1, h⟩
          · exact absurd (h1.symm.trans h) (by simp)
          rcases Py.bind_error.mp h with h | ⟨Xls', e2, h⟩
          · exact absurd (h2.symm.trans h) (by simp)
          rcases Py.bind_error.mp h with h | ⟨yhs, e3, h⟩
          · exact absurd (h3.symm.trans h) (by simp)
          obtain rfl : Xhs = Xhs' := Except.ok.inj (h1.symm.trans e1)
          obtain rfl : Xls = Xls' := Except.ok.inj (h2.symm.trans e2)
          obtain rfl := Except.ok.inj (h3.symm.trans e3)
          rcases Py.bind_error.mp h with h4 | ⟨⟨lf, lfFit⟩, h4, h⟩
          · have h5 := hraw.2 e h4
            rcases hR : ({ s.lf with noise := .known (σ / std yh) } : RawModel d q).train w.lf Xls ⟨nl, fun i => (yl i - mean yh) / std yh⟩ with ⟨lf, R⟩
            rw [hR] at h5
            simp only at h5
            subst h5
            rfl
          · have h4' : (ckLf0 s.view (std yh)).train w.lf Xls (fun i => (yl i - mean yh) / std yh) = .ok (lf, lfFit) := h4
            rw [hraw.1 lf lfFit h4']
            obtain ⟨_, hX, _, hreg, _⟩ := rawTrained_of_train h4'
            have hreg' : lf.regr = s.lf.regr := hreg.trans (by rw [hlf0]; rfl)
            rcases Py.bind_error.mp h with h5 | ⟨⟨rho, theta, noise⟩, h5, h⟩
            · rw [hmap] at h5
              exact trainHf_error_search (s := { s with xhs := some ⟨nh, Xhs⟩, xls := some ⟨nl, Xls⟩, yhMean := some (mean yh), yhStd := some (std yh), noise := .known (σ / std yh), lf := rawAfter { s.lf with noise := .known (σ / std yh) } lf lfFit }) (W := ⟨lfFit.F, lfFit.K, lfFit.gls⟩) (Xls := Xls) (predYlh_eq hX hreg') h5
            · rw [hmap] at h5
              refine trainHf_error_update (s := { s with xhs := some ⟨nh, Xhs⟩, xls := some ⟨nl, Xls⟩, yhMean := some (mean yh), yhStd := some (std yh), noise := .known (σ / std yh), lf := rawAfter { s.lf with noise := .known (σ / std yh) } lf lfFit }) (W := ⟨lfFit.F, lfFit.K, lfFit.gls⟩) (Xls := Xls) (predYlh_eq hX hreg') h5 ?_
              rcases Py.bind_error.mp h with h6 | ⟨g, h6, h⟩
              · exact Py.bind_error.mpr (.inl h6)
              refine Py.bind_error.mpr (.inr ⟨g, h6, ?_⟩)
              rcases Py.bind_error.mp h with h7 | ⟨LC, h7, h⟩
              · exact Py.bind_error.mpr (.inl h7)
              refine Py.bind_error.mpr (.inr ⟨LC, h7, ?_⟩)
              rcases Py.bind_error.mp h with h8 | ⟨a, h8, h⟩
              · exact Py.bind_error.mpr (.inl h8)
              refine Py.bind_error.mpr (.inr ⟨a, h8, ?_⟩)
              rcases Py.bind_error.mp h with h9 | ⟨b, h9, h⟩
              · exact Py.bind_error.mpr (.inl h9)
              refine Py.bind_error.mpr (.inr ⟨b, h9, ?_⟩)
              rcases Py.bind_error.mp h with h10 | ⟨mu, h10, h⟩
              · exact h10
              · cases h

/-! ### predictions -/

theorem ckCross_eq (ck : CKObj d q) (t : CKFit nh nl d q) (xs : Samples m d) : ckCross t.rho t.lfFit.gls.sigma2 t.sigma2 ck.lf.kernel ck.kernel t.Xls t.Xhs xs = crossCov ck t xs := rfl

/-- What predictions of the object are, attribute by attribute. -/
theorem predictCore_of {s : CKModel d q} {N : ℕ} (Xnew : Samples m d) (hr : ∀ j, s.box.high j - s.box.low j ≠ 0) {Xhs : Samples nh d} {Xls : Samples nl d} {W : Σ n, RawWeights n q} {rho s2 mu yStd yMean : ℝ} {y : Fin N → ℝ}
    {LC A : Matrix (Fin N) (Fin N) ℝ} (h1 : s.xhs = some ⟨nh, Xhs⟩) (h2 : s.xls = some ⟨nl, Xls⟩) (h3 : s.lf.weights = some W) (h4 : s.rho = some rho) (h5 : s.sigma2 = some s2) (h6 : s.mu = some mu)
    (h7 : s.LC = some ⟨N, LC⟩) (h8 : s.y = some ⟨N, y⟩) (h9 : s.yhStd = some yStd) (h10 : s.yhMean = some yMean) (hc : IsCholesky A LC) :
    (∀ hN : N = nl + nh, s.predictCore Xnew = .ok (⟨nl + nh, ckCross rho W.2.gls.sigma2 s2 s.lf.kernel s.kernel Xls Xhs (fun i => normPt s.box (Xnew i))⟩,
      fun j => (mu + ∑ i, ckCross rho W.2.gls.sigma2 s2 s.lf.kernel s.kernel Xls Xhs (fun i => normPt s.box (Xnew i)) i j * (A⁻¹ *ᵥ fun i => y i - mu) (Fin.cast hN.symm i)) * yStd + yMean)) ∧
    (N ≠ nl + nh → s.predictCore Xnew = .error .valueError) := by
  have e0 := normalizeInput_eq Xnew hr
  have e1 := cholSolveV_eq hc (fun i => y i - mu)
  constructor
  · intro hN
    unfold CKModel.predictCore
    refine Py.bind_ok.mpr ⟨_, e0, Py.bind_ok.mpr ⟨rho, by rw [h4]; rfl, Py.bind_ok.mpr ⟨W, by rw [h3]; rfl, Py.bind_ok.mpr ⟨_, by rw [h2]; rfl, Py.bind_ok.mpr ⟨_, by rw [h1]; rfl, Py.bind_ok.mpr ⟨s2, by rw [h5]; rfl,
      Py.bind_ok.mpr ⟨mu, by rw [h6]; rfl, Py.bind_ok.mpr ⟨_, by rw [h7]; rfl, Py.bind_ok.mpr ⟨_, by rw [h8]; rfl, ?_⟩⟩⟩⟩⟩⟩⟩⟩⟩
    refine (dif_pos rfl).trans ?_
    refine Py.bind_ok.mpr ⟨_, e1, Py.bind_ok.mpr ⟨_, dif_pos hN, Py.bind_ok.mpr ⟨yStd, by rw [h9]; rfl, Py.bind_ok.mpr ⟨yMean, by rw [h10]; rfl, ?_⟩⟩⟩⟩
    rfl
  · intro hN
    unfold CKModel.predictCore
    refine Py.bind_error.mpr (.inr ⟨_, e0, Py.bind_error.mpr (.inr ⟨rho, by rw [h4]; rfl, Py.bind_error.mpr (.inr ⟨W, by rw [h3]; rfl, Py.bind_error.mpr (.inr ⟨_, by rw [h2]; rfl, Py.bind_error.mpr (.inr ⟨_, by rw [h1]; rfl,
      Py.bind_error.mpr (.inr ⟨s2, by rw [h5]; rfl, Py.bind_error.mpr (.inr ⟨mu, by rw [h6]; rfl, Py.bind_error.mpr (.inr ⟨_, by rw [h7]; rfl, Py.bind_error.mpr (.inr ⟨_, by rw [h8]; rfl, ?_⟩)⟩)⟩)⟩)⟩)⟩)⟩)⟩)⟩)
    refine (dif_pos rfl).trans ?_
    refine Py.bind_error.mpr (.inr ⟨_, e1, Py.bind_error.mpr (.inl ?_)⟩)
    exact dif_neg hN

theorem predict_of_core {s : CKModel d q} {Xnew : Samples m d} {c : Σ n, Matrix (Fin n) (Fin m) ℝ} {f : Fin m → ℝ} (h : s.predictCore Xnew = .ok (c, f)) : s.predict Xnew = .ok f := by
  unfold CKModel.predict
  exact Py.bind_ok.mpr ⟨_, h, rfl⟩

theorem predict_of_core_error {s : CKModel d q} {Xnew : Samples m d} {e : PyErr} (h : s.predictCore Xnew = .error e) : s.predict Xnew = .error e := by
  unfold CKModel.predict
  exact Py.bind_error.mpr (.inl h)

theorem ckAfter_core {s : CKModel d q} {ck : CKObj d q} {t : CKFit nh nl d q} (hT : CKTrained ck t) (hb : ck.box = s.box) (Xnew : Samples m d) :
    (ckAfter s ck t).predictCore Xnew = .ok (⟨nl + nh, crossCov ck t (fun i => normPt ck.box (Xnew i))⟩, fun j => (t.mu + ((crossCov ck t (fun i => normPt ck.box (Xnew i)))ᵀ *ᵥ
      ((t.C + jitter • (1 : Matrix (Fin (nl + nh)) (Fin (nl + nh)) ℝ))⁻¹ *ᵥ fun i => t.y i - t.mu)) j) * t.yhStd + t.yhMean) := by
  have hr : ∀ j, (ckAfter s ck t).box.high j - (ckAfter s ck t).box.low j ≠ 0 := by
    show ∀ j, s.box.high j - s.box.low j ≠ 0
    rw [← hb]; exact hT.range
  refine ((predictCore_of (s := ckAfter s ck t) Xnew hr rfl rfl rfl rfl rfl rfl rfl rfl rfl rfl hT.LC).1 rfl).trans ?_
  rw [show (ckAfter s ck t).box = ck.box from hb.symm]
  rfl

theorem ckPredict_value {ck : CKObj d q} {t : CKFit nh nl d q} (hT : CKTrained ck t) (Xnew : Samples m d) :
    ck.predict t Xnew = .ok fun j => (t.mu + ((crossCov ck t (fun i => normPt ck.box (Xnew i)))ᵀ *ᵥ
      ((t.C + jitter • (1 : Matrix (Fin (nl + nh)) (Fin (nl + nh)) ℝ))⁻¹ *ᵥ fun i => t.y i - t.mu)) j) * t.yhStd + t.yhMean := by
  unfold CKObj.predict
  exact Py.bind_ok.mpr ⟨_, normalizeInput_eq Xnew hT.range, Py.bind_ok.mpr ⟨_, cholSolveV_eq hT.LC _, rfl⟩⟩

/-- Predictions of the object after a training that returned are those of the value. -/
theorem ckAfter_predict {s : CKModel d q} {ck : CKObj d q} {t : CKFit nh nl d q} (hT : CKTrained ck t) (hb : ck.box = s.box) (Xnew : Samples m d) : (ckAfter s ck t).predict Xnew = ck.predict t Xnew := by
  rw [ckPredict_value hT]
  exact predict_of_core (ckAfter_core hT hb Xnew)

theorem ckAfter_predictStd {s : CKModel d q} {ck : CKObj d q} {t : CKFit nh nl d q} (hT : CKTrained ck t) (hb : ck.box = s.box) (Xnew : Samples m d) {ck' : CKObj d q} {μ σ : Fin m → ℝ}
    (h : ck.predictStd t Xnew = .ok (ck', μ, σ)) : (ckAfter s ck t).predictStd Xnew = ({ ckAfter s ck t with noise := .ofOption ck'.noise }, .ok (μ, σ)) := by
  unfold CKObj.predictStd at h
  obtain ⟨fmean, h1, h⟩ := Py.bind_ok.mp h
  obtain ⟨xs, h2, h⟩ := Py.bind_ok.mp h
  obtain ⟨z, h3, h⟩ := Py.bind_ok.mp h
  obtain rfl := Except.ok.inj ((normalizeInput_eq Xnew hT.range).symm.trans h2)
  rw [ckPredict_value hT] at h1
  have h1 := Except.ok.inj h1
  cases hn : ck.noise with
  | none => rw [hn] at h; cases h
  | some v =>
    rw [hn] at h
    have e1 := congrArg Prod.fst (Except.ok.inj h)
    have e2 := congrArg (fun r => r.2.1) (Except.ok.inj h)
    have e3 := congrArg (fun r => r.2.2) (Except.ok.inj h)
    simp only at e1 e2 e3
    subst e1 e2 e3
    have hcore := ckAfter_core (s := s) hT hb Xnew
    have hepis : (ckAfter s ck t).episStd ⟨nl + nh, crossCov ck t (fun i => normPt ck.box (Xnew i))⟩ =
        .ok (fun j => Real.sqrt (max (t.rho ^ 2 * t.lfFit.gls.sigma2 + t.sigma2 - ((crossCov ck t (fun i => normPt ck.box (Xnew i)))ᵀ * z) j j) 0) * t.yhStd, t.yhStd) := by
      unfold CKModel.episStd
      refine Py.bind_ok.mpr ⟨t.rho, rfl, Py.bind_ok.mpr ⟨_, rfl, Py.bind_ok.mpr ⟨t.sigma2, rfl, Py.bind_ok.mpr ⟨_, rfl, Py.bind_ok.mpr ⟨t.yhStd, rfl, ?_⟩⟩⟩⟩⟩
      refine (dif_pos rfl).trans ?_
      exact Py.bind_ok.mpr ⟨z, h3, rfl⟩
    have hall : (do
        let (c, fmean) ← (ckAfter s ck t).predictCore Xnew
        let (epis, yStd) ← (ckAfter s ck t).episStd c
        .ok (fmean, epis, yStd) : Py ((Fin m → ℝ) × (Fin m → ℝ) × ℝ)) = .ok (fmean, fun j => Real.sqrt (max (t.rho ^ 2 * t.lfFit.gls.sigma2 + t.sigma2 - ((crossCov ck t (fun i => normPt ck.box (Xnew i)))ᵀ * z) j j) 0) * t.yhStd, t.yhStd) := by
      refine Py.bind_ok.mpr ⟨_, hcore, Py.bind_ok.mpr ⟨_, hepis, ?_⟩⟩
      rw [← h1]
    have hno : (ckAfter s ck t).noise = .known v := by
      show Noise.ofOption ck.noise = _
      rw [hn]; rfl
    unfold CKModel.predictStd
    rw [hall]
    dsimp only
    rw [hno]
    rfl

theorem rawAfter_predict {s : RawModel d q} {gp : RawGP d q} {t : RawFit n d q} (hreg : gp.regr = s.regr) (xs : Samples m d) : (rawAfter s gp t).predict xs = .ok (gp.predict t xs) := by
  unfold RawModel.predict RawGP.predict
  refine Py.bind_ok.mpr ⟨_, rfl, Py.bind_ok.mpr ⟨_, rfl, Py.bind_ok.mpr ⟨_, dif_pos rfl, ?_⟩⟩⟩
  rw [hreg]
  rfl

theorem rawAfter_predictStd {s : RawModel d q} {gp : RawGP d q} {t : RawFit n d q} (hT : RawTrained gp t) (hreg : gp.regr = s.regr) (xs : Samples m d) : (rawAfter s gp t).predictStd xs = gp.predictStd t xs := by
  unfold RawModel.predictStd RawGP.predictStd
  have h1 := rawAfter_predict (t := t) hreg xs
  have hno : (rawAfter s gp t).noise = .known t.noise := by
    show Noise.ofOption gp.noise = _
    rw [hT.noise]; rfl
  cases h2 : mseOf t.gls t.F (gp.kernel.getKernelMatrix t.X xs) (regrMatrix gp.regr xs) with
  | error e =>
    refine Py.bind_error.mpr (.inr ⟨_, rfl, Py.bind_error.mpr (.inr ⟨_, rfl, Py.bind_error.mpr (.inr ⟨_, h1, ?_⟩)⟩)⟩)
    refine (dif_pos rfl).trans ?_
    rw [hreg] at h2
    exact Py.bind_error.mpr (.inl h2)
  | ok mse =>
    refine Py.bind_ok.mpr ⟨_, rfl, Py.bind_ok.mpr ⟨_, rfl, Py.bind_ok.mpr ⟨_, h1, ?_⟩⟩⟩
    refine (dif_pos rfl).trans ?_
    rw [hreg] at h2
    refine Py.bind_ok.mpr ⟨mse, h2, ?_⟩
    rw [hno]

theorem ckAfter_predictLf {s : CKModel d q} {ck : CKObj d q} {t : CKFit nh nl d q} (hT : CKTrained ck t) (hb : ck.box = s.box) (hreg : ck.lf.regr = s.lf.regr) (Xnew : Samples m d) :
    (ckAfter s ck t).predictLf Xnew = ck.predictLf t Xnew ∧ (ckAfter s ck t).predictLfStd Xnew = ck.predictLfStd t Xnew := by
  have e0 : normalizeInput (ckAfter s ck t).box Xnew = normalizeInput ck.box Xnew := by rw [show (ckAfter s ck t).box = ck.box from hb.symm]
  unfold CKModel.predictLf CKModel.predictLfStd CKObj.predictLf CKObj.predictLfStd
  rw [e0, normalizeInput_eq Xnew hT.range]
  constructor
  · exact Py.bind_ok.mpr ⟨_, rfl, Py.bind_ok.mpr ⟨_, rawAfter_predict hreg _, rfl⟩⟩
  · have e1 : (ckAfter s ck t).lf.predictStd (fun i => normPt ck.box (Xnew i)) = ck.lf.predictStd t.lfFit (fun i => normPt ck.box (Xnew i)) := rawAfter_predictStd hT.lf hreg _
    show (do
      let (obj, sd) ← (ckAfter s ck t).lf.predictStd (fun i => normPt ck.box (Xnew i))
      let yStd ← attr (ckAfter s ck t).yhStd
      let yMean ← attr (ckAfter s ck t).yhMean
      .ok (fun j => obj j * yStd + yMean, fun j => sd j * yStd) : Py ((Fin m → ℝ) × (Fin m → ℝ))) = _
    rw [e1]
    rfl

/-! ### what every training keeps -/

/-- Settings of the object. -/
structure CKSettings (s s' : CKModel d q) : Prop where
  box : s'.box = s.box
  optimizer : s'.optimizer = s.optimizer
  rhoLow : s'.rhoLow = s.rhoLow
  rhoHigh : s'.rhoHigh = s.rhoHigh
  low : s'.kernel.boundLow = s.kernel.boundLow
  high : s'.kernel.boundHigh = s.kernel.boundHigh
  lf : RawSettings s.lf s'.lf

theorem RawSettings.refl (s : RawModel d q) : RawSettings s s := ⟨rfl, rfl, rfl, rfl⟩

theorem RawSettings.trans {a b c : RawModel d q} (h : RawSettings a b) (h' : RawSettings b c) : RawSettings a c :=
  ⟨h'.regr.trans h.regr, h'.optimizer.trans h.optimizer, h'.low.trans h.low, h'.high.trans h.high⟩

theorem CKSettings.refl (s : CKModel d q) : CKSettings s s := ⟨rfl, rfl, rfl, rfl, rfl, rfl, .refl _⟩

theorem CKSettings.trans {a b c : CKModel d q} (h : CKSettings a b) (h' : CKSettings b c) : CKSettings a c :=
  ⟨h'.box.trans h.box, h'.optimizer.trans h.optimizer, h'.rhoLow.trans h.rhoLow, h'.rhoHigh.trans h.rhoHigh, h'.low.trans h.low, h'.high.trans h.high, h.lf.trans h'.lf⟩

theorem update_keeps (s : CKModel d q) (W : RawWeights nl q) (rho : ℝ) (K : Matrix (Fin nh) (Fin nh) ℝ) (Xls : Samples nl d) (Xhs : Samples nh d) (yls : Fin nl → ℝ) (yhs p : Fin nh → ℝ) :
    ∃ s2 y LC mu, (s.update W rho K Xls Xhs yls yhs p).1 = { s with sigma2 := s2, y := y, LC := LC, mu := mu } := by
  unfold CKModel.update
  dsimp only
  split
  · exact ⟨s.sigma2, s.y, s.LC, s.mu, rfl⟩
  · split
    · exact ⟨_, _, s.LC, s.mu, rfl⟩
    · split
      · exact ⟨_, _, _, s.mu, rfl⟩
      · exact ⟨_, _, _, _, rfl⟩

theorem trainHf_keeps (s : CKModel d q) (w : CKWorld d) (W : RawWeights nl q) (yStd : ℝ) (Xls : Samples nl d) (Xhs : Samples nh d) (yls : Fin nl → ℝ) (yhs : Fin nh → ℝ) :
    CKSettings s (s.trainHf w W yStd Xls Xhs yls yhs).1 ∧ (∀ v, s.noise = .known v → (s.trainHf w W yStd Xls Xhs yls yhs).1.noise = .known v) ∧ (s.trainHf w W yStd Xls Xhs yls yhs).1.yhStd = s.yhStd := by
  unfold CKModel.trainHf
  dsimp only
  split
  · exact ⟨.refl s, fun v hv => hv, rfl⟩
  · next rho theta v hfit =>
    obtain ⟨s2, y, LC, mu, e⟩ := update_keeps { s with rho := some rho, noise := .known v, kernel := s.kernel.setParams theta } W rho (covTrain (s.kernel.setParams theta).param Xhs v) Xls Xhs yls yhs
      (regrMatrix s.lf.regr Xhs *ᵥ W.gls.beta + (s.lf.kernel.getKernelMatrix Xls Xhs)ᵀ *ᵥ W.gls.gamma)
    rw [e]
    refine ⟨⟨rfl, rfl, rfl, rfl, rfl, rfl, .refl _⟩, fun u hu => ?_, rfl⟩
    rw [hu] at hfit
    unfold CKObj.fitHyper Noise.toOption at hfit
    obtain ⟨x, _, h6⟩ := Py.bind_ok.mp hfit
    simp only [Except.ok.injEq, Prod.mk.injEq] at h6
    exact congrArg Noise.known h6.2.2.symm

theorem load_keeps (s : CKModel d q) (xh xl : Option (Σ n, Samples n d)) (ym sd : ℝ) : CKSettings s (s.load xh xl ym sd) ∧ (s.load xh xl ym sd).yhStd = some sd ∧ (s.load xh xl ym sd).noise = s.noise.div sd := by
  unfold CKModel.load
  refine ⟨⟨rfl, rfl, rfl, rfl, rfl, rfl, ?_⟩, rfl, rfl⟩
  dsimp only
  split <;> exact ⟨rfl, rfl, rfl, rfl⟩

/-- Effects of every training, returned or not, on the settings, the spread and the noise. -/
theorem train_keeps (s : CKModel d q) (w : CKWorld d) (Xh : Σ n, Samples n d) (yh : Σ n, Fin n → ℝ) (Xl : Σ n, Samples n d) (yl : Σ n, Fin n → ℝ) :
    CKSettings s (s.train w Xh yh Xl yl).1 ∧ (s.train w Xh yh Xl yl).1.yhStd = some (std yh.2) ∧
    (∀ σ, s.noise = .known σ → std yh.2 ≠ 0 → (s.train w Xh yh Xl yl).1.noise = .known (σ / std yh.2)) ∧
    (∀ σ, s.noise = .known σ → std yh.2 = 0 → (s.train w Xh yh Xl yl).1.noise = .nonFinite) ∧
    (s.noise = .nonFinite → (s.train w Xh yh Xl yl).1.noise = .nonFinite ∧ ∃ e, (s.train w Xh yh Xl yl).2 = .error e) := by
  have hk : ∀ σ, s.noise = .known σ → std yh.2 ≠ 0 → s.noise.div (std yh.2) = .known (σ / std yh.2) := fun σ h1 h2 => by rw [h1]; exact if_neg h2
  have hf : ∀ σ, s.noise = .known σ → std yh.2 = 0 → s.noise.div (std yh.2) = .nonFinite := fun σ h1 h2 => by rw [h1]; exact if_pos h2
  have hi : s.noise = .nonFinite → s.noise.div (std yh.2) = .nonFinite := fun h1 => by rw [h1]; rfl
  unfold CKModel.train
  dsimp only
  split
  · next e he =>
    obtain ⟨l1, l2, l3⟩ := load_keeps s s.xhs s.xls (mean yh.2) (std yh.2)
    exact ⟨l1, l2, fun σ a b => l3.trans (hk σ a b), fun σ a b => l3.trans (hf σ a b), fun a => ⟨l3.trans (hi a), _, rfl⟩⟩
  · next Xhs Xls he =>
    obtain ⟨l1, l2, l3⟩ := load_keeps s (some ⟨Xh.1, Xhs⟩) (some ⟨Xl.1, Xls⟩) (mean yh.2) (std yh.2)
    have hl : s.noise = .nonFinite → (s.load (some ⟨Xh.1, Xhs⟩) (some ⟨Xl.1, Xls⟩) (mean yh.2) (std yh.2)).lf.noise = .nonFinite := fun a => by rw [load_nonFinite a]
    generalize s.load (some ⟨Xh.1, Xhs⟩) (some ⟨Xl.1, Xls⟩) (mean yh.2) (std yh.2) = S at l1 l2 l3 hl ⊢
    split
    · exact ⟨l1.trans ⟨rfl, rfl, rfl, rfl, rfl, rfl, ⟨rfl, rfl, rfl, rfl⟩⟩, l2, fun σ a b => l3.trans (hk σ a b), fun σ a b => l3.trans (hf σ a b), fun a => ⟨l3.trans (hi a), _, rfl⟩⟩
    · next hsd =>
      have hS := rawTrain_settings S.lf w.lf Xls ⟨yl.1, fun i => (yl.2 i - mean yh.2) / std yh.2⟩
      have hN := fun h => rawTrain_nonFinite (s := S.lf) h w.lf Xls ⟨yl.1, fun i => (yl.2 i - mean yh.2) / std yh.2⟩
      generalize S.lf.train w.lf Xls ⟨yl.1, fun i => (yl.2 i - mean yh.2) / std yh.2⟩ = R at hS hN ⊢
      obtain ⟨lf, R⟩ := R
      cases R with
      | error e => exact ⟨l1.trans ⟨rfl, rfl, rfl, rfl, rfl, rfl, hS⟩, l2, fun σ a b => l3.trans (hk σ a b), fun σ a b => absurd b hsd, fun a => ⟨l3.trans (hi a), _, rfl⟩⟩
      | ok W =>
        have hne : s.noise ≠ .nonFinite := fun h => by have := congrArg Prod.snd (hN (hl h)); cases this
        dsimp only
        split
        · next hn =>
          have hS' : CKSettings S { S with lf := lf } := ⟨rfl, rfl, rfl, rfl, rfl, rfl, hS⟩
          obtain ⟨t1, t2, t3⟩ := trainHf_keeps { S with lf := lf } w W (std yh.2) Xls Xhs (fun i => (yl.2 (Fin.cast hn.2.symm i) - mean yh.2) / std yh.2) (fun i => (yh.2 (Fin.cast hn.1.symm i) - mean yh.2) / std yh.2)
          refine ⟨(l1.trans hS').trans t1, t3.trans l2, fun σ a b => t2 _ (l3.trans (hk σ a b)), fun σ a b => absurd b hsd, fun a => absurd a hne⟩
        · exact ⟨l1.trans ⟨rfl, rfl, rfl, rfl, rfl, rfl, hS⟩, l2, fun σ a b => l3.trans (hk σ a b), fun σ a b => absurd b hsd, fun a => absurd a hne⟩

/-- The current kernel parameters and the noise stored in the low-fidelity model play no role in training. -/
theorem view_train_congr {s s' : CKModel d q} (S : CKSettings s s') {σ : ℝ} (hs : s.noise = .known σ) (hs' : s'.noise = .known σ) (w : CKWorld d) (Xh : Samples nh d) (yh : Fin nh → ℝ) (Xl : Samples nl d) (yl : Fin nl → ℝ) :
    (∀ r, s.view.train w Xh yh Xl yl = .ok r → s'.view.train w Xh yh Xl yl = .ok r) ∧ (∀ e, s.view.train w Xh yh Xl yl = .error e → s'.view.train w Xh yh Xl yl = .error e) := by
  have e : s'.view.train w Xh yh Xl yl = s.view.train w Xh yh Xl yl := by
    obtain ⟨S1, S2, S3, S4, S5, S6, ⟨T1, T2, T3, T4⟩⟩ := S
    obtain ⟨box, ⟨kp, kl, kh⟩, opt, rl, rh, no, ⟨⟨lp, ll, lh⟩, lr, lo, ln, lX, lW⟩, a1, a2, a3, a4, a5, a6, a7, a8, a9⟩ := s
    obtain ⟨box', ⟨kp', kl', kh'⟩, opt', rl', rh', no', ⟨⟨lp', ll', lh'⟩, lr', lo', ln', lX', lW'⟩, a1', a2', a3', a4', a5', a6', a7', a8', a9'⟩ := s'
    dsimp only at S1 S2 S3 S4 S5 S6 T1 T2 T3 T4 hs hs'
    subst S1 S2 S3 S4 S5 S6 T1 T2 T3 T4 hs hs'
    rfl
  rw [e]
  exact ⟨fun _ h => h, fun _ h => h⟩

theorem raw_train_snd_congr {s s' : RawModel d q} (S : RawSettings s s') {σ : ℝ} (hs : s.noise = .known σ) (hs' : s'.noise = .known σ) (w : World d) (X : Samples n d) (y : Σ n, Fin n → ℝ) :
    (s.train w X y).2 = (s'.train w X y).2 := by
  by_cases hn : y.1 = n
  · obtain ⟨n', y⟩ := y
    dsimp only at hn
    subst hn
    have hv : s'.view.train w X y = s.view.train w X y := by
      obtain ⟨T1, T2, T3, T4⟩ := S
      obtain ⟨⟨lp, ll, lh⟩, lr, lo, ln, lX, lW⟩ := s
      obtain ⟨⟨lp', ll', lh'⟩, lr', lo', ln', lX', lW'⟩ := s'
      dsimp only at T1 T2 T3 T4 hs hs'
      subst T1 T2 T3 T4 hs hs'
      rfl
    have A := rawTrain_eq (s := s) (by simp [hs]) w X y
    have B := rawTrain_eq (s := s') (by simp [hs']) w X y
    rw [hv] at B
    cases hr : s.view.train w X y with
    | error e => rw [A.2 e hr, B.2 e hr]
    | ok r => rw [A.1 r.1 r.2 hr, B.1 r.1 r.2 hr]
  · rw [rawTrain_mismatch (by simp [hs]) w X y hn, rawTrain_mismatch (by simp [hs']) w X y hn]

/-- Numbers of samples and responses that differ: the training raises, and what it raises depends only on the settings and the noise. -/
theorem train_mismatch {s s' : CKModel d q} (S : CKSettings s s') {σ : ℝ} (hs : s.noise = .known σ) (hs' : s'.noise = .known σ) (w : CKWorld d) (Xh : Σ n, Samples n d) (yh : Σ n, Fin n → ℝ) (Xl : Σ n, Samples n d)
    (yl : Σ n, Fin n → ℝ) (hn : ¬ (yh.1 = Xh.1 ∧ yl.1 = Xl.1)) : ∃ e, (s.train w Xh yh Xl yl).2 = .error e ∧ (s'.train w Xh yh Xl yl).2 = .error e := by
  unfold CKModel.train
  rw [S.box]
  dsimp only
  split
  · exact ⟨_, rfl, rfl⟩
  · next Xhs Xls he =>
    by_cases hsd : std yh.2 = 0
    · rw [if_pos hsd, if_pos hsd]
      exact ⟨_, rfl, rfl⟩
    · rw [if_neg hsd, if_neg hsd, load_known hs hsd, load_known hs' hsd]
      dsimp only
      have hc := raw_train_snd_congr (s := { s.lf with noise := .known (σ / std yh.2) }) (s' := { s'.lf with noise := .known (σ / std yh.2) }) ⟨S.lf.regr, S.lf.optimizer, S.lf.low, S.lf.high⟩ rfl rfl w.lf Xls
        ⟨yl.1, fun i => (yl.2 i - mean yh.2) / std yh.2⟩
      rcases hA : RawModel.train { s.lf with noise := .known (σ / std yh.2) } w.lf Xls ⟨yl.1, fun i => (yl.2 i - mean yh.2) / std yh.2⟩ with ⟨lfA, rA⟩
      rcases hB : RawModel.train { s'.lf with noise := .known (σ / std yh.2) } w.lf Xls ⟨yl.1, fun i => (yl.2 i - mean yh.2) / std yh.2⟩ with ⟨lfB, rB⟩
      rw [hA, hB] at hc
      dsimp only at hc
      subst hc
      cases rA with
      | error e => exact ⟨e, rfl, rfl⟩
      | ok W =>
        dsimp only
        rw [dif_neg hn, dif_neg hn]
        exact ⟨_, rfl, rfl⟩

theorem ckAfter_congr {s s' : CKModel d q} (S : CKSettings s s') (ck : CKObj d q) (t : CKFit nh nl d q) : ckAfter s' ck t = ckAfter s ck t := by
  unfold ckAfter rawAfter
  rw [S.box, S.optimizer, S.rhoLow, S.rhoHigh, S.lf.regr, S.lf.optimizer]

/-- Two objects with the same settings and the same known noise: trainings raise the same exceptions, and a training that returns leaves both with the same attributes. -/
theorem train_congr {s s' : CKModel d q} (S : CKSettings s s') {σ : ℝ} (hs : s.noise = .known σ) (hs' : s'.noise = .known σ) (w : CKWorld d) (Xh : Σ n, Samples n d) (yh : Σ n, Fin n → ℝ) (Xl : Σ n, Samples n d)
    (yl : Σ n, Fin n → ℝ) : (s'.train w Xh yh Xl yl).2 = (s.train w Xh yh Xl yl).2 ∧ ((s.train w Xh yh Xl yl).2 = .ok () → s'.train w Xh yh Xl yl = s.train w Xh yh Xl yl) := by
  by_cases hn : yh.1 = Xh.1 ∧ yl.1 = Xl.1
  · obtain ⟨nh, Xh⟩ := Xh
    obtain ⟨nh', yh⟩ := yh
    obtain ⟨nl, Xl⟩ := Xl
    obtain ⟨nl', yl⟩ := yl
    dsimp only at hn
    obtain ⟨rfl, rfl⟩ := hn
    have A := train_eq hs w Xh yh Xl yl
    have B := train_eq hs' w Xh yh Xl yl
    have V := view_train_congr S hs hs' w Xh yh Xl yl
    cases hr : s.view.train w Xh yh Xl yl with
    | error e =>
      have a := A.2 e hr
      have b := B.2 e (V.2 e hr)
      rw [a, b]
      exact ⟨rfl, fun h => by { cases h }⟩
    | ok r =>
      have a := A.1 r.1 r.2 hr
      have b := B.1 r.1 r.2 (V.1 r hr)
      rw [ckAfter_congr S] at b
      rw [a, b]
      exact ⟨rfl, fun _ => rfl⟩
  · obtain ⟨e, a, b⟩ := train_mismatch S hs hs' w Xh yh Xl yl hn
    rw [a, b]
    exact ⟨rfl, fun h => by { cases h }⟩

/-- A call for a standard deviation changes only the noise. -/
theorem predictStd_state (s : CKModel d q) (Xnew : Samples m d) :
    (∃ e, s.predictStd Xnew = (s, .error e)) ∨ ∃ v sd r, s.noise = .known v ∧ s.yhStd = some sd ∧ s.predictStd Xnew = ({ s with noise := .known (v * sd) }, .ok r) := by
  unfold CKModel.predictStd
  split
  · exact .inl ⟨_, rfl⟩
  · next fmean epis yStd h =>
    split
    · exact .inl ⟨_, rfl⟩
    · exact .inl ⟨_, rfl⟩
    · next v hv =>
      refine .inr ⟨v, yStd, _, hv, ?_, rfl⟩
      obtain ⟨⟨c, f⟩, h1, h⟩ := Py.bind_ok.mp h
      obtain ⟨⟨ep, ys⟩, h2, h⟩ := Py.bind_ok.mp h
      have h3 := Except.ok.inj h
      simp only [Prod.mk.injEq] at h3
      obtain ⟨_, _, rfl⟩ := h3
      unfold CKModel.episStd at h2
      obtain ⟨_, _, h2⟩ := Py.bind_ok.mp h2
      obtain ⟨_, _, h2⟩ := Py.bind_ok.mp h2
      obtain ⟨_, _, h2⟩ := Py.bind_ok.mp h2
      obtain ⟨LC, _, h2⟩ := Py.bind_ok.mp h2
      obtain ⟨ys', h4, h2⟩ := Py.bind_ok.mp h2
      have h5 : s.yhStd = some ys' := by
        unfold attr at h4
        cases hy : s.yhStd with
        | none => rw [hy] at h4; cases h4
        | some u => rw [hy] at h4; rw [Except.ok.inj h4]
      rw [h5]
      by_cases hc : c.1 = LC.1
      · have h2 := (dif_pos hc).symm.trans h2
        obtain ⟨z, _, h2⟩ := Py.bind_ok.mp h2
        have h6 := congrArg Prod.snd (Except.ok.inj h2)
        exact congrArg some h6
      · have h2 := (dif_neg hc).symm.trans h2
        cases h2

end Mfpml.CKObjects
