import Verif.Lemmas.MFObjects
import Verif.Lemmas.MFKriging
import Verif.Model.HKObjects

/-! # Lemmas about hierarchical Kriging objects -/

open scoped BigOperators Matrix

namespace Mfpml.GPObjects

open Mfpml.Spec Mfpml.GP
open Mfpml.EA (Box)

variable {d q n m : ℕ}

theorem hkFitAttrs_ok {s : HKModel d} {K : Matrix (Fin n) (Fin n) ℝ} {F : Matrix (Fin n) (Fin 1) ℝ} {ys : Fin n → ℝ} {g : GLS n 1} (h : glsFit K F ys = .ok g) :
    hkFitAttrs s K F ys =
      ({ s with L := some ⟨n, g.L⟩, ld := some g.ld, beta := some g.beta, gamma := some ⟨n, g.gamma⟩, sigma2 := some g.sigma2 }, .ok ()) := by
  unfold glsFit at h
  obtain ⟨L, hL, h⟩ := Py.bind_ok.mp h
  obtain ⟨alpha, ha, h⟩ := Py.bind_ok.mp h
  obtain ⟨KF, hKF, h⟩ := Py.bind_ok.mp h
  obtain ⟨ld, hld, h⟩ := Py.bind_ok.mp h
  obtain ⟨beta, hb, h⟩ := Py.bind_ok.mp h
  obtain ⟨gamma, hg, h⟩ := Py.bind_ok.mp h
  obtain ⟨s2, hs, h⟩ := Py.bind_ok.mp h
  cases h
  unfold hkFitAttrs
  rw [hL]
  have e1 : (do
      let alpha ← cholSolveV L ys
      let KF ← cholSolve L F
      let ld ← cholesky (Fᵀ * KF)
      .ok (alpha, ld) : Py ((Fin n → ℝ) × Matrix (Fin 1) (Fin 1) ℝ)) = .ok (alpha, ld) :=
    Py.bind_ok.mpr ⟨_, ha, Py.bind_ok.mpr ⟨_, hKF, Py.bind_ok.mpr ⟨_, hld, rfl⟩⟩⟩
  have e2 : (do
        let beta ← cholSolveV ld (Fᵀ *ᵥ alpha)
        let gamma ← cholSolveV L (ys - F *ᵥ beta)
        let sigma2 ← npDiv ((ys - F *ᵥ beta) ⬝ᵥ gamma) n
        .ok (beta, gamma, sigma2) : Py ((Fin 1 → ℝ) × (Fin n → ℝ) × ℝ)) = .ok (beta, gamma, s2) :=
    Py.bind_ok.mpr ⟨_, hb, Py.bind_ok.mpr ⟨_, hg, Py.bind_ok.mpr ⟨_, hs, rfl⟩⟩⟩
  simp only [e1, e2]

theorem hkFitAttrs_cases (s : HKModel d) (K : Matrix (Fin n) (Fin n) ℝ) (F : Matrix (Fin n) (Fin 1) ℝ) (ys : Fin n → ℝ) :
    (∃ g, glsFit K F ys = .ok g) ∨ ((∃ e, (hkFitAttrs s K F ys).2 = .error e) ∧
      ∃ L ld, (hkFitAttrs s K F ys).1 = { s with L := L, ld := ld }) := by
  unfold hkFitAttrs
  split
  · right; exact ⟨⟨_, rfl⟩, s.L, s.ld, rfl⟩
  · rename_i L hL
    split
    · right; exact ⟨⟨_, rfl⟩, _, s.ld, rfl⟩
    · rename_i alpha ld h1
      obtain ⟨alpha', ha, h1⟩ := Py.bind_ok.mp h1
      obtain ⟨KF, hKF, h1⟩ := Py.bind_ok.mp h1
      obtain ⟨ld', hld, h1⟩ := Py.bind_ok.mp h1
      cases h1
      split
      · right; exact ⟨⟨_, rfl⟩, _, _, rfl⟩
      · rename_i beta gamma s2 h2
        obtain ⟨beta', hb, h2⟩ := Py.bind_ok.mp h2
        obtain ⟨gamma', hg, h2⟩ := Py.bind_ok.mp h2
        obtain ⟨s2', hs, h2⟩ := Py.bind_ok.mp h2
        cases h2
        left
        refine ⟨{ L := L, ld := ld, alpha := alpha, beta := beta, gamma := gamma, sigma2 := s2 }, ?_⟩
        exact Py.bind_ok.mpr ⟨_, hL, Py.bind_ok.mpr ⟨_, ha, Py.bind_ok.mpr ⟨_, hKF, Py.bind_ok.mpr ⟨_, hld, Py.bind_ok.mpr ⟨_, hb, Py.bind_ok.mpr ⟨_, hg,
          Py.bind_ok.mpr ⟨_, hs, rfl⟩⟩⟩⟩⟩⟩⟩

/-- The attributes after a training that succeeds as a training of the value `h.hkView s`. -/
noncomputable def hkAfter {nh nl : ℕ} (s : HKModel d) (hk' : HKObj d q) (t : HKFit nh nl d q) : HKModel d :=
  { s with kernel := hk'.kernel, noise := some t.noise, xhs := some ⟨nh, t.Xhs⟩, yhMean := some t.yhMean, yhStd := some t.yhStd, trend := some ⟨nh, t.F⟩,
           L := some ⟨nh, t.gls.L⟩, ld := some t.gls.ld, beta := some t.gls.beta, gamma := some ⟨nh, t.gls.gamma⟩, sigma2 := some t.gls.sigma2 }

/-- The search for hyper-parameters does not look at the low-fidelity model. -/
theorem fitHyper_congr {hk hk2 : HKObj d q} (h1 : hk.noise = hk2.noise) (h2 : hk.optimizer = hk2.optimizer) (h3 : hk.kernel = hk2.kernel) (w : World d) (yStd : ℝ) (Xs : Samples n d)
    (F : Matrix (Fin n) (Fin 1) ℝ) (ys : Fin n → ℝ) : hk.fitHyper w yStd Xs F ys = hk2.fitHyper w yStd Xs F ys := by
  unfold HKObj.fitHyper
  rw [h1, h2, h3]

/-- The high-fidelity part succeeds when the value-level one does. -/
theorem hkTrainHf_ok {h : Heap d q} {s : HKModel d} {w : World d} {Xh : Σ n, Samples n d} {ah : Ref} (hn : (h.arrays ah).1 = Xh.1)
    (hr : ∀ j, (h.boxes s.bound).high j - (h.boxes s.bound).low j ≠ 0) (hs : std (respCol h ah hn) ≠ 0) {f : Fin Xh.1 → ℝ} (hf : h.predictMean s.lf Xh.2 = .ok f)
    {theta : Fin d → ℝ} {noise : ℝ}
    (hfit : (h.hkView s).fitHyper w (std (respCol h ah hn)) (fun i => normPt (h.boxes s.bound) (Xh.2 i)) (scaleCol f (mean (respCol h ah hn)) (std (respCol h ah hn)))
      (fun i => (respCol h ah hn i - mean (respCol h ah hn)) / std (respCol h ah hn)) = .ok (theta, noise)) :
    h.hkTrainHf s w Xh ah = hkFitAttrs
      { s with xhs := some ⟨Xh.1, fun i => normPt (h.boxes s.bound) (Xh.2 i)⟩, yhMean := some (mean (respCol h ah hn)), yhStd := some (std (respCol h ah hn)), trend := some ⟨Xh.1, scaleCol f (mean (respCol h ah hn)) (std (respCol h ah hn))⟩, kernel := s.kernel.setParams theta, noise := some noise }
      (rbfMatrix (s.kernel.setParams theta).param (fun i => normPt (h.boxes s.bound) (Xh.2 i)) (fun i => normPt (h.boxes s.bound) (Xh.2 i)) +
        ((noise / std (respCol h ah hn)) ^ 2) • (1 : Matrix (Fin Xh.1) (Fin Xh.1) ℝ))
      (scaleCol f (mean (respCol h ah hn)) (std (respCol h ah hn))) (fun i => (respCol h ah hn i - mean (respCol h ah hn)) / std (respCol h ah hn)) := by
  unfold Heap.hkTrainHf
  rw [normalizeInput_eq _ hr]
  simp only
  have hs' : std (h.arrays ah).2 ≠ 0 := by rw [std_respCol] at hs; exact hs
  have e1 : (do
      let _ ← normalizeOutput (h.arrays ah).2
      h.predictMean s.lf Xh.2 : Py (Fin Xh.1 → ℝ)) = .ok f := Py.bind_ok.mpr ⟨_, normalizeOutput_eq hs', hf⟩
  rw [e1]
  simp only
  rw [dif_pos hn]
  rw [std_respCol, mean_respCol] at hfit ⊢
  have hfit' : (h.hkView { s with xhs := some ⟨Xh.1, fun i => normPt (h.boxes s.bound) (Xh.2 i)⟩, yhMean := some (mean (h.arrays ah).2), yhStd := some (std (h.arrays ah).2), trend := some ⟨Xh.1, scaleCol f (mean (h.arrays ah).2) (std (h.arrays ah).2)⟩ }).fitHyper w (std (h.arrays ah).2) (fun i => normPt (h.boxes s.bound) (Xh.2 i)) (scaleCol f (mean (h.arrays ah).2) (std (h.arrays ah).2))
      (fun i => ((h.arrays ah).2 (Fin.cast hn.symm i) - mean (h.arrays ah).2) / std (h.arrays ah).2) = .ok (theta, noise) := hfit
  rw [hfit']
  rfl

/-- `hk.train` on the objects succeeds when the value-level one does. -/
theorem hkTrain_of_view {h : Heap d q} {s : HKModel d} {w : MFWorld d} {Xh Xl : Σ n, Samples n d} {ah al : Ref} (hnh : (h.arrays ah).1 = Xh.1) (hnl : (h.arrays al).1 = Xl.1)
    {hk' : HKObj d q} {t : HKFit Xh.1 Xl.1 d q} (ht : (h.hkView s).train w Xh.2 (respCol h ah hnh) Xl.2 (respCol h al hnl) = .ok (hk', t)) :
    h.hkTrain s w Xh ah Xl al = (afterTrain h s.lf Xl al hk'.lf t.lfFit, hkAfter s hk' t, .ok ()) := by
  unfold HKObj.train at ht
  obtain ⟨⟨lf, lfFit⟩, h1, ht⟩ := Py.bind_ok.mp ht
  obtain ⟨Xhs, h2, ht⟩ := Py.bind_ok.mp ht
  obtain ⟨yhs, h3, ht⟩ := Py.bind_ok.mp ht
  obtain ⟨f, h4, ht⟩ := Py.bind_ok.mp ht
  obtain ⟨⟨theta, noise⟩, h5, ht⟩ := Py.bind_ok.mp ht
  obtain ⟨g, h6, ht⟩ := Py.bind_ok.mp ht
  obtain ⟨hr, rfl⟩ := normalizeInput_ok h2
  obtain ⟨hs, rfl⟩ := normalizeOutput_ok h3
  simp only [Except.ok.injEq, Prod.mk.injEq] at ht
  obtain ⟨e1, e2⟩ := ht
  subst e1 e2
  have e := train_of_view hnl h1
  unfold Heap.hkTrain
  have e' : h.train s.lf w.lf Xl al = _ := e
  rw [e']
  simp only
  have hf : (afterTrain h s.lf Xl al lf lfFit).predictMean s.lf Xh.2 = .ok f := (predictMean_afterTrain hnl h1 Xh.2).trans h4
  have e3 := hkTrainHf_ok (h := afterTrain h s.lf Xl al lf lfFit) (s := s) (w := w.hf) (Xh := Xh) (ah := ah) hnh hr hs hf (theta := theta) (noise := noise)
    (by rw [← h5]; exact fitHyper_congr rfl rfl rfl _ _ _ _ _)
  rw [e3]
  have e4 := hkFitAttrs_ok (s := { s with xhs := some ⟨Xh.1, fun i => normPt (h.boxes s.bound) (Xh.2 i)⟩, yhMean := some (mean (respCol h ah hnh)), yhStd := some (std (respCol h ah hnh)), trend := some ⟨Xh.1, scaleCol f (mean (respCol h ah hnh)) (std (respCol h ah hnh))⟩, kernel := s.kernel.setParams theta, noise := some noise }) h6
  exact congrArg (Prod.mk _) e4

/-- What a high-fidelity part that raises leaves. -/
theorem hkTrainHf_cases (h : Heap d q) (s : HKModel d) (w : World d) (Xh : Σ n, Samples n d) (ah : Ref) :
    (∃ hn : (h.arrays ah).1 = Xh.1, (∀ j, (h.boxes s.bound).high j - (h.boxes s.bound).low j ≠ 0) ∧ std (respCol h ah hn) ≠ 0 ∧ ∃ f, h.predictMean s.lf Xh.2 = .ok f ∧ ∃ theta noise,
      (h.hkView s).fitHyper w (std (respCol h ah hn)) (fun i => normPt (h.boxes s.bound) (Xh.2 i)) (scaleCol f (mean (respCol h ah hn)) (std (respCol h ah hn)))
        (fun i => (respCol h ah hn i - mean (respCol h ah hn)) / std (respCol h ah hn)) = .ok (theta, noise) ∧
      ∃ g, glsFit (rbfMatrix (s.kernel.setParams theta).param (fun i => normPt (h.boxes s.bound) (Xh.2 i)) (fun i => normPt (h.boxes s.bound) (Xh.2 i)) +
        ((noise / std (respCol h ah hn)) ^ 2) • (1 : Matrix (Fin Xh.1) (Fin Xh.1) ℝ))
        (scaleCol f (mean (respCol h ah hn)) (std (respCol h ah hn))) (fun i => (respCol h ah hn i - mean (respCol h ah hn)) / std (respCol h ah hn)) = .ok g) ∨
    (∃ e, (h.hkTrainHf s w Xh ah).2 = .error e) ∧
      ((h.hkTrainHf s w Xh ah).1 = s ∧ ¬ (∀ j, (h.boxes s.bound).high j - (h.boxes s.bound).low j ≠ 0) ∨
       (∀ j, (h.boxes s.bound).high j - (h.boxes s.bound).low j ≠ 0) ∧
       ∃ kernel noise trend L ld, (h.hkTrainHf s w Xh ah).1 = { s with xhs := some ⟨Xh.1, fun i => normPt (h.boxes s.bound) (Xh.2 i)⟩, yhMean := some (mean (h.arrays ah).2), yhStd := some (std (h.arrays ah).2), kernel := kernel, noise := noise, trend := trend, L := L, ld := ld } ∧
        (kernel = s.kernel ∧ noise = s.noise ∨ ∃ theta, kernel = s.kernel.setParams theta ∧ ∀ σ, s.noise = some σ → noise = some σ)) := by
  by_cases hr : ∀ j, (h.boxes s.bound).high j - (h.boxes s.bound).low j ≠ 0
  swap
  · right
    have : h.hkTrainHf s w Xh ah = (s, .error .nonFinite) := by
      unfold Heap.hkTrainHf normalizeInput
      rw [if_neg hr]
    rw [this]
    exact ⟨⟨_, rfl⟩, Or.inl ⟨rfl, hr⟩⟩
  cases h1 : (do
      let _ ← normalizeOutput (h.arrays ah).2
      h.predictMean s.lf Xh.2 : Py (Fin Xh.1 → ℝ)) with
  | error e =>
    right
    have : h.hkTrainHf s w Xh ah = ({ s with xhs := some ⟨Xh.1, fun i => normPt (h.boxes s.bound) (Xh.2 i)⟩, yhMean := some (mean (h.arrays ah).2), yhStd := some (std (h.arrays ah).2) }, .error e) := by
      unfold Heap.hkTrainHf
      rw [normalizeInput_eq _ hr]
      simp only
      rw [h1]
    rw [this]
    exact ⟨⟨_, rfl⟩, Or.inr ⟨hr, _, _, _, _, _, rfl, Or.inl ⟨rfl, rfl⟩⟩⟩
  | ok f =>
    obtain ⟨ys0, h2, hf⟩ := Py.bind_ok.mp h1
    obtain ⟨hs0, _⟩ := normalizeOutput_ok h2
    by_cases hn : (h.arrays ah).1 = Xh.1
    swap
    · right
      have : h.hkTrainHf s w Xh ah = ({ s with xhs := some ⟨Xh.1, fun i => normPt (h.boxes s.bound) (Xh.2 i)⟩, yhMean := some (mean (h.arrays ah).2), yhStd := some (std (h.arrays ah).2), trend := some ⟨Xh.1, scaleCol f (mean (h.arrays ah).2) (std (h.arrays ah).2)⟩ }, .error .valueError) := by
        unfold Heap.hkTrainHf
        rw [normalizeInput_eq _ hr]
        simp only
        rw [h1]
        simp only
        rw [dif_neg hn]
      rw [this]
      exact ⟨⟨_, rfl⟩, Or.inr ⟨hr, _, _, _, _, _, rfl, Or.inl ⟨rfl, rfl⟩⟩⟩
    have hs : std (respCol h ah hn) ≠ 0 := by rw [std_respCol]; exact hs0
    cases h3 : (h.hkView s).fitHyper w (std (respCol h ah hn)) (fun i => normPt (h.boxes s.bound) (Xh.2 i)) (scaleCol f (mean (respCol h ah hn)) (std (respCol h ah hn)))
        (fun i => (respCol h ah hn i - mean (respCol h ah hn)) / std (respCol h ah hn)) with
    | error e =>
      right
      have : h.hkTrainHf s w Xh ah = ({ s with xhs := some ⟨Xh.1, fun i => normPt (h.boxes s.bound) (Xh.2 i)⟩, yhMean := some (mean (h.arrays ah).2), yhStd := some (std (h.arrays ah).2), trend := some ⟨Xh.1, scaleCol f (mean (h.arrays ah).2) (std (h.arrays ah).2)⟩ }, .error e) := by
        unfold Heap.hkTrainHf
        rw [normalizeInput_eq _ hr]
        simp only
        rw [h1]
        simp only
        rw [dif_pos hn]
        rw [std_respCol, mean_respCol] at h3
        have h3' : (h.hkView { s with xhs := some ⟨Xh.1, fun i => normPt (h.boxes s.bound) (Xh.2 i)⟩, yhMean := some (mean (h.arrays ah).2), yhStd := some (std (h.arrays ah).2), trend := some ⟨Xh.1, scaleCol f (mean (h.arrays ah).2) (std (h.arrays ah).2)⟩ }).fitHyper w (std (h.arrays ah).2) (fun i => normPt (h.boxes s.bound) (Xh.2 i)) (scaleCol f (mean (h.arrays ah).2) (std (h.arrays ah).2))
          (fun i => ((h.arrays ah).2 (Fin.cast hn.symm i) - mean (h.arrays ah).2) / std (h.arrays ah).2) = .error e := h3
        rw [h3']
      rw [this]
      exact ⟨⟨_, rfl⟩, Or.inr ⟨hr, _, _, _, _, _, rfl, Or.inl ⟨rfl, rfl⟩⟩⟩
    | ok r =>
      obtain ⟨theta, noise⟩ := r
      have e := hkTrainHf_ok hn hr hs hf h3
      rcases hkFitAttrs_cases
        { s with xhs := some ⟨Xh.1, fun i => normPt (h.boxes s.bound) (Xh.2 i)⟩, yhMean := some (mean (respCol h ah hn)), yhStd := some (std (respCol h ah hn)), trend := some ⟨Xh.1, scaleCol f (mean (respCol h ah hn)) (std (respCol h ah hn))⟩, kernel := s.kernel.setParams theta, noise := some noise }
        (rbfMatrix (s.kernel.setParams theta).param (fun i => normPt (h.boxes s.bound) (Xh.2 i)) (fun i => normPt (h.boxes s.bound) (Xh.2 i)) +
          ((noise / std (respCol h ah hn)) ^ 2) • (1 : Matrix (Fin Xh.1) (Fin Xh.1) ℝ))
        (scaleCol f (mean (respCol h ah hn)) (std (respCol h ah hn))) (fun i => (respCol h ah hn i - mean (respCol h ah hn)) / std (respCol h ah hn)) with ⟨g, hg⟩ | ⟨⟨e2, he2⟩, L, ld, h5⟩
      · exact Or.inl ⟨hn, hr, hs, f, hf, theta, noise, h3, g, hg⟩
      · right
        rw [← e] at he2 h5
        refine ⟨⟨e2, he2⟩, Or.inr ⟨hr, s.kernel.setParams theta, some noise, some ⟨Xh.1, scaleCol f (mean (respCol h ah hn)) (std (respCol h ah hn))⟩, L, ld, ?_, Or.inr ⟨theta, rfl, ?_⟩⟩⟩
        · rw [h5, std_respCol, mean_respCol]
        · intro σ hσ
          unfold HKObj.fitHyper at h3
          have : (h.hkView s).noise = some σ := hσ
          rw [this] at h3
          obtain ⟨x, _, h6⟩ := Py.bind_ok.mp h3
          simp only [Except.ok.injEq, Prod.mk.injEq] at h6
          rw [h6.2]

/-- Numbers of high-fidelity samples and responses that differ. -/
theorem hkTrainHf_mismatch {h : Heap d q} {s : HKModel d} {w : World d} {Xh : Σ n, Samples n d} {ah : Ref} (hr : ∀ j, (h.boxes s.bound).high j - (h.boxes s.bound).low j ≠ 0)
    (hs : std (h.arrays ah).2 ≠ 0) {f : Fin Xh.1 → ℝ} (hf : h.predictMean s.lf Xh.2 = .ok f) (hn : ¬ (h.arrays ah).1 = Xh.1) :
    h.hkTrainHf s w Xh ah = ({ s with xhs := some ⟨Xh.1, fun i => normPt (h.boxes s.bound) (Xh.2 i)⟩, yhMean := some (mean (h.arrays ah).2), yhStd := some (std (h.arrays ah).2), trend := some ⟨Xh.1, scaleCol f (mean (h.arrays ah).2) (std (h.arrays ah).2)⟩ }, .error .valueError) := by
  have h1 : (do
      let _ ← normalizeOutput (h.arrays ah).2
      h.predictMean s.lf Xh.2 : Py (Fin Xh.1 → ℝ)) = .ok f := Py.bind_ok.mpr ⟨_, normalizeOutput_eq hs, hf⟩
  unfold Heap.hkTrainHf
  rw [normalizeInput_eq _ hr]
  simp only
  rw [h1]
  simp only
  rw [dif_neg hn]

/-- A training that returns is a training of the value `h.hkView s`. -/
theorem hkTrain_ok_view {h : Heap d q} {s : HKModel d} {w : MFWorld d} {Xh Xl : Σ n, Samples n d} {ah al : Ref} (hok : (h.hkTrain s w Xh ah Xl al).2.2 = .ok ()) :
    ∃ (hnh : (h.arrays ah).1 = Xh.1) (hnl : (h.arrays al).1 = Xl.1) (hk' : HKObj d q) (t : HKFit Xh.1 Xl.1 d q),
      (h.hkView s).train w Xh.2 (respCol h ah hnh) Xl.2 (respCol h al hnl) = .ok (hk', t) := by
  rcases train_cases h s.lf w.lf Xl al with ⟨hnl, lf', lfFit, htl⟩ | ⟨⟨e, he⟩, _⟩
  swap
  · exfalso
    unfold Heap.hkTrain at hok
    generalize h.train s.lf w.lf Xl al = R at he hok
    obtain ⟨R1, R2⟩ := R
    simp only at he
    subst he
    simp at hok
  have e := train_of_view hnl htl
  unfold Heap.hkTrain at hok
  rw [e] at hok
  simp only at hok
  rcases hkTrainHf_cases (afterTrain h s.lf Xl al lf' lfFit) s w.hf Xh ah with ⟨hnh, hr, hs, f, hf, theta, noise, hfit, g, hg⟩ | ⟨⟨e1, he1⟩, _⟩
  swap
  · rw [he1] at hok; cases hok
  have hnh' : (h.arrays ah).1 = Xh.1 := hnh
  rw [predictMean_afterTrain hnl htl Xh.2] at hf
  have hfit2 : (h.hkView s).fitHyper w.hf (std (respCol h ah hnh')) (fun i => normPt (h.boxes s.bound) (Xh.2 i)) (scaleCol f (mean (respCol h ah hnh')) (std (respCol h ah hnh')))
      (fun i => (respCol h ah hnh' i - mean (respCol h ah hnh')) / std (respCol h ah hnh')) = .ok (theta, noise) := by
    rw [← hfit]
    exact fitHyper_congr rfl rfl rfl _ _ _ _ _
  have key : ∃ r, (h.hkView s).train w Xh.2 (respCol h ah hnh') Xl.2 (respCol h al hnl) = .ok r := by
    unfold HKObj.train
    exact ⟨_, Py.bind_ok.mpr ⟨(lf', lfFit), htl, Py.bind_ok.mpr ⟨_, normalizeInput_eq _ hr, Py.bind_ok.mpr ⟨_, normalizeOutput_eq hs, Py.bind_ok.mpr ⟨f, hf, Py.bind_ok.mpr ⟨(theta, noise), hfit2,
      Py.bind_ok.mpr ⟨g, hg, rfl⟩⟩⟩⟩⟩⟩⟩
  obtain ⟨⟨hk', t⟩, hr⟩ := key
  exact ⟨hnh', hnl, hk', t, hr⟩

/-- A prediction with all attributes present and matching. -/
theorem hkPredict_of {h : Heap d q} {s : HKModel d} {Xs : Samples n d} {μ σ : ℝ} {beta : Fin 1 → ℝ} {gamma : Fin n → ℝ} {k : ℕ} (Xnew : Samples k d) {fl : Fin k → ℝ}
    (hr : ∀ j, (h.boxes s.bound).high j - (h.boxes s.bound).low j ≠ 0) (h1 : s.xhs = some ⟨n, Xs⟩) (h2 : s.beta = some beta) (h3 : s.gamma = some ⟨n, gamma⟩)
    (h4 : s.yhMean = some μ) (h5 : s.yhStd = some σ) (hσ : σ ≠ 0) (hf : h.predictMean s.lf Xnew = .ok fl) :
    h.hkPredict s Xnew = .ok fun j => (scaleCol fl μ σ *ᵥ beta + (rbfMatrix s.kernel.param Xs (fun i => normPt (h.boxes s.bound) (Xnew i)))ᵀ *ᵥ gamma) j * σ + μ := by
  unfold Heap.hkPredict Heap.hkPredictLf
  dsimp only
  rw [h1, h2, h3, h4, h5, hf, normalizeInput_eq Xnew hr]
  simp only [attr, bind, Except.bind, scaleTrend, if_neg hσ]
  unfold dotT
  rw [dif_pos rfl]
  rfl

/-- A prediction with weights of another number of samples. -/
theorem hkPredict_mismatch {n' : ℕ} {h : Heap d q} {s : HKModel d} {Xs : Samples n d} {μ σ : ℝ} {beta : Fin 1 → ℝ} {gamma : Fin n' → ℝ} {k : ℕ} (Xnew : Samples k d) {fl : Fin k → ℝ}
    (hr : ∀ j, (h.boxes s.bound).high j - (h.boxes s.bound).low j ≠ 0) (h1 : s.xhs = some ⟨n, Xs⟩) (h2 : s.beta = some beta) (h3 : s.gamma = some ⟨n', gamma⟩)
    (h4 : s.yhMean = some μ) (h5 : s.yhStd = some σ) (hσ : σ ≠ 0) (hf : h.predictMean s.lf Xnew = .ok fl) (hne : n' ≠ n) : h.hkPredict s Xnew = .error .valueError := by
  unfold Heap.hkPredict Heap.hkPredictLf
  dsimp only
  rw [h1, h2, h3, h4, h5, hf, normalizeInput_eq Xnew hr]
  simp only [attr, bind, Except.bind, scaleTrend, if_neg hσ]
  unfold dotT
  rw [dif_neg hne]

/-- A prediction with a spread of 0. -/
theorem hkPredict_flat {h : Heap d q} {s : HKModel d} {Xs : Samples n d} {μ : ℝ} {k : ℕ} (Xnew : Samples k d) {fl : Fin k → ℝ}
    (hr : ∀ j, (h.boxes s.bound).high j - (h.boxes s.bound).low j ≠ 0) (h1 : s.xhs = some ⟨n, Xs⟩) (h4 : s.yhMean = some μ) (h5 : s.yhStd = some 0)
    (hf : h.predictMean s.lf Xnew = .ok fl) : h.hkPredict s Xnew = .error .nonFinite := by
  unfold Heap.hkPredict Heap.hkPredictLf
  dsimp only
  rw [h1, h4, h5, hf, normalizeInput_eq Xnew hr]
  simp only [attr, bind, Except.bind, scaleTrend, if_pos]

/-- Predictions of an object whose attributes are those of a trained value. -/
theorem hkPredict_after {nh nl : ℕ} {h : Heap d q} {s : HKModel d} {hk' : HKObj d q} {t : HKFit nh nl d q} (hT : HKTrained hk' t) (hb : h.boxes s.bound = hk'.box)
    {k : ℕ} (Xnew : Samples k d) (hlf : h.predictMean s.lf Xnew = GP.predictMean hk'.lf t.lfFit Xnew) :
    h.hkPredict (hkAfter s hk' t) Xnew = hk'.predict t Xnew ∧ h.hkPredictStd (hkAfter s hk' t) Xnew = hk'.predictStd t Xnew := by
  obtain ⟨fl, hfl⟩ := hkPredictLf_ok hT Xnew
  have hfl' : h.predictMean s.lf Xnew = .ok fl := hlf.trans hfl
  have hr : ∀ j, (h.boxes s.bound).high j - (h.boxes s.bound).low j ≠ 0 := by rw [hb]; exact hT.range
  have e1 : h.hkPredict (hkAfter s hk' t) Xnew = hk'.predict t Xnew := by
    rw [hkPredict_eq hT Xnew hfl, hkPredict_of (s := hkAfter s hk' t) Xnew hr rfl rfl rfl rfl rfl hT.stdpos.ne' hfl']
    simp only [hkAfter, hb]
  refine ⟨e1, ?_⟩
  unfold Heap.hkPredictStd HKObj.predictStd
  rw [e1, hkPredict_eq hT Xnew hfl]
  have hb' : h.boxes (hkAfter s hk' t).bound = hk'.box := hb
  have hlf' : h.hkPredictLf (hkAfter s hk' t) Xnew = .ok fl := hfl'
  rw [hb', hlf', hfl, normalizeInput_eq Xnew hT.range]
  simp only [hkAfter, attr, bind, Except.bind, scaleTrend, if_neg hT.stdpos.ne']
  rw [dif_pos ⟨trivial, trivial⟩]
  unfold mseOf
  have hc1 := cholSolve_eq hT.gls.cholK (hk'.kernel.getKernelMatrix t.Xhs fun i => normPt hk'.box (Xnew i))
  have hc1' : cholSolve t.gls.L (fun i j => hk'.kernel.getKernelMatrix t.Xhs (fun i => normPt hk'.box (Xnew i)) (Fin.cast rfl i) j) = _ := hc1
  simp only [bind, Except.bind]
  rw [hc1, hc1']
  simp only
  have hc2 := cholSolve_eq hT.gls.cholM ((scaleCol fl t.yhMean t.yhStd)ᵀ - t.Fᵀ * (t.K⁻¹ * hk'.kernel.getKernelMatrix t.Xhs fun i => normPt hk'.box (Xnew i)))
  rw [hc2]
  have hc2' : cholSolve t.gls.ld ((scaleCol fl t.yhMean t.yhStd)ᵀ - (fun i j => t.F (Fin.cast rfl i) j : Matrix (Fin nh) (Fin 1) ℝ)ᵀ * (t.K⁻¹ * hk'.kernel.getKernelMatrix t.Xhs fun i => normPt hk'.box (Xnew i))) = _ := hc2
  rw [hc2']
  rfl

/-- A training keeps the settings of all models. -/
theorem train_settings (h : Heap d q) (g : Ref) (w : World d) (X : Σ n, Samples n d) (a : Ref) :
    (h.train g w X a).1.boxes = h.boxes ∧ (h.train g w X a).1.arrays = h.arrays ∧
    (∀ g', ((h.train g w X a).1.models g').bounds = (h.models g').bounds ∧ ((h.train g w X a).1.models g').kernel = (h.models g').kernel ∧ ((h.train g w X a).1.models g').regr = (h.models g').regr ∧
      ((h.train g w X a).1.models g').optimizer = (h.models g').optimizer ∧ ∀ σ, (h.models g').noise = some σ → ((h.train g w X a).1.models g').noise = some σ) ∧
    ∀ k, ((h.train g w X a).1.kernels k).boundLow = (h.kernels k).boundLow ∧ ((h.train g w X a).1.kernels k).boundHigh = (h.kernels k).boundHigh := by
  have key : ∀ (h1 : Heap d q) (m : Model d q), h1.boxes = h.boxes → h1.arrays = h.arrays → h1.models = h.models →
      (∀ k, (h1.kernels k).boundLow = (h.kernels k).boundLow ∧ (h1.kernels k).boundHigh = (h.kernels k).boundHigh) →
      m.bounds = (h.models g).bounds → m.kernel = (h.models g).kernel → m.regr = (h.models g).regr → m.optimizer = (h.models g).optimizer → (∀ σ, (h.models g).noise = some σ → m.noise = some σ) →
      (h1.setModel g m).boxes = h.boxes ∧ (h1.setModel g m).arrays = h.arrays ∧
      (∀ g', ((h1.setModel g m).models g').bounds = (h.models g').bounds ∧ ((h1.setModel g m).models g').kernel = (h.models g').kernel ∧ ((h1.setModel g m).models g').regr = (h.models g').regr ∧
        ((h1.setModel g m).models g').optimizer = (h.models g').optimizer ∧ ∀ σ, (h.models g').noise = some σ → ((h1.setModel g m).models g').noise = some σ) ∧
      ∀ k, ((h1.setModel g m).kernels k).boundLow = (h.kernels k).boundLow ∧ ((h1.setModel g m).kernels k).boundHigh = (h.kernels k).boundHigh := by
    intro h1 m e1 e2 e3 e4 m1 m2 m3 m4 m5
    refine ⟨e1, e2, fun g' => ?_, e4⟩
    by_cases hg : g' = g
    · subst hg
      simp only [Heap.setModel, Function.update_self]
      exact ⟨m1, m2, m3, m4, m5⟩
    · simp only [Heap.setModel]
      rw [Function.update_of_ne hg, e3]
      exact ⟨rfl, rfl, rfl, rfl, fun σ hσ => hσ⟩
  unfold Heap.train
  split
  · exact ⟨rfl, rfl, fun g' => ⟨rfl, rfl, rfl, rfl, fun σ hσ => hσ⟩, fun k => ⟨rfl, rfl⟩⟩
  · simp only
    split
    swap
    · exact key h _ rfl rfl rfl (fun k => ⟨rfl, rfl⟩) rfl rfl rfl rfl (fun σ hσ => hσ)
    split
    · exact key h _ rfl rfl rfl (fun k => ⟨rfl, rfl⟩) rfl rfl rfl rfl (fun σ hσ => hσ)
    split
    · exact key h _ rfl rfl rfl (fun k => ⟨rfl, rfl⟩) rfl rfl rfl rfl (fun σ hσ => hσ)
    rename_i theta noise hfit
    have hfa : ∀ (m : Model d q) (K : Matrix (Fin X.1) (Fin X.1) ℝ) (F : Matrix (Fin X.1) (Fin q) ℝ) (ys : Fin X.1 → ℝ), (fitAttrs m K F ys).1.bounds = m.bounds ∧ (fitAttrs m K F ys).1.kernel = m.kernel ∧
        (fitAttrs m K F ys).1.regr = m.regr ∧ (fitAttrs m K F ys).1.optimizer = m.optimizer ∧ (fitAttrs m K F ys).1.noise = m.noise := by
      intro m K F ys
      unfold fitAttrs
      split
      · exact ⟨rfl, rfl, rfl, rfl, rfl⟩
      split
      · exact ⟨rfl, rfl, rfl, rfl, rfl⟩
      split
      · exact ⟨rfl, rfl, rfl, rfl, rfl⟩
      · exact ⟨rfl, rfl, rfl, rfl, rfl⟩
    refine key (h.setParams (h.models g).kernel theta) _ rfl rfl rfl (fun k => ?_) (hfa _ _ _ _).1 (hfa _ _ _ _).2.1 (hfa _ _ _ _).2.2.1 (hfa _ _ _ _).2.2.2.1 (fun σ hσ => ?_)
    · simp only [Heap.setParams]
      by_cases hk : k = (h.models g).kernel
      · subst hk; rw [Function.update_self]; exact ⟨rfl, rfl⟩
      · rw [Function.update_of_ne hk]; exact ⟨rfl, rfl⟩
    · rw [(hfa _ _ _ _).2.2.2.2]
      simp only [Option.some.injEq]
      unfold GPObj.fitHyper at hfit
      have : (h.view g).noise = some σ := hσ
      rw [this] at hfit
      obtain ⟨x, _, h6⟩ := Py.bind_ok.mp hfit
      simp only [Except.ok.injEq, Prod.mk.injEq] at h6
      exact h6.2.symm

end Mfpml.GPObjects
