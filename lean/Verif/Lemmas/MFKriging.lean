import Verif.Lemmas.GP
import Verif.Model.HierarchicalKriging
import Verif.Model.ScaledKriging

/-! # Lemmas about hierarchical and scaled Kriging -/

set_option linter.unusedSectionVars false

open scoped BigOperators Matrix

namespace Mfpml.GP

open Mfpml.Spec
open Mfpml.EA (Box)

variable {nh nl n m d q ql qd : ℕ}

/-- Facts about a trained hierarchical Kriging model. -/
structure HKTrained (hk : HKObj d q) (t : HKFit nh nl d q) : Prop where
  range : ∀ j, hk.box.high j - hk.box.low j ≠ 0
  stdpos : 0 < t.yhStd
  Xhs : t.Xhs = fun i => normPt hk.box (t.Xh i)
  lf : Trained hk.lf t.lfFit
  F : ∃ f, hk.predictLf t t.Xh = .ok f ∧ t.F = scaleCol f t.yhMean t.yhStd
  K : t.K = covTrain hk.kernel.param t.Xhs (t.noise / t.yhStd)
  yhs : ∀ i, t.yhs i * t.yhStd + t.yhMean = t.yh i
  gls : IsGLS t.K t.F t.yhs t.gls
  noise : hk.noise = some t.noise
  param : ∀ j, 0 < hk.kernel.param j

theorem hkTrained_of_train {hk : HKObj d q} {w : MFWorld d} {Xh : Samples nh d} {yh : Fin nh → ℝ} {Xl : Samples nl d} {yl : Fin nl → ℝ}
    {hk' : HKObj d q} {t : HKFit nh nl d q} (h : hk.train w Xh yh Xl yl = .ok (hk', t)) :
    HKTrained hk' t ∧ t.Xh = Xh ∧ t.yh = yh ∧ hk'.box = hk.box ∧ hk.lf.train w.lf Xl yl = .ok (hk'.lf, t.lfFit) ∧
      (∀ s, hk.noise = some s → t.noise = s) ∧ t.yhMean = mean yh ∧ t.yhStd = std yh ∧ t.yhs = (fun i => (yh i - mean yh) / std yh) := by
  unfold HKObj.train at h
  obtain ⟨⟨lf, lfFit⟩, h1, h⟩ := Py.bind_ok.mp h
  obtain ⟨Xhs, h2, h⟩ := Py.bind_ok.mp h
  obtain ⟨yhs, h3, h⟩ := Py.bind_ok.mp h
  obtain ⟨f, h4, h⟩ := Py.bind_ok.mp h
  obtain ⟨⟨theta, noise⟩, h5, h⟩ := Py.bind_ok.mp h
  obtain ⟨g, h6, h⟩ := Py.bind_ok.mp h
  obtain ⟨hr, rfl⟩ := normalizeInput_ok h2
  obtain ⟨hs, rfl⟩ := normalizeOutput_ok h3
  simp only [Except.ok.injEq, Prod.mk.injEq] at h
  obtain ⟨e1, e2⟩ := h
  subst e1 e2
  have hpos : 0 < std yh := lt_of_le_of_ne (std_nonneg yh) (Ne.symm hs)
  obtain ⟨hlf, _⟩ := trained_of_train h1
  refine ⟨⟨hr, hpos, rfl, hlf, ⟨f, h4, rfl⟩, rfl, ?_, glsFit_ok h6, rfl, fun j => pow10_pos theta j⟩, rfl, rfl, rfl, h1, ?_, rfl, rfl, rfl⟩
  · intro i
    simp only
    rw [div_mul_cancel₀ _ hs]; ring
  · intro s hns
    unfold HKObj.fitHyper at h5
    rw [hns] at h5
    obtain ⟨x, _, h⟩ := Py.bind_ok.mp h5
    simp only [Except.ok.injEq, Prod.mk.injEq] at h
    exact h.2.symm

theorem hkPredict_eq {hk : HKObj d q} {t : HKFit nh nl d q} (h : HKTrained hk t) (Xnew : Samples m d) {fl : Fin m → ℝ}
    (hfl : hk.predictLf t Xnew = .ok fl) :
    hk.predict t Xnew = .ok (fun j => (scaleCol fl t.yhMean t.yhStd *ᵥ t.gls.beta +
      (rbfMatrix hk.kernel.param t.Xhs (fun i => normPt hk.box (Xnew i)))ᵀ *ᵥ t.gls.gamma) j * t.yhStd + t.yhMean) := by
  unfold HKObj.predict
  exact Py.bind_ok.mpr ⟨_, normalizeInput_eq Xnew h.range, Py.bind_ok.mpr ⟨_, hfl, rfl⟩⟩

theorem hkPredictLf_ok {hk : HKObj d q} {t : HKFit nh nl d q} (h : HKTrained hk t) (Xnew : Samples m d) : ∃ fl, hk.predictLf t Xnew = .ok fl :=
  ⟨_, predictMean_eq h.lf Xnew⟩

/-- Scaled Kriging training, decomposed. -/
theorem skTrain_ok {sk : SKObj d ql qd} {w : SKWorld d} {Xh : Samples nh d} {yh : Fin nh → ℝ} {Xl : Samples nl d} {yl : Fin nl → ℝ}
    {sk' : SKObj d ql qd} {t : SKFit nh nl d ql qd} (h : sk.train w Xh yh Xl yl = .ok (sk', t)) :
    ∃ lfAtXh disc, sk.lf.train w.lf Xl yl = .ok (sk'.lf, t.lfFit) ∧ predictMean sk'.lf t.lfFit Xh = .ok lfAtXh ∧
      (if sk.rhoOptimize then sk.optimizeRho w Xh yh lfAtXh else .ok (sk.rho, sk.disc)) = .ok (sk'.rho, disc) ∧
      disc.train w.disc Xh (getDisc sk'.rho lfAtXh yh) = .ok (sk'.disc, t.discFit) ∧ t.Xh = Xh ∧ t.yh = yh := by
  unfold SKObj.train at h
  obtain ⟨⟨lf, lfFit⟩, h1, h⟩ := Py.bind_ok.mp h
  obtain ⟨lfAtXh, h2, h⟩ := Py.bind_ok.mp h
  obtain ⟨⟨rho, disc⟩, h3, h⟩ := Py.bind_ok.mp h
  obtain ⟨⟨disc', discFit⟩, h4, h⟩ := Py.bind_ok.mp h
  simp only [Except.ok.injEq, Prod.mk.injEq] at h
  obtain ⟨e1, e2⟩ := h
  subst e1 e2
  exact ⟨lfAtXh, disc, h1, h2, h3, h4, rfl, rfl⟩

theorem bumpRun_noise {Xh : Samples nh d} {yh lfAtXh : Fin nh → ℝ} (evals : List (ℝ × World d)) (disc disc' : GPObj d q) (s : ℝ)
    (hs : disc.noise = some s) (h : bumpRun Xh yh lfAtXh evals disc = .ok disc') : disc'.noise = some s := by
  induction evals generalizing disc with
  | nil =>
    unfold bumpRun at h
    simp only [Except.ok.injEq] at h
    rw [← h, hs]
  | cons e rest ih =>
    obtain ⟨r, w⟩ := e
    unfold bumpRun at h
    obtain ⟨⟨disc1, v⟩, h1, h⟩ := Py.bind_ok.mp h
    refine ih disc1 ?_ h
    unfold evalBumpiness at h1
    obtain ⟨⟨disc2, fit⟩, h2, h1⟩ := Py.bind_ok.mp h1
    simp only [Except.ok.injEq, Prod.mk.injEq] at h1
    obtain ⟨hT, _, _, _, _, hno, _⟩ := trained_of_train h2
    rw [← h1.1, hT.noise, hno s hs]

theorem optimizeRho_noise {sk : SKObj d ql qd} {w : SKWorld d} {Xh : Samples nh d} {yh lfAtXh : Fin nh → ℝ} {rho : ℝ} {disc : GPObj d qd} {s : ℝ}
    (hs : sk.disc.noise = some s) (h : sk.optimizeRho w Xh yh lfAtXh = .ok (rho, disc)) : disc.noise = some s := by
  unfold SKObj.optimizeRho at h
  split at h
  · split at h
    · obtain ⟨⟨x, f⟩, _, h⟩ := Py.bind_ok.mp h
      simp only [Except.ok.injEq, Prod.mk.injEq] at h
      rw [← h.2, hs]
    · obtain ⟨x, _, h⟩ := Py.bind_ok.mp h
      simp only [Except.ok.injEq, Prod.mk.injEq] at h
      rw [← h.2, hs]
  · obtain ⟨disc', h1, h⟩ := Py.bind_ok.mp h
    simp only [Except.ok.injEq, Prod.mk.injEq] at h
    rw [← h.2]
    exact bumpRun_noise _ _ _ s hs h1
  · cases h

end Mfpml.GP
