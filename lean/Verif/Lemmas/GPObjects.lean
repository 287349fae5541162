import Verif.Lemmas.GP
import Verif.Spec.GPObjects

/-! # Lemmas about model objects -/

open scoped BigOperators Matrix

namespace Mfpml.GPObjects

open Mfpml.Spec Mfpml.GP
open Mfpml.EA (Box)

variable {d q n : ℕ}

/-- `fitAttrs` succeeds exactly when `glsFit` does, with the same quantities. -/
theorem fitAttrs_ok {m : Model d q} {K : Matrix (Fin n) (Fin n) ℝ} {F : Matrix (Fin n) (Fin q) ℝ} {ys : Fin n → ℝ} {g : GLS n q} (h : glsFit K F ys = .ok g) :
    fitAttrs m K F ys =
      ({ m with fac := some ⟨n, g.L, F⟩, ld := some g.ld, beta := some g.beta, gamma := some ⟨n, g.gamma⟩, sigma2 := some g.sigma2 }, .ok ()) := by
  unfold glsFit at h
  obtain ⟨L, hL, h⟩ := Py.bind_ok.mp h
  obtain ⟨alpha, ha, h⟩ := Py.bind_ok.mp h
  obtain ⟨KF, hKF, h⟩ := Py.bind_ok.mp h
  obtain ⟨ld, hld, h⟩ := Py.bind_ok.mp h
  obtain ⟨beta, hb, h⟩ := Py.bind_ok.mp h
  obtain ⟨gamma, hg, h⟩ := Py.bind_ok.mp h
  obtain ⟨s2, hs, h⟩ := Py.bind_ok.mp h
  cases h
  unfold fitAttrs
  rw [hL]
  have e1 : (do
      let alpha ← cholSolveV L ys
      let KF ← cholSolve L F
      let ld ← cholesky (Fᵀ * KF)
      .ok (alpha, ld) : Py ((Fin n → ℝ) × Matrix (Fin q) (Fin q) ℝ)) = .ok (alpha, ld) :=
    Py.bind_ok.mpr ⟨_, ha, Py.bind_ok.mpr ⟨_, hKF, Py.bind_ok.mpr ⟨_, hld, rfl⟩⟩⟩
  have e2 : (do
        let beta ← cholSolveV ld (Fᵀ *ᵥ alpha)
        let gamma ← cholSolveV L (ys - F *ᵥ beta)
        let sigma2 ← npDiv ((ys - F *ᵥ beta) ⬝ᵥ gamma) n
        .ok (beta, gamma, sigma2) : Py ((Fin q → ℝ) × (Fin n → ℝ) × ℝ)) = .ok (beta, gamma, s2) :=
    Py.bind_ok.mpr ⟨_, hb, Py.bind_ok.mpr ⟨_, hg, Py.bind_ok.mpr ⟨_, hs, rfl⟩⟩⟩
  simp only [e1, e2]

theorem fitAttrs_cases (m : Model d q) (K : Matrix (Fin n) (Fin n) ℝ) (F : Matrix (Fin n) (Fin q) ℝ) (ys : Fin n → ℝ) :
    (∃ g, glsFit K F ys = .ok g) ∨ ((∃ e, (fitAttrs m K F ys).2 = .error e) ∧
      (fitAttrs m K F ys).1.gamma = m.gamma ∧ (fitAttrs m K F ys).1.beta = m.beta ∧ (fitAttrs m K F ys).1.scaledX = m.scaledX ∧ (fitAttrs m K F ys).1.sampleY = m.sampleY ∧
      (fitAttrs m K F ys).1.bounds = m.bounds ∧ (fitAttrs m K F ys).1.kernel = m.kernel ∧ (fitAttrs m K F ys).1.regr = m.regr) := by
  unfold fitAttrs
  split
  · right; exact ⟨⟨_, rfl⟩, rfl, rfl, rfl, rfl, rfl, rfl, rfl⟩
  · rename_i L hL
    split
    · right; exact ⟨⟨_, rfl⟩, rfl, rfl, rfl, rfl, rfl, rfl, rfl⟩
    · rename_i alpha ld h1
      obtain ⟨alpha', ha, h1⟩ := Py.bind_ok.mp h1
      obtain ⟨KF, hKF, h1⟩ := Py.bind_ok.mp h1
      obtain ⟨ld', hld, h1⟩ := Py.bind_ok.mp h1
      cases h1
      split
      · right; exact ⟨⟨_, rfl⟩, rfl, rfl, rfl, rfl, rfl, rfl, rfl⟩
      · rename_i beta gamma s2 h2
        obtain ⟨beta', hb, h2⟩ := Py.bind_ok.mp h2
        obtain ⟨gamma', hg, h2⟩ := Py.bind_ok.mp h2
        obtain ⟨s2', hs, h2⟩ := Py.bind_ok.mp h2
        cases h2
        left
        refine ⟨{ L := L, ld := ld, alpha := alpha, beta := beta, gamma := gamma, sigma2 := s2 }, ?_⟩
        exact Py.bind_ok.mpr ⟨_, hL, Py.bind_ok.mpr ⟨_, ha, Py.bind_ok.mpr ⟨_, hKF, Py.bind_ok.mpr ⟨_, hld, Py.bind_ok.mpr ⟨_, hb, Py.bind_ok.mpr ⟨_, hg,
          Py.bind_ok.mpr ⟨_, hs, rfl⟩⟩⟩⟩⟩⟩⟩

/-- The response array of a model as a column next to `n` samples. -/
def respCol (h : Heap d q) (a : Ref) (hn : (h.arrays a).1 = n) : Fin n → ℝ := fun i => (h.arrays a).2 (Fin.cast hn.symm i)

theorem std_respCol (h : Heap d q) (a : Ref) (hn : (h.arrays a).1 = n) : std (respCol h a hn) = std (h.arrays a).2 := by
  subst hn; rfl

theorem mean_respCol (h : Heap d q) (a : Ref) (hn : (h.arrays a).1 = n) : mean (respCol h a hn) = mean (h.arrays a).2 := by
  subst hn; rfl

/-- The state after a training that succeeds as a training of the value `h.view g`. -/
noncomputable def afterTrain (h : Heap d q) (g : Ref) (X : Σ n, Samples n d) (a : Ref) (gp' : GPObj d q) (t : GPFit X.1 d q) : Heap d q :=
  { h with
    kernels := Function.update h.kernels (h.models g).kernel gp'.kernel
    models := Function.update h.models g { h.models g with noise := some t.noise, scaledX := some ⟨X.1, t.Xs⟩, sampleY := some a, fac := some ⟨X.1, t.gls.L, t.F⟩, ld := some t.gls.ld, beta := some t.gls.beta, gamma := some ⟨X.1, t.gls.gamma⟩, sigma2 := some t.gls.sigma2 } }

/-- The object-level `train` succeeds when the value-level one does. -/
theorem train_of_view {h : Heap d q} {g : Ref} {w : World d} {X : Σ n, Samples n d} {a : Ref} (hn : (h.arrays a).1 = X.1) {gp' : GPObj d q} {t : GPFit X.1 d q}
    (ht : (h.view g).train w X.2 (respCol h a hn) = .ok (gp', t)) : h.train g w X a = (afterTrain h g X a gp' t, .ok ()) := by
  obtain ⟨hr, hs, theta, noise, h3, e1, h4, e2⟩ := train_ok_iff.mp ht
  unfold Heap.train
  have hr' : ∀ j, (h.boxes (h.models g).bounds).high j - (h.boxes (h.models g).bounds).low j ≠ 0 := hr
  rw [normalizeInput_eq _ hr']
  simp only
  rw [dif_pos hn]
  have hs' : std (respCol h a hn) ≠ 0 := hs
  have e3 : normalizeOutput (fun i : Fin X.1 => (h.arrays a).2 (Fin.cast hn.symm i)) = .ok (fun i => (respCol h a hn i - mean (respCol h a hn)) / std (respCol h a hn)) :=
    normalizeOutput_eq hs'
  rw [e3]
  simp only
  have e4 : (h.view g).fitHyper w (std (fun i : Fin X.1 => (h.arrays a).2 (Fin.cast hn.symm i))) (fun i => normPt (h.boxes (h.models g).bounds) (X.2 i))
      (fun i => (respCol h a hn i - mean (respCol h a hn)) / std (respCol h a hn)) = .ok (theta, noise) := h3
  rw [e4]
  simp only
  have e5 : ((h.setParams (h.models g).kernel theta).kernels (h.models g).kernel).param = pow10 theta := by
    simp [Heap.setParams, RBF.setParams]
  rw [e5]
  have e6 := fitAttrs_ok (m := { h.models g with noise := some noise, scaledX := some ⟨X.1, fun i => normPt (h.boxes (h.models g).bounds) (X.2 i)⟩, sampleY := some a }) h4
  have e6' : fitAttrs { h.models g with noise := some noise, scaledX := some ⟨X.1, fun i => normPt (h.boxes (h.models g).bounds) (X.2 i)⟩, sampleY := some a }
      (covTrain (pow10 theta) (fun i => normPt (h.boxes (h.models g).bounds) (X.2 i)) (noise / std (fun i : Fin X.1 => (h.arrays a).2 (Fin.cast hn.symm i))))
      (regrMatrix (h.models g).regr (fun i => normPt (h.boxes (h.models g).bounds) (X.2 i)))
      (fun i => (respCol h a hn i - mean (respCol h a hn)) / std (respCol h a hn)) = _ := e6
  rw [e6']
  rw [e2, e1]
  rfl

/-- What a failed training leaves: either nothing was changed (the samples could not be scaled), or the samples and responses are the new ones and the weights are the old ones; other objects are untouched except for
the kernel of the model. -/
theorem train_cases (h : Heap d q) (g : Ref) (w : World d) (X : Σ n, Samples n d) (a : Ref) :
    (∃ hn : (h.arrays a).1 = X.1, ∃ gp' t, (h.view g).train w X.2 (respCol h a hn) = .ok (gp', t)) ∨
    (∃ e, (h.train g w X a).2 = .error e) ∧
      ((h.train g w X a).1 = h ∧ ¬ (∀ j, (h.boxes (h.models g).bounds).high j - (h.boxes (h.models g).bounds).low j ≠ 0) ∨
       ∃ (m : Model d q) (k : RBF d), (∀ j, (h.boxes (h.models g).bounds).high j - (h.boxes (h.models g).bounds).low j ≠ 0) ∧
        (h.train g w X a).1 = { h with kernels := Function.update h.kernels (h.models g).kernel k, models := Function.update h.models g m } ∧
        m.gamma = (h.models g).gamma ∧ m.beta = (h.models g).beta ∧ m.scaledX = some ⟨X.1, fun i => normPt (h.boxes (h.models g).bounds) (X.2 i)⟩ ∧ m.sampleY = some a ∧
        m.bounds = (h.models g).bounds ∧ m.kernel = (h.models g).kernel ∧ m.regr = (h.models g).regr ∧
        (k = h.kernels (h.models g).kernel ∨ ∃ theta, k = (h.kernels (h.models g).kernel).setParams theta)) := by
  by_cases hr : ∀ j, (h.boxes (h.models g).bounds).high j - (h.boxes (h.models g).bounds).low j ≠ 0
  swap
  · right
    have : h.train g w X a = (h, .error .nonFinite) := by
      unfold Heap.train normalizeInput
      rw [if_neg hr]
    rw [this]
    exact ⟨⟨_, rfl⟩, Or.inl ⟨rfl, hr⟩⟩
  have key : ∀ m : Model d q, h.setModel g m = { h with kernels := Function.update h.kernels (h.models g).kernel (h.kernels (h.models g).kernel), models := Function.update h.models g m } := by
    intro m; unfold Heap.setModel; rw [Function.update_eq_self]
  by_cases hn : (h.arrays a).1 = X.1
  swap
  · right
    have : h.train g w X a = (h.setModel g { h.models g with scaledX := some ⟨X.1, fun i => normPt (h.boxes (h.models g).bounds) (X.2 i)⟩, sampleY := some a }, .error .valueError) := by
      unfold Heap.train
      rw [normalizeInput_eq _ hr]
      simp only
      rw [dif_neg hn]
    rw [this]
    exact ⟨⟨_, rfl⟩, Or.inr ⟨_, _, hr, key _, rfl, rfl, rfl, rfl, rfl, rfl, rfl, Or.inl rfl⟩⟩
  cases hy : normalizeOutput (respCol h a hn) with
  | error e =>
    right
    have : h.train g w X a = (h.setModel g { h.models g with scaledX := some ⟨X.1, fun i => normPt (h.boxes (h.models g).bounds) (X.2 i)⟩, sampleY := some a }, .error e) := by
      unfold Heap.train
      rw [normalizeInput_eq _ hr]
      simp only
      rw [dif_pos hn]
      have hy' : normalizeOutput (fun i : Fin X.1 => (h.arrays a).2 (Fin.cast hn.symm i)) = .error e := hy
      rw [hy']
    rw [this]
    exact ⟨⟨_, rfl⟩, Or.inr ⟨_, _, hr, key _, rfl, rfl, rfl, rfl, rfl, rfl, rfl, Or.inl rfl⟩⟩
  | ok ys =>
    cases hf : (h.view g).fitHyper w (std (respCol h a hn)) (fun i => normPt (h.boxes (h.models g).bounds) (X.2 i)) ys with
    | error e =>
      right
      have : h.train g w X a = (h.setModel g { h.models g with scaledX := some ⟨X.1, fun i => normPt (h.boxes (h.models g).bounds) (X.2 i)⟩, sampleY := some a }, .error e) := by
        unfold Heap.train
        rw [normalizeInput_eq _ hr]
        simp only
        rw [dif_pos hn]
        have hy' : normalizeOutput (fun i : Fin X.1 => (h.arrays a).2 (Fin.cast hn.symm i)) = .ok ys := hy
        rw [hy']
        simp only
        have hf' : (h.view g).fitHyper w (std (fun i : Fin X.1 => (h.arrays a).2 (Fin.cast hn.symm i))) (fun i => normPt (h.boxes (h.models g).bounds) (X.2 i)) ys = .error e := hf
        rw [hf']
      rw [this]
      exact ⟨⟨_, rfl⟩, Or.inr ⟨_, _, hr, key _, rfl, rfl, rfl, rfl, rfl, rfl, rfl, Or.inl rfl⟩⟩
    | ok r =>
      obtain ⟨theta, noise⟩ := r
      set m2 : Model d q := { h.models g with noise := some noise, scaledX := some ⟨X.1, fun i => normPt (h.boxes (h.models g).bounds) (X.2 i)⟩, sampleY := some a } with hm2
      set K := covTrain (pow10 theta) (fun i => normPt (h.boxes (h.models g).bounds) (X.2 i)) (noise / std (respCol h a hn)) with hK
      set F := regrMatrix (h.models g).regr (fun i => normPt (h.boxes (h.models g).bounds) (X.2 i)) with hF
      have ht : h.train g w X a = ((h.setParams (h.models g).kernel theta).setModel g (fitAttrs m2 K F ys).1, (fitAttrs m2 K F ys).2) := by
        unfold Heap.train
        rw [normalizeInput_eq _ hr]
        simp only
        rw [dif_pos hn]
        have hy' : normalizeOutput (fun i : Fin X.1 => (h.arrays a).2 (Fin.cast hn.symm i)) = .ok ys := hy
        rw [hy']
        simp only
        have hf' : (h.view g).fitHyper w (std (fun i : Fin X.1 => (h.arrays a).2 (Fin.cast hn.symm i))) (fun i => normPt (h.boxes (h.models g).bounds) (X.2 i)) ys = .ok (theta, noise) := hf
        rw [hf']
        simp only
        have e5 : ((h.setParams (h.models g).kernel theta).kernels (h.models g).kernel).param = pow10 theta := by
          simp [Heap.setParams, RBF.setParams]
        rw [e5]
        rfl
      rcases fitAttrs_cases m2 K F ys with ⟨gls, hg⟩ | ⟨⟨e, he⟩, h1, h2, h3, h4, h5, h6, h7⟩
      · left
        refine ⟨hn, { h.view g with kernel := (h.view g).kernel.setParams theta, noise := some noise },
          { X := X.2, Xs := fun i => normPt (h.boxes (h.models g).bounds) (X.2 i), y := respCol h a hn, ys := ys, yMean := mean (respCol h a hn), yStd := std (respCol h a hn),
            F := F, K := K, gls := gls, noise := noise }, ?_⟩
        unfold GPObj.train
        refine Py.bind_ok.mpr ⟨_, normalizeInput_eq _ hr, Py.bind_ok.mpr ⟨_, hy, Py.bind_ok.mpr ⟨_, hf, Py.bind_ok.mpr ⟨gls, hg, rfl⟩⟩⟩⟩
      · right
        rw [ht]
        exact ⟨⟨e, he⟩, Or.inr ⟨_, _, hr, rfl, h1, h2, h3, h4, h5, h6, h7, Or.inr ⟨theta, rfl⟩⟩⟩

/-- A prediction with all attributes present and matching. -/
theorem predictMean_of {h : Heap d q} {g : Ref} {Xs : Samples n d} {beta : Fin q → ℝ} {gamma : Fin n → ℝ} {a : Ref} {k : ℕ} (Xnew : Samples k d)
    (hr : ∀ j, (h.boxes (h.models g).bounds).high j - (h.boxes (h.models g).bounds).low j ≠ 0) (h1 : (h.models g).scaledX = some ⟨n, Xs⟩) (h2 : (h.models g).beta = some beta)
    (h3 : (h.models g).gamma = some ⟨n, gamma⟩) (h4 : (h.models g).sampleY = some a) :
    h.predictMean g Xnew = .ok fun j => (regrMatrix (h.models g).regr (fun i => normPt (h.boxes (h.models g).bounds) (Xnew i)) *ᵥ beta +
      (rbfMatrix (h.kernels (h.models g).kernel).param Xs (fun i => normPt (h.boxes (h.models g).bounds) (Xnew i)))ᵀ *ᵥ gamma) j * std (h.arrays a).2 + mean (h.arrays a).2 := by
  unfold Heap.predictMean
  dsimp only
  rw [h1, h2, h3, h4]
  refine Py.bind_ok.mpr ⟨_, normalizeInput_eq Xnew hr, ?_⟩
  refine Py.bind_ok.mpr ⟨_, rfl, Py.bind_ok.mpr ⟨_, rfl, Py.bind_ok.mpr ⟨_, rfl, Py.bind_ok.mpr ⟨_, ?_, Py.bind_ok.mpr ⟨_, rfl, rfl⟩⟩⟩⟩⟩
  unfold dotT
  rw [dif_pos rfl]
  rfl

/-- A prediction with weights of another number of samples. -/
theorem predictMean_mismatch {n' : ℕ} {h : Heap d q} {g : Ref} {Xs : Samples n d} {beta : Fin q → ℝ} {gamma : Fin n' → ℝ} {k : ℕ} (Xnew : Samples k d)
    (hr : ∀ j, (h.boxes (h.models g).bounds).high j - (h.boxes (h.models g).bounds).low j ≠ 0) (h1 : (h.models g).scaledX = some ⟨n, Xs⟩) (h2 : (h.models g).beta = some beta)
    (h3 : (h.models g).gamma = some ⟨n', gamma⟩) (hne : n' ≠ n) : h.predictMean g Xnew = .error .valueError := by
  unfold Heap.predictMean
  dsimp only
  rw [normalizeInput_eq Xnew hr, h1, h2, h3]
  simp only [attr, bind, Except.bind]
  unfold dotT
  rw [dif_neg hne]

/-- After a successful training the object predicts what the value-level model predicts. -/
theorem predictMean_afterTrain {h : Heap d q} {g : Ref} {w : World d} {X : Σ n, Samples n d} {a : Ref} (hn : (h.arrays a).1 = X.1) {gp' : GPObj d q} {t : GPFit X.1 d q}
    (ht : (h.view g).train w X.2 (respCol h a hn) = .ok (gp', t)) {k : ℕ} (Xnew : Samples k d) :
    (afterTrain h g X a gp' t).predictMean g Xnew = GP.predictMean gp' t Xnew := by
  obtain ⟨hT, hX, hy, hbox, hregr, hno, hmn, hstd, hys⟩ := trained_of_train ht
  rw [GP.predictMean_eq hT]
  have hb : (afterTrain h g X a gp' t).boxes (((afterTrain h g X a gp' t).models g).bounds) = gp'.box := by rw [hbox]; simp [afterTrain, Heap.view]
  have hrg : ((afterTrain h g X a gp' t).models g).regr = gp'.regr := by rw [hregr]; simp [afterTrain, Heap.view]
  have hk : (afterTrain h g X a gp' t).kernels (((afterTrain h g X a gp' t).models g).kernel) = gp'.kernel := by simp [afterTrain]
  rw [predictMean_of (Xs := t.Xs) (beta := t.gls.beta) (gamma := t.gls.gamma) (a := a) Xnew (by rw [hb]; exact hT.range) (by simp [afterTrain]) (by simp [afterTrain]) (by simp [afterTrain])
    (by simp [afterTrain])]
  rw [hb, hrg, hk, hmn, hstd, std_respCol, mean_respCol]
  rfl

theorem predictStd_afterTrain {h : Heap d q} {g : Ref} {w : World d} {X : Σ n, Samples n d} {a : Ref} (hn : (h.arrays a).1 = X.1) {gp' : GPObj d q} {t : GPFit X.1 d q}
    (ht : (h.view g).train w X.2 (respCol h a hn) = .ok (gp', t)) {k : ℕ} (Xnew : Samples k d) :
    (afterTrain h g X a gp' t).predictStd g Xnew = GP.predictStd gp' t Xnew := by
  have hm := predictMean_afterTrain hn ht Xnew
  obtain ⟨hT, hX, hy, hbox, hregr, hno, hmn, hstd, hys⟩ := trained_of_train ht
  have hb : (afterTrain h g X a gp' t).boxes (((afterTrain h g X a gp' t).models g).bounds) = gp'.box := by rw [hbox]; simp [afterTrain, Heap.view]
  have hrg : ((afterTrain h g X a gp' t).models g).regr = gp'.regr := by rw [hregr]; simp [afterTrain, Heap.view]
  have hk : (afterTrain h g X a gp' t).kernels (((afterTrain h g X a gp' t).models g).kernel) = gp'.kernel := by simp [afterTrain]
  have hM : (afterTrain h g X a gp' t).models g = { h.models g with noise := some t.noise, scaledX := some ⟨X.1, t.Xs⟩, sampleY := some a, fac := some ⟨X.1, t.gls.L, t.F⟩, ld := some t.gls.ld, beta := some t.gls.beta, gamma := some ⟨X.1, t.gls.gamma⟩, sigma2 := some t.gls.sigma2 } := by simp [afterTrain]
  rw [GP.predictMean_eq hT] at hm
  unfold Heap.predictStd GP.predictStd
  dsimp only
  rw [hm, GP.predictMean_eq hT, hb, hrg, hk, normalizeInput_eq Xnew hT.range, hM]
  simp only [attr, bind, Except.bind]
  rw [dif_pos trivial]
  unfold mseOf
  have hc1 := cholSolve_eq hT.gls.cholK (gp'.kernel.getKernelMatrix t.Xs fun i => normPt gp'.box (Xnew i))
  have hc1' : cholSolve t.gls.L (fun i j => gp'.kernel.getKernelMatrix t.Xs (fun i => normPt gp'.box (Xnew i)) (Fin.cast rfl i) j) = _ := hc1
  simp only [bind, Except.bind]
  rw [hc1, hc1']
  simp only
  rw [cholSolve_eq hT.gls.cholM]
  simp only
  have e1 : (afterTrain h g X a gp' t).arrays a = h.arrays a := rfl
  rw [e1, hstd, std_respCol]
  rfl

/-- The current kernel parameters play no role in training. -/
theorem train_param_irrel (gp : GPObj d q) (p : Fin d → ℝ) (w : World d) (X : Samples n d) (y : Fin n → ℝ) :
    GPObj.train { gp with kernel := { gp.kernel with param := p } } w X y = gp.train w X y := by
  rfl

/-- Predictions only read the model's own attributes and the objects these refer to. -/
theorem predict_congr {h h' : Heap d q} {g : Ref} (hm : ∃ opt, h'.models g = { h.models g with optimizer := opt }) (hb : h'.boxes (h.models g).bounds = h.boxes (h.models g).bounds)
    (hk : h'.kernels (h.models g).kernel = h.kernels (h.models g).kernel) (ha : ∀ a, (h.models g).sampleY = some a → h'.arrays a = h.arrays a) : SamePredictions h h' g := by
  intro m X
  obtain ⟨opt, hm⟩ := hm
  have h1 : h'.predictMean g X = h.predictMean g X := by
    unfold Heap.predictMean
    rw [hm]
    simp only [hb, hk]
    cases hs : (h.models g).sampleY with
    | none => rfl
    | some a =>
      simp only [attr, bind, Except.bind]
      rw [ha a hs]
  refine ⟨h1, ?_⟩
  unfold Heap.predictStd
  rw [h1, hm]
  simp only [hb, hk]
  cases hs : (h.models g).sampleY with
  | none => rfl
  | some a =>
    simp only [attr, bind, Except.bind]
    rw [ha a hs]

end Mfpml.GPObjects
