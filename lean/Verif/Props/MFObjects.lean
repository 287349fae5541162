import Verif.Props.MFKriging
import Verif.Lemmas.MFObjects

/-!
# Scaled Kriging as an object that holds two models (C108–C110): shared models, failed trainings, arrays written after training
-/

open scoped BigOperators Matrix

namespace Mfpml.Props

open Mfpml.GP Mfpml.Spec Mfpml.GPObjects
open Mfpml.EA (Box)

variable {n m d q : ℕ}

/-! ## Specification -/

/-- The low-fidelity and the discrepancy model are different objects with different kernel objects, and the arrays created by the training are not the caller's low-fidelity response array. -/
structure Apart (h : Heap d q) (s : SKModel) (al : Ref) (fresh : ℕ → Ref) : Prop where
  models : s.lf ≠ s.disc
  kernels : (h.models s.lf).kernel ≠ (h.models s.disc).kernel
  arrays : ∀ k, fresh k ≠ al

/-- The content of response array `a`, read as `n` responses. -/
def responses (h : Heap d q) (a : Ref) (hn : (h.arrays a).1 = n) : Fin n → ℝ := fun i => (h.arrays a).2 (Fin.cast hn.symm i)

/-! ## C108: the models passed by the user -/

/-- The state after the low-fidelity part of a training. -/
theorem lf_part {h : Heap d q} {s : SKModel} {w : SKWorld d} {Xl : Σ n, Samples n d} {al : Ref} {fresh : ℕ → Ref} (hap : Apart h s al fresh) (hnl : (h.arrays al).1 = Xl.1)
    {lf' : GPObj d q} {lfFit : GPFit Xl.1 d q} (htl : (h.view s.lf).train w.lf Xl.2 (respCol h al hnl) = .ok (lf', lfFit)) :
    Inv (afterTrain h s.lf Xl al lf' lfFit) (afterTrain h s.lf Xl al lf' lfFit) s.lf s.disc al (h.view s.disc) := by
  refine ⟨hap.models, ?_, ?_, ?_, SamePredictions.refl _ _⟩
  · rw [kernel_afterTrain, kernel_afterTrain]; exact hap.kernels
  · simp [afterTrain]
  · exact view_afterTrain_other (Ne.symm hap.models) (Ne.symm hap.kernels)

theorem sk_train_forward {h : Heap d q} {s : SKModel} {w : SKWorld d} {Xh Xl : Σ n, Samples n d} {ah al : Ref} {fresh : ℕ → Ref} (hap : Apart h s al fresh) (box : Box ℝ d)
    (hnh : (h.arrays ah).1 = Xh.1) (hnl : (h.arrays al).1 = Xl.1) {sk' : SKObj d q q} {t : SKFit Xh.1 Xl.1 d q q}
    (ht : (h.skView s box).train w Xh.2 (respCol h ah hnh) Xl.2 (respCol h al hnl) = .ok (sk', t)) :
    ∃ h' s', h.skTrain s w Xh ah Xl al fresh = (h', s', .ok ()) ∧ s' = { s with rho := sk'.rho } ∧
      (∀ (k : ℕ) (Xnew : Samples k d), h'.predictMean s.lf Xnew = GP.predictMean sk'.lf t.lfFit Xnew ∧ h'.predictStd s.lf Xnew = GP.predictStd sk'.lf t.lfFit Xnew) ∧
      (∀ (k : ℕ) (Xnew : Samples k d), h'.predictMean s.disc Xnew = GP.predictMean sk'.disc t.discFit Xnew ∧ h'.predictStd s.disc Xnew = GP.predictStd sk'.disc t.discFit Xnew) ∧
      (h'.models s.lf).sampleY = some al ∧ (h'.models s.disc).sampleY = some (fresh w.bumpEvals.length) := by
  unfold SKObj.train at ht
  obtain ⟨⟨lf', lfFit⟩, htl, ht⟩ := Py.bind_ok.mp ht
  obtain ⟨f, hf, ht⟩ := Py.bind_ok.mp ht
  obtain ⟨⟨rho, gd⟩, hrho, ht⟩ := Py.bind_ok.mp ht
  obtain ⟨⟨gd', dFit⟩, htd, ht⟩ := Py.bind_ok.mp ht
  simp only [Except.ok.injEq, Prod.mk.injEq] at ht
  obtain ⟨e1, e2⟩ := ht
  subst e1 e2
  have htl' : (h.view s.lf).train w.lf Xl.2 (respCol h al hnl) = .ok (lf', lfFit) := htl
  have e := train_of_view hnl htl'
  have I := lf_part (fresh := fresh) hap hnl htl'
  set h1 := afterTrain h s.lf Xl al lf' lfFit with hh1
  have hlf : h1.predictMean s.lf Xh.2 = .ok f := (predictMean_afterTrain hnl htl' Xh.2).trans hf
  have hstep : ∃ h2, (if s.rhoOptimize then h1.optimizeRho s w Xh.2 (respCol h ah hnh) fresh else (h1, .ok s.rho) : Heap d q × Py ℝ) = (h2, .ok rho) ∧ Inv h1 h2 s.lf s.disc al gd := by
    by_cases hro : s.rhoOptimize = true
    · have hro' : (h.skView s box).rhoOptimize = true := hro
      rw [if_pos hro'] at hrho
      rw [if_pos hro]
      exact (optimizeRho_obj hap.arrays hlf w box (h.view s.lf) (h.view s.disc) I (h.skView s box) rfl).1 rho gd hrho
    · have hro' : ¬ (h.skView s box).rhoOptimize = true := hro
      rw [if_neg hro'] at hrho
      rw [if_neg hro]
      simp only [Except.ok.injEq, Prod.mk.injEq] at hrho
      obtain ⟨e3, e4⟩ := hrho
      refine ⟨h1, by rw [← e3]; rfl, by rw [← e4]; exact I⟩
  obtain ⟨h2, e5, I2⟩ := hstep
  have hlf2 : h2.predictMean s.lf Xh.2 = .ok f := ((I2.same _ Xh.2).1).trans hlf
  obtain ⟨h3, e6, I3, hp3⟩ := (inv_step I2 w.disc Xh.2 (fresh w.bumpEvals.length) (hap.arrays _) (getDisc rho f (respCol h ah hnh))).1 gd' dFit htd
  refine ⟨h3, { s with rho := rho }, ?_, rfl, fun k Xnew => ?_, hp3, I3.sy, ?_⟩
  · unfold Heap.skTrain
    rw [e]
    have hn1 : (h1.arrays ah).1 = Xh.1 := hnh
    simp only
    rw [dif_pos hn1]
    have e7 : (fun i => (h1.arrays ah).2 (Fin.cast hn1.symm i)) = respCol h ah hnh := rfl
    rw [e7, e5]
    simp only
    rw [hlf2]
    simp only
    rw [show (⟨Xh.1, Xh.2⟩ : Σ n, Samples n d) = Xh from rfl] at e6
    rw [e6]
  · exact ⟨((I3.same k Xnew).1).trans (predictMean_afterTrain hnl htl' Xnew), ((I3.same k Xnew).2).trans (predictStd_afterTrain hnl htl' Xnew)⟩
  · obtain ⟨hn5, gp5, t5, ht5, e8⟩ := train_ok_view (show ((h2.newArray (fresh w.bumpEvals.length) (getDisc rho f (respCol h ah hnh))).train s.disc w.disc ⟨Xh.1, Xh.2⟩ (fresh w.bumpEvals.length)).2 = .ok () by rw [e6])
    rw [e8] at e6
    rw [← (Prod.mk.inj e6).1]
    simp [afterTrain]

theorem sk_train_backward {h : Heap d q} {s : SKModel} {w : SKWorld d} {Xh Xl : Σ n, Samples n d} {ah al : Ref} {fresh : ℕ → Ref} (hap : Apart h s al fresh) (box : Box ℝ d)
    (hok : (h.skTrain s w Xh ah Xl al fresh).2.2 = .ok ()) :
    ∃ (hnh : (h.arrays ah).1 = Xh.1) (hnl : (h.arrays al).1 = Xl.1) (sk' : SKObj d q q) (t : SKFit Xh.1 Xl.1 d q q),
      (h.skView s box).train w Xh.2 (respCol h ah hnh) Xl.2 (respCol h al hnl) = .ok (sk', t) := by
  unfold Heap.skTrain at hok
  rcases train_cases h s.lf w.lf Xl al with ⟨hnl, lf', lfFit, htl⟩ | ⟨⟨e, he⟩, _⟩
  swap
  · exfalso
    generalize h.train s.lf w.lf Xl al = R at he hok
    obtain ⟨R1, R2⟩ := R
    simp only at he
    subst he
    cases hok
  have e := train_of_view hnl htl
  have I := lf_part (fresh := fresh) hap hnl htl
  rw [e] at hok
  set h1 := afterTrain h s.lf Xl al lf' lfFit with hh1
  simp only at hok
  by_cases hnh : (h.arrays ah).1 = Xh.1
  swap
  · have hn1 : ¬ (h1.arrays ah).1 = Xh.1 := hnh
    rw [dif_neg hn1] at hok
    cases hok
  have hn1 : (h1.arrays ah).1 = Xh.1 := hnh
  rw [dif_pos hn1] at hok
  have e7 : (fun i => (h1.arrays ah).2 (Fin.cast hn1.symm i)) = respCol h ah hnh := rfl
  rw [e7] at hok
  obtain ⟨hT, _⟩ := trained_of_train htl
  obtain ⟨f, hf⟩ : ∃ f, GP.predictMean lf' lfFit Xh.2 = .ok f := ⟨_, predictMean_eq hT Xh.2⟩
  have hlf : h1.predictMean s.lf Xh.2 = .ok f := (predictMean_afterTrain hnl htl Xh.2).trans hf
  refine ⟨hnh, hnl, ?_⟩
  -- the scale factor
  have hstep : ∃ rho gd h2, (if (h.skView s box).rhoOptimize then (h.skView s box).optimizeRho w Xh.2 (respCol h ah hnh) f else .ok ((h.skView s box).rho, (h.skView s box).disc) : Py (ℝ × GPObj d q)) = .ok (rho, gd) ∧
      (if s.rhoOptimize then h1.optimizeRho s w Xh.2 (respCol h ah hnh) fresh else (h1, .ok s.rho) : Heap d q × Py ℝ) = (h2, .ok rho) ∧ Inv h1 h2 s.lf s.disc al gd := by
    by_cases hro : s.rhoOptimize = true
    · have hro' : (h.skView s box).rhoOptimize = true := hro
      rw [if_pos hro] at hok
      rw [if_pos hro, if_pos hro']
      obtain ⟨o1, o2⟩ := optimizeRho_obj (yh := respCol h ah hnh) hap.arrays hlf w box (h.view s.lf) (h.view s.disc) I (h.skView s box) rfl
      by_cases hex : ∃ r, (h.skView s box).optimizeRho w Xh.2 (respCol h ah hnh) f = .ok r
      · obtain ⟨⟨rho, gd⟩, hr⟩ := hex
        obtain ⟨h2, e8, I2⟩ := o1 rho gd hr
        exact ⟨rho, gd, h2, hr, e8, I2⟩
      · exfalso
        obtain ⟨e8, he8⟩ := o2 (by intro r hr; exact hex ⟨r, hr⟩)
        generalize h1.optimizeRho s w Xh.2 (respCol h ah hnh) fresh = R at he8 hok
        obtain ⟨R1, R2⟩ := R
        simp only at he8
        subst he8
        cases hok
    · have hro' : ¬ (h.skView s box).rhoOptimize = true := hro
      rw [if_neg hro, if_neg hro']
      exact ⟨s.rho, h.view s.disc, h1, rfl, rfl, I⟩
  obtain ⟨rho, gd, h2, e9, e10, I2⟩ := hstep
  rw [e10] at hok
  simp only at hok
  have hlf2 : h2.predictMean s.lf Xh.2 = .ok f := ((I2.same _ Xh.2).1).trans hlf
  rw [hlf2] at hok
  simp only at hok
  have htd : ∃ r, gd.train w.disc Xh.2 (getDisc rho f (respCol h ah hnh)) = .ok r := by
    by_contra hno
    obtain ⟨e11, he11⟩ := (inv_step I2 w.disc Xh.2 (fresh w.bumpEvals.length) (hap.arrays _) (getDisc rho f (respCol h ah hnh))).2 (by intro r hr; exact hno ⟨r, hr⟩)
    have he12 : ((h2.newArray (fresh w.bumpEvals.length) (getDisc rho f (respCol h ah hnh))).train s.disc w.disc Xh (fresh w.bumpEvals.length)).2 = .error e11 := he11
    rw [he12] at hok
    cases hok
  obtain ⟨⟨gd', dFit⟩, htd⟩ := htd
  refine ⟨{ (h.skView s box) with lf := lf', disc := gd', rho := rho }, { Xh := Xh.2, yh := respCol h ah hnh, lfFit := lfFit, discFit := dFit }, ?_⟩
  · unfold SKObj.train
    have htl' : (h.skView s box).lf.train w.lf Xl.2 (respCol h al hnl) = .ok (lf', lfFit) := htl
    rw [htl']
    simp only [bind, Except.bind]
    rw [hf]
    simp only
    rw [e9]
    simp only
    rw [htd]

/-- C108 (partial). When the low-fidelity model and the discrepancy model are different objects with different kernel objects, a training of the `ScaledKriging` object returns exactly when the training of two separate
models on the current content of the arrays does, and all its predictions are then those of the two models so trained.  Missing: the same object (or the same kernel) passed for both, see
`C108_sk_same_model` and `C108_sk_same_model_counterexample`. -/
theorem C108_sk_objects_partial (h : Heap d q) (s : SKModel) (w : SKWorld d) (Xh Xl : Σ n, Samples n d) (ah al : Ref) (fresh : ℕ → Ref) (hap : Apart h s al fresh) (box : Box ℝ d) :
    ((h.skTrain s w Xh ah Xl al fresh).2.2 = .ok () ↔ ∃ (hnh : (h.arrays ah).1 = Xh.1) (hnl : (h.arrays al).1 = Xl.1) (sk' : SKObj d q q) (t : SKFit Xh.1 Xl.1 d q q),
      (h.skView s box).train w Xh.2 (responses h ah hnh) Xl.2 (responses h al hnl) = .ok (sk', t)) ∧
    ∀ (hnh : (h.arrays ah).1 = Xh.1) (hnl : (h.arrays al).1 = Xl.1) (sk' : SKObj d q q) (t : SKFit Xh.1 Xl.1 d q q),
      (h.skView s box).train w Xh.2 (responses h ah hnh) Xl.2 (responses h al hnl) = .ok (sk', t) →
      ∃ h' s', h.skTrain s w Xh ah Xl al fresh = (h', s', .ok ()) ∧ s'.rho = sk'.rho ∧
        ∀ (k : ℕ) (Xnew : Samples k d), h'.skPredict s' Xnew = sk'.predict t Xnew ∧ h'.skPredictStd s' Xnew = sk'.predictStd t Xnew ∧
          h'.skPredictLf s' Xnew = GP.predictMean sk'.lf t.lfFit Xnew := by
  refine ⟨⟨fun hok => sk_train_backward hap box hok, ?_⟩, ?_⟩
  · rintro ⟨hnh, hnl, sk', t, ht⟩
    obtain ⟨h', s', e, _⟩ := sk_train_forward hap box hnh hnl ht
    rw [e]
  · intro hnh hnl sk' t ht
    obtain ⟨h', s', e, rfl, p1, p2, _⟩ := sk_train_forward hap box hnh hnl ht
    refine ⟨h', _, e, rfl, fun k Xnew => ⟨?_, ?_, (p1 k Xnew).1⟩⟩
    · unfold Heap.skPredict SKObj.predict
      simp only
      rw [(p1 k Xnew).1, (p2 k Xnew).1]
    · unfold Heap.skPredictStd SKObj.predictStd
      simp only
      rw [(p1 k Xnew).2, (p2 k Xnew).2]

/-! ### An example: models on `[0, 4]` -/

/-- Low-fidelity responses in array 0, high-fidelity responses (three times as large) in array 1, other low-fidelity responses (twice as large) in array 2, those plus 1 in array 3; model `g` holds kernel object `g`. -/
noncomputable def exObjects : Heap 1 1 :=
  { boxes := fun _ => { low := fun _ => 0, high := fun _ => 4 }, kernels := fun _ => RBF.mk' (fun _ => 0) (-2) 3,
    arrays := fun a => ⟨3, if a = 0 then exY else if a = 1 then fun i => 3 * exY i else if a = 2 then fun i => 2 * exY i else fun i => 2 * exY i + 1⟩,
    models := fun g => newModel 0 g (ordinary 1) none (some 0) }

/-- A `ScaledKriging` object with scale factor 1 that holds models `lf` and `disc`. -/
noncomputable def exSKModel (lf disc : Ref) : SKModel :=
  { lf := lf, disc := disc, rho := 1, rhoOptimize := false, rhoMethod := .error, rhoLow := 1, rhoHigh := 2, rhoOptimizer := none }

/-- Its environment. -/
noncomputable def exObjWorld : SKWorld 1 := { lf := exWorld, disc := exWorld, mini := cornerMinimizer, x0 := 1, bumpEvals := [], bumpX := 1 }

theorem exObjects_apart : Apart exObjects (exSKModel 0 1) 0 (fun k => 10 + k) :=
  ⟨by simp [exSKModel], by simp [exObjects, exSKModel, newModel], fun k => (by show (10 + k : ℕ) ≠ 0; omega)⟩

/-- The models of the example, with any kernel parameters. -/
def IsEx (gp : GPObj 1 1) : Prop := ∃ p, gp = { exGP (some 0) with kernel := { (exGP (some 0)).kernel with param := p } }

theorem isEx_trains {gp : GPObj 1 1} (hgp : IsEx gp) (y : Fin 3 → ℝ) (hy : y 0 ≠ y 2) : ∃ gp' t, gp.train exWorld exX y = .ok (gp', t) ∧ GP.predictMean gp' t exX = .ok y ∧ IsEx gp' := by
  obtain ⟨p, rfl⟩ := hgp
  obtain ⟨gp', t, ht⟩ := exGP_trains (some 0) exX y 0 2 hy
  have ht' := (train_param_irrel (exGP (some 0)) p exWorld exX y).trans ht
  refine ⟨gp', t, ht', C34_interpolation _ _ _ _ rfl _ _ ht, ?_⟩
  obtain ⟨_, _, _, _, _, hno, _⟩ := trained_of_train ht
  obtain ⟨hr, hs, theta, noise, h3, e1, h4, e2⟩ := train_ok_iff.mp ht
  have hn0 : noise = 0 := by
    have := hno 0 rfl
    rw [e2] at this
    exact this
  subst hn0
  exact ⟨_, e1⟩

theorem exObjects_view (g : Ref) : IsEx (exObjects.view g) := ⟨(exGP (some 0)).kernel.param, rfl⟩

theorem respCol_eq {h : Heap d q} {a : Ref} {y : Fin n → ℝ} (ha : h.arrays a = ⟨n, y⟩) (hn : (h.arrays a).1 = n) : respCol h a hn = y := by
  have key : ∀ (u : Σ n, Fin n → ℝ) (hu : u.1 = n), u = ⟨n, y⟩ → (fun i : Fin n => u.2 (Fin.cast hu.symm i)) = y := by rintro u hu rfl; rfl
  exact key _ hn ha

/-- A training without optimisation of the scale factor, step by step. -/
theorem sk_train_fixed {h : Heap d q} {s : SKModel} {w : SKWorld d} {Xh Xl : Σ n, Samples n d} {ah al : Ref} {fresh : ℕ → Ref} (hro : s.rhoOptimize = false)
    (hnl : (h.arrays al).1 = Xl.1) {lf' : GPObj d q} {lfFit : GPFit Xl.1 d q} (htl : (h.view s.lf).train w.lf Xl.2 (respCol h al hnl) = .ok (lf', lfFit)) (hnh : (h.arrays ah).1 = Xh.1)
    {f : Fin Xh.1 → ℝ} (hf : GP.predictMean lf' lfFit Xh.2 = .ok f) {gd' : GPObj d q} {dFit : GPFit Xh.1 d q}
    (htd : ((afterTrain h s.lf Xl al lf' lfFit).view s.disc).train w.disc Xh.2 (fun i => respCol h ah hnh i - s.rho * f i) = .ok (gd', dFit)) :
    h.skTrain s w Xh ah Xl al fresh =
      (afterTrain ((afterTrain h s.lf Xl al lf' lfFit).newArray (fresh w.bumpEvals.length) fun i => respCol h ah hnh i - s.rho * f i) s.disc Xh (fresh w.bumpEvals.length) gd' dFit, s, .ok ()) := by
  have e := train_of_view hnl htl
  unfold Heap.skTrain
  rw [e]
  have hlf : (afterTrain h s.lf Xl al lf' lfFit).predictMean s.lf Xh.2 = .ok f := (predictMean_afterTrain hnl htl Xh.2).trans hf
  have hn1 : ((afterTrain h s.lf Xl al lf' lfFit).arrays ah).1 = Xh.1 := hnh
  simp only
  rw [dif_pos hn1, hro]
  simp only [Bool.false_eq_true, if_false]
  rw [hlf]
  simp only
  have e2 : getDisc s.rho f (fun i => ((afterTrain h s.lf Xl al lf' lfFit).arrays ah).2 (Fin.cast hn1.symm i)) = fun i => respCol h ah hnh i - s.rho * f i := rfl
  rw [e2]
  set h2 := (afterTrain h s.lf Xl al lf' lfFit).newArray (fresh w.bumpEvals.length) (fun i => respCol h ah hnh i - s.rho * f i) with hh2
  have hn2 : (h2.arrays (fresh w.bumpEvals.length)).1 = Xh.1 := by simp [hh2, Heap.newArray]
  have ht2 : (h2.view s.disc).train w.disc Xh.2 (respCol h2 (fresh w.bumpEvals.length) hn2) = .ok (gd', dFit) := by
    rw [show respCol h2 _ hn2 = _ from respCol_newArray _ _ _ hn2]
    exact htd
  have e3 := train_of_view hn2 ht2
  rw [e3]
  clear_value h2
  cases s
  simp only at hro
  subst hro
  rfl

/-- The first training of the example: the state it leaves. -/
theorem exObjects_trained : ∃ h', exObjects.skTrain (exSKModel 0 1) exObjWorld ⟨3, exX⟩ 1 ⟨3, exX⟩ 0 (fun k => 10 + k) = (h', exSKModel 0 1, .ok ()) ∧
    h'.predictMean 0 exX = .ok exY ∧ h'.predictMean 1 exX = .ok (fun i => 2 * exY i) ∧ IsEx (h'.view 0) ∧ IsEx (h'.view 1) ∧ (∀ a, a < 10 → h'.arrays a = exObjects.arrays a) ∧
    (h'.models 0).kernel = 0 ∧ (h'.models 1).kernel = 1 ∧ (h'.models 0).sampleY = some 0 ∧ (h'.models 1).sampleY = some 10 := by
  have a0 : exObjects.arrays 0 = ⟨3, exY⟩ := by simp [exObjects]
  have a1 : exObjects.arrays 1 = ⟨3, fun i => 3 * exY i⟩ := by simp [exObjects]
  obtain ⟨lf', lfFit, htl, hfl, hexl⟩ := isEx_trains (exObjects_view 0) exY exY_ne
  have hnl : (exObjects.arrays 0).1 = 3 := rfl
  have hnh : (exObjects.arrays 1).1 = 3 := rfl
  have htl' : (exObjects.view (exSKModel 0 1).lf).train exObjWorld.lf (Sigma.mk 3 exX : Σ n, Samples n 1).2 (respCol exObjects 0 hnl) = .ok (lf', lfFit) := by rw [respCol_eq a0 hnl]; exact htl
  have hv1 : (afterTrain exObjects 0 ⟨3, exX⟩ 0 lf' lfFit).view 1 = exObjects.view 1 := view_afterTrain_other (by decide) (by simp [exObjects, newModel])
  obtain ⟨gd', dFit, htd, hfd, hexd⟩ := isEx_trains (exObjects_view 1) (fun i => 2 * exY i) (by simp [exY])
  have htd' : ((afterTrain exObjects (exSKModel 0 1).lf ⟨3, exX⟩ 0 lf' lfFit).view (exSKModel 0 1).disc).train exObjWorld.disc (Sigma.mk 3 exX : Σ n, Samples n 1).2
      (fun i => respCol exObjects 1 hnh i - (exSKModel 0 1).rho * exY i) = .ok (gd', dFit) := by
    rw [respCol_eq a1 hnh]
    have e1 : (fun i => 3 * exY i - (exSKModel 0 1).rho * exY i) = fun i => 2 * exY i := by funext i; simp only [exSKModel]; ring
    rw [e1]
    show ((afterTrain exObjects 0 ⟨3, exX⟩ 0 lf' lfFit).view 1).train exWorld exX _ = _
    rw [hv1]
    exact htd
  have e := sk_train_fixed (fresh := fun k => 10 + k) (Xh := ⟨3, exX⟩) (Xl := ⟨3, exX⟩) (s := exSKModel 0 1) rfl hnl htl' hnh hfl htd'
  rw [respCol_eq a1 hnh] at e htd'
  set h1 := afterTrain exObjects (exSKModel 0 1).lf ⟨3, exX⟩ 0 lf' lfFit with hh1
  set h2 := h1.newArray (10 + exObjWorld.bumpEvals.length) (fun i => 3 * exY i - (exSKModel 0 1).rho * exY i) with hh2
  have hn2 : (h2.arrays 10).1 = 3 := by simp [hh2, Heap.newArray, exObjWorld]
  have ht2 : (h2.view 1).train exWorld (Sigma.mk 3 exX : Σ n, Samples n 1).2 (respCol h2 10 hn2) = .ok (gd', dFit) := by
    rw [show respCol h2 10 hn2 = fun i => 3 * exY i - (exSKModel 0 1).rho * exY i from respCol_newArray _ _ _ hn2]
    exact htd'
  have hs1 : SamePredictions h1 h2 0 := newArray_same _ _ _ _ (by simp [hh1, afterTrain, exSKModel, exObjWorld])
  have hs2 : SamePredictions h2 (afterTrain h2 1 ⟨3, exX⟩ 10 gd' dFit) 0 := by
    have := train_same h2 0 1 exWorld ⟨3, exX⟩ 10 (by decide) (by simp [hh2, hh1, Heap.newArray, afterTrain, exSKModel, exObjects, newModel, Function.update])
    rwa [train_of_view hn2 ht2] at this
  refine ⟨_, e, ?_, ?_, ?_, ?_, ?_, ?_, ?_, ?_, ?_⟩
  · exact ((hs2 3 exX).1.trans (hs1 3 exX).1).trans ((predictMean_afterTrain hnl htl' exX).trans hfl)
  · exact (predictMean_afterTrain hn2 ht2 exX).trans hfd
  · have : (afterTrain h2 1 ⟨3, exX⟩ 10 gd' dFit).view 0 = h1.view 0 := view_afterTrain_other (by decide) (by simp [hh2, hh1, Heap.newArray, afterTrain, exSKModel, exObjects, newModel, Function.update])
    show IsEx ((afterTrain h2 1 ⟨3, exX⟩ 10 gd' dFit).view 0)
    rw [this, hh1]
    have h3 := view_afterTrain_self hnl htl'
    exact h3 ▸ hexl
  · have h3 := view_afterTrain_self hn2 ht2
    exact h3 ▸ hexd
  · intro a ha
    have : a ≠ 10 := by rintro rfl; exact absurd ha (lt_irrefl _)
    show Function.update exObjects.arrays (10 + 0) _ a = _
    rw [Function.update_of_ne this]
  · simp [hh2, hh1, Heap.newArray, afterTrain, exSKModel, exObjects, newModel, Function.update]
  · simp [hh2, hh1, Heap.newArray, afterTrain, exSKModel, exObjects, newModel, Function.update]
  · simp [hh2, hh1, Heap.newArray, afterTrain, exSKModel, exObjects, newModel, Function.update]
  · simp [hh2, hh1, Heap.newArray, afterTrain, exSKModel, exObjects, newModel, Function.update, exObjWorld]

/-- The hypotheses of C108 are met and the training of the example returns. -/
example : Apart exObjects (exSKModel 0 1) 0 (fun k => 10 + k) ∧ (exObjects.skTrain (exSKModel 0 1) exObjWorld ⟨3, exX⟩ 1 ⟨3, exX⟩ 0 (fun k => 10 + k)).2.2 = .ok () := by
  obtain ⟨h', e, _⟩ := exObjects_trained
  exact ⟨exObjects_apart, by rw [e]⟩

/-- C108 (what happens instead when one object is passed for both). After a training, without optimisation of the scale factor, that returns: the model has been retrained on the differences, so what is called the
low-fidelity prediction is the prediction of the differences, and the high-fidelity prediction is `rho + 1` times it. -/
theorem C108_sk_same_model (h : Heap d q) (s : SKModel) (hsame : s.lf = s.disc) (hro : s.rhoOptimize = false) (w : SKWorld d) (Xh Xl : Σ n, Samples n d) (ah al : Ref) (fresh : ℕ → Ref) (h' : Heap d q) (s' : SKModel)
    (hok : h.skTrain s w Xh ah Xl al fresh = (h', s', .ok ())) :
    ∃ (hnh : (h.arrays ah).1 = Xh.1) (f : Fin Xh.1 → ℝ) (gp' : GPObj d q) (t : GPFit Xh.1 d q), (h.train s.lf w.lf Xl al).1.predictMean s.lf Xh.2 = .ok f ∧
      ((h.train s.lf w.lf Xl al).1.view s.lf).train w.disc Xh.2 (fun i => responses h ah hnh i - s.rho * f i) = .ok (gp', t) ∧
      ∀ (k : ℕ) (Xnew : Samples k d), ∃ μ, GP.predictMean gp' t Xnew = .ok μ ∧ h'.skPredictLf s' Xnew = .ok μ ∧ h'.skPredict s' Xnew = .ok fun j => (s.rho + 1) * μ j := by
  unfold Heap.skTrain at hok
  rcases train_cases h s.lf w.lf Xl al with ⟨hnl, lf', lfFit, htl⟩ | ⟨⟨e, he⟩, _⟩
  swap
  · exfalso
    generalize h.train s.lf w.lf Xl al = R at he hok
    obtain ⟨R1, R2⟩ := R
    simp only at he
    subst he
    simp at hok
  have e := train_of_view hnl htl
  rw [e] at hok ⊢
  set h1 := afterTrain h s.lf Xl al lf' lfFit with hh1
  simp only at hok
  by_cases hnh : (h.arrays ah).1 = Xh.1
  swap
  · have hn1 : ¬ (h1.arrays ah).1 = Xh.1 := hnh
    rw [dif_neg hn1] at hok
    simp at hok
  have hn1 : (h1.arrays ah).1 = Xh.1 := hnh
  rw [dif_pos hn1] at hok
  have e7 : (fun i => (h1.arrays ah).2 (Fin.cast hn1.symm i)) = respCol h ah hnh := rfl
  simp only [e7, hro, Bool.false_eq_true, if_false] at hok
  obtain ⟨hT, _⟩ := trained_of_train htl
  obtain ⟨f, hf⟩ : ∃ f, GP.predictMean lf' lfFit Xh.2 = .ok f := ⟨_, predictMean_eq hT Xh.2⟩
  have hlf : h1.predictMean s.lf Xh.2 = .ok f := (predictMean_afterTrain hnl htl Xh.2).trans hf
  rw [hlf] at hok
  simp only [Prod.mk.injEq] at hok
  obtain ⟨k1, k2, k3⟩ := hok
  set a := fresh w.bumpEvals.length with ha
  obtain ⟨hna, gp', t, ht, e2⟩ := train_ok_view k3
  have e3 : respCol (h1.newArray a (getDisc s.rho f (respCol h ah hnh))) a hna = getDisc s.rho f (respCol h ah hnh) := respCol_newArray h1 a _ hna
  refine ⟨hnh, f, gp', t, hlf, by rw [e3] at ht; rw [hsame]; exact ht, fun k Xnew => ?_⟩
  obtain ⟨hT2, _⟩ := trained_of_train ht
  have hp : h'.predictMean s.disc Xnew = GP.predictMean gp' t Xnew := by
    rw [← k1, e2]
    exact predictMean_afterTrain hna ht Xnew
  obtain ⟨μ, hμ⟩ : ∃ μ, GP.predictMean gp' t Xnew = .ok μ := ⟨_, predictMean_eq hT2 Xnew⟩
  refine ⟨μ, hμ, ?_, ?_⟩
  · rw [← k2]
    unfold Heap.skPredictLf
    simp only
    rw [hsame, hp, hμ]
  · rw [← k2]
    unfold Heap.skPredict
    simp only
    rw [hsame, hp, hμ]
    simp only [bind, Except.bind, Except.ok.injEq]
    funext j
    ring

/-- C108 is false when one object is passed for both models: with low-fidelity responses `y` and high-fidelity responses `3 y` at the same samples and no noise, two objects reproduce both (`predict_lf` returns `y`,
`predict` returns `3 y`), one object returns `2 y` and `4 y`. -/
theorem C108_sk_same_model_counterexample :
    (∃ h', exObjects.skTrain (exSKModel 0 1) exObjWorld ⟨3, exX⟩ 1 ⟨3, exX⟩ 0 (fun k => 10 + k) = (h', exSKModel 0 1, .ok ()) ∧
      h'.skPredictLf (exSKModel 0 1) exX = .ok exY ∧ h'.skPredict (exSKModel 0 1) exX = .ok (fun i => 3 * exY i)) ∧
    ∃ h', exObjects.skTrain (exSKModel 0 0) exObjWorld ⟨3, exX⟩ 1 ⟨3, exX⟩ 0 (fun k => 10 + k) = (h', exSKModel 0 0, .ok ()) ∧
      h'.skPredictLf (exSKModel 0 0) exX = .ok (fun i => 2 * exY i) ∧ h'.skPredict (exSKModel 0 0) exX = .ok (fun i => 4 * exY i) := by
  constructor
  · obtain ⟨h', e, p0, p1, _⟩ := exObjects_trained
    refine ⟨h', e, p0, ?_⟩
    unfold Heap.skPredict
    rw [show (exSKModel 0 1).disc = 1 from rfl, show (exSKModel 0 1).lf = 0 from rfl, p1, p0]
    simp only [bind, Except.bind, Except.ok.injEq]
    funext j
    simp only [exSKModel]
    ring
  · have a0 : exObjects.arrays 0 = ⟨3, exY⟩ := by simp [exObjects]
    have a1 : exObjects.arrays 1 = ⟨3, fun i => 3 * exY i⟩ := by simp [exObjects]
    obtain ⟨lf', lfFit, htl, hfl, hexl⟩ := isEx_trains (exObjects_view 0) exY exY_ne
    have hnl : (exObjects.arrays 0).1 = 3 := rfl
    have hnh : (exObjects.arrays 1).1 = 3 := rfl
    have htl' : (exObjects.view (exSKModel 0 0).lf).train exObjWorld.lf (Sigma.mk 3 exX : Σ n, Samples n 1).2 (respCol exObjects 0 hnl) = .ok (lf', lfFit) := by rw [respCol_eq a0 hnl]; exact htl
    have hv := view_afterTrain_self hnl htl'
    obtain ⟨gd', dFit, htd, hfd, _⟩ := isEx_trains hexl (fun i => 2 * exY i) (by simp [exY])
    have htd' : ((afterTrain exObjects (exSKModel 0 0).lf ⟨3, exX⟩ 0 lf' lfFit).view (exSKModel 0 0).disc).train exObjWorld.disc (Sigma.mk 3 exX : Σ n, Samples n 1).2
        (fun i => respCol exObjects 1 hnh i - (exSKModel 0 0).rho * exY i) = .ok (gd', dFit) := by
      rw [respCol_eq a1 hnh]
      have e1 : (fun i => 3 * exY i - (exSKModel 0 0).rho * exY i) = fun i => 2 * exY i := by funext i; simp only [exSKModel]; ring
      rw [e1, show (exSKModel 0 0).disc = (exSKModel 0 0).lf from rfl, hv]
      exact htd
    have e := sk_train_fixed (fresh := fun k => 10 + k) (Xh := ⟨3, exX⟩) (Xl := ⟨3, exX⟩) (s := exSKModel 0 0) rfl hnl htl' hnh hfl htd'
    obtain ⟨hn', f, gp2, t2, q1, q2, q3⟩ := C108_sk_same_model exObjects (exSKModel 0 0) rfl rfl exObjWorld ⟨3, exX⟩ ⟨3, exX⟩ 1 0 (fun k => 10 + k) _ _ e
    obtain ⟨μ, m1, m2, m3⟩ := q3 3 exX
    have hf : f = exY := by
      rw [train_of_view hnl htl'] at q1
      have := q1.symm.trans ((predictMean_afterTrain hnl htl' exX).trans hfl)
      exact Except.ok.inj this
    have hμ : μ = fun i => 2 * exY i := by
      rw [train_of_view hnl htl'] at q2
      have e2 : (fun i => responses exObjects 1 hn' i - (exSKModel 0 0).rho * f i) = fun i => respCol exObjects 1 hnh i - (exSKModel 0 0).rho * exY i := by rw [hf]; rfl
      rw [e2, hv, ] at q2
      rw [show (exSKModel 0 0).disc = (exSKModel 0 0).lf from rfl, hv] at htd'
      have e3 := (Prod.mk.inj (Except.ok.inj (q2.symm.trans htd')))
      rw [e3.1, e3.2] at m1
      exact Except.ok.inj (m1.symm.trans hfd)
    refine ⟨_, e, by rw [m2, hμ], ?_⟩
    rw [m3, hμ]
    simp only [Except.ok.injEq]
    funext j
    simp only [exSKModel]
    ring

/-! ## C109: a training that raises -/

/-- C109 (partial). What a `ScaledKriging` training that raises leaves behind.  If the training of the low-fidelity model raised, the scale factor and the discrepancy model are as before; otherwise the low-fidelity model
has been replaced by the newly trained one.  Models that are neither of the two and hold neither of their kernels predict as before, if the arrays the training creates are not theirs.  Missing: the property (predictions as
before) does not hold, see `C109_failed_training_counterexample`. -/
theorem C109_failed_training_partial (h : Heap d q) (s : SKModel) (w : SKWorld d) (Xh Xl : Σ n, Samples n d) (ah al : Ref) (fresh : ℕ → Ref) (hap : Apart h s al fresh) (h' : Heap d q) (s' : SKModel) (e : PyErr)
    (hfail : h.skTrain s w Xh ah Xl al fresh = (h', s', .error e)) :
    ((h.train s.lf w.lf Xl al).2 = .error e ∧ s' = s ∧ SamePredictions h h' s.disc ∨
      (h.train s.lf w.lf Xl al).2 = .ok () ∧ SamePredictions (h.train s.lf w.lf Xl al).1 h' s.lf) ∧
    ∀ g, g ≠ s.lf → g ≠ s.disc → (h.models s.lf).kernel ≠ (h.models g).kernel → (h.models s.disc).kernel ≠ (h.models g).kernel → (∀ k, (h.models g).sampleY ≠ some (fresh k)) → SamePredictions h h' g := by
  have hh : (h.skTrain s w Xh ah Xl al fresh).1 = h' := by rw [hfail]
  rcases hR : h.train s.lf w.lf Xl al with ⟨h1, R⟩
  have hframe : ∀ g, g ≠ s.lf → (h.models s.lf).kernel ≠ (h.models g).kernel → Frame h h1 g := by
    intro g h2 h3
    have := frame_train h g s.lf w.lf Xl al (Ne.symm h2) h3
    rwa [hR] at this
  cases R with
  | error e1 =>
    have e2 : h.skTrain s w Xh ah Xl al fresh = (h1, s, .error e1) := by unfold Heap.skTrain; rw [hR]
    rw [hfail] at e2
    simp only [Prod.mk.injEq, Except.error.injEq] at e2
    obtain ⟨rfl, rfl, rfl⟩ := e2
    exact ⟨Or.inl ⟨rfl, rfl, (hframe _ (Ne.symm hap.models) hap.kernels).same⟩, fun g h2 _ h4 _ _ => (hframe g h2 h4).same⟩
  | ok u =>
    have hk1 : ∀ g, (h1.models g).kernel = (h.models g).kernel := by
      have := train_kernelRefs h s.lf w.lf Xl al
      rwa [hR] at this
    have hsy : (h1.models s.lf).sampleY = some al := by
      obtain ⟨hn, gp', t, ht, e2⟩ := train_ok_view (show (h.train s.lf w.lf Xl al).2 = .ok () by rw [hR])
      rw [hR] at e2
      rw [(Prod.mk.inj e2).1]
      simp [afterTrain]
    refine ⟨Or.inr ⟨rfl, ?_⟩, fun g h2 h3 h4 h5 h6 => ?_⟩
    · rw [← hh]
      refine (skTrain_after_lf hR s.lf (Ne.symm hap.models) (by rw [hk1, hk1]; exact Ne.symm hap.kernels) fun k => ?_).same
      rw [hsy]
      intro h7
      exact hap.arrays k (Option.some.inj h7).symm
    · rw [← hh]
      have F := hframe g h2 h4
      exact (F.trans (skTrain_after_lf hR g (Ne.symm h3) (by rw [hk1, hk1]; exact h5) fun k => by rw [F.models]; exact h6 k)).same

/-- C109 is false: a training that raises `ValueError` because the numbers of high-fidelity samples and responses differ has already replaced the low-fidelity model, and the predictions combine the new low-fidelity model with
the old discrepancy model (`2 y + 2 y` at the samples, where the model predicted `3 y` before). -/
theorem C109_failed_training_counterexample :
    ∃ (h1 h2 : Heap 1 1), exObjects.skTrain (exSKModel 0 1) exObjWorld ⟨3, exX⟩ 1 ⟨3, exX⟩ 0 (fun k => 10 + k) = (h1, exSKModel 0 1, .ok ()) ∧
      h1.skTrain (exSKModel 0 1) exObjWorld ⟨2, fun _ _ => 1⟩ 1 ⟨3, exX⟩ 2 (fun k => 20 + k) = (h2, exSKModel 0 1, .error .valueError) ∧
      h1.skPredictLf (exSKModel 0 1) exX = .ok exY ∧ h2.skPredictLf (exSKModel 0 1) exX = .ok (fun i => 2 * exY i) ∧
      h1.skPredict (exSKModel 0 1) exX = .ok (fun i => 3 * exY i) ∧ h2.skPredict (exSKModel 0 1) exX = .ok (fun i => 4 * exY i) := by
  obtain ⟨h1, e, p0, p1, v0, v1, ha, k0, k1, y0, y1⟩ := exObjects_trained
  have a2 : h1.arrays 2 = ⟨3, fun i => 2 * exY i⟩ := by rw [ha 2 (by decide)]; simp [exObjects]
  have hn2 : (h1.arrays 2).1 = 3 := by rw [a2]
  obtain ⟨lf', t, ht, hf, _⟩ := isEx_trains v0 (fun i => 2 * exY i) (by simp [exY])
  have ht' : (h1.view 0).train exWorld (Sigma.mk 3 exX : Σ n, Samples n 1).2 (respCol h1 2 hn2) = .ok (lf', t) := by rw [respCol_eq a2 hn2]; exact ht
  have e2 := train_of_view (X := ⟨3, exX⟩) hn2 ht'
  have hs1 : SamePredictions h1 (afterTrain h1 0 ⟨3, exX⟩ 2 lf' t) 1 := by
    have := train_same h1 1 0 exWorld ⟨3, exX⟩ 2 (by decide) (by rw [k0, k1]; decide)
    rwa [e2] at this
  have q0 : (afterTrain h1 0 ⟨3, exX⟩ 2 lf' t).predictMean 0 exX = .ok (fun i => 2 * exY i) := (predictMean_afterTrain hn2 ht' exX).trans hf
  have q1 : (afterTrain h1 0 ⟨3, exX⟩ 2 lf' t).predictMean 1 exX = .ok (fun i => 2 * exY i) := ((hs1 3 exX).1).trans p1
  refine ⟨h1, afterTrain h1 0 ⟨3, exX⟩ 2 lf' t, e, ?_, p0, q0, ?_, ?_⟩
  · unfold Heap.skTrain
    have e3 : h1.train (exSKModel 0 1).lf exObjWorld.lf ⟨3, exX⟩ 2 = (afterTrain h1 0 ⟨3, exX⟩ 2 lf' t, .ok ()) := e2
    rw [e3]
    simp only
    rw [dif_neg]
    show ¬ (h1.arrays 1).1 = 2
    rw [ha 1 (by decide)]
    simp [exObjects]
  · unfold Heap.skPredict
    rw [show (exSKModel 0 1).disc = 1 from rfl, show (exSKModel 0 1).lf = 0 from rfl, p1, p0]
    simp only [bind, Except.bind, Except.ok.injEq]
    funext j
    simp only [exSKModel]
    ring
  · unfold Heap.skPredict
    rw [show (exSKModel 0 1).disc = 1 from rfl, show (exSKModel 0 1).lf = 0 from rfl, q1, q0]
    simp only [bind, Except.bind, Except.ok.injEq]
    funext j
    simp only [exSKModel]
    ring

/-! ## C110: arrays written after training -/

/-- C110 (partial). After a training that returned: writing into the high-fidelity response array changes no prediction; writing `y'` into the low-fidelity response array changes the low-fidelity predictions as if the
training responses had been rescaled from the mean and spread of the old to those of the new content, and the high-fidelity predictions by the same amount.  Missing: the property (no write changes predictions) does not
hold for the low-fidelity array, see `C110_response_arrays_counterexample`. -/
theorem C110_response_arrays_partial (h : Heap d q) (s : SKModel) (w : SKWorld d) (Xh Xl : Σ n, Samples n d) (ah al : Ref) (fresh : ℕ → Ref) (hap : Apart h s al fresh) (hal : ah ≠ al) (hah : ∀ k, fresh k ≠ ah)
    (h' : Heap d q) (s' : SKModel) (hok : h.skTrain s w Xh ah Xl al fresh = (h', s', .ok ())) (y' : ℕ → ℝ) (k : ℕ) (Xnew : Samples k d) :
    ((h'.step (.writeResponses ah y')).skPredict s' Xnew = h'.skPredict s' Xnew ∧ (h'.step (.writeResponses ah y')).skPredictStd s' Xnew = h'.skPredictStd s' Xnew ∧
      (h'.step (.writeResponses ah y')).skPredictLf s' Xnew = h'.skPredictLf s' Xnew) ∧
    ∃ μl μ νl, h'.skPredictLf s' Xnew = .ok μl ∧ h'.skPredict s' Xnew = .ok μ ∧
      (∀ j, νl j = (μl j - mean (h'.arrays al).2) / std (h'.arrays al).2 * std (fun i : Fin (h'.arrays al).1 => y' i) + mean (fun i : Fin (h'.arrays al).1 => y' i)) ∧
      (h'.step (.writeResponses al y')).skPredictLf s' Xnew = .ok νl ∧ (h'.step (.writeResponses al y')).skPredict s' Xnew = .ok fun j => μ j + (νl j - μl j) := by
  have hok' : (h.skTrain s w Xh ah Xl al fresh).2.2 = .ok () := by rw [hok]
  let box : Box ℝ d := h.boxes 0
  obtain ⟨hnh, hnl, sk', t, ht⟩ := sk_train_backward hap box hok'
  obtain ⟨h2, s2, e2, es, p1, p2, y1, y2⟩ := sk_train_forward hap box hnh hnl ht
  rw [hok] at e2
  simp only [Prod.mk.injEq, and_true] at e2
  obtain ⟨rfl, rfl⟩ := e2
  have elf : s'.lf = s.lf := by rw [es]
  have edisc : s'.disc = s.disc := by rw [es]
  have w1 : SamePredictions h' (h'.step (.writeResponses ah y')) s.lf := by
    have := C94_models_independent_partial [Call.writeResponses ah y'] h' s.lf (by
      intro c hc
      rw [List.mem_singleton] at hc
      subst hc
      show (h'.models s.lf).sampleY ≠ some ah
      rw [y1]
      exact fun h3 => hal (Option.some.inj h3).symm)
    exact this
  have wd : ∀ a, (∀ k, fresh k ≠ a) → SamePredictions h' (h'.step (.writeResponses a y')) s.disc := by
    intro a ha
    have := C94_models_independent_partial [Call.writeResponses a y'] h' s.disc (by
      intro c hc
      rw [List.mem_singleton] at hc
      subst hc
      show (h'.models s.disc).sampleY ≠ some a
      rw [y2]
      exact fun h3 => ha _ (Option.some.inj h3))
    exact this
  refine ⟨⟨?_, ?_, ?_⟩, ?_⟩
  · unfold Heap.skPredict
    rw [elf, edisc, (w1 k Xnew).1, (wd ah hah k Xnew).1]
  · unfold Heap.skPredictStd
    rw [elf, edisc, (w1 k Xnew).2, (wd ah hah k Xnew).2]
  · unfold Heap.skPredictLf
    rw [elf, (w1 k Xnew).1]
  obtain ⟨htl, _, htd⟩ : (∃ r, (h.view s.lf).train w.lf Xl.2 (respCol h al hnl) = .ok r) ∧ (∃ μ, GP.predictMean sk'.lf t.lfFit Xnew = .ok μ) ∧ ∃ μ, GP.predictMean sk'.disc t.discFit Xnew = .ok μ := by
    unfold SKObj.train at ht
    obtain ⟨⟨lf', lfFit⟩, htl, ht⟩ := Py.bind_ok.mp ht
    obtain ⟨f, hf, ht⟩ := Py.bind_ok.mp ht
    obtain ⟨⟨rho, gd⟩, hrho, ht⟩ := Py.bind_ok.mp ht
    obtain ⟨⟨gd', dFit⟩, htd, ht⟩ := Py.bind_ok.mp ht
    simp only [Except.ok.injEq, Prod.mk.injEq] at ht
    obtain ⟨e1, e2⟩ := ht
    subst e1 e2
    exact ⟨⟨_, htl⟩, ⟨_, predictMean_eq (trained_of_train htl).1 Xnew⟩, ⟨_, predictMean_eq (trained_of_train htd).1 Xnew⟩⟩
  obtain ⟨⟨lf', lfFit⟩, htl⟩ := htl
  obtain ⟨μd, hμd⟩ := htd
  have hR := train_of_view hnl htl
  have hk1 : ∀ g, ((afterTrain h s.lf Xl al lf' lfFit).models g).kernel = (h.models g).kernel := fun g => kernel_afterTrain _ _ _ _ _ _ _
  have F : Frame (afterTrain h s.lf Xl al lf' lfFit) h' s.lf := by
    have := skTrain_after_lf (Xh := Xh) (ah := ah) (fresh := fresh) hR s.lf (Ne.symm hap.models) (by rw [hk1, hk1]; exact Ne.symm hap.kernels) (fun k => by
      simp only [afterTrain, Function.update_self]
      exact fun h7 => hap.arrays k (Option.some.inj h7).symm)
    rwa [hok] at this
  have hsd : std (h'.arrays al).2 ≠ 0 := by
    have h3 : h'.arrays al = h.arrays al := F.arrays al (by simp [afterTrain])
    rw [h3, ← std_respCol h al hnl]
    exact (train_ok_iff.mp htl).stdne
  have hpl : h'.predictMean s.lf Xnew = GP.predictMean lf' lfFit Xnew := ((F.same k Xnew).1).trans (predictMean_afterTrain hnl htl Xnew)
  obtain ⟨μl, hμl⟩ : ∃ μl, h'.predictMean s.lf Xnew = .ok μl := ⟨_, hpl.trans (predictMean_eq (trained_of_train htl).1 Xnew)⟩
  obtain ⟨v, hv1, hv2⟩ := predictMean_write hμl y1 y'
  refine ⟨μl, fun j => μd j * s'.rho + μl j, fun j => v j * std (fun i : Fin (h'.arrays al).1 => y' i) + mean (fun i : Fin (h'.arrays al).1 => y' i), ?_, ?_, fun j => ?_, ?_, ?_⟩
  · unfold Heap.skPredictLf
    rw [elf]
    exact hμl
  · unfold Heap.skPredict
    rw [elf, edisc, (p2 k Xnew).1, hμd, hμl]
    rfl
  · rw [hv1 j, add_sub_cancel_right, mul_div_assoc, div_self hsd, mul_one]
  · unfold Heap.skPredictLf
    rw [elf]
    exact hv2
  · unfold Heap.skPredict
    rw [elf, edisc, (wd al hap.arrays k Xnew).1, (p2 k Xnew).1, hμd, hv2]
    simp only [bind, Except.bind, Except.ok.injEq]
    funext j
    ring

/-- C110 is false: adding 1 to the caller's low-fidelity response array after training adds 1 to the predictions of both fidelities, and the high-fidelity responses are no longer reproduced. -/
theorem C110_response_arrays_counterexample :
    ∃ (h' : Heap 1 1) (y' : ℕ → ℝ), exObjects.skTrain (exSKModel 0 1) exObjWorld ⟨3, exX⟩ 1 ⟨3, exX⟩ 0 (fun k => 10 + k) = (h', exSKModel 0 1, .ok ()) ∧
      h'.skPredict (exSKModel 0 1) exX = .ok (fun i => 3 * exY i) ∧
      (h'.step (.writeResponses 0 y')).skPredictLf (exSKModel 0 1) exX = .ok (fun i => exY i + 1) ∧ (h'.step (.writeResponses 0 y')).skPredict (exSKModel 0 1) exX = .ok (fun i => 3 * exY i + 1) := by
  obtain ⟨h1, e, p0, p1, v0, v1, ha, k0, k1, y0, y1⟩ := exObjects_trained
  obtain ⟨_, μl, μ, νl, m1, m2, m3, m4, m5⟩ := C110_response_arrays_partial exObjects (exSKModel 0 1) exObjWorld ⟨3, exX⟩ ⟨3, exX⟩ 1 0 (fun k => 10 + k) exObjects_apart (by decide)
    (fun k => by show (10 + k : ℕ) ≠ 1; omega) h1 (exSKModel 0 1) e (fun i => if h : i < 3 then exY ⟨i, h⟩ + 1 else 0) 3 exX
  have hl : μl = exY := Except.ok.inj (m1.symm.trans p0)
  have hμ : h1.skPredict (exSKModel 0 1) exX = .ok (fun i => 3 * exY i) := by
    unfold Heap.skPredict
    rw [show (exSKModel 0 1).disc = 1 from rfl, show (exSKModel 0 1).lf = 0 from rfl, p1, p0]
    simp only [bind, Except.bind, Except.ok.injEq]
    funext j
    simp only [exSKModel]
    ring
  have hμ' : μ = fun i => 3 * exY i := Except.ok.inj (m2.symm.trans hμ)
  have a0 : h1.arrays 0 = ⟨3, exY⟩ := by rw [ha 0 (by decide)]; simp [exObjects]
  have hs : std exY ≠ 0 := by
    obtain ⟨gp', t, ht, _⟩ := isEx_trains (exObjects_view 0) exY exY_ne
    exact (train_ok_iff.mp ht).stdne
  have hν : νl = fun i => exY i + 1 := by
    funext j
    rw [m3 j, a0, hl]
    have e3 : (fun i : Fin 3 => if h : (i : ℕ) < 3 then exY ⟨i, h⟩ + 1 else 0) = fun i => 1 * exY i + 1 := by
      funext i; rw [dif_pos i.isLt, one_mul]
    have e4 : mean (fun i : Fin 3 => 1 * exY i + 1) = mean exY + 1 := by simpa using mean_add_one (by norm_num) exY
    simp only
    rw [e3, std_affine, e4, abs_one, one_mul, div_mul_cancel₀ _ hs]
    ring
  refine ⟨h1, _, e, hμ, by rw [m4, hν], ?_⟩
  rw [m5, hν, hμ', hl]
  simp only [Except.ok.injEq]
  funext j
  ring

end Mfpml.Props
