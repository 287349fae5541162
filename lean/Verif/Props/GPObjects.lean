import Verif.Props.GP
import Verif.Lemmas.GPObjects

/-!
# Models as objects (C92–C95): failed trainings, shared arrays and kernels, retraining
-/

set_option linter.unusedSectionVars false

open scoped BigOperators Matrix

namespace Mfpml.Props

open Mfpml.GP Mfpml.Spec Mfpml.GPObjects
open Mfpml.EA (Box)

variable {n m d q : ℕ}

/-- A successful call to `train` is a successful training of the value-level model with the array's current content. -/
theorem train_ok_view {h : Heap d q} {g : Ref} {w : World d} {X : Σ n, Samples n d} {a : Ref} (hok : (h.train g w X a).2 = .ok ()) :
    ∃ hn : (h.arrays a).1 = X.1, ∃ gp' t, (h.view g).train w X.2 (respCol h a hn) = .ok (gp', t) ∧ h.train g w X a = (afterTrain h g X a gp' t, .ok ()) := by
  rcases train_cases h g w X a with ⟨hn, gp', t, ht⟩ | ⟨⟨e, he⟩, _⟩
  · exact ⟨hn, gp', t, ht, train_of_view hn ht⟩
  · rw [hok] at he; cases he

/-! ## C95: retraining forgets the past -/

/-- C95. Whatever was done before (any state of all objects, including trainings that raised), a training that succeeds on a model of known noise gives the predictions of a new model, with any initial kernel
parameters and the same settings, trained on the same data. -/
theorem C95_retraining_forgets (h : Heap d q) (g : Ref) (w : World d) (X : Σ n, Samples n d) (a : Ref) (s : ℝ) (hs : (h.models g).noise = some s)
    (hok : (h.train g w X a).2 = .ok ()) (p0 : Fin d → ℝ) :
    ∃ (hn : (h.arrays a).1 = X.1) (gp' : GPObj d q) (t : GPFit X.1 d q),
      GPObj.train { box := h.boxes (h.models g).bounds
                    kernel := { param := p0, boundLow := (h.kernels (h.models g).kernel).boundLow, boundHigh := (h.kernels (h.models g).kernel).boundHigh }
                    regr := (h.models g).regr, optimizer := (h.models g).optimizer, noise := some s } w X.2 (fun i => (h.arrays a).2 (Fin.cast hn.symm i)) = .ok (gp', t) ∧
      ∀ (m : ℕ) (Xnew : Samples m d), (h.train g w X a).1.predictMean g Xnew = predictMean gp' t Xnew ∧ (h.train g w X a).1.predictStd g Xnew = predictStd gp' t Xnew := by
  obtain ⟨hn, gp', t, ht, e⟩ := train_ok_view hok
  refine ⟨hn, gp', t, ?_, fun m Xnew => ?_⟩
  · rw [← ht, ← train_param_irrel (h.view g) p0]
    unfold Heap.view
    rw [hs]
    rfl
  · rw [e]
    exact ⟨predictMean_afterTrain hn ht Xnew, predictStd_afterTrain hn ht Xnew⟩

/-- C95 (same noise prior, same data, two histories): the predictions agree. -/
theorem C95_two_histories (h h' : Heap d q) (g : Ref) (w : World d) (X : Σ n, Samples n d) (a : Ref) (s : ℝ) (hs : (h.models g).noise = some s) (hs' : (h'.models g).noise = some s)
    (hbox : h.boxes (h.models g).bounds = h'.boxes (h'.models g).bounds) (hlo : (h.kernels (h.models g).kernel).boundLow = (h'.kernels (h'.models g).kernel).boundLow)
    (hhi : (h.kernels (h.models g).kernel).boundHigh = (h'.kernels (h'.models g).kernel).boundHigh) (hregr : (h.models g).regr = (h'.models g).regr)
    (hopt : (h.models g).optimizer = (h'.models g).optimizer) (hy : h.arrays a = h'.arrays a) (hok : (h.train g w X a).2 = .ok ()) :
    (h'.train g w X a).2 = .ok () ∧ SamePredictions (h.train g w X a).1 (h'.train g w X a).1 g := by
  obtain ⟨hn, gp', t, ht, hp⟩ := C95_retraining_forgets h g w X a s hs hok (h'.kernels (h'.models g).kernel).param
  have hn' : (h'.arrays a).1 = X.1 := by rw [← hy]; exact hn
  have ht' : (h'.view g).train w X.2 (respCol h' a hn') = .ok (gp', t) := by
    rw [← ht]
    unfold Heap.view
    rw [hs', hbox, hlo, hhi, hregr, hopt]
    have e : respCol h' a hn' = fun i => (h.arrays a).2 (Fin.cast hn.symm i) := by
      have key : ∀ (u v : Σ n, Fin n → ℝ) (hu : u.1 = X.1) (hv : v.1 = X.1), u = v → (fun i : Fin X.1 => u.2 (Fin.cast hu.symm i)) = fun i => v.2 (Fin.cast hv.symm i) := by
        rintro u v hu hv rfl; rfl
      exact key _ _ hn' hn hy.symm
    rw [e]
  have e := train_of_view hn' ht'
  refine ⟨by rw [e], fun m Xnew => ?_⟩
  rw [e, (hp m Xnew).1, (hp m Xnew).2]
  exact ⟨predictMean_afterTrain hn' ht' Xnew, predictStd_afterTrain hn' ht' Xnew⟩

/-! ## C94: models do not disturb each other -/

/-- A call that leaves `g` alone changes none of the objects `g` reads. -/
theorem step_frame (h : Heap d q) (g : Ref) (c : Call d) (hc : LeavesAlone h g c) :
    (∃ opt, (h.step c).models g = { h.models g with optimizer := opt }) ∧ (h.step c).boxes (h.models g).bounds = h.boxes (h.models g).bounds ∧
      (h.step c).kernels (h.models g).kernel = h.kernels (h.models g).kernel ∧ (∀ a, (h.models g).sampleY = some a → (h.step c).arrays a = h.arrays a) ∧
      (∀ g', ((h.step c).models g').kernel = (h.models g').kernel) := by
  cases c with
  | train g' w X a =>
    obtain ⟨h1, h2⟩ := hc
    rcases train_cases h g' w X a with ⟨hn, gp', t, ht⟩ | ⟨_, ⟨e, _⟩ | ⟨mm, k, _, e, _, _, _, _, _, hk, _⟩⟩
    · rw [show h.step (.train g' w X a) = (h.train g' w X a).1 from rfl, train_of_view hn ht]
      unfold afterTrain
      refine ⟨⟨(h.models g).optimizer, by simp only; rw [Function.update_of_ne (Ne.symm h1)]⟩, rfl, by simp only; rw [Function.update_of_ne (Ne.symm h2)], fun _ _ => rfl, fun g'' => ?_⟩
      by_cases hg : g'' = g'
      · subst hg; simp
      · simp only; rw [Function.update_of_ne hg]
    · rw [show h.step (.train g' w X a) = (h.train g' w X a).1 from rfl, e]
      exact ⟨⟨_, rfl⟩, rfl, rfl, fun _ _ => rfl, fun _ => rfl⟩
    · rw [show h.step (.train g' w X a) = (h.train g' w X a).1 from rfl, e]
      refine ⟨⟨(h.models g).optimizer, by simp only; rw [Function.update_of_ne (Ne.symm h1)]⟩, rfl, by simp only; rw [Function.update_of_ne (Ne.symm h2)], fun _ _ => rfl, fun g'' => ?_⟩
      by_cases hg : g'' = g'
      · subst hg; simp [hk]
      · simp only; rw [Function.update_of_ne hg]
  | writeResponses a y =>
    refine ⟨⟨_, rfl⟩, rfl, rfl, fun a' ha' => ?_, fun _ => rfl⟩
    have : a' ≠ a := by rintro rfl; exact hc ha'
    simp only [Heap.step]
    rw [Function.update_of_ne this]
  | writeBounds b box =>
    refine ⟨⟨_, rfl⟩, ?_, rfl, fun _ _ => rfl, fun _ => rfl⟩
    simp only [Heap.step]
    rw [Function.update_of_ne (Ne.symm hc)]
  | setParams k theta =>
    refine ⟨⟨_, rfl⟩, rfl, ?_, fun _ _ => rfl, fun _ => rfl⟩
    simp only [Heap.step, Heap.setParams]
    rw [Function.update_of_ne (Ne.symm hc)]
  | changeOptimizer g' opt =>
    refine ⟨?_, rfl, rfl, fun _ _ => rfl, fun g'' => ?_⟩
    · by_cases hg : g = g'
      · subst hg; exact ⟨opt, by simp [Heap.step, Heap.setModel]⟩
      · exact ⟨_, by simp only [Heap.step, Heap.setModel]; rw [Function.update_of_ne hg]⟩
    · by_cases hg : g'' = g'
      · subst hg; simp [Heap.step, Heap.setModel]
      · simp only [Heap.step, Heap.setModel]; rw [Function.update_of_ne hg]

/-- C94 (partial). A program none of whose calls trains the model, trains a model holding the same kernel object, or writes into the arrays and the kernel it holds, leaves all its predictions as they were: values,
exceptions, means and standard deviations.  Missing: the property does not hold for models that share a kernel object. -/
theorem C94_models_independent_partial (l : List (Call d)) : ∀ (h : Heap d q) (g : Ref), (∀ c ∈ l, LeavesAlone h g c) → SamePredictions h (h.exec l) g := by
  suffices hh : ∀ (h : Heap d q) (g : Ref), (∀ c ∈ l, LeavesAlone h g c) → (∃ opt, (h.exec l).models g = { h.models g with optimizer := opt }) ∧
      (h.exec l).boxes (h.models g).bounds = h.boxes (h.models g).bounds ∧ (h.exec l).kernels (h.models g).kernel = h.kernels (h.models g).kernel ∧
      (∀ a, (h.models g).sampleY = some a → (h.exec l).arrays a = h.arrays a) by
    intro h g hl
    obtain ⟨h1, h2, h3, h4⟩ := hh h g hl
    exact predict_congr h1 h2 h3 h4
  induction l with
  | nil => exact fun h g _ => ⟨⟨_, rfl⟩, rfl, rfl, fun _ _ => rfl⟩
  | cons c l ih =>
    intro h g hl
    obtain ⟨⟨opt, h1⟩, h2, h3, h4, h5⟩ := step_frame h g c (hl c (List.mem_cons_self))
    have hl' : ∀ c' ∈ l, LeavesAlone (h.step c) g c' := by
      intro c' hc'
      have := hl c' (List.mem_cons_of_mem _ hc')
      cases c' with
      | train g' w X a => exact ⟨this.1, by rw [h5, h5]; exact this.2⟩
      | writeResponses a y => show ((h.step c).models g).sampleY ≠ some a; rw [h1]; exact this
      | writeBounds b box => show b ≠ ((h.step c).models g).bounds; rw [h1]; exact this
      | setParams k theta => show k ≠ ((h.step c).models g).kernel; rw [h1]; exact this
      | changeOptimizer g' opt => trivial
    obtain ⟨⟨opt', i1⟩, i2, i3, i4⟩ := ih (h.step c) g hl'
    have e : h.exec (c :: l) = (h.step c).exec l := rfl
    rw [e]
    rw [h1] at i1 i2 i3 i4
    exact ⟨⟨opt', i1⟩, i2.trans h2, i3.trans h3, fun a ha => (i4 a ha).trans (h4 a ha)⟩

/-- A search that always answers the upper corner. -/
def upperMinimizer : Minimizer := fun _ obj _ _ hi => do
  let f ← obj hi
  .ok (hi, f)

theorem upperMinimizer_good : GoodMinimizer upperMinimizer := by
  intro p obj x0 lo hi hb hobj
  obtain ⟨v, hv⟩ := hobj hi (fun j => ⟨hb j, le_refl _⟩)
  refine ⟨hi, v, ?_, fun j => ⟨hb j, le_refl _⟩, hv⟩
  unfold upperMinimizer
  rw [hv]
  rfl

/-- The trained kernel parameter of a one-restart search that answers one corner of the bounds. -/
theorem exGP_theta (mini : Minimizer) (c : ℝ) (hmini : ∀ obj x0 lo hi r, mini 1 obj x0 lo hi = .ok r → (∀ j, lo j = -2) → (∀ j, hi j = 3) → ∀ j, r.1 j = c) {n : ℕ} (gp : GPObj 1 1) (X : Samples n 1) (y : Fin n → ℝ)
    (hno : gp.noise = some 0) (hopt : gp.optimizer = none) (hlo : gp.kernel.boundLow = -2) (hhi : gp.kernel.boundHigh = 3)
    (gp' : GPObj 1 1) (t : GPFit n 1 1)
    (h : gp.train { mini := mini, starts := [fun _ => 0], startsNoise := [fun _ => 0] } X y = .ok (gp', t)) : ∀ j, gp'.kernel.param j = (10 : ℝ) ^ c := by
  obtain ⟨hr, hs, theta, noise, h3, e1, h4, e2⟩ := train_ok_iff.mp h
  unfold GPObj.fitHyper at h3
  simp only [hno, hopt] at h3
  obtain ⟨x, hx, h5⟩ := Py.bind_ok.mp h3
  simp only [Except.ok.injEq, Prod.mk.injEq] at h5
  unfold searchHyper at hx
  obtain ⟨r, h6, h7⟩ := Py.bind_ok.mp hx
  unfold restartLoop at h6
  obtain ⟨⟨x', f⟩, h8, h9⟩ := Py.bind_ok.mp h6
  simp only [WithTop.coe_lt_top, if_true] at h9
  unfold restartLoop at h9
  simp only [Except.ok.injEq] at h9
  rw [← h9] at h7
  simp only [Except.ok.injEq] at h7
  intro j
  rw [e1]
  show pow10 theta j = _
  unfold pow10
  rw [← h5.1, ← h7]
  have := hmini _ _ _ _ _ h8 (fun _ => hlo) (fun _ => hhi) j
  simp only at this
  rw [this]

/-- Models on `[0, 4]` that all hold kernel object 0; response arrays of length 3 and 2. -/
noncomputable def exHeap : Heap 1 1 :=
  { boxes := fun _ => { low := fun _ => 0, high := fun _ => 4 }, kernels := fun _ => RBF.mk' (fun _ => 0) (-2) 3, arrays := fun a => if a = 0 then ⟨3, exY⟩ else ⟨2, ![0, 1]⟩,
    models := fun _ => newModel 0 0 (ordinary 1) none (some 0) }

/-- Training model `g` of the example on the first data set. -/
theorem exHeap_trains (g : Ref) : ∃ gp' t, (exGP (some 0)).train exWorld exX exY = .ok (gp', t) ∧ exHeap.train g exWorld ⟨3, exX⟩ 0 = (afterTrain exHeap g ⟨3, exX⟩ 0 gp' t, .ok ()) := by
  obtain ⟨gp', t, ht⟩ := exGP_trains (some 0) exX exY 0 2 exY_ne
  refine ⟨gp', t, ht, ?_⟩
  have hn : (exHeap.arrays 0).1 = 3 := by simp [exHeap]
  exact train_of_view (X := ⟨3, exX⟩) hn ht

/-- The hypotheses of C95 are met. -/
example : (exHeap.models 0).noise = some 0 ∧ (exHeap.train 0 exWorld ⟨3, exX⟩ 0).2 = .ok () := by
  obtain ⟨gp', t, _, e⟩ := exHeap_trains 0
  exact ⟨rfl, by rw [e]⟩

/-! ## C93: predictions after the data arrays change -/

/-- C93 (partial): what happens when the response array is written after training.  Predictions become the old ones moved to the mean and spread of the new content (`y'`), although the model was not retrained.
Missing: the property (predictions stay as they were) does not hold. -/
theorem C93_response_array_partial (h : Heap d q) (g : Ref) (w : World d) (X : Σ n, Samples n d) (a : Ref) (hok : (h.train g w X a).2 = .ok ()) (y' : ℕ → ℝ) (Xnew : Samples m d) :
    ∃ μ, (h.train g w X a).1.predictMean g Xnew = .ok μ ∧
      ((h.train g w X a).1.step (.writeResponses a y')).predictMean g Xnew =
        .ok fun j => (μ j - mean (h.arrays a).2) / std (h.arrays a).2 * std (fun i : Fin (h.arrays a).1 => y' i) + mean (fun i : Fin (h.arrays a).1 => y' i) := by
  obtain ⟨hn, gp', t, ht, e⟩ := train_ok_view hok
  have hs := (train_ok_iff.mp ht).stdne
  rw [std_respCol] at hs
  have hr := (train_ok_iff.mp ht).1
  rw [e]
  have h1 := predictMean_of (h := afterTrain h g X a gp' t) (g := g) (Xs := t.Xs) (beta := t.gls.beta) (gamma := t.gls.gamma) (a := a) Xnew (by simpa [afterTrain, Heap.view] using hr)
    (by simp [afterTrain]) (by simp [afterTrain]) (by simp [afterTrain]) (by simp [afterTrain])
  have h2 := predictMean_of (h := (afterTrain h g X a gp' t).step (.writeResponses a y')) (g := g) (Xs := t.Xs) (beta := t.gls.beta) (gamma := t.gls.gamma) (a := a) Xnew
    (by simpa [afterTrain, Heap.view, Heap.step] using hr) (by simp [afterTrain, Heap.step]) (by simp [afterTrain, Heap.step]) (by simp [afterTrain, Heap.step]) (by simp [afterTrain, Heap.step])
  refine ⟨_, h1, ?_⟩
  rw [h2]
  congr 1
  funext j
  have ea : (afterTrain h g X a gp' t).arrays a = h.arrays a := rfl
  have eb : ((afterTrain h g X a gp' t).step (.writeResponses a y')).arrays a = ⟨(h.arrays a).1, fun i => y' i⟩ := by
    simp only [Heap.step]; rw [Function.update_self]; rfl
  rw [eb, ea, add_sub_cancel_right, mul_div_cancel_right₀ _ hs]
  rfl

/-- C93 (partial): what happens when the design-space array is written after training: new points are scaled with the new bounds, old samples were scaled with the old ones.  So the prediction at a point is the old
prediction at another point. -/
theorem C93_bounds_array_partial (h : Heap d q) (g : Ref) (w : World d) (X : Σ n, Samples n d) (a : Ref) (hok : (h.train g w X a).2 = .ok ()) (box : Box ℝ d)
    (hbox : ∀ j, box.low j < box.high j) (Xnew : Samples m d) :
    ((h.train g w X a).1.step (.writeBounds (h.models g).bounds box)).predictMean g Xnew =
      (h.train g w X a).1.predictMean g (fun i j => (h.boxes (h.models g).bounds).low j +
        (Xnew i j - box.low j) / (box.high j - box.low j) * ((h.boxes (h.models g).bounds).high j - (h.boxes (h.models g).bounds).low j)) := by
  obtain ⟨hn, gp', t, ht, e⟩ := train_ok_view hok
  have hr := (train_ok_iff.mp ht).1
  rw [e]
  have h1 := predictMean_of (h := afterTrain h g X a gp' t) (g := g) (Xs := t.Xs) (beta := t.gls.beta) (gamma := t.gls.gamma) (a := a)
    (fun i j => (h.boxes (h.models g).bounds).low j + (Xnew i j - box.low j) / (box.high j - box.low j) * ((h.boxes (h.models g).bounds).high j - (h.boxes (h.models g).bounds).low j))
    (by simpa [afterTrain, Heap.view] using hr) (by simp [afterTrain]) (by simp [afterTrain]) (by simp [afterTrain]) (by simp [afterTrain])
  have h2 := predictMean_of (h := (afterTrain h g X a gp' t).step (.writeBounds (h.models g).bounds box)) (g := g) (Xs := t.Xs) (beta := t.gls.beta) (gamma := t.gls.gamma) (a := a) Xnew
    (by intro j; have := hbox j; simp only [afterTrain, Heap.step, Function.update_self]; linarith) (by simp [afterTrain, Heap.step]) (by simp [afterTrain, Heap.step]) (by simp [afterTrain, Heap.step])
    (by simp [afterTrain, Heap.step])
  rw [h1, h2]
  have eb : ((afterTrain h g X a gp' t).step (.writeBounds (h.models g).bounds box)).boxes (((afterTrain h g X a gp' t).step (.writeBounds (h.models g).bounds box)).models g).bounds = box := by
    simp [Heap.step, afterTrain]
  have ec : (afterTrain h g X a gp' t).boxes ((afterTrain h g X a gp' t).models g).bounds = h.boxes (h.models g).bounds := by simp [afterTrain]
  rw [eb, ec]
  have : (fun i => normPt box (Xnew i)) = fun i => normPt (h.boxes (h.models g).bounds) (fun j => (h.boxes (h.models g).bounds).low j +
        (Xnew i j - box.low j) / (box.high j - box.low j) * ((h.boxes (h.models g).bounds).high j - (h.boxes (h.models g).bounds).low j)) := by
    funext i j
    have : (h.boxes (h.models g).bounds).high j - (h.boxes (h.models g).bounds).low j ≠ 0 := hr j
    unfold normPt
    rw [add_sub_cancel_left, mul_div_cancel_right₀ _ this]
  rw [← this]
  rfl

theorem mean_add_one {n : ℕ} (hn : 0 < n) (y : Fin n → ℝ) : mean (fun i => y i + 1) = mean y + 1 := by
  unfold mean
  rw [Finset.sum_add_distrib, add_div, Finset.sum_const, Finset.card_univ, Fintype.card_fin, nsmul_eq_mul, mul_one, div_self]
  exact_mod_cast hn.ne'

/-- C93 is false: adding 1 to the caller's response array after training changes the predictions of the trained model. -/
theorem C93_predictions_frozen_counterexample :
    ∃ (h : Heap 1 1) (g a : Ref) (y' : ℕ → ℝ), (h.exec [.train g exWorld ⟨3, exX⟩ a]).predictMean g exX = .ok exY ∧
      (h.exec [.train g exWorld ⟨3, exX⟩ a, .writeResponses a y']).predictMean g exX = .ok (fun i => exY i + 1) := by
  obtain ⟨gp', t, ht, e⟩ := exHeap_trains 0
  have hn : (exHeap.arrays 0).1 = 3 := by simp [exHeap]
  have h0 : (exHeap.exec [.train 0 exWorld ⟨3, exX⟩ 0]).predictMean 0 exX = .ok exY := by
    show (exHeap.train 0 exWorld ⟨3, exX⟩ 0).1.predictMean 0 exX = _
    rw [e]
    rw [predictMean_afterTrain (X := ⟨3, exX⟩) hn ht]
    exact C34_interpolation _ _ _ _ rfl _ _ ht
  refine ⟨exHeap, 0, 0, fun i => if h : i < 3 then exY ⟨i, h⟩ + 1 else 0, h0, ?_⟩
  obtain ⟨μ, h1, h2⟩ := C93_response_array_partial exHeap 0 exWorld ⟨3, exX⟩ 0 (by rw [e]) (fun i => if h : i < 3 then exY ⟨i, h⟩ + 1 else 0) exX
  have h3 : Except.ok μ = (Except.ok exY : Py (Fin 3 → ℝ)) := h1.symm.trans h0
  simp only [Except.ok.injEq] at h3
  subst h3
  refine h2.trans ?_
  have ey : (exHeap.arrays 0) = ⟨3, exY⟩ := by simp [exHeap]
  rw [ey]
  have e3 : (fun i : Fin 3 => if h : (i : ℕ) < 3 then exY ⟨i, h⟩ + 1 else 0) = fun i => 1 * exY i + 1 := by
    funext i; rw [dif_pos i.isLt, one_mul]
  congr 1
  funext j
  have hs := (train_ok_iff.mp ht).stdne
  have e4 : mean (fun i : Fin 3 => 1 * exY i + 1) = mean exY + 1 := by simpa using mean_add_one (by norm_num) exY
  simp only
  rw [e3, std_affine, e4, abs_one, one_mul, div_mul_cancel₀ _ hs]
  ring

/-- The hypotheses of the two formulas are met. -/
example : (exHeap.train 0 exWorld ⟨3, exX⟩ 0).2 = .ok () ∧ ∀ j : Fin 1, ({ low := fun _ => 0, high := fun _ => 2 } : Box ℝ 1).low j < ({ low := fun _ => 0, high := fun _ => 2 } : Box ℝ 1).high j := by
  obtain ⟨gp', t, _, e⟩ := exHeap_trains 0
  exact ⟨by rw [e], fun _ => by norm_num⟩

/-! ## C92: a training that raises -/

/-- C92 (partial). What a training that raises leaves behind on a model that was trained before (`h` is the state after that training).  Other models that do not hold its kernel predict as before; if the numbers of
samples differ, every prediction of the model itself raises `ValueError`; if they agree, it predicts with the weights of the old training at the samples, and with the mean and spread of the responses, of the training
that failed.  Missing: the property (the model predicts as before) does not hold. -/
theorem C92_failed_training_partial (h0 : Heap d q) (g : Ref) (w0 : World d) (X0 : Σ n, Samples n d) (a0 : Ref) (h : Heap d q) (hok : h0.train g w0 X0 a0 = (h, .ok ()))
    (w : World d) (X : Σ n, Samples n d) (a : Ref) (h' : Heap d q) (e : PyErr) (hfail : h.train g w X a = (h', .error e)) :
    (∀ g', g' ≠ g → (h.models g).kernel ≠ (h.models g').kernel → SamePredictions h h' g') ∧
    (X.1 ≠ X0.1 → ∀ (m : ℕ) (Xnew : Samples m d), h'.predictMean g Xnew = .error .valueError ∧ h'.predictStd g Xnew = .error .valueError) ∧
    (X.1 = X0.1 → ∃ (beta : Fin q → ℝ) (gamma : Fin X.1 → ℝ) (p : Fin d → ℝ), (h.models g).beta = some beta ∧ (h.models g).gamma = some ⟨X.1, gamma⟩ ∧
      (p = (h.kernels (h.models g).kernel).param ∨ ∃ theta, p = pow10 theta) ∧
      ∀ (m : ℕ) (Xnew : Samples m d), h'.predictMean g Xnew = .ok fun j =>
        (regrMatrix (h.models g).regr (fun i => normPt (h.boxes (h.models g).bounds) (Xnew i)) *ᵥ beta +
          (rbfMatrix p (fun i => normPt (h.boxes (h.models g).bounds) (X.2 i)) (fun i => normPt (h.boxes (h.models g).bounds) (Xnew i)))ᵀ *ᵥ gamma) j * std (h.arrays a).2 + mean (h.arrays a).2) := by
  obtain ⟨hn, gp0, t0, ht0, e0⟩ := train_ok_view (show (h0.train g w0 X0 a0).2 = .ok () by rw [hok])
  have eh : h = afterTrain h0 g X0 a0 gp0 t0 := by rw [hok] at e0; exact (Prod.mk.inj e0).1
  have hb : (h.models g).beta = some t0.gls.beta := by rw [eh]; simp [afterTrain]
  have hg : (h.models g).gamma = some ⟨X0.1, t0.gls.gamma⟩ := by rw [eh]; simp [afterTrain]
  have hr : ∀ j, (h.boxes (h.models g).bounds).high j - (h.boxes (h.models g).bounds).low j ≠ 0 := by
    have := (train_ok_iff.mp ht0).1
    rw [eh]
    simpa [afterTrain, Heap.view] using this
  refine ⟨fun g' h1 h2 => ?_, ?_⟩
  · have := C94_models_independent_partial [Call.train g w X a] h g' (by
      intro c hc
      rw [List.mem_singleton] at hc
      subst hc
      exact ⟨Ne.symm h1, h2⟩)
    have e1 : h.exec [Call.train g w X a] = h' := by show (h.train g w X a).1 = h'; rw [hfail]
    rwa [e1] at this
  rcases train_cases h g w X a with ⟨hn', gp', t, ht⟩ | ⟨_, ⟨_, hbad⟩ | ⟨M, k, _, e1, m1, m2, m3, m4, m5, m6, m7, hk⟩⟩
  · rw [train_of_view hn' ht] at hfail
    cases (Prod.mk.inj hfail).2
  · exact absurd hr hbad
  · rw [hfail] at e1
    have e2 : h' = { h with kernels := Function.update h.kernels (h.models g).kernel k, models := Function.update h.models g M } := e1
    have eM : h'.models g = M := by rw [e2]; simp
    have eB : h'.boxes (h'.models g).bounds = h.boxes (h.models g).bounds := by rw [eM, m5, e2]
    have eK : h'.kernels (h'.models g).kernel = k := by rw [eM, m6, e2]; simp
    have eA : h'.arrays = h.arrays := by rw [e2]
    have hr' : ∀ j, (h'.boxes (h'.models g).bounds).high j - (h'.boxes (h'.models g).bounds).low j ≠ 0 := by rw [eB]; exact hr
    constructor
    · intro hne m Xnew
      have := predictMean_mismatch (h := h') (g := g) Xnew hr' (by rw [eM]; exact m3) (by rw [eM, m2]; exact hb) (by rw [eM, m1]; exact hg) (Ne.symm hne)
      refine ⟨this, ?_⟩
      unfold Heap.predictStd
      rw [this]
      rfl
    · intro heq
      obtain ⟨n0, X0'⟩ := X0
      simp only at heq
      subst heq
      refine ⟨t0.gls.beta, t0.gls.gamma, k.param, hb, hg, ?_, fun m Xnew => ?_⟩
      · rcases hk with rfl | ⟨theta, rfl⟩
        · exact Or.inl rfl
        · exact Or.inr ⟨theta, rfl⟩
      · rw [predictMean_of (h := h') (g := g) Xnew hr' (by rw [eM]; exact m3) (by rw [eM, m2]; exact hb) (by rw [eM, m1]; exact hg) (by rw [eM]; exact m4)]
        rw [eB, eK, eA, eM, m7]

/-- C92 is false: after a training that raises `ValueError` because a response is missing, the model's predictions have silently changed. -/
theorem C92_failed_training_counterexample :
    ∃ (h h' : Heap 1 1) (g : Ref) (μ : Fin 3 → ℝ), (exHeap.train g exWorld ⟨3, exX⟩ 0) = (h, .ok ()) ∧ h.train g exWorld ⟨3, exX⟩ 1 = (h', .error .valueError) ∧
      h.predictMean g exX = .ok exY ∧ h'.predictMean g exX = .ok μ ∧ μ ≠ exY := by
  obtain ⟨gp', t, ht, e⟩ := exHeap_trains 0
  have hn : (exHeap.arrays 0).1 = 3 := by simp [exHeap]
  obtain ⟨hT, hX, hy, hbox, hregr, hno, hmn, hstd, hys⟩ := trained_of_train ht
  have hr : ∀ j, ((afterTrain exHeap 0 ⟨3, exX⟩ 0 gp' t).boxes ((afterTrain exHeap 0 ⟨3, exX⟩ 0 gp' t).models 0).bounds).high j -
      ((afterTrain exHeap 0 ⟨3, exX⟩ 0 gp' t).boxes ((afterTrain exHeap 0 ⟨3, exX⟩ 0 gp' t).models 0).bounds).low j ≠ 0 := by intro j; simp [afterTrain, exHeap]
  have ea : (afterTrain exHeap 0 ⟨3, exX⟩ 0 gp' t).arrays 1 = ⟨2, ![0, 1]⟩ := by simp [afterTrain, exHeap]
  set h := afterTrain exHeap 0 ⟨3, exX⟩ 0 gp' t with hh
  have hf : h.train 0 exWorld ⟨3, exX⟩ 1 =
      (h.setModel 0 { h.models 0 with scaledX := some ⟨3, fun i => normPt (h.boxes (h.models 0).bounds) (exX i)⟩, sampleY := some 1 }, .error .valueError) := by
    unfold Heap.train
    rw [normalizeInput_eq _ hr]
    simp only
    rw [dif_neg (by rw [ea]; norm_num)]
  have hp := predictMean_afterTrain (X := ⟨3, exX⟩) (g := 0) hn ht exX
  rw [C34_interpolation _ _ _ _ rfl _ _ ht] at hp
  have hp' := predictMean_of (h := h.setModel 0 { h.models 0 with scaledX := some ⟨3, fun i => normPt (h.boxes (h.models 0).bounds) (exX i)⟩, sampleY := some 1 }) (g := 0) (n := 3)
    (Xs := fun i => normPt (h.boxes (h.models 0).bounds) (exX i)) (beta := t.gls.beta) (gamma := t.gls.gamma) (a := 1) exX (by simpa [Heap.setModel] using hr) (by simp [Heap.setModel])
    (by simp [Heap.setModel, hh, afterTrain]) (by simp [Heap.setModel, hh, afterTrain]) (by simp [Heap.setModel])
  refine ⟨h, _, 0, _, e, hf, hp, hp', ?_⟩
  have eB : h.boxes (h.models 0).bounds = gp'.box := by rw [hbox]; simp [hh, afterTrain, exHeap, exGP]
  have eR : (h.models 0).regr = gp'.regr := by rw [hregr]; simp [hh, afterTrain, exHeap, exGP, newModel]
  have eK : h.kernels (h.models 0).kernel = gp'.kernel := by simp [hh, afterTrain]
  have hXs : (fun i => normPt gp'.box (exX i)) = t.Xs := by rw [hT.Xs, hX]
  have hK := hT.K
  rw [hno 0 rfl, zero_div, covTrain_zero] at hK
  have hz := mean_train hT.gls
  rw [hT.F, hK] at hz
  have e0 := hT.ys 0
  have e2 := hT.ys 2
  rw [hy, hmn, hstd] at e0 e2
  have hM : mean exY = 3 := by unfold mean exY; simp [Fin.sum_univ_succ]; norm_num
  have hM' : mean (![0, 1] : Fin 2 → ℝ) = 1 / 2 := by unfold mean; simp [Fin.sum_univ_succ]
  intro hmu
  have m0 := congrFun hmu 0
  have m2 := congrFun hmu 2
  simp only [Heap.setModel, Function.update_self, eB, eR, eK, hXs, hz] at m0 m2
  rw [ea] at m0 m2
  simp only [hM'] at m0 m2
  rw [hM] at e0 e2
  have hs : std exY ≠ 0 := (train_ok_iff.mp ht).stdne
  have y0 : exY 0 = 2 := rfl
  have y2 : exY 2 = 5 := rfl
  rw [y0] at e0 m0
  rw [y2] at e2 m2
  have hzero : (2 * t.ys 0 + t.ys 2) * std exY = 0 := by linarith
  have hzero' : 2 * t.ys 0 + t.ys 2 = 0 := (mul_eq_zero.mp hzero).resolve_right hs
  have : (2 * t.ys 0 + t.ys 2) * std (![0, 1] : Fin 2 → ℝ) + 3 / 2 = 9 := by linarith
  rw [hzero'] at this
  norm_num at this

/-- C92: the second kind of damage occurs: a training on one sample that raises (two responses are given for it) makes every prediction of the model raise. -/
theorem C92_failed_training_blocks_counterexample :
    ∃ (h h' : Heap 1 1) (g : Ref), (exHeap.train g exWorld ⟨3, exX⟩ 0) = (h, .ok ()) ∧ h.train g exWorld ⟨1, fun _ _ => 1⟩ 1 = (h', .error .valueError) ∧
      (∃ μ, h.predictMean g exX = .ok μ) ∧ ∀ (m : ℕ) (Xnew : Samples m 1), h'.predictMean g Xnew = .error .valueError := by
  obtain ⟨gp', t, ht, e⟩ := exHeap_trains 0
  have hn : (exHeap.arrays 0).1 = 3 := by simp [exHeap]
  have hr : ∀ j, ((afterTrain exHeap 0 ⟨3, exX⟩ 0 gp' t).boxes ((afterTrain exHeap 0 ⟨3, exX⟩ 0 gp' t).models 0).bounds).high j -
      ((afterTrain exHeap 0 ⟨3, exX⟩ 0 gp' t).boxes ((afterTrain exHeap 0 ⟨3, exX⟩ 0 gp' t).models 0).bounds).low j ≠ 0 := by intro j; simp [afterTrain, exHeap]
  have ea : (afterTrain exHeap 0 ⟨3, exX⟩ 0 gp' t).arrays 1 = ⟨2, ![0, 1]⟩ := by simp [afterTrain, exHeap]
  have hf : ∃ h', (afterTrain exHeap 0 ⟨3, exX⟩ 0 gp' t).train 0 exWorld ⟨1, fun _ _ => 1⟩ 1 = (h', .error .valueError) := by
    unfold Heap.train
    rw [normalizeInput_eq _ hr]
    simp only
    rw [dif_neg (by rw [ea]; norm_num)]
    exact ⟨_, rfl⟩
  obtain ⟨h', hf⟩ := hf
  refine ⟨_, h', 0, e, hf, ⟨_, (predictMean_afterTrain (X := ⟨3, exX⟩) (g := 0) hn ht exX).trans (C34_interpolation _ _ _ _ rfl _ _ ht)⟩, ?_⟩
  exact fun m Xnew => ((C92_failed_training_partial exHeap 0 exWorld ⟨3, exX⟩ 0 _ e exWorld ⟨1, fun _ _ => 1⟩ 1 h' _ hf).2.1 (by norm_num) m Xnew).1

/-! ## C94: the shared kernel -/

/-- An environment whose search answers the upper corner. -/
noncomputable def exWorldUp : World 1 := { mini := upperMinimizer, starts := [fun _ => 0], startsNoise := [fun _ => 0] }

/-- C94 is false for models that share a kernel object: training a second model changes the predictions of the first. -/
theorem C94_shared_kernel_counterexample :
    ∃ (h h' : Heap 1 1) (μ : Fin 3 → ℝ), exHeap.train 0 exWorld ⟨3, exX⟩ 0 = (h, .ok ()) ∧ h.train 1 exWorldUp ⟨3, exX⟩ 0 = (h', .ok ()) ∧
      h.predictMean 0 exX = .ok exY ∧ h'.predictMean 0 exX = .ok μ ∧ μ ≠ exY := by
  obtain ⟨gp', t, ht, e⟩ := exHeap_trains 0
  have hn : (exHeap.arrays 0).1 = 3 := by simp [exHeap]
  obtain ⟨hT, hX, hy, hbox, hregr, hno, hmn, hstd, hys⟩ := trained_of_train ht
  set h := afterTrain exHeap 0 ⟨3, exX⟩ 0 gp' t with hh
  have hn2 : (h.arrays 0).1 = 3 := by simp [hh, afterTrain, exHeap]
  have ev : h.view 1 = { exGP (some 0) with kernel := { (exGP (some 0)).kernel with param := gp'.kernel.param } } := by
    have e1 := (train_ok_iff.mp ht)
    obtain ⟨_, _, theta, noise, _, e1, _, _⟩ := e1
    simp [hh, Heap.view, afterTrain, exHeap, exGP, newModel, e1, RBF.setParams, RBF.mk']
  obtain ⟨gp2, t2, ht2⟩ := C31_train_succeeds_default (exGP (some 0)) exWorldUp exX exY rfl (fun _ => by simp [exGP]) (by simp [exGP, RBF.mk']; norm_num) upperMinimizer_good
    (fun run h => by simp [exGP] at h) (by simp [exWorldUp]) (by simp [exWorldUp]) 0 2 exY_ne
  have ht2' : (h.view 1).train exWorldUp exX exY = .ok (gp2, t2) := by rw [ev, train_param_irrel]; exact ht2
  have e2 := train_of_view (h := h) (g := 1) (X := ⟨3, exX⟩) (a := 0) hn2 ht2'
  set h2 := afterTrain h 1 ⟨3, exX⟩ 0 gp2 t2 with hh2
  have p1 := exGP_theta cornerMinimizer (-2) (by
    intro obj x0 lo hi r hr hl hu j
    unfold cornerMinimizer at hr
    obtain ⟨f, _, hr⟩ := Py.bind_ok.mp hr
    simp only [Except.ok.injEq] at hr
    rw [← hr]; exact hl j) (exGP (some 0)) exX exY rfl rfl rfl rfl gp' t ht
  have p2 := exGP_theta upperMinimizer 3 (by
    intro obj x0 lo hi r hr hl hu j
    unfold upperMinimizer at hr
    obtain ⟨f, _, hr⟩ := Py.bind_ok.mp hr
    simp only [Except.ok.injEq] at hr
    rw [← hr]; exact hu j) (exGP (some 0)) exX exY rfl rfl rfl rfl gp2 t2 ht2
  have m0 : h2.models 0 = h.models 0 := by simp [hh2, afterTrain]
  have eB : h2.boxes (h.models 0).bounds = gp'.box := by rw [hbox]; simp [hh2, hh, afterTrain, exHeap, exGP]
  have eR : (h.models 0).regr = gp'.regr := by rw [hregr]; simp [hh, afterTrain, exHeap, exGP, newModel]
  have eK : h2.kernels (h.models 0).kernel = gp2.kernel := by simp [hh2, hh, afterTrain, exHeap, newModel]
  have hp' := predictMean_of (h := h2) (g := 0) (n := 3) (Xs := t.Xs) (beta := t.gls.beta) (gamma := t.gls.gamma) (a := 0) exX (by rw [m0, eB]; exact hT.range)
    (by rw [m0]; simp [hh, afterTrain]) (by rw [m0]; simp [hh, afterTrain]) (by rw [m0]; simp [hh, afterTrain]) (by rw [m0]; simp [hh, afterTrain])
  have hp := predictMean_afterTrain (X := ⟨3, exX⟩) (g := 0) hn ht exX
  rw [C34_interpolation _ _ _ _ rfl _ _ ht] at hp
  refine ⟨h, h2, _, e, e2, hp, hp', ?_⟩
  intro hmu
  have hXs : (fun i => normPt gp'.box (exX i)) = t.Xs := by rw [hT.Xs, hX]
  have hK := hT.K
  rw [hno 0 rfl, zero_div, covTrain_zero] at hK
  have hz := mean_train hT.gls
  rw [hT.F, hK] at hz
  have ea : h2.arrays 0 = ⟨3, exY⟩ := by simp [hh2, hh, afterTrain, exHeap]
  have hs : std exY ≠ 0 := (train_ok_iff.mp ht).stdne
  -- at the samples both kernels give the same combination of the weights
  have key : ∀ j, ((rbfMatrix gp2.kernel.param t.Xs t.Xs)ᵀ *ᵥ t.gls.gamma) j = ((rbfMatrix gp'.kernel.param t.Xs t.Xs)ᵀ *ᵥ t.gls.gamma) j := by
    intro j
    have h1 := congrFun hmu j
    simp only [m0, eB, eR, eK, hXs] at h1
    rw [ea] at h1
    have h2 := hT.ys j
    rw [hy, hmn, hstd, ← hz] at h2
    simp only at h1
    have h3 := h1.trans h2.symm
    have h4 := mul_right_cancel₀ hs (add_right_cancel h3)
    simp only [Pi.add_apply] at h4
    exact add_left_cancel h4
  have hnz : t.gls.gamma ≠ 0 := by
    intro h0
    rw [h0, Matrix.mulVec_zero, add_zero, ← hT.F] at hz
    exact exGP_nofit (some 0) exX exY 0 2 exY_ne gp' t ht t.gls.beta hz
  have hx : ∀ i, t.Xs i 0 = ![1, 1, 3] i / 4 := by
    intro i
    rw [← hXs, hbox]
    simp [normPt, exGP, exX]
  have ent : ∀ (p : Fin 1 → ℝ), (∀ k, 0 ≤ p k) → ∀ i j : Fin 3, rbfMatrix p t.Xs t.Xs i j =
      Real.exp (-(p 0 * (![1, 1, 3] i / 4 - ![1, 1, 3] j / 4) ^ 2)) + (if i.val = j.val then 1 else 0) * nugget := by
    intro p hp i j
    unfold rbfMatrix
    rw [rbfDist_eq p hp, Fin.sum_univ_one, hx, hx]
  have q1 : ∀ k, 0 ≤ gp'.kernel.param k := fun k => by rw [p1]; positivity
  have q2 : ∀ k, 0 ≤ gp2.kernel.param k := fun k => by rw [p2]; positivity
  have hlt : Real.exp (-(gp2.kernel.param 0 * (1 / 4))) < Real.exp (-(gp'.kernel.param 0 * (1 / 4))) := by
    rw [Real.exp_lt_exp, p1, p2]
    have : (10 : ℝ) ^ (-2 : ℝ) < (10 : ℝ) ^ (3 : ℝ) := Real.rpow_lt_rpow_of_exponent_lt (by norm_num) (by norm_num)
    linarith
  have hrow : ∀ p : Fin 1 → ℝ, (∀ k, 0 ≤ p k) →
      ((rbfMatrix p t.Xs t.Xs)ᵀ *ᵥ t.gls.gamma) 0 = (1 + nugget) * t.gls.gamma 0 + t.gls.gamma 1 + Real.exp (-(p 0 * (1 / 4))) * t.gls.gamma 2 ∧
      ((rbfMatrix p t.Xs t.Xs)ᵀ *ᵥ t.gls.gamma) 1 = t.gls.gamma 0 + (1 + nugget) * t.gls.gamma 1 + Real.exp (-(p 0 * (1 / 4))) * t.gls.gamma 2 ∧
      ((rbfMatrix p t.Xs t.Xs)ᵀ *ᵥ t.gls.gamma) 2 = Real.exp (-(p 0 * (1 / 4))) * (t.gls.gamma 0 + t.gls.gamma 1) + (1 + nugget) * t.gls.gamma 2 := by
    intro p hp
    have v0 : (![1, 1, 3] : Fin 3 → ℝ) 0 = 1 := rfl
    have v1 : (![1, 1, 3] : Fin 3 → ℝ) 1 = 1 := rfl
    have v2 : (![1, 1, 3] : Fin 3 → ℝ) 2 = 3 := rfl
    refine ⟨?_, ?_, ?_⟩ <;>
    · simp only [Matrix.mulVec, dotProduct, Matrix.transpose_apply, Fin.sum_univ_three, ent p hp]
      rw [v0, v1, v2]
      norm_num
      try ring
  have k0 := key 0
  have k2 := key 2
  rw [(hrow _ q1).1, (hrow _ q2).1] at k0
  rw [(hrow _ q1).2.2, (hrow _ q2).2.2] at k2
  have g2 : t.gls.gamma 2 = 0 := by
    have : (Real.exp (-(gp2.kernel.param 0 * (1 / 4))) - Real.exp (-(gp'.kernel.param 0 * (1 / 4)))) * t.gls.gamma 2 = 0 := by linarith
    exact (mul_eq_zero.mp this).resolve_left (by linarith)
  have g01 : t.gls.gamma 0 + t.gls.gamma 1 = 0 := by
    have : (Real.exp (-(gp2.kernel.param 0 * (1 / 4))) - Real.exp (-(gp'.kernel.param 0 * (1 / 4)))) * (t.gls.gamma 0 + t.gls.gamma 1) = 0 := by linarith
    exact (mul_eq_zero.mp this).resolve_left (by linarith)
  -- the first two samples are equal, so are their weights
  have hy01 : t.ys 0 = t.ys 1 := by rw [hys]; rfl
  have z0 := congrFun hz 0
  have z1 := congrFun hz 1
  simp only [Pi.add_apply] at z0 z1
  rw [hregr, show (exGP (some 0)).regr = ordinary 1 from rfl, ordinary_mulVec, (hrow _ q1).1] at z0
  rw [hregr, show (exGP (some 0)).regr = ordinary 1 from rfl, ordinary_mulVec, (hrow _ q1).2.1] at z1
  have hnu : nugget ≠ 0 := by unfold nugget; positivity
  have g0 : t.gls.gamma 0 = t.gls.gamma 1 := by
    have : nugget * (t.gls.gamma 0 - t.gls.gamma 1) = 0 := by linarith
    have := (mul_eq_zero.mp this).resolve_left hnu
    linarith
  apply hnz
  funext i
  fin_cases i
  · show t.gls.gamma 0 = 0; linarith
  · show t.gls.gamma 1 = 0; linarith
  · exact g2

/-- The hypotheses of C94 (partial) are met: the second model has its own kernel object. -/
example : ∃ h : Heap 1 1, (∃ μ, h.predictMean 0 exX = .ok μ) ∧
    ∀ c ∈ [Call.train 1 exWorldUp ⟨3, exX⟩ 0, Call.writeResponses 1 (fun _ => 7), Call.writeBounds 1 { low := fun _ => 0, high := fun _ => 1 }, Call.setParams 1 (fun _ => 2), Call.changeOptimizer 0 none],
      LeavesAlone h 0 c := by
  let h0 : Heap 1 1 := { exHeap with models := fun g => newModel 0 g (ordinary 1) none (some 0) }
  obtain ⟨gp', t, ht⟩ := exGP_trains (some 0) exX exY 0 2 exY_ne
  have hn : (h0.arrays 0).1 = 3 := by simp [h0, exHeap]
  refine ⟨afterTrain h0 0 ⟨3, exX⟩ 0 gp' t, ⟨_, (predictMean_afterTrain (h := h0) (g := 0) (X := ⟨3, exX⟩) hn ht exX).trans (C34_interpolation _ _ _ _ rfl _ _ ht)⟩, ?_⟩
  intro c hc
  simp only [List.mem_cons, List.not_mem_nil, or_false] at hc
  rcases hc with rfl | rfl | rfl | rfl | rfl <;> simp [LeavesAlone, afterTrain, h0, newModel]

end Mfpml.Props
