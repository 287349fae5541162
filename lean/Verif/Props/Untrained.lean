import Verif.Spec.Untrained
import Verif.Props.MFObjects
import Verif.Props.HKObjects
import Verif.Props.CKObjects

/-!
# Predicting before a training has returned (C166)
-/

open scoped BigOperators Matrix

namespace Mfpml.Props

open Mfpml.GP Mfpml.Spec Mfpml.GPObjects Mfpml.CKObjects
open Mfpml.EA (Box)

variable {d q : ℕ}

/-! ## Lemmas -/

theorem fitAttrs_untrained {n : ℕ} (m : Model d q) (K : Matrix (Fin n) (Fin n) ℝ) (F : Matrix (Fin n) (Fin q) ℝ) (ys : Fin n → ℝ) {e : PyErr} (he : (fitAttrs m K F ys).2 = .error e) :
    (fitAttrs m K F ys).1.beta = m.beta := by
  revert he
  unfold fitAttrs
  repeat' ((try dsimp only); split)
  all_goals first | (intro _; rfl) | nofun

theorem fitAttrs_bounds {n : ℕ} (m : Model d q) (K : Matrix (Fin n) (Fin n) ℝ) (F : Matrix (Fin n) (Fin q) ℝ) (ys : Fin n → ℝ) : (fitAttrs m K F ys).1.bounds = m.bounds := by
  unfold fitAttrs
  repeat' ((try dsimp only); split)
  all_goals rfl

theorem train_untrained {h : Heap d q} {g : Ref} {w : World d} {X : Σ n, Samples n d} {a : Ref} {e : PyErr} (he : (h.train g w X a).2 = .error e) :
    ((h.train g w X a).1.models g).beta = (h.models g).beta := by
  revert he
  unfold Heap.train
  repeat' ((try dsimp only); split)
  all_goals first | (intro _; rfl) | (intro _; simp [Heap.setModel]; done) | (intro he; simp only [Heap.setModel, Function.update_self]; exact fitAttrs_untrained _ _ _ _ he)

theorem train_models_other {h : Heap d q} {g g' : Ref} {w : World d} {X : Σ n, Samples n d} {a : Ref} (hg : g ≠ g') : (h.train g' w X a).1.models g = h.models g := by
  unfold Heap.train
  repeat' ((try dsimp only); split)
  all_goals first | rfl | simp [Heap.setModel, Heap.setParams, Function.update_of_ne hg]

theorem train_bounds {h : Heap d q} {g : Ref} {w : World d} {X : Σ n, Samples n d} {a : Ref} : ((h.train g w X a).1.models g).bounds = (h.models g).bounds := by
  unfold Heap.train
  repeat' ((try dsimp only); split)
  all_goals first | rfl | simp [Heap.setModel, fitAttrs_bounds]

theorem train_arrays (h : Heap d q) (g : Ref) (w : World d) (X : Σ n, Samples n d) (a : Ref) : (h.train g w X a).1.arrays = h.arrays := by
  unfold Heap.train
  repeat' ((try dsimp only); split)
  all_goals rfl

/-- What remains true of a model none of whose trainings has returned. -/
theorem neverTrained_beta {g b : Ref} {h : Heap d q} (hh : NeverTrained g b h) : (h.models g).beta = none ∧ (h.models g).bounds = b := by
  induction hh with
  | new h kernel regr optimizer noise e => rw [e]; exact ⟨rfl, rfl⟩
  | call h c _ hc ih =>
    cases c with
    | train g' w X a =>
      by_cases hg : g = g'
      · subst hg
        obtain ⟨e, he⟩ := hc w X a rfl
        exact ⟨(train_untrained he).trans ih.1, train_bounds.trans ih.2⟩
      · show ((h.train g' w X a).1.models g).beta = none ∧ ((h.train g' w X a).1.models g).bounds = b
        rw [train_models_other hg]
        exact ih
    | writeResponses a y => exact ih
    | writeBounds a y => exact ih
    | setParams k t => exact ih
    | changeOptimizer g' o =>
      show ((h.setModel g' _).models g).beta = none ∧ ((h.setModel g' _).models g).bounds = b
      by_cases hg : g = g'
      · subst hg
        simpa [Heap.setModel] using ih
      · simpa [Heap.setModel, Function.update_of_ne hg] using ih

theorem predictMean_untrained {h : Heap d q} {g : Ref} (hb : (h.models g).beta = none) {m : ℕ} (Xnew : Samples m d) :
    (∃ e, h.predictMean g Xnew = .error e) ∧ ((∀ j, (h.boxes (h.models g).bounds).low j ≠ (h.boxes (h.models g).bounds).high j) → h.predictMean g Xnew = .error .attributeError) := by
  unfold Heap.predictMean
  simp only [hb]
  constructor
  · cases normalizeInput (h.boxes (h.models g).bounds) Xnew with
    | error e => exact ⟨e, rfl⟩
    | ok xs =>
      cases (h.models g).scaledX with
      | none => exact ⟨_, rfl⟩
      | some X => exact ⟨_, rfl⟩
  · intro hbox
    rw [normalizeInput_eq Xnew fun j => sub_ne_zero.mpr (Ne.symm (hbox j))]
    cases (h.models g).scaledX with
    | none => rfl
    | some X => rfl

theorem predictStd_of_mean {h : Heap d q} {g : Ref} {m : ℕ} {Xnew : Samples m d} {e : PyErr} (he : h.predictMean g Xnew = .error e) : h.predictStd g Xnew = .error e := by
  unfold Heap.predictStd
  rw [he]
  rfl

/-! ## C166 -/

/-- C166. As long as no training of a `GaussianProcessRegression` object has returned, `predict` raises, with and without `return_std`; unless the design-space array has been made degenerate, it is `AttributeError`. -/
theorem C166_kriging (g b : Ref) (h : Heap d q) (hh : NeverTrained g b h) (m : ℕ) (Xnew : Samples m d) :
    ((∃ e, h.predictMean g Xnew = .error e) ∧ ∃ e, h.predictStd g Xnew = .error e) ∧
    ((∀ j, (h.boxes b).low j ≠ (h.boxes b).high j) → h.predictMean g Xnew = .error .attributeError ∧ h.predictStd g Xnew = .error .attributeError) := by
  obtain ⟨h1, h2⟩ := neverTrained_beta hh
  obtain ⟨⟨e, he⟩, h3⟩ := predictMean_untrained h1 Xnew
  rw [h2] at h3
  exact ⟨⟨⟨e, he⟩, e, predictStd_of_mean he⟩, fun hb => ⟨h3 hb, predictStd_of_mean (h3 hb)⟩⟩

theorem hkFitAttrs_untrained {n : ℕ} (s : HKModel d) (K : Matrix (Fin n) (Fin n) ℝ) (F : Matrix (Fin n) (Fin 1) ℝ) (ys : Fin n → ℝ) {e : PyErr} (he : (hkFitAttrs s K F ys).2 = .error e) :
    (hkFitAttrs s K F ys).1.beta = s.beta := by
  revert he
  unfold hkFitAttrs
  repeat' ((try dsimp only); split)
  all_goals first | (intro _; rfl) | nofun

theorem hkTrainHf_untrained {h : Heap d q} {s : HKModel d} {w : World d} {Xh : Σ n, Samples n d} {ah : Ref} {e : PyErr} (he : (h.hkTrainHf s w Xh ah).2 = .error e) :
    (h.hkTrainHf s w Xh ah).1.beta = s.beta := by
  revert he
  unfold Heap.hkTrainHf
  repeat' ((try dsimp only); split)
  all_goals first | (intro _; rfl) | (intro he; exact hkFitAttrs_untrained _ _ _ _ he)

theorem neverTrainedHK_beta {b lf : Ref} {h : Heap d q} {s : HKModel d} (hh : NeverTrainedHK b lf h s) : s.beta = none := by
  induction hh with
  | new h low high optimizer noise => rfl
  | call h s c _ ih => exact ih
  | train h h' s s' w Xh Xl ah al e _ he ih =>
    unfold Heap.hkTrain at he
    split at he
    · rw [Prod.mk.injEq, Prod.mk.injEq] at he
      rw [← he.2.1]
      exact ih
    · rw [Prod.mk.injEq] at he
      rename_i h1 _
      have h2 : (h1.hkTrainHf s w.hf Xh ah).2 = .error e := by rw [he.2]
      have := hkTrainHf_untrained h2
      rw [he.2] at this
      exact this.trans ih

/-- C166 (hierarchical Kriging). As long as no training of a `HierarchicalKriging` object has returned, `predict` raises, even if its low-fidelity model has been trained; directly after construction it is `AttributeError`. -/
theorem C166_hk (b lf : Ref) (h : Heap d q) (s : HKModel d) (hh : NeverTrainedHK b lf h s) (m : ℕ) (Xnew : Samples m d) :
    ((∃ e, h.hkPredict s Xnew = .error e) ∧ ∃ e, h.hkPredictStd s Xnew = .error e) ∧
    ∀ (low high : ℝ) (optimizer : Option PopOptimizer) (noise : Option ℝ), (∀ j, (h.boxes b).low j ≠ (h.boxes b).high j) →
      h.hkPredict (newHK b lf low high optimizer noise) Xnew = .error .attributeError ∧ h.hkPredictStd (newHK b lf low high optimizer noise) Xnew = .error .attributeError := by
  have hstd : ∀ {s : HKModel d} {e : PyErr}, h.hkPredict s Xnew = .error e → h.hkPredictStd s Xnew = .error e := by
    intro s e he
    unfold Heap.hkPredictStd
    rw [he]
    rfl
  have hb := neverTrainedHK_beta hh
  constructor
  · have : ∃ e, h.hkPredict s Xnew = .error e := by
      cases hp : h.hkPredict s Xnew with
      | error e => exact ⟨e, rfl⟩
      | ok v =>
        exfalso
        unfold Heap.hkPredict at hp
        obtain ⟨_, _, hp⟩ := Py.bind_ok.mp hp
        obtain ⟨_, _, hp⟩ := Py.bind_ok.mp hp
        obtain ⟨_, _, hp⟩ := Py.bind_ok.mp hp
        obtain ⟨_, _, hp⟩ := Py.bind_ok.mp hp
        obtain ⟨_, _, hp⟩ := Py.bind_ok.mp hp
        obtain ⟨_, _, hp⟩ := Py.bind_ok.mp hp
        obtain ⟨_, h1, hp⟩ := Py.bind_ok.mp hp
        rw [hb] at h1
        cases h1
    obtain ⟨e, he⟩ := this
    exact ⟨⟨e, he⟩, e, hstd he⟩
  · intro low high optimizer noise hbox
    have : h.hkPredict (newHK b lf low high optimizer noise) Xnew = .error .attributeError := by
      have h1 : normalizeInput (h.boxes (newHK (d := d) b lf low high optimizer noise).bound) Xnew = _ := normalizeInput_eq (b := h.boxes b) Xnew fun j => sub_ne_zero.mpr (Ne.symm (hbox j))
      unfold Heap.hkPredict
      rw [h1]
      rfl
    exact ⟨this, hstd this⟩

/-! ### Scaled Kriging -/

theorem newArray_models (h : Heap d q) (a : Ref) {n : ℕ} (y : Fin n → ℝ) : (h.newArray a y).models = h.models := rfl

theorem optimizeRho_error_state {n : ℕ} {h : Heap d q} {s : SKModel} (hm : s.rhoMethod ≠ .bumpiness) (w : SKWorld d) (Xh : Samples n d) (yh : Fin n → ℝ) (fresh : ℕ → Ref) :
    (h.optimizeRho s w Xh yh fresh).1 = h := by
  unfold Heap.optimizeRho
  cases hr : s.rhoMethod with
  | error =>
    simp only
    cases h.predictMean s.lf Xh with
    | error e => rfl
    | ok f =>
      simp only
      cases s.rhoOptimizer <;> rfl
  | bumpiness => exact absurd hr hm
  | other => rfl

theorem skTrain_untrained {h h' : Heap d q} {s s' : SKModel} {w : SKWorld d} {Xh Xl : Σ n, Samples n d} {ah al : Ref} {fresh : ℕ → Ref} {e : PyErr} (hne : s.lf ≠ s.disc)
    (hm : s.rhoOptimize = false ∨ s.rhoMethod ≠ .bumpiness) (he : h.skTrain s w Xh ah Xl al fresh = (h', s', .error e)) :
    (h'.models s.disc).beta = (h.models s.disc).beta ∧ (h'.models s.disc).bounds = (h.models s.disc).bounds ∧ ∃ rho, s' = { s with rho := rho } := by
  have hlf : (h.train s.lf w.lf Xl al).1.models s.disc = h.models s.disc := train_models_other (Ne.symm hne)
  unfold Heap.skTrain at he
  split at he
  · rename_i h1 e1 hR
    rw [hR] at hlf
    simp only [Prod.mk.injEq] at he
    obtain ⟨rfl, rfl, _⟩ := he
    rw [← hlf]
    exact ⟨rfl, rfl, s.rho, rfl⟩
  · rename_i h1 hR
    rw [hR] at hlf
    simp only at hlf he
    split at he
    · rename_i hn
      have hst : (if s.rhoOptimize = true then h1.optimizeRho s w Xh.2 (fun i => (h1.arrays ah).2 (Fin.cast hn.symm i)) fresh else (h1, .ok s.rho) : Heap d q × Py ℝ).1 = h1 := by
        rcases hm with hm | hm
        · rw [hm]; rfl
        · split
          · exact optimizeRho_error_state hm w Xh.2 _ fresh
          · rfl
      split at he
      · rename_i h2 e2 h3
        rw [h3] at hst
        simp only at hst
        subst hst
        simp only [Prod.mk.injEq] at he
        obtain ⟨rfl, rfl, _⟩ := he
        rw [hlf]
        exact ⟨rfl, rfl, s.rho, rfl⟩
      · rename_i h2 rho h3
        rw [h3] at hst
        simp only at hst
        subst hst
        split at he
        · simp only [Prod.mk.injEq] at he
          obtain ⟨rfl, rfl, _⟩ := he
          rw [hlf]
          exact ⟨rfl, rfl, rho, rfl⟩
        · simp only [Prod.mk.injEq] at he
          obtain ⟨rfl, rfl, h4⟩ := he
          refine ⟨(train_untrained h4).trans ?_, train_bounds.trans ?_, rho, rfl⟩
          · rw [newArray_models, hlf]
          · rw [newArray_models, hlf]
    · simp only [Prod.mk.injEq] at he
      obtain ⟨rfl, rfl, _⟩ := he
      rw [hlf]
      exact ⟨rfl, rfl, s.rho, rfl⟩

theorem step_untrained {h : Heap d q} {g b : Ref} {c : Call d} (ih : (h.models g).beta = none ∧ (h.models g).bounds = b) (hc : ∀ w X a, c = .train g w X a → ∃ e, (h.train g w X a).2 = .error e) :
    ((h.step c).models g).beta = none ∧ ((h.step c).models g).bounds = b := by
  cases c with
  | train g' w X a =>
    by_cases hg : g = g'
    · subst hg
      obtain ⟨e, he⟩ := hc w X a rfl
      exact ⟨(train_untrained he).trans ih.1, train_bounds.trans ih.2⟩
    · show ((h.train g' w X a).1.models g).beta = none ∧ ((h.train g' w X a).1.models g).bounds = b
      rw [train_models_other hg]
      exact ih
  | writeResponses a y => exact ih
  | writeBounds a y => exact ih
  | setParams k t => exact ih
  | changeOptimizer g' o =>
    show ((h.setModel g' _).models g).beta = none ∧ ((h.setModel g' _).models g).bounds = b
    by_cases hg : g = g'
    · subst hg
      simpa [Heap.setModel] using ih
    · simpa [Heap.setModel, Function.update_of_ne hg] using ih

theorem neverTrainedSK_beta {b : Ref} {s₀ : SKModel} (hne : s₀.lf ≠ s₀.disc) (hm : s₀.rhoOptimize = false ∨ s₀.rhoMethod ≠ .bumpiness) {h : Heap d q} {s : SKModel} (hh : NeverTrainedSK b s₀ h s) :
    ((h.models s₀.disc).beta = none ∧ (h.models s₀.disc).bounds = b) ∧ ∃ rho, s = { s₀ with rho := rho } := by
  induction hh with
  | new h hn => exact ⟨neverTrained_beta hn, s₀.rho, rfl⟩
  | call h s c _ hc ih => exact ⟨step_untrained ih.1 hc, ih.2⟩
  | train h h' s s' w Xh Xl ah al fresh e _ he ih =>
    obtain ⟨ih1, rho, rfl⟩ := ih
    obtain ⟨h1, h2, r, h3⟩ := skTrain_untrained (s := { s₀ with rho := rho }) hne hm he
    exact ⟨⟨h1.trans ih1.1, h2.trans ih1.2⟩, r, h3⟩

/-- C166 (scaled Kriging, partial). As long as no training of a `ScaledKriging` object has returned, `predict` raises, if the low-fidelity and the discrepancy model are different objects and the scale factor is fixed or
found with the error criterion; unless the design-space array of the discrepancy model has been made degenerate, it is `AttributeError` for the mean.  Missing: with the bumpiness criterion this is false, see
`C166_sk_counterexample`. -/
theorem C166_sk_partial (b : Ref) (s₀ : SKModel) (hne : s₀.lf ≠ s₀.disc) (hm : s₀.rhoOptimize = false ∨ s₀.rhoMethod ≠ .bumpiness) (h : Heap d q) (s : SKModel) (hh : NeverTrainedSK b s₀ h s) (m : ℕ) (Xnew : Samples m d) :
    ((∃ e, h.skPredict s Xnew = .error e) ∧ ∃ e, h.skPredictStd s Xnew = .error e) ∧
    ((∀ j, (h.boxes b).low j ≠ (h.boxes b).high j) → h.skPredict s Xnew = .error .attributeError) := by
  obtain ⟨⟨h1, h2⟩, rho, rfl⟩ := neverTrainedSK_beta hne hm hh
  obtain ⟨⟨e, he⟩, h3⟩ := predictMean_untrained h1 Xnew
  rw [h2] at h3
  have key : ∀ {e : PyErr}, h.predictMean s₀.disc Xnew = .error e → h.skPredict { s₀ with rho := rho } Xnew = .error e := by
    intro e he
    unfold Heap.skPredict
    simp only
    rw [he]
    rfl
  refine ⟨⟨⟨e, key he⟩, ?_⟩, fun hb => key (h3 hb)⟩
  unfold Heap.skPredictStd
  simp only
  cases h.predictStd s₀.lf Xnew with
  | error e => exact ⟨e, rfl⟩
  | ok v =>
    rw [predictStd_of_mean he]
    exact ⟨e, rfl⟩

/-! ### Co-Kriging -/

theorem ckUpdate_untrained {nh nl : ℕ} {s : CKModel d q} {W : RawWeights nl q} {rho : ℝ} {K : Matrix (Fin nh) (Fin nh) ℝ} {Xls : Samples nl d} {Xhs : Samples nh d} {yls : Fin nl → ℝ} {yhs p : Fin nh → ℝ} {e : PyErr}
    (he : (s.update W rho K Xls Xhs yls yhs p).2 = .error e) : (s.update W rho K Xls Xhs yls yhs p).1.mu = s.mu ∧ (s.update W rho K Xls Xhs yls yhs p).1.box = s.box := by
  unfold CKModel.update at he ⊢
  split
  · exact ⟨rfl, rfl⟩
  · rename_i hd
    rw [hd] at he
    simp only at he ⊢
    split
    · exact ⟨rfl, rfl⟩
    · rename_i hc
      rw [hc] at he
      simp only at he ⊢
      split
      · exact ⟨rfl, rfl⟩
      · rename_i hz
        rw [hz] at he
        cases he

theorem ckTrain_untrained {s : CKModel d q} {w : CKWorld d} {Xh Xl : Σ n, Samples n d} {yh yl : Σ n, Fin n → ℝ} {e : PyErr} (he : (s.train w Xh yh Xl yl).2 = .error e) :
    (s.train w Xh yh Xl yl).1.mu = s.mu ∧ (s.train w Xh yh Xl yl).1.box = s.box := by
  unfold CKModel.train at he ⊢
  simp only at he ⊢
  split
  · exact ⟨rfl, rfl⟩
  · rename_i hx
    rw [hx] at he
    simp only at he ⊢
    split
    · exact ⟨rfl, rfl⟩
    · rename_i hs
      rw [if_neg hs] at he
      split
      · exact ⟨rfl, rfl⟩
      · rename_i hl
        rw [hl] at he
        simp only at he ⊢
        split
        · rename_i hn
          rw [dif_pos hn] at he
          unfold CKModel.trainHf at he ⊢
          simp only at he ⊢
          split
          · exact ⟨rfl, rfl⟩
          · rename_i hp
            rw [hp] at he
            simp only at he
            exact ckUpdate_untrained he
        · exact ⟨rfl, rfl⟩

theorem ckPredictCore_untrained {s : CKModel d q} (hs : s.mu = none) {m : ℕ} (Xnew : Samples m d) :
    (∃ e, s.predictCore Xnew = .error e) ∧ ((∀ j, s.box.low j ≠ s.box.high j) → s.predictCore Xnew = .error .attributeError) := by
  unfold CKModel.predictCore
  simp only [hs]
  constructor
  · cases normalizeInput s.box Xnew with
    | error e => exact ⟨e, rfl⟩
    | ok xs => cases s.rho <;> cases s.lf.weights <;> cases s.xls <;> cases s.xhs <;> cases s.sigma2 <;> exact ⟨_, rfl⟩
  · intro hbox
    rw [normalizeInput_eq Xnew fun j => sub_ne_zero.mpr (Ne.symm (hbox j))]
    cases s.rho <;> cases s.lf.weights <;> cases s.xls <;> cases s.xhs <;> cases s.sigma2 <;> rfl

theorem ckPredictStd_of_core {s : CKModel d q} {m : ℕ} {Xnew : Samples m d} {e : PyErr} (he : s.predictCore Xnew = .error e) : s.predict Xnew = .error e ∧ s.predictStd Xnew = (s, .error e) := by
  unfold CKModel.predict CKModel.predictStd
  rw [he]
  exact ⟨rfl, rfl⟩

theorem neverTrainedCK_mu {box : Box ℝ d} {s : CKModel d q} (hh : NeverTrainedCK box s) : s.mu = none ∧ s.box = box := by
  induction hh with
  | new regr optimizer low high rhoLow rhoHigh noise => exact ⟨rfl, rfl⟩
  | predict s Xnew _ ih =>
    obtain ⟨⟨e, he⟩, _⟩ := ckPredictCore_untrained ih.1 Xnew
    rw [(ckPredictStd_of_core he).2]
    exact ih
  | train s s' w Xh Xl yh yl e _ he ih =>
    have h1 : (s.train w Xh yh Xl yl).2 = .error e := by rw [he]
    have := ckTrain_untrained h1
    rw [he] at this
    exact ⟨this.1.trans ih.1, this.2.trans ih.2⟩

/-- C166 (co-Kriging). As long as no training of a `CoKriging` object has returned, `predict` raises, with and without `return_std`, and leaves the object as it was; for a design space that is not degenerate it is `AttributeError`. -/
theorem C166_ck (box : Box ℝ d) (s : CKModel d q) (hh : NeverTrainedCK box s) (m : ℕ) (Xnew : Samples m d) :
    ((∃ e, s.predict Xnew = .error e) ∧ ∃ e, s.predictStd Xnew = (s, .error e)) ∧
    ((∀ j, box.low j ≠ box.high j) → s.predict Xnew = .error .attributeError ∧ s.predictStd Xnew = (s, .error .attributeError)) := by
  obtain ⟨h1, rfl⟩ := neverTrainedCK_mu hh
  obtain ⟨⟨e, he⟩, h3⟩ := ckPredictCore_untrained h1 Xnew
  exact ⟨⟨⟨e, (ckPredictStd_of_core he).1⟩, e, (ckPredictStd_of_core he).2⟩, fun hb => ckPredictStd_of_core (h3 hb)⟩

/-! ## Examples and a counterexample -/

/-- A training of the example objects on three equal responses raises, so the hypothesis of C166 is met after it, and after a training of another model that returns. -/
example : NeverTrained 1 0 exObjects ∧ (exObjects.train 1 exWorld ⟨2, fun _ _ => 1⟩ 1).2 = .error .valueError ∧ NeverTrained 1 0 (exObjects.exec [.train 1 exWorld ⟨2, fun _ _ => 1⟩ 1, .train 0 exWorld ⟨3, exX⟩ 0]) ∧
    ∀ j, (exObjects.boxes 0).low j ≠ (exObjects.boxes 0).high j := by
  have h0 : NeverTrained 1 0 exObjects := .new _ 1 (ordinary 1) none (some 0) rfl
  have h1 : (exObjects.train 1 exWorld ⟨2, fun _ _ => 1⟩ 1).2 = .error .valueError := by
    unfold Heap.train
    rw [normalizeInput_eq _ fun j => (by simp [exObjects])]
    simp only
    rw [dif_neg]
    show ¬ (3 : ℕ) = 2
    decide
  refine ⟨h0, h1, (.call (exObjects.step (.train 1 exWorld ⟨2, fun _ _ => 1⟩ 1)) (.train 0 exWorld ⟨3, exX⟩ 0) (.call _ _ h0 ?_) ?_ : NeverTrained 1 0 ((exObjects.step _).step _)), fun j => (by simp [exObjects])⟩
  · rintro w X a hc
    cases hc
    exact ⟨_, h1⟩
  · rintro w X a hc
    cases hc

/-- The hypotheses of the hierarchical, the scaled and the co-Kriging version are met by new objects. -/
example : NeverTrainedHK 0 0 exObjects (newHK 0 0 (-2) 3 none (some 0)) ∧ NeverTrainedSK 0 (exSKModel 0 1) exObjects (exSKModel 0 1) ∧ (exSKModel 0 1).lf ≠ (exSKModel 0 1).disc ∧ (exSKModel 0 1).rhoOptimize = false ∧
    NeverTrainedCK (exObjects.boxes 0) (newCK (exObjects.boxes 0) (ordinary 1) none (-2) 3 0 1 none) :=
  ⟨.new _ _ _ _ _, .new _ (.new _ 1 (ordinary 1) none (some 0) rfl), by simp [exSKModel], rfl, .new _ _ _ _ _ _ _⟩

/-- The scaled Kriging object of the counterexample: the scale factor is found with the bumpiness criterion. -/
noncomputable def bumpSK : SKModel := { exSKModel 0 1 with rhoOptimize := true, rhoMethod := .bumpiness }

/-- Its environment: the search tries scale factor 1 and returns 3. -/
noncomputable def bumpWorld : SKWorld 1 := { exObjWorld with bumpEvals := [(1, exWorld)], bumpX := 3 }

/-- C166 is false of scaled Kriging with the bumpiness criterion: the search has trained the discrepancy model, so when the training with the scale factor it found raises (here because the high-fidelity responses are exactly
3 times the low-fidelity ones, so that all differences are 0), the object predicts: it returns the low-fidelity responses `y` where the data say `3 y`. -/
theorem C166_sk_counterexample :
    NeverTrainedSK 0 bumpSK exObjects bumpSK ∧ ∃ h', exObjects.skTrain bumpSK bumpWorld ⟨3, exX⟩ 1 ⟨3, exX⟩ 0 (fun k => 10 + k) = (h', { bumpSK with rho := 3 }, .error .nonFinite) ∧
      NeverTrainedSK 0 bumpSK h' { bumpSK with rho := 3 } ∧ h'.skPredict { bumpSK with rho := 3 } exX = .ok exY := by
  have hnew : NeverTrainedSK 0 bumpSK exObjects bumpSK := .new _ (.new _ 1 (ordinary 1) none (some 0) rfl)
  obtain ⟨h2, e, p0, p1, v0, v1, ha, k0, k1, y0, y1⟩ := exObjects_trained
  rcases hR : exObjects.train 0 exWorld ⟨3, exX⟩ 0 with ⟨h1, R⟩
  have harr : h1.arrays = exObjects.arrays := by
    have := train_arrays exObjects 0 exWorld ⟨3, exX⟩ 0
    rwa [hR] at this
  have hn : (h1.arrays 1).1 = 3 := by rw [harr]; rfl
  have hyh : (fun i => (h1.arrays 1).2 (Fin.cast hn.symm i)) = fun i => 3 * exY i := respCol_eq (h := h1) (a := 1) (by rw [harr]; simp [exObjects]) hn
  unfold Heap.skTrain at e
  rw [show exObjects.train (exSKModel 0 1).lf exObjWorld.lf ⟨3, exX⟩ 0 = (h1, R) from hR] at e
  cases R with
  | error e1 => simp at e
  | ok u =>
    simp only at e
    rw [dif_pos hn, if_neg (by simp [exSKModel])] at e
    simp only [hyh] at e
    cases hf : h1.predictMean (exSKModel 0 1).lf exX with
    | error e1 => rw [hf] at e; simp at e
    | ok f =>
      rw [hf] at e
      simp only [Prod.mk.injEq, true_and] at e
      obtain ⟨e1, e2⟩ := e
      have hT : (h1.newArray 10 (getDisc 1 f fun i => 3 * exY i)).train 1 exWorld ⟨3, exX⟩ 10 = (h2, .ok ()) := Prod.ext e1 e2
      obtain ⟨hn2, gp', t, ht, e3⟩ := train_ok_view (show ((h1.newArray 10 (getDisc 1 f fun i => 3 * exY i)).train 1 exWorld ⟨3, exX⟩ 10).2 = .ok () by rw [hT])
      have hz : getDisc 3 exY (fun i => 3 * exY i) = fun _ => (0 : ℝ) := by funext i; simp only [getDisc]; ring
      have hm0 : mean (fun _ : Fin 3 => (0 : ℝ)) = 0 := by simp [mean]
      have hs0 : std (fun _ : Fin 3 => (0 : ℝ)) = 0 := by simp [std, hm0]
      have hbox : ∀ j, (h2.boxes (h2.models 1).bounds).high j - (h2.boxes (h2.models 1).bounds).low j ≠ 0 := by
        obtain ⟨p, hp⟩ := v1
        have : h2.boxes (h2.models 1).bounds = (exGP (some 0)).box := congrArg GPObj.box hp
        rw [this]
        intro j
        simp [exGP]
      obtain ⟨h3, hh3⟩ : ∃ h3, h3 = ((h2.newArray 11 (fun _ : Fin 3 => (0 : ℝ))).setModel 1 { h2.models 1 with scaledX := some ⟨3, fun i => normPt (h2.boxes (h2.models 1).bounds) (exX i)⟩, sampleY := some 11 }) := ⟨_, rfl⟩
      have hfail : (h2.newArray 11 (fun _ : Fin 3 => (0 : ℝ))).train 1 exWorld ⟨3, exX⟩ 11 = (h3, .error .nonFinite) := by
        unfold Heap.train
        rw [show normalizeInput ((h2.newArray 11 (fun _ : Fin 3 => (0 : ℝ))).boxes ((h2.newArray 11 (fun _ : Fin 3 => (0 : ℝ))).models 1).bounds) exX = _ from normalizeInput_eq exX hbox]
        simp only
        have hn3 : ((h2.newArray 11 (fun _ : Fin 3 => (0 : ℝ))).arrays 11).1 = 3 := by simp [Heap.newArray]
        rw [dif_pos hn3]
        have hy : (fun i => ((h2.newArray 11 (fun _ : Fin 3 => (0 : ℝ))).arrays 11).2 (Fin.cast hn3.symm i)) = fun _ => (0 : ℝ) := respCol_newArray h2 11 _ hn3
        rw [hy]
        unfold normalizeOutput
        rw [if_pos hs0, hh3]
        rfl
      have hfin : exObjects.skTrain bumpSK bumpWorld ⟨3, exX⟩ 1 ⟨3, exX⟩ 0 (fun k => 10 + k) = (h3, { bumpSK with rho := 3 }, .error .nonFinite) := by
        unfold Heap.skTrain
        rw [show exObjects.train bumpSK.lf bumpWorld.lf ⟨3, exX⟩ 0 = (h1, .ok u) from hR]
        simp only
        rw [dif_pos hn, if_pos (show bumpSK.rhoOptimize = true from rfl)]
        simp only [hyh]
        have ho : h1.optimizeRho bumpSK bumpWorld exX (fun i => 3 * exY i) (fun k => 10 + k) = (h2, .ok 3) := by
          unfold Heap.optimizeRho
          simp only [show bumpSK.rhoMethod = .bumpiness from rfl, show bumpWorld.bumpEvals = [(1, exWorld)] from rfl]
          unfold Heap.bumpRun
          rw [show h1.predictMean bumpSK.lf exX = .ok f from hf]
          simp only
          rw [show (h1.newArray (10 + 0) (getDisc 1 f fun i => 3 * exY i)).train bumpSK.disc exWorld ⟨3, exX⟩ (10 + 0) = (h2, .ok ()) from hT]
          rfl
        rw [ho]
        simp only
        rw [show h2.predictMean bumpSK.lf exX = .ok exY from p0]
        simp only
        rw [hz, show (h2.newArray (10 + bumpWorld.bumpEvals.length) (fun _ : Fin 3 => (0 : ℝ))).train bumpSK.disc bumpWorld.disc ⟨3, exX⟩ (10 + bumpWorld.bumpEvals.length) = (h3, .error .nonFinite) from hfail]
      refine ⟨hnew, h3, hfin, .train _ _ _ _ _ _ _ _ _ _ _ hnew hfin, ?_⟩
      have hF : Frame h2 h3 0 := by
        have h4 := frame_newArray h2 0 11 (fun _ : Fin 3 => (0 : ℝ)) (by rw [y0]; decide)
        have h5 := frame_train (h2.newArray 11 (fun _ : Fin 3 => (0 : ℝ))) 0 1 exWorld ⟨3, exX⟩ 11 (by decide) (by rw [newArray_models, k0, k1]; decide)
        rw [hfail] at h5
        exact h4.trans h5
      have q0 : h3.predictMean 0 exX = .ok exY := ((hF.same 3 exX).1).trans p0
      have hm2 : h2 = afterTrain (h1.newArray 10 (getDisc 1 f fun i => 3 * exY i)) 1 ⟨3, exX⟩ 10 gp' t := by
        rw [hT] at e3
        exact (Prod.mk.inj e3).1
      have q1 : h3.predictMean 1 exX = .ok fun _ => 0 := by
        have hm3 : h3.models 1 = { h2.models 1 with scaledX := some ⟨3, fun i => normPt (h2.boxes (h2.models 1).bounds) (exX i)⟩, sampleY := some 11 } := by rw [hh3]; simp [Heap.setModel]
        have hb3 : h3.boxes = h2.boxes := by rw [hh3]; rfl
        have ha3 : h3.arrays 11 = ⟨3, fun _ => 0⟩ := by rw [hh3]; simp [Heap.setModel, Heap.newArray]
        have h6 := predictMean_of (h := h3) (g := 1) (n := 3) (Xs := fun i => normPt (h2.boxes (h2.models 1).bounds) (exX i)) (beta := t.gls.beta) (gamma := t.gls.gamma) (a := 11) exX
          (by rw [hm3, hb3]; exact hbox) (by rw [hm3]) (by rw [hm3, hm2]; simp [afterTrain]) (by rw [hm3, hm2]; simp [afterTrain]) (by rw [hm3])
        rw [h6]
        congr 1
        funext j
        rw [show std (h3.arrays 11).2 = 0 by rw [ha3]; exact hs0, show mean (h3.arrays 11).2 = 0 by rw [ha3]; exact hm0]
        ring
      unfold Heap.skPredict
      rw [show ({ bumpSK with rho := 3 } : SKModel).disc = 1 from rfl, show ({ bumpSK with rho := 3 } : SKModel).lf = 0 from rfl, q1, q0]
      simp only [bind, Except.bind, Except.ok.injEq]
      funext j
      ring

end Mfpml.Props
