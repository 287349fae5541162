import Verif.Props.MFObjects
import Verif.Lemmas.HKObjects

/-!
# Hierarchical Kriging as an object (C109, C110, C112): failed trainings, arrays written after training, retraining
-/

open scoped BigOperators Matrix

namespace Mfpml.Props

open Mfpml.GP Mfpml.Spec Mfpml.GPObjects
open Mfpml.EA (Box)

variable {n m d q : ℕ}

/-! ## Specification -/

/-- What a program may do with a `HierarchicalKriging` object between its creation and a training: train it, set its kernel parameters, or do anything with other objects, including its low-fidelity model. -/
inductive HKEvent (d : ℕ) where
  | train (w : MFWorld d) (Xh : Σ n, Samples n d) (ah : Ref) (Xl : Σ n, Samples n d) (al : Ref)
  | setParams (theta : Fin d → ℝ)
  | call (c : Call d)

/-- The program does not overwrite design spaces and does not replace optimisers of the models. -/
def HKEvent.KeepsSettings : HKEvent d → Prop
  | .call (.writeBounds _ _) => False
  | .call (.changeOptimizer _ _) => False
  | _ => True

/-- The state after the events; exceptions are caught by the program. -/
noncomputable def hkHistory (h : Heap d q) (s : HKModel d) : List (HKEvent d) → Heap d q × HKModel d
  | [] => (h, s)
  | .train w Xh ah Xl al :: rest => hkHistory (h.hkTrain s w Xh ah Xl al).1 (h.hkTrain s w Xh ah Xl al).2.1 rest
  | .setParams theta :: rest => hkHistory h { s with kernel := s.kernel.setParams theta } rest
  | .call c :: rest => hkHistory (h.step c) s rest

/-! ## C112: retraining forgets the past -/

theorem hkFitAttrs_settings (s : HKModel d) (K : Matrix (Fin n) (Fin n) ℝ) (F : Matrix (Fin n) (Fin 1) ℝ) (ys : Fin n → ℝ) :
    ∃ L ld beta gamma sigma2, (hkFitAttrs s K F ys).1 = { s with L := L, ld := ld, beta := beta, gamma := gamma, sigma2 := sigma2 } := by
  rcases hkFitAttrs_cases s K F ys with ⟨g, hg⟩ | ⟨_, L, ld, h⟩
  · exact ⟨_, _, _, _, _, by rw [hkFitAttrs_ok hg]⟩
  · exact ⟨L, ld, s.beta, s.gamma, s.sigma2, h⟩

/-- Settings of the object (hierarchical_kriging.py:25-37) that trainings keep. -/
structure HKSettings (s s' : HKModel d) : Prop where
  bound : s'.bound = s.bound
  lf : s'.lf = s.lf
  optimizer : s'.optimizer = s.optimizer
  low : s'.kernel.boundLow = s.kernel.boundLow
  high : s'.kernel.boundHigh = s.kernel.boundHigh
  noise : ∀ σ, s.noise = some σ → s'.noise = some σ

theorem hkTrain_settings (h : Heap d q) (s : HKModel d) (w : MFWorld d) (Xh : Σ n, Samples n d) (ah : Ref) (Xl : Σ n, Samples n d) (al : Ref) :
    (h.hkTrain s w Xh ah Xl al).1 = (h.train s.lf w.lf Xl al).1 ∧ HKSettings s (h.hkTrain s w Xh ah Xl al).2.1 := by
  rcases hR : h.train s.lf w.lf Xl al with ⟨h1, R⟩
  cases R with
  | error e =>
    have : h.hkTrain s w Xh ah Xl al = (h1, s, .error e) := by unfold Heap.hkTrain; rw [hR]
    rw [this]
    exact ⟨rfl, rfl, rfl, rfl, rfl, rfl, fun σ hσ => hσ⟩
  | ok u =>
    have : h.hkTrain s w Xh ah Xl al = (h1, h1.hkTrainHf s w.hf Xh ah) := by unfold Heap.hkTrain; rw [hR]
    rw [this]
    refine ⟨rfl, ?_⟩
    simp only
    rcases hkTrainHf_cases h1 s w.hf Xh ah with ⟨hn, hr, hs, f, hf, theta, noise, hfit, g, hg⟩ | ⟨_, ⟨e, _⟩ | ⟨_, kernel, noise, trend, L, ld, e, hc⟩⟩
    · rw [hkTrainHf_ok hn hr hs hf hfit, hkFitAttrs_ok hg]
      refine ⟨rfl, rfl, rfl, rfl, rfl, fun σ hσ => ?_⟩
      unfold HKObj.fitHyper at hfit
      have : (h1.hkView s).noise = some σ := hσ
      rw [this] at hfit
      obtain ⟨x, _, h6⟩ := Py.bind_ok.mp hfit
      simp only [Except.ok.injEq, Prod.mk.injEq] at h6
      simp only
      rw [h6.2]
    · rw [e]
      exact ⟨rfl, rfl, rfl, rfl, rfl, fun σ hσ => hσ⟩
    · rw [e]
      rcases hc with ⟨rfl, rfl⟩ | ⟨theta, rfl, hno⟩
      · exact ⟨rfl, rfl, rfl, rfl, rfl, fun σ hσ => hσ⟩
      · exact ⟨rfl, rfl, rfl, rfl, rfl, hno⟩

/-- A model created with the settings of `s` in state `h`, with any kernel parameters. -/
noncomputable def newHKValue (h : Heap d q) (s : HKModel d) (σ τ : ℝ) (p p' : Fin d → ℝ) : HKObj d q :=
  { box := h.boxes s.bound, kernel := { param := p, boundLow := s.kernel.boundLow, boundHigh := s.kernel.boundHigh }, optimizer := s.optimizer, noise := some σ
    lf := { box := h.boxes (h.models s.lf).bounds
            kernel := { param := p', boundLow := (h.kernels (h.models s.lf).kernel).boundLow, boundHigh := (h.kernels (h.models s.lf).kernel).boundHigh }
            regr := (h.models s.lf).regr, optimizer := (h.models s.lf).optimizer, noise := some τ } }

theorem hkHistory_settings (events : List (HKEvent d)) : ∀ (h : Heap d q) (s : HKModel d) (σ τ : ℝ), s.noise = some σ → (h.models s.lf).noise = some τ → (∀ e ∈ events, e.KeepsSettings) →
    ∃ p p', (hkHistory h s events).1.hkView (hkHistory h s events).2 = newHKValue h s σ τ p p' := by
  induction events with
  | nil =>
    intro h s σ τ hs hl _
    refine ⟨s.kernel.param, (h.kernels (h.models s.lf).kernel).param, ?_⟩
    unfold hkHistory Heap.hkView newHKValue Heap.view
    rw [hs, hl]
  | cons e rest ih =>
    intro h s σ τ hs hl hk
    have hk' : ∀ e ∈ rest, e.KeepsSettings := fun e he => hk e (List.mem_cons_of_mem _ he)
    have key : ∀ (h1 : Heap d q) (s1 : HKModel d), HKSettings s s1 → h1.boxes = h.boxes →
        ((h1.models s.lf).bounds = (h.models s.lf).bounds ∧ (h1.models s.lf).kernel = (h.models s.lf).kernel ∧ (h1.models s.lf).regr = (h.models s.lf).regr ∧
          (h1.models s.lf).optimizer = (h.models s.lf).optimizer ∧ ∀ σ, (h.models s.lf).noise = some σ → (h1.models s.lf).noise = some σ) →
        (∀ k, (h1.kernels k).boundLow = (h.kernels k).boundLow ∧ (h1.kernels k).boundHigh = (h.kernels k).boundHigh) →
        ∃ p p', (hkHistory h1 s1 rest).1.hkView (hkHistory h1 s1 rest).2 = newHKValue h s σ τ p p' := by
      intro h1 s1 S hb hm hkk
      obtain ⟨p, p', e1⟩ := ih h1 s1 σ τ (S.noise σ hs) (by rw [S.lf]; exact hm.2.2.2.2 τ hl) hk'
      refine ⟨p, p', e1.trans ?_⟩
      unfold newHKValue
      rw [S.bound, S.lf, S.optimizer, S.low, S.high, hm.1, hm.2.1, hm.2.2.1, hm.2.2.2.1, hb, (hkk _).1, (hkk _).2]
    cases e with
    | train w Xh ah Xl al =>
      obtain ⟨e1, S⟩ := hkTrain_settings h s w Xh ah Xl al
      obtain ⟨t1, _, t3, t4⟩ := train_settings h s.lf w.lf Xl al
      rw [← e1] at t1 t3 t4
      exact key _ _ S t1 (t3 s.lf) t4
    | setParams theta =>
      exact key h _ ⟨rfl, rfl, rfl, rfl, rfl, fun σ hσ => hσ⟩ rfl ⟨rfl, rfl, rfl, rfl, fun σ hσ => hσ⟩ (fun k => ⟨rfl, rfl⟩)
    | call c =>
      have hc : HKEvent.KeepsSettings (.call c : HKEvent d) := hk _ List.mem_cons_self
      have S : HKSettings s s := ⟨rfl, rfl, rfl, rfl, rfl, fun σ hσ => hσ⟩
      cases c with
      | train g w X a =>
        obtain ⟨t1, _, t3, t4⟩ := train_settings h g w X a
        exact key _ _ S t1 (t3 s.lf) t4
      | writeResponses a y => exact key _ _ S rfl ⟨rfl, rfl, rfl, rfl, fun σ hσ => hσ⟩ (fun k => ⟨rfl, rfl⟩)
      | writeBounds b box => exact absurd hc id
      | setParams k theta =>
        refine key _ _ S rfl ⟨rfl, rfl, rfl, rfl, fun σ hσ => hσ⟩ (fun k' => ?_)
        simp only [Heap.step, Heap.setParams]
        by_cases hk : k' = k
        · subst hk; rw [Function.update_self]; exact ⟨rfl, rfl⟩
        · rw [Function.update_of_ne hk]; exact ⟨rfl, rfl⟩
      | changeOptimizer g opt => exact absurd hc id

/-- The current kernel parameters play no role in training. -/
theorem hk_train_param_irrel (h : Heap d q) (s : HKModel d) (σ τ : ℝ) (p p' p2 p2' : Fin d → ℝ) {nh nl : ℕ} (w : MFWorld d) (Xh : Samples nh d) (yh : Fin nh → ℝ) (Xl : Samples nl d) (yl : Fin nl → ℝ) :
    (newHKValue h s σ τ p p').train w Xh yh Xl yl = (newHKValue h s σ τ p2 p2').train w Xh yh Xl yl := rfl

/-- C112. A hierarchical Kriging object of known noise, after any history of trainings that returned or raised, kernel changes, writes into response arrays and uses of its low-fidelity model: training it on the current
responses succeeds exactly when it succeeds for a newly created model with the same settings, and then both predict the same, for both fidelities and with the same standard deviations. -/
theorem C112_hk_retraining (h : Heap d q) (s : HKModel d) (σ τ : ℝ) (hs : s.noise = some σ) (hl : (h.models s.lf).noise = some τ) (events : List (HKEvent d)) (hk : ∀ e ∈ events, e.KeepsSettings)
    (h1 : Heap d q) (s1 : HKModel d) (he : hkHistory h s events = (h1, s1)) (w : MFWorld d) (Xh Xl : Σ n, Samples n d) (ah al : Ref) (p p' : Fin d → ℝ) :
    ((h1.hkTrain s1 w Xh ah Xl al).2.2 = .ok () ↔ ∃ (hnh : (h1.arrays ah).1 = Xh.1) (hnl : (h1.arrays al).1 = Xl.1) (r : HKObj d q × HKFit Xh.1 Xl.1 d q),
      (newHKValue h s σ τ p p').train w Xh.2 (responses h1 ah hnh) Xl.2 (responses h1 al hnl) = .ok r) ∧
    ∀ (hnh : (h1.arrays ah).1 = Xh.1) (hnl : (h1.arrays al).1 = Xl.1) (hk' : HKObj d q) (t : HKFit Xh.1 Xl.1 d q),
      (newHKValue h s σ τ p p').train w Xh.2 (responses h1 ah hnh) Xl.2 (responses h1 al hnl) = .ok (hk', t) →
      ∃ h2 s2, h1.hkTrain s1 w Xh ah Xl al = (h2, s2, .ok ()) ∧ ∀ (k : ℕ) (Xnew : Samples k d), h2.hkPredictLf s2 Xnew = hk'.predictLf t Xnew ∧ h2.hkPredict s2 Xnew = hk'.predict t Xnew ∧
        h2.hkPredictStd s2 Xnew = hk'.predictStd t Xnew := by
  obtain ⟨p0, p0', hv⟩ := hkHistory_settings events h s σ τ hs hl hk
  rw [he] at hv
  simp only at hv
  have fwd : ∀ (hnh : (h1.arrays ah).1 = Xh.1) (hnl : (h1.arrays al).1 = Xl.1) (hk' : HKObj d q) (t : HKFit Xh.1 Xl.1 d q),
      (newHKValue h s σ τ p p').train w Xh.2 (responses h1 ah hnh) Xl.2 (responses h1 al hnl) = .ok (hk', t) →
      (h1.hkView s1).train w Xh.2 (respCol h1 ah hnh) Xl.2 (respCol h1 al hnl) = .ok (hk', t) := by
    intro hnh hnl hk' t ht
    rw [hv]
    exact ht
  refine ⟨⟨fun hok => ?_, ?_⟩, ?_⟩
  · obtain ⟨hnh, hnl, hk', t, ht⟩ := hkTrain_ok_view hok
    rw [hv] at ht
    exact ⟨hnh, hnl, (hk', t), ht⟩
  · rintro ⟨hnh, hnl, ⟨hk', t⟩, ht⟩
    rw [hkTrain_of_view hnh hnl (fwd hnh hnl hk' t ht)]
  · intro hnh hnl hk' t ht
    have ht1 := fwd hnh hnl hk' t ht
    refine ⟨_, _, hkTrain_of_view hnh hnl ht1, fun k Xnew => ?_⟩
    obtain ⟨hT, _, _, hbox, hlf, _⟩ := hkTrained_of_train ht1
    have hp : (afterTrain h1 s1.lf Xl al hk'.lf t.lfFit).predictMean s1.lf Xnew = GP.predictMean hk'.lf t.lfFit Xnew := predictMean_afterTrain hnl hlf Xnew
    have hb : (afterTrain h1 s1.lf Xl al hk'.lf t.lfFit).boxes s1.bound = hk'.box := hbox.symm
    exact ⟨hp, hkPredict_after hT hb Xnew hp⟩

/-! ## C109: a training that raises -/

/-- C109 (hierarchical Kriging, partial). What a training that raises leaves behind, for an object that was trained before on `nh` high-fidelity samples.  If the training of the low-fidelity model raised, the object keeps all
its attributes.  Otherwise the low-fidelity model is the new one; and, for a design space that is not degenerate, if the new high-fidelity responses are all equal every prediction is nan or
infinite, otherwise if the number of high-fidelity samples changed every prediction raises, and if it did not the predictions
combine the new samples, mean and spread with the old weights.  Missing: the property (predictions are what they were before) does not hold, see `C109_hk_failed_training_counterexample`. -/
theorem C109_hk_failed_training_partial (h : Heap d q) (s : HKModel d) (w : MFWorld d) (Xh Xl : Σ n, Samples n d) (ah al : Ref) (h' : Heap d q) (s' : HKModel d) (e : PyErr)
    (hfail : h.hkTrain s w Xh ah Xl al = (h', s', .error e)) (nh : ℕ) (beta : Fin 1 → ℝ) (gamma : Fin nh → ℝ) (hbeta : s.beta = some beta) (hgamma : s.gamma = some ⟨nh, gamma⟩) :
    h' = (h.train s.lf w.lf Xl al).1 ∧
    ((h.train s.lf w.lf Xl al).2 = .error e ∧ s' = s ∨
      (h.train s.lf w.lf Xl al).2 = .ok () ∧ ((∀ j, (h.boxes s.bound).low j < (h.boxes s.bound).high j) →
        (std (h.arrays ah).2 = 0 → ∀ (k : ℕ) (Xnew : Samples k d), h'.hkPredict s' Xnew = .error .nonFinite) ∧
        (std (h.arrays ah).2 ≠ 0 → nh ≠ Xh.1 → ∀ (k : ℕ) (Xnew : Samples k d), h'.hkPredict s' Xnew = .error .valueError) ∧
        (std (h.arrays ah).2 ≠ 0 → ∀ hn : nh = Xh.1, ∃ theta : Fin d → ℝ, ∀ (k : ℕ) (Xnew : Samples k d), ∃ μl, h'.hkPredictLf s' Xnew = .ok μl ∧
          h'.hkPredict s' Xnew = .ok fun j => ((μl j - mean (h.arrays ah).2) / std (h.arrays ah).2 * beta 0 +
            ∑ i, rbfMatrix theta (fun i => normPt (h.boxes s.bound) (Xh.2 i)) (fun i => normPt (h.boxes s.bound) (Xnew i)) i j * gamma (Fin.cast hn.symm i)) * std (h.arrays ah).2 + mean (h.arrays ah).2))) := by
  rcases hR : h.train s.lf w.lf Xl al with ⟨h1, R⟩
  cases R with
  | error e1 =>
    have e2 : h.hkTrain s w Xh ah Xl al = (h1, s, .error e1) := by unfold Heap.hkTrain; rw [hR]
    rw [hfail] at e2
    simp only [Prod.mk.injEq, Except.error.injEq] at e2
    obtain ⟨rfl, rfl, rfl⟩ := e2
    exact ⟨rfl, Or.inl ⟨rfl, rfl⟩⟩
  | ok u =>
    have e2 : h.hkTrain s w Xh ah Xl al = (h1, h1.hkTrainHf s w.hf Xh ah) := by unfold Heap.hkTrain; rw [hR]
    rw [hfail, Prod.mk.injEq] at e2
    obtain ⟨rfl, e3⟩ := e2
    refine ⟨rfl, Or.inr ⟨rfl, fun hbox => ?_⟩⟩
    have hS := train_settings h s.lf w.lf Xl al
    rw [hR] at hS
    obtain ⟨t1, t2, _, _⟩ := hS
    simp only at t1 t2
    have hr : ∀ j, (h'.boxes s.bound).high j - (h'.boxes s.bound).low j ≠ 0 := fun j => by rw [t1]; have := hbox j; linarith
    obtain ⟨hnl, lf', lfFit, htl, e4⟩ := train_ok_view (show (h.train s.lf w.lf Xl al).2 = .ok () by rw [hR])
    have hl : ∀ (k : ℕ) (Xnew : Samples k d), ∃ μl, h'.predictMean s.lf Xnew = .ok μl := by
      intro k Xnew
      rw [hR] at e4
      rw [(Prod.mk.inj e4).1]
      exact ⟨_, (predictMean_afterTrain hnl htl Xnew).trans (predictMean_eq (trained_of_train htl).1 Xnew)⟩
    rcases hkTrainHf_cases h' s w.hf Xh ah with ⟨hn, hr', hs, f, hf, theta, noise, hfit, g, hg⟩ | ⟨_, ⟨e, hne⟩ | ⟨_, kernel, noise, trend, L, ld, e, hc⟩⟩
    · exfalso
      rw [hkTrainHf_ok hn hr' hs hf hfit, hkFitAttrs_ok hg] at e3
      exact absurd (congrArg Prod.snd e3) (by simp)
    · exact absurd hr hne
    rw [← e3] at e
    have t3 : mean (h'.arrays ah).2 = mean (h.arrays ah).2 := by rw [t2]
    have t4 : std (h'.arrays ah).2 = std (h.arrays ah).2 := by rw [t2]
    simp only [t1, t3, t4] at e
    refine ⟨fun hstd k Xnew => ?_, fun hstd hne k Xnew => ?_, ?_⟩
    · obtain ⟨μl, hμl⟩ := hl k Xnew
      exact hkPredict_flat (s := s') Xnew (by rw [e]; exact hr) (by rw [e]) (by rw [e]) (by rw [e, ← hstd]) (fl := μl) (by rw [e]; exact hμl)
    · obtain ⟨μl, hμl⟩ := hl k Xnew
      refine hkPredict_mismatch (s := s') Xnew (by rw [e]; exact hr) (by rw [e]) (by rw [e]; exact hbeta) (by rw [e]; exact hgamma) (by rw [e]) (by rw [e]) hstd (fl := μl) ?_ hne
      rw [e]
      exact hμl
    · intro hstd hn
      subst hn
      refine ⟨kernel.param, fun k Xnew => ?_⟩
      obtain ⟨μl, hμl⟩ := hl k Xnew
      refine ⟨μl, by rw [e]; exact hμl, ?_⟩
      rw [hkPredict_of (s := s') Xnew (by rw [e]; exact hr) (by rw [e]) (by rw [e]; exact hbeta) (by rw [e]; exact hgamma) (by rw [e]) (by rw [e]) hstd (fl := μl) (by rw [e]; exact hμl)]
      rw [e]
      simp only [t1, Except.ok.injEq]
      funext j
      simp [Matrix.mulVec, dotProduct, scaleCol, Matrix.transpose_apply]

/-! ### An example: models on `[0, 4]` -/

/-- Three low-fidelity samples. -/
def exXlow : Samples 3 1 := fun i _ => ![1, 3, 2] i

/-- Their responses. -/
def exYlow : Fin 3 → ℝ := ![2, 5, 4]

/-- High-fidelity samples: the first two low-fidelity ones. -/
def exXhigh : Samples 2 1 := fun i => exXlow i.castSucc

/-- Low-fidelity responses in array 0, two high-fidelity responses in array 1, other low-fidelity responses (twice as large) in array 2, three numbers in array 3. -/
noncomputable def exHKHeap : Heap 1 1 :=
  { boxes := fun _ => { low := fun _ => 0, high := fun _ => 4 }, kernels := fun _ => RBF.mk' (fun _ => 0) (-2) 3,
    arrays := fun a => if a = 0 then ⟨3, exYlow⟩ else if a = 1 then ⟨2, ![6, 15]⟩ else if a = 2 then ⟨3, fun i => 2 * exYlow i⟩ else ⟨3, ![9, 21 / 2, 12]⟩,
    models := fun g => newModel 0 g (ordinary 1) none (some 0) }

/-- A hierarchical Kriging object without noise. -/
noncomputable def exHKObject : HKModel 1 := newHK 0 0 (-2) 3 none (some 0)

/-- Environment. -/
noncomputable def exHKWorld : MFWorld 1 := ⟨exWorld, exWorld⟩

theorem predictMean_select {gp : GPObj d q} {t : GPFit n d q} (hT : Trained gp t) {k k' : ℕ} (X : Samples k d) (c : Fin k' → Fin k) (hc : ∀ i, (c i).val = i.val) {μ : Fin k → ℝ}
    (h : GP.predictMean gp t X = .ok μ) : GP.predictMean gp t (fun i => X (c i)) = .ok fun i => μ (c i) := by
  rw [predictMean_eq hT] at h ⊢
  rw [← Except.ok.inj h]
  congr 1
  funext i
  simp only [Pi.add_apply, Matrix.mulVec, dotProduct, Matrix.transpose_apply, rbfMatrix, regrMatrix, hc]

theorem mean_six_fifteen : GP.mean (![6, 15] : Fin 2 → ℝ) = 21 / 2 := by
  unfold GP.mean
  rw [Fin.sum_univ_two]
  norm_num

theorem isEx_trains_any {gp : GPObj 1 1} (hgp : IsEx gp) {k : ℕ} (X : Samples k 1) (y : Fin k → ℝ) (i j : Fin k) (hy : y i ≠ y j) :
    ∃ gp' t, gp.train exWorld X y = .ok (gp', t) ∧ GP.predictMean gp' t X = .ok y ∧ IsEx gp' := by
  obtain ⟨p, rfl⟩ := hgp
  obtain ⟨gp', t, ht⟩ := exGP_trains (some 0) X y i j hy
  have ht' := (train_param_irrel (exGP (some 0)) p exWorld X y).trans ht
  refine ⟨gp', t, ht', C34_interpolation _ _ _ _ rfl _ _ ht, ?_⟩
  obtain ⟨_, _, _, _, _, hno, _⟩ := trained_of_train ht
  obtain ⟨hr, hs, theta, noise, h3, e1, h4, e2⟩ := train_ok_iff.mp ht
  have hn0 : noise = 0 := by
    have := hno 0 rfl
    rw [e2] at this
    exact this
  subst hn0
  exact ⟨_, e1⟩

/-- The model of the example, in every state in which its low-fidelity model has the settings of the example. -/
theorem exHKObject_trains (hk : HKObj 1 1) (hbox : hk.box = { low := fun _ => 0, high := fun _ => 4 }) (hlo : hk.kernel.boundLow = -2) (hhi : hk.kernel.boundHigh = 3) (hopt : hk.optimizer = none)
    (hno : hk.noise = some 0) (hlf : IsEx hk.lf) :
    ∃ hk' t, hk.train exHKWorld exXhigh ![6, 15] exXlow exYlow = .ok (hk', t) ∧ hk'.predictLf t exXhigh = .ok ![2, 5] ∧ hk'.predict t exXhigh = .ok ![6, 15] ∧ t.gls.beta 0 ≠ 0 ∧ IsEx hk'.lf := by
  obtain ⟨lf', lfFit, htl, hfl, hexl⟩ := isEx_trains_any hlf exXlow exYlow 0 1 (by simp [exYlow])
  have hf : GP.predictMean lf' lfFit exXhigh = .ok ![2, 5] := by
    have := predictMean_select (trained_of_train htl).1 exXlow Fin.castSucc (fun i => rfl) hfl
    refine this.trans (congrArg _ ?_)
    funext i
    fin_cases i <;> rfl
  obtain ⟨hk', t, ht⟩ := C41_hk_train_succeeds hk exHKWorld exXhigh ![6, 15] exXlow exYlow (by rw [hbox]; intro j; norm_num) (by rw [hlo, hhi]; norm_num) cornerMinimizer_good
    (fun run h => by rw [hopt] at h; cases h) (by simp [exHKWorld, exWorld]) (by simp [exHKWorld, exWorld]) 0 1 (by norm_num) lf' lfFit htl ![2, 5] hf 0
    (by rw [mean_six_fifteen]; norm_num) (fun _ c => by
      rw [mean_six_fifteen]
      by_cases hc : c * ((![2, 5] : Fin 2 → ℝ) 0 - 21 / 2) ≠ (![6, 15] : Fin 2 → ℝ) 0 - 21 / 2
      · exact ⟨0, hc⟩
      · refine ⟨1, fun h1 => ?_⟩
        push Not at hc
        simp only [Matrix.cons_val_zero, Matrix.cons_val_one] at hc h1
        norm_num at hc h1
        linarith)
  obtain ⟨hT, hX, hy, hb, hl, hno', hm, hsd, hys⟩ := hkTrained_of_train ht
  have hl' : (lf', lfFit) = (hk'.lf, t.lfFit) := Except.ok.inj (htl.symm.trans hl)
  simp only [Prod.mk.injEq] at hl'
  refine ⟨hk', t, ht, ?_, C41_hk_interpolates hk exHKWorld exXhigh _ exXlow exYlow hno hk' t ht, ?_, hl'.1 ▸ hexl⟩
  · unfold HKObj.predictLf
    rw [← hl'.1, ← hl'.2]
    exact hf
  · intro h0
    obtain ⟨f, hf1, hF⟩ := hT.F
    rw [hX] at hf1
    have hf2 : f = ![2, 5] := by
      refine Except.ok.inj (hf1.symm.trans ?_)
      unfold HKObj.predictLf
      rw [← hl'.1, ← hl'.2]
      exact hf
    have hsp := hT.stdpos
    have hg1 := hT.gls.K_gamma
    have hg2 := hT.gls.normal
    have hKn : t.K = covTrain hk'.kernel.param t.Xhs (t.noise / t.yhStd) := hT.K
    have hK : ∃ a b : ℝ, 0 < a ∧ 0 < b ∧ t.K 0 0 = a ∧ t.K 1 1 = a ∧ t.K 0 1 = b ∧ t.K 1 0 = b := by
      rw [hKn]
      have hp0 : ∀ k, 0 ≤ hk'.kernel.param k := fun k => (hT.param k).le
      have hs : rbfDist hk'.kernel.param (t.Xhs 1) (t.Xhs 0) = rbfDist hk'.kernel.param (t.Xhs 0) (t.Xhs 1) := by
        rw [rbfDist_eq _ hp0, rbfDist_eq _ hp0]
        exact Finset.sum_congr rfl fun i _ => by ring
      refine ⟨1 + nugget + (t.noise / t.yhStd) ^ 2, Real.exp (-(rbfDist hk'.kernel.param (t.Xhs 0) (t.Xhs 1))), ?_, Real.exp_pos _, ?_, ?_, ?_, ?_⟩
      · have := nugget_pos
        have := sq_nonneg (t.noise / t.yhStd)
        linarith
      · simp [covTrain, rbfMatrix, rbfDist_eq _ hp0]
      · simp [covTrain, rbfMatrix, rbfDist_eq _ hp0]
      · simp [covTrain, rbfMatrix]
      · simp [covTrain, rbfMatrix, hs]
    obtain ⟨a, b, ha, hb', k00, k11, k01, k10⟩ := hK
    have e0 := congrFun hg1 0
    have e1 := congrFun hg1 1
    have e2 := congrFun hg2 0
    rw [hF, hf2] at e0 e1 e2
    simp only [Matrix.mulVec, dotProduct, Fin.sum_univ_two, Pi.sub_apply, Finset.univ_unique, Fin.default_eq_zero, Finset.sum_singleton, h0, mul_zero, sub_zero, Matrix.transpose_apply, Pi.zero_apply,
      scaleCol, k00, k11, k01, k10, hys, hm, mean_six_fifteen, ← hsd, Matrix.cons_val_zero, Matrix.cons_val_one] at e0 e1 e2
    have h3 : (a + b) * (t.gls.gamma 0 + t.gls.gamma 1) = 0 := by
      have : (a + b) * (t.gls.gamma 0 + t.gls.gamma 1) = (6 - 21 / 2) / t.yhStd + (15 - 21 / 2) / t.yhStd := by rw [← e0, ← e1]; ring
      rw [this]; ring
    have h4 : t.gls.gamma 1 = - t.gls.gamma 0 := by
      rcases mul_eq_zero.mp h3 with h | h
      · linarith
      · linarith
    rw [h4] at e2 e0
    have h5 : t.gls.gamma 0 = 0 := by
      have : ((2 - 21 / 2) / t.yhStd * t.gls.gamma 0 + (5 - 21 / 2) / t.yhStd * -t.gls.gamma 0) = (-3 / t.yhStd) * t.gls.gamma 0 := by ring
      rw [this] at e2
      rcases mul_eq_zero.mp e2 with h | h
      · exact absurd h (div_ne_zero (by norm_num) hsp.ne')
      · exact h
    rw [h5] at e0
    have : (6 - 21 / 2 : ℝ) / t.yhStd ≠ 0 := div_ne_zero (by norm_num) hsp.ne'
    apply this
    rw [← e0]; ring

theorem exHKHeap_a0 : exHKHeap.arrays 0 = ⟨3, exYlow⟩ := by simp [exHKHeap]
theorem exHKHeap_a1 : exHKHeap.arrays 1 = ⟨2, ![6, 15]⟩ := by simp [exHKHeap]
theorem exHKHeap_a3 : exHKHeap.arrays 3 = ⟨3, ![9, 21 / 2, 12]⟩ := by simp [exHKHeap]

/-- The first training of the example. -/
theorem exHKHeap_trained : ∃ (hk' : HKObj 1 1) (t : HKFit 2 3 1 1), (exHKHeap.hkView exHKObject).train exHKWorld exXhigh ![6, 15] exXlow exYlow = .ok (hk', t) ∧
    exHKHeap.hkTrain exHKObject exHKWorld ⟨2, exXhigh⟩ 1 ⟨3, exXlow⟩ 0 = (afterTrain exHKHeap 0 ⟨3, exXlow⟩ 0 hk'.lf t.lfFit, hkAfter exHKObject hk' t, .ok ()) ∧
    hk'.predictLf t exXhigh = .ok ![2, 5] ∧ hk'.predict t exXhigh = .ok ![6, 15] ∧ t.gls.beta 0 ≠ 0 ∧ IsEx hk'.lf ∧
    ∀ (k : ℕ) (Xnew : Samples k 1), (afterTrain exHKHeap 0 ⟨3, exXlow⟩ 0 hk'.lf t.lfFit).hkPredictLf (hkAfter exHKObject hk' t) Xnew = hk'.predictLf t Xnew ∧
      (afterTrain exHKHeap 0 ⟨3, exXlow⟩ 0 hk'.lf t.lfFit).hkPredict (hkAfter exHKObject hk' t) Xnew = hk'.predict t Xnew := by
  obtain ⟨hk', t, ht, h1, h2, h3, h4⟩ := exHKObject_trains (exHKHeap.hkView exHKObject) rfl rfl rfl rfl rfl ⟨(exGP (some 0)).kernel.param, rfl⟩
  have hnh : (exHKHeap.arrays 1).1 = 2 := by rw [exHKHeap_a1]
  have hnl : (exHKHeap.arrays 0).1 = 3 := by rw [exHKHeap_a0]
  have ht' : (exHKHeap.hkView exHKObject).train exHKWorld (Sigma.mk 2 exXhigh : Σ n, Samples n 1).2 (respCol exHKHeap 1 hnh) (Sigma.mk 3 exXlow : Σ n, Samples n 1).2 (respCol exHKHeap 0 hnl) = .ok (hk', t) := by
    rw [respCol_eq exHKHeap_a1 hnh, respCol_eq exHKHeap_a0 hnl]
    exact ht
  obtain ⟨hT, _, _, hbox, hlf, _⟩ := hkTrained_of_train ht'
  refine ⟨hk', t, ht, hkTrain_of_view hnh hnl ht', h1, h2, h3, h4, fun k Xnew => ?_⟩
  have hp : (afterTrain exHKHeap 0 ⟨3, exXlow⟩ 0 hk'.lf t.lfFit).predictMean exHKObject.lf Xnew = GP.predictMean hk'.lf t.lfFit Xnew := predictMean_afterTrain hnl hlf Xnew
  have hb : (afterTrain exHKHeap 0 ⟨3, exXlow⟩ 0 hk'.lf t.lfFit).boxes exHKObject.bound = hk'.box := hbox.symm
  exact ⟨hp, (hkPredict_after hT hb Xnew hp).1⟩

/-- The hypotheses of C112 are met by a history with a training that returned, and the next training returns. -/
example : exHKObject.noise = some 0 ∧ (exHKHeap.models exHKObject.lf).noise = some 0 ∧ (∀ e ∈ [HKEvent.train exHKWorld ⟨2, exXhigh⟩ 1 ⟨3, exXlow⟩ 0], e.KeepsSettings) ∧
    ∃ h1 s1, hkHistory exHKHeap exHKObject [HKEvent.train exHKWorld ⟨2, exXhigh⟩ 1 ⟨3, exXlow⟩ 0] = (h1, s1) ∧ (h1.hkTrain s1 exHKWorld ⟨2, exXhigh⟩ 1 ⟨3, exXlow⟩ 0).2.2 = .ok () := by
  obtain ⟨hk', t, ht, e, _⟩ := exHKHeap_trained
  have hkeep : ∀ e ∈ [HKEvent.train exHKWorld ⟨2, exXhigh⟩ 1 ⟨3, exXlow⟩ 0], e.KeepsSettings := by
    intro e he
    rw [List.mem_singleton] at he
    subst he
    trivial
  have hh : hkHistory exHKHeap exHKObject [HKEvent.train exHKWorld ⟨2, exXhigh⟩ 1 ⟨3, exXlow⟩ 0] = (afterTrain exHKHeap 0 ⟨3, exXlow⟩ 0 hk'.lf t.lfFit, hkAfter exHKObject hk' t) := by
    unfold hkHistory
    rw [e]
    rfl
  refine ⟨rfl, rfl, hkeep, _, _, hh, ?_⟩
  have hnh : (exHKHeap.arrays 1).1 = 2 := by rw [exHKHeap_a1]
  have hnl : (exHKHeap.arrays 0).1 = 3 := by rw [exHKHeap_a0]
  refine (C112_hk_retraining exHKHeap exHKObject 0 0 rfl rfl _ hkeep _ _ hh exHKWorld ⟨2, exXhigh⟩ ⟨3, exXlow⟩ 1 0 exHKObject.kernel.param (exGP (some 0)).kernel.param).1.mpr ⟨hnh, hnl, (hk', t), ?_⟩
  have e1 : responses (afterTrain exHKHeap 0 ⟨3, exXlow⟩ 0 hk'.lf t.lfFit) 1 hnh = ![6, 15] := respCol_eq exHKHeap_a1 hnh
  have e2 : responses (afterTrain exHKHeap 0 ⟨3, exXlow⟩ 0 hk'.lf t.lfFit) 0 hnl = exYlow := respCol_eq exHKHeap_a0 hnl
  have ht2 : (newHKValue exHKHeap exHKObject 0 0 exHKObject.kernel.param (exGP (some 0)).kernel.param).train exHKWorld exXhigh ![6, 15] exXlow exYlow = .ok (hk', t) := ht
  rw [e1, e2]
  exact ht2

theorem std_six_fifteen : GP.std (![6, 15] : Fin 2 → ℝ) ^ 2 = 81 / 4 := by
  unfold GP.std
  rw [mean_six_fifteen, Real.sq_sqrt (div_nonneg (Finset.sum_nonneg fun i _ => sq_nonneg _) (Nat.cast_nonneg _)), Fin.sum_univ_two]
  simp only [Matrix.cons_val_zero, Matrix.cons_val_one]
  norm_num

theorem mean_three : GP.mean (![9, 21 / 2, 12] : Fin 3 → ℝ) = 21 / 2 := by
  unfold GP.mean
  rw [Fin.sum_univ_three]
  simp only [Matrix.cons_val_zero, Matrix.cons_val_one, Matrix.cons_val_two, Matrix.tail_cons, Matrix.head_cons]
  norm_num

theorem std_three : GP.std (![9, 21 / 2, 12] : Fin 3 → ℝ) ^ 2 = 3 / 2 := by
  unfold GP.std
  rw [mean_three, Real.sq_sqrt (div_nonneg (Finset.sum_nonneg fun i _ => sq_nonneg _) (Nat.cast_nonneg _)), Fin.sum_univ_three]
  simp only [Matrix.cons_val_zero, Matrix.cons_val_one, Matrix.cons_val_two, Matrix.tail_cons, Matrix.head_cons]
  norm_num

/-- C109 is false for hierarchical Kriging.  A second training that raises `ValueError` because there are three responses for two high-fidelity samples has already replaced the mean and the spread: the predictions
change silently.  A second training that raises `ValueError` because there are two responses for three samples leaves an object whose every prediction raises `ValueError`. -/
theorem C109_hk_failed_training_counterexample :
    ∃ (h1 : Heap 1 1) (s1 : HKModel 1), exHKHeap.hkTrain exHKObject exHKWorld ⟨2, exXhigh⟩ 1 ⟨3, exXlow⟩ 0 = (h1, s1, .ok ()) ∧ h1.hkPredict s1 exXhigh = .ok ![6, 15] ∧
      (∃ (h2 : Heap 1 1) (s2 : HKModel 1) (μ : Fin 2 → ℝ), h1.hkTrain s1 exHKWorld ⟨2, exXhigh⟩ 3 ⟨3, exXlow⟩ 0 = (h2, s2, .error .valueError) ∧ h2.hkPredict s2 exXhigh = .ok μ ∧ μ ≠ ![6, 15]) ∧
      ∃ (h2 : Heap 1 1) (s2 : HKModel 1), h1.hkTrain s1 exHKWorld ⟨3, exXlow⟩ 1 ⟨3, exXlow⟩ 0 = (h2, s2, .error .valueError) ∧ ∀ (k : ℕ) (Xnew : Samples k 1), h2.hkPredict s2 Xnew = .error .valueError := by
  obtain ⟨hk', t, ht, e, p1, p2, hb, hex, hp⟩ := exHKHeap_trained
  have hnl : (exHKHeap.arrays 0).1 = 3 := by rw [exHKHeap_a0]
  obtain ⟨hT, hX, hy, hbox, hlf, hno, hm, hsd, hys⟩ := hkTrained_of_train ht
  set h1 := afterTrain exHKHeap 0 ⟨3, exXlow⟩ 0 hk'.lf t.lfFit with hh1
  set s1 := hkAfter exHKObject hk' t with hs1
  have hv1 : h1.view 0 = hk'.lf := by
    have hlf' : (exHKHeap.view 0).train exWorld (Sigma.mk 3 exXlow : Σ n, Samples n 1).2 (respCol exHKHeap 0 hnl) = .ok (hk'.lf, t.lfFit) := by
      rw [respCol_eq exHKHeap_a0 hnl]; exact hlf
    exact view_afterTrain_self hnl hlf'
  have a0 : h1.arrays 0 = ⟨3, exYlow⟩ := exHKHeap_a0
  have a1 : h1.arrays 1 = ⟨2, ![6, 15]⟩ := exHKHeap_a1
  have a3 : h1.arrays 3 = ⟨3, ![9, 21 / 2, 12]⟩ := exHKHeap_a3
  have hnl1 : (h1.arrays 0).1 = 3 := by rw [a0]
  obtain ⟨lf2, t2, ht2, hf2, _⟩ := isEx_trains_any (hv1 ▸ hex : IsEx (h1.view 0)) exXlow exYlow 0 1 (by simp [exYlow])
  have ht2' : (h1.view 0).train exWorld (Sigma.mk 3 exXlow : Σ n, Samples n 1).2 (respCol h1 0 hnl1) = .ok (lf2, t2) := by rw [respCol_eq a0 hnl1]; exact ht2
  have e2 := train_of_view (X := ⟨3, exXlow⟩) hnl1 ht2'
  set h2 := afterTrain h1 0 ⟨3, exXlow⟩ 0 lf2 t2 with hh2
  have q3 : h2.predictMean 0 exXlow = .ok exYlow := (predictMean_afterTrain hnl1 ht2' exXlow).trans hf2
  have q2 : h2.predictMean 0 exXhigh = .ok ![2, 5] := by
    have := predictMean_select (trained_of_train ht2).1 exXlow Fin.castSucc (fun i => rfl) hf2
    refine ((predictMean_afterTrain hnl1 ht2' exXhigh).trans this).trans (congrArg _ ?_)
    funext i
    fin_cases i <;> rfl
  have ql : ∀ (k : ℕ) (Xnew : Samples k 1), ∃ μl, h2.predictMean 0 Xnew = .ok μl := fun k Xnew =>
    ⟨_, (predictMean_afterTrain hnl1 ht2' Xnew).trans (predictMean_eq (trained_of_train ht2).1 Xnew)⟩
  have hb2 : h2.boxes s1.bound = hk'.box := hbox.symm
  have hr : ∀ j, (h2.boxes s1.bound).high j - (h2.boxes s1.bound).low j ≠ 0 := by rw [hb2]; exact hT.range
  have hs3 : std (![9, 21 / 2, 12] : Fin 3 → ℝ) ≠ 0 := by
    intro h0
    have := std_three
    rw [h0] at this
    norm_num at this
  have hs2 : std (![6, 15] : Fin 2 → ℝ) ≠ 0 := by
    intro h0
    have := std_six_fifteen
    rw [h0] at this
    norm_num at this
  have hst3 : std (h2.arrays 3).2 = std (![9, 21 / 2, 12] : Fin 3 → ℝ) := by rw [show h2.arrays 3 = ⟨3, ![9, 21 / 2, 12]⟩ from a3]
  have hmn3 : GP.mean (h2.arrays 3).2 = 21 / 2 := by rw [show h2.arrays 3 = ⟨3, ![9, 21 / 2, 12]⟩ from a3]; exact mean_three
  have hst1 : std (h2.arrays 1).2 = std (![6, 15] : Fin 2 → ℝ) := by rw [show h2.arrays 1 = ⟨2, ![6, 15]⟩ from a1]
  refine ⟨h1, s1, e, (hp 2 exXhigh).2.trans p2, ?_, ?_⟩
  · have e3 := hkTrainHf_mismatch (h := h2) (s := s1) (w := exHKWorld.hf) (Xh := ⟨2, exXhigh⟩) (ah := 3) hr (by rw [hst3]; exact hs3) q2
      (by rw [show h2.arrays 3 = ⟨3, ![9, 21 / 2, 12]⟩ from a3]; decide)
    refine ⟨h2, (h2.hkTrainHf s1 exHKWorld.hf ⟨2, exXhigh⟩ 3).1, fun j => ((![2, 5] j - 21 / 2) / std (![9, 21 / 2, 12] : Fin 3 → ℝ) * t.gls.beta 0 + ((rbfMatrix hk'.kernel.param t.Xhs t.Xhs)ᵀ *ᵥ t.gls.gamma) j) * std (![9, 21 / 2, 12] : Fin 3 → ℝ) + 21 / 2, ?_, ?_, ?_⟩
    · unfold Heap.hkTrain
      have e4 : h1.train s1.lf exHKWorld.lf ⟨3, exXlow⟩ 0 = (h2, .ok ()) := e2
      rw [e4]
      simp only
      rw [e3]
    · rw [e3]
      have hx : (fun i => normPt (h2.boxes s1.bound) (exXhigh i)) = t.Xhs := by rw [hb2, hT.Xhs, hX]
      refine (hkPredict_of (h := h2) (s := { s1 with xhs := some ⟨2, fun i => normPt (h2.boxes s1.bound) (exXhigh i)⟩, yhMean := some (GP.mean (h2.arrays 3).2), yhStd := some (std (h2.arrays 3).2), trend := some ⟨2, scaleCol ![2, 5] (GP.mean (h2.arrays 3).2) (std (h2.arrays 3).2)⟩ })
        exXhigh hr rfl rfl rfl rfl rfl (by rw [hst3]; exact hs3) q2).trans ?_
      congr 1
      funext j
      simp only [hx, hst3, hmn3]
      have : s1.kernel.param = hk'.kernel.param := rfl
      rw [this]
      simp [Matrix.mulVec, dotProduct, scaleCol]
    · intro hμ
      have hpe := hkPredict_eq hT exXhigh p1
      rw [p2] at hpe
      have hpe := Except.ok.inj hpe
      have hx : (fun i => normPt hk'.box (exXhigh i)) = t.Xhs := by rw [hT.Xhs, hX]
      rw [hx, hm, hsd, mean_six_fifteen] at hpe
      set kg := (rbfMatrix hk'.kernel.param t.Xhs t.Xhs)ᵀ *ᵥ t.gls.gamma with hkg
      set σ := std (![6, 15] : Fin 2 → ℝ) with hσ
      set σ' := std (![9, 21 / 2, 12] : Fin 3 → ℝ) with hσ'
      have hne : σ - σ' ≠ 0 := by
        intro h0
        have h1 : σ = σ' := by linarith
        have := std_six_fifteen
        rw [← hσ, h1, hσ', std_three] at this
        norm_num at this
      have key : ∀ j, (![6, 15] j - 21 / 2) = (![2, 5] j - 21 / 2) * t.gls.beta 0 := by
        intro j
        have h4 := congrFun hμ j
        have h5 := congrFun hpe j
        simp only [Pi.add_apply, Matrix.mulVec, dotProduct, Finset.univ_unique, Fin.default_eq_zero, Finset.sum_singleton, scaleCol] at h4 h5
        have h6 : (![6, 15] j - 21 / 2) = (![2, 5] j - 21 / 2) * t.gls.beta 0 + kg j * σ := by
          rw [h5]; field_simp; ring
        have h7 : (![6, 15] j - 21 / 2) = (![2, 5] j - 21 / 2) * t.gls.beta 0 + kg j * σ' := by
          rw [← h4]; field_simp; ring
        have h8 : kg j * (σ - σ') = 0 := by linarith
        rcases mul_eq_zero.mp h8 with h | h
        · rw [h, zero_mul, add_zero] at h6; exact h6
        · exact absurd h hne
      have k0 := key 0
      have k1 := key 1
      simp only [Matrix.cons_val_zero, Matrix.cons_val_one] at k0 k1
      linarith
  · have e3 := hkTrainHf_mismatch (h := h2) (s := s1) (w := exHKWorld.hf) (Xh := ⟨3, exXlow⟩) (ah := 1) hr (by rw [hst1]; exact hs2) q3
      (by rw [show h2.arrays 1 = ⟨2, ![6, 15]⟩ from a1]; decide)
    refine ⟨h2, (h2.hkTrainHf s1 exHKWorld.hf ⟨3, exXlow⟩ 1).1, ?_, fun k Xnew => ?_⟩
    · unfold Heap.hkTrain
      have e4 : h1.train s1.lf exHKWorld.lf ⟨3, exXlow⟩ 0 = (h2, .ok ()) := e2
      rw [e4]
      simp only
      rw [e3]
    · rw [e3]
      obtain ⟨μl, hμl⟩ := ql k Xnew
      exact hkPredict_mismatch (h := h2) (n := 3) (n' := 2) (s := { s1 with xhs := some ⟨3, fun i => normPt (h2.boxes s1.bound) (exXlow i)⟩, yhMean := some (GP.mean (h2.arrays 1).2), yhStd := some (std (h2.arrays 1).2), trend := some ⟨3, scaleCol exYlow (GP.mean (h2.arrays 1).2) (std (h2.arrays 1).2)⟩ })
        Xnew hr rfl rfl rfl rfl rfl (by rw [hst1]; exact hs2) hμl (by decide)

/-! ## C110: arrays written after training -/

/-- C110 (hierarchical Kriging, partial). After a training that returned: writing into the high-fidelity response array changes no prediction; writing `y'` into the low-fidelity response array moves the low-fidelity predictions
to the mean and spread of the new content, and changes the high-fidelity predictions by `beta` times that change.  Missing: the property (no write changes predictions) does not hold for the low-fidelity array, see
`C110_hk_response_arrays_counterexample`. -/
theorem C110_hk_response_arrays_partial (h : Heap d q) (s : HKModel d) (w : MFWorld d) (Xh Xl : Σ n, Samples n d) (ah al : Ref) (hal : ah ≠ al) (h' : Heap d q) (s' : HKModel d)
    (hok : h.hkTrain s w Xh ah Xl al = (h', s', .ok ())) :
    ∃ beta : Fin 1 → ℝ, s'.beta = some beta ∧ ∀ (y' : ℕ → ℝ) (k : ℕ) (Xnew : Samples k d),
    ((h'.step (.writeResponses ah y')).hkPredict s' Xnew = h'.hkPredict s' Xnew ∧ (h'.step (.writeResponses ah y')).hkPredictStd s' Xnew = h'.hkPredictStd s' Xnew ∧
      (h'.step (.writeResponses ah y')).hkPredictLf s' Xnew = h'.hkPredictLf s' Xnew) ∧
    ∃ μl μ νl, h'.hkPredictLf s' Xnew = .ok μl ∧ h'.hkPredict s' Xnew = .ok μ ∧
      (∀ j, νl j = (μl j - mean (h'.arrays al).2) / std (h'.arrays al).2 * std (fun i : Fin (h'.arrays al).1 => y' i) + mean (fun i : Fin (h'.arrays al).1 => y' i)) ∧
      (h'.step (.writeResponses al y')).hkPredictLf s' Xnew = .ok νl ∧ (h'.step (.writeResponses al y')).hkPredict s' Xnew = .ok fun j => μ j + beta 0 * (νl j - μl j) := by
  obtain ⟨hnh, hnl, hk', t, ht⟩ := hkTrain_ok_view (show (h.hkTrain s w Xh ah Xl al).2.2 = .ok () by rw [hok])
  have e := hkTrain_of_view hnh hnl ht
  rw [hok] at e
  simp only [Prod.mk.injEq, and_true] at e
  obtain ⟨rfl, rfl⟩ := e
  obtain ⟨hT, _, _, hbox, hlf, _⟩ := hkTrained_of_train ht
  have hlf' : (h.view s.lf).train w.lf Xl.2 (respCol h al hnl) = .ok (hk'.lf, t.lfFit) := hlf
  set h1 := afterTrain h s.lf Xl al hk'.lf t.lfFit with hh1
  refine ⟨t.gls.beta, rfl, fun y' k Xnew => ?_⟩
  have hsy : (h1.models s.lf).sampleY = some al := by simp [hh1, afterTrain]
  have hpl : ∀ {k : ℕ} (Xnew : Samples k d), h1.predictMean s.lf Xnew = GP.predictMean hk'.lf t.lfFit Xnew := fun Xnew => predictMean_afterTrain hnl hlf' Xnew
  have hb : h1.boxes s.bound = hk'.box := hbox.symm
  have w1 : SamePredictions h1 (h1.step (.writeResponses ah y')) s.lf := by
    have := C94_models_independent_partial [Call.writeResponses ah y'] h1 s.lf (by
      intro c hc
      rw [List.mem_singleton] at hc
      subst hc
      show (h1.models s.lf).sampleY ≠ some ah
      rw [hsy]
      exact fun h3 => hal (Option.some.inj h3).symm)
    exact this
  have base := hkPredict_after (h := h1) (s := s) hT hb Xnew (hpl Xnew)
  have base2 := hkPredict_after (h := h1.step (.writeResponses ah y')) (s := s) hT hb Xnew (((w1 k Xnew).1).trans (hpl Xnew))
  refine ⟨⟨base2.1.trans base.1.symm, base2.2.trans base.2.symm, (w1 k Xnew).1⟩, ?_⟩
  have hsd : std (h1.arrays al).2 ≠ 0 := by
    have h3 : h1.arrays al = h.arrays al := rfl
    rw [h3, ← std_respCol h al hnl]
    exact (train_ok_iff.mp hlf').stdne
  obtain ⟨μl, hμl⟩ : ∃ μl, h1.predictMean s.lf Xnew = .ok μl := ⟨_, (hpl Xnew).trans (predictMean_eq (trained_of_train hlf').1 Xnew)⟩
  obtain ⟨v, hv1, hv2⟩ := predictMean_write hμl hsy y'
  have hr : ∀ j, (h1.boxes s.bound).high j - (h1.boxes s.bound).low j ≠ 0 := by rw [hb]; exact hT.range
  have hst := hT.stdpos.ne'
  have m1 := hkPredict_of (h := h1) (s := hkAfter s hk' t) Xnew hr rfl rfl rfl rfl rfl hst hμl
  have m2 := hkPredict_of (h := h1.step (.writeResponses al y')) (s := hkAfter s hk' t) Xnew hr rfl rfl rfl rfl rfl hst hv2
  refine ⟨μl, _, fun j => v j * std (fun i : Fin (h1.arrays al).1 => y' i) + mean (fun i : Fin (h1.arrays al).1 => y' i), hμl, m1, fun j => ?_, hv2, ?_⟩
  · rw [hv1 j, add_sub_cancel_right, mul_div_assoc, div_self hsd, mul_one]
  · rw [m2]
    congr 1
    funext j
    have hbx : (h1.step (.writeResponses al y')).boxes = h1.boxes := rfl
    simp only [Pi.add_apply, Matrix.mulVec, dotProduct, Finset.univ_unique, Fin.default_eq_zero, Finset.sum_singleton, scaleCol, hkAfter, hbx]
    field_simp
    ring

/-- C110 is false for hierarchical Kriging: adding 1 to the caller's low-fidelity response array after training adds 1 to the low-fidelity predictions, and the high-fidelity responses are no longer reproduced. -/
theorem C110_hk_response_arrays_counterexample :
    ∃ (h' : Heap 1 1) (s' : HKModel 1) (y' : ℕ → ℝ) (μ : Fin 2 → ℝ), exHKHeap.hkTrain exHKObject exHKWorld ⟨2, exXhigh⟩ 1 ⟨3, exXlow⟩ 0 = (h', s', .ok ()) ∧
      h'.hkPredict s' exXhigh = .ok ![6, 15] ∧ (h'.step (.writeResponses 0 y')).hkPredictLf s' exXhigh = .ok ![3, 6] ∧
      (h'.step (.writeResponses 0 y')).hkPredict s' exXhigh = .ok μ ∧ μ ≠ ![6, 15] := by
  obtain ⟨hk', t, ht, e, p1, p2, hb, hex, hp⟩ := exHKHeap_trained
  obtain ⟨beta, hbeta, key⟩ := C110_hk_response_arrays_partial exHKHeap exHKObject exHKWorld ⟨2, exXhigh⟩ ⟨3, exXlow⟩ 1 0 (by decide) _ _ e
  have hbe : beta = t.gls.beta := (Option.some.inj hbeta).symm
  obtain ⟨_, μl, μ, νl, m1, m2, m3, m4, m5⟩ := key (fun i => if h : i < 3 then exYlow ⟨i, h⟩ + 1 else 0) 2 exXhigh
  have hl : μl = ![2, 5] := Except.ok.inj (m1.symm.trans ((hp 2 exXhigh).1.trans p1))
  have hμ : μ = ![6, 15] := Except.ok.inj (m2.symm.trans ((hp 2 exXhigh).2.trans p2))
  have hs : std exYlow ≠ 0 := by
    obtain ⟨gp', t', ht', _⟩ := isEx_trains_any (gp := exGP (some 0)) ⟨_, rfl⟩ exXlow exYlow 0 1 (by simp [exYlow])
    exact (train_ok_iff.mp ht').stdne
  have a0 : (afterTrain exHKHeap 0 ⟨3, exXlow⟩ 0 hk'.lf t.lfFit).arrays 0 = ⟨3, exYlow⟩ := exHKHeap_a0
  have hν : ∀ j, νl j = μl j + 1 := by
    intro j
    rw [m3 j, a0]
    have e3 : (fun i : Fin 3 => if h : (i : ℕ) < 3 then exYlow ⟨i, h⟩ + 1 else 0) = fun i => 1 * exYlow i + 1 := by
      funext i; rw [dif_pos i.isLt, one_mul]
    have e4 : mean (fun i : Fin 3 => 1 * exYlow i + 1) = mean exYlow + 1 := by simpa using mean_add_one (by norm_num) exYlow
    simp only
    rw [e3, std_affine, e4, abs_one, one_mul, div_mul_cancel₀ _ hs]
    ring
  refine ⟨_, _, _, _, e, (hp 2 exXhigh).2.trans p2, ?_, m5, fun hc => ?_⟩
  · rw [m4]
    congr 1
    funext j
    rw [hν j, hl]
    fin_cases j <;> norm_num
  · have := congrFun hc 0
    rw [hν 0, hμ, hl, hbe] at this
    simp only [Matrix.cons_val_zero] at this
    apply hb
    linarith

end Mfpml.Props
