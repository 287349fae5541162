import Verif.Model.UpdateModel
import Verif.Lemmas.CKObjects
import Verif.Props.CoKriging
import Verif.Props.GPObjects

/-!
# `update_model` (C147)
-/

set_option linter.unusedSectionVars false

namespace Mfpml.Props

open Mfpml.GP Mfpml.Spec Mfpml.CKObjects
open Mfpml.EA (Box)

variable {d q n m : ℕ}

theorem rawModel_train_X (s : RawModel d q) (w : World d) (X : Samples n d) (y : Σ n, Fin n → ℝ) : (s.train w X y).1.X = some ⟨n, X⟩ := by
  unfold RawModel.train RawModel.fit
  simp only
  split
  · rfl
  · split
    · split
      · rfl
      · split <;> rfl
    · rfl

theorem rawModel_fit_known (s : RawModel d q) (σ : ℝ) (hs : s.noise = .known σ) (w : World d) (X : Samples n d) (ys : Fin n → ℝ) : (s.fit w X ys).1.noise = .known σ := by
  unfold RawModel.fit
  cases h1 : s.view.fitHyper w X ys with
  | error e => exact hs
  | ok p =>
    obtain ⟨theta, noise⟩ := p
    have hno : noise = σ := by
      unfold RawGP.fitHyper at h1
      simp only [RawModel.view, hs, Noise.toOption] at h1
      obtain ⟨x, _, h5⟩ := Py.bind_ok.mp h1
      exact (congrArg Prod.snd (Except.ok.inj h5)).symm
    subst hno
    simp only
    split <;> rfl

theorem rawModel_train_known (s : RawModel d q) (σ : ℝ) (hs : s.noise = .known σ) (w : World d) (X : Samples n d) (y : Σ n, Fin n → ℝ) : (s.train w X y).1.noise = .known σ := by
  by_cases hn : y.1 = n
  · obtain ⟨k, r, o, v, X0, W0⟩ := s
    dsimp only at hs
    subst hs
    unfold RawModel.train
    dsimp only
    rw [dif_pos hn]
    exact rawModel_fit_known _ σ rfl _ _ _
  · rw [rawTrain_mismatch (by simp [hs]) w X y hn]
    exact hs

/-- A training that returned leaves the same object whatever was trained before, if the settings and the noise agree. -/
theorem rawModel_train_congr {s s' : RawModel d q} (S : RawSettings s s') (σ : ℝ) (hs : s.noise = .known σ) (hs' : s'.noise = .known σ) (w : World d) (X : Samples n d) (y : Σ n, Fin n → ℝ)
    {W : RawWeights n q} (h : (s.train w X y).2 = .ok W) : s'.train w X y = s.train w X y := by
  by_cases hn : y.1 = n
  · obtain ⟨n', y⟩ := y
    dsimp only at hn
    subst hn
    have hv : s'.view.train w X y = s.view.train w X y := by
      obtain ⟨T1, T2, T3, T4⟩ := S
      obtain ⟨⟨lp, ll, lh⟩, lr, lo, ln, lX, lW⟩ := s
      obtain ⟨⟨lp', ll', lh'⟩, lr', lo', ln', lX', lW'⟩ := s'
      dsimp only at T1 T2 T3 T4 hs hs'
      subst T1 T2 T3 T4 hs hs'
      rfl
    have A := rawTrain_eq (s := s) (by simp [hs]) w X y
    have B := rawTrain_eq (s := s') (by simp [hs']) w X y
    rw [hv] at B
    cases hr : s.view.train w X y with
    | error e => rw [A.2 e hr] at h; cases h
    | ok r =>
      rw [A.1 r.1 r.2 hr, B.1 r.1 r.2 hr]
      unfold rawAfter
      rw [S.regr, S.optimizer]
  · rw [rawTrain_mismatch (by simp [hs]) w X y hn] at h
    cases h

/-- All samples (responses) given to an object: those of the first training and those of every later call. -/
def together {α : Type} (first : Σ n, Fin n → α) (more : List (Σ n, Fin n → α)) : Σ n, Fin n → α := more.foldl concat first

private theorem updates_data (s : RawObject d q) (X : Σ n, Samples n d) (y : Σ n, Fin n → ℝ) (hX : s.model.X = some X) (hy : s.y = some y)
    (more : List (World d × (Σ n, Samples n d) × (Σ n, Fin n → ℝ))) :
    (s.updates more).1.model.X = some (together X (more.map fun u => u.2.1)) ∧ (s.updates more).1.y = some (together y (more.map fun u => u.2.2)) ∧
    RawSettings s.model (s.updates more).1.model ∧ ∀ σ, s.model.noise = .known σ → (s.updates more).1.model.noise = .known σ := by
  induction more generalizing s X y with
  | nil => exact ⟨hX, hy, ⟨rfl, rfl, rfl, rfl⟩, fun _ h => h⟩
  | cons u rest ih =>
    obtain ⟨w, X', y'⟩ := u
    have hu : s.update w X' y' = s.train w (concat X X') (concat y y') := by
      unfold RawObject.update
      rw [hX, hy]
    have h := ih (s.train w (concat X X') (concat y y')).1 (concat X X') (concat y y') (rawModel_train_X _ _ _ _) rfl
    unfold RawObject.updates
    simp only [hu]
    refine ⟨h.1, h.2.1, ?_, fun σ hσ => h.2.2.2 σ (rawModel_train_known _ σ hσ _ _ _)⟩
    have S := rawTrain_settings s.model w (concat X X').2 (concat y y')
    have S' := h.2.2.1
    exact ⟨S'.regr.trans S.regr, S'.optimizer.trans S.optimizer, S'.low.trans S.low, S'.high.trans S.high⟩

/-- C147, before the first training: every `update_model` call raises `AttributeError` and changes nothing. -/
theorem C147_untrained (kernel : RBF d) (regr : Basis d q) (optimizer : Option PopOptimizer) (noise : Noise) (us : List (World d × (Σ n, Samples n d) × (Σ n, Fin n → ℝ))) :
    (RawObject.new kernel regr optimizer noise).updates us = (RawObject.new kernel regr optimizer noise, us.map fun _ => .error .attributeError) := by
  induction us with
  | nil => rfl
  | cons u us ih =>
    show (((RawObject.new kernel regr optimizer noise).updates us).1, Except.error PyErr.attributeError :: ((RawObject.new kernel regr optimizer noise).updates us).2) = _
    rw [ih]
    rfl

/-- C147, partial.  Train a model, then call `update_model` any number of times, whether the calls raise or not, and once more.  If the last call returns, the object is the one obtained by training a fresh model, with the noise
of the first training, on all samples together, those of calls that raised included.  If the model is constructed with a given noise, that is the noise of the first training.
Missing: a model whose noise is estimated is not as if trained on all samples (`C147_noise_counterexample`), and calls that raised leave their samples behind (`C147_failed_update_counterexample`). -/
theorem C147_update_partial (kernel : RBF d) (regr : Basis d q) (optimizer : Option PopOptimizer) (noise : Noise) (w₀ : World d) (X₀ : Σ n, Samples n d) (y₀ : Σ n, Fin n → ℝ) (s : RawObject d q)
    (h₀ : (RawObject.new kernel regr optimizer noise).train w₀ X₀ y₀ = (s, .ok ())) (more : List (World d × (Σ n, Samples n d) × (Σ n, Fin n → ℝ))) (w : World d) (X : Σ n, Samples n d) (y : Σ n, Fin n → ℝ)
    (h : ((s.updates more).1.update w X y).2 = .ok ()) :
    ∃ σ, s.model.noise = .known σ ∧ (∀ v, noise = .known v → σ = v) ∧
      (s.updates more).1.update w X y = (RawObject.new kernel regr optimizer (.known σ)).train w (together X₀ (more.map (fun u => u.2.1) ++ [X])) (together y₀ (more.map (fun u => u.2.2) ++ [y])) := by
  have hs : s = ((RawObject.new kernel regr optimizer noise).train w₀ X₀ y₀).1 := by rw [h₀]
  have hok : ((RawObject.new kernel regr optimizer noise).train w₀ X₀ y₀).2 = .ok () := by rw [h₀]
  have hW : ∃ W, ((RawObject.new kernel regr optimizer noise).model.train w₀ X₀.2 y₀).2 = .ok W := by
    unfold RawObject.train at hok
    rcases hr : ((RawObject.new kernel regr optimizer noise).model.train w₀ X₀.2 y₀).2 with e | W
    · rw [hr] at hok; cases hok
    · exact ⟨W, rfl⟩
  obtain ⟨W, hW⟩ := hW
  have hn0 : noise ≠ .nonFinite := by
    intro hc
    rw [rawTrain_nonFinite (by exact hc)] at hW
    cases hW
  have hlen : y₀.1 = X₀.1 := by
    by_contra hc
    rw [rawTrain_mismatch (by exact hn0) _ _ _ hc] at hW
    cases hW
  have hσ : ∃ σ, s.model.noise = .known σ ∧ ∀ v, noise = .known v → σ = v := by
    obtain ⟨nx, X₀⟩ := X₀
    obtain ⟨ny, y₀⟩ := y₀
    dsimp only at hlen
    subst hlen
    have A := rawTrain_eq (s := (RawObject.new kernel regr optimizer noise).model) (by exact hn0) w₀ X₀ y₀
    cases hr : (RawObject.new kernel regr optimizer noise).model.view.train w₀ X₀ y₀ with
    | error e => rw [A.2 e hr] at hW; cases hW
    | ok r =>
      obtain ⟨gp, t⟩ := r
      have hm : s.model = rawAfter (RawObject.new kernel regr optimizer noise).model gp t := by
        rw [hs]
        show ((RawObject.new kernel regr optimizer noise).model.train w₀ X₀ ⟨_, y₀⟩).1 = _
        rw [A.1 gp t hr]
      obtain ⟨hT, _⟩ := rawTrained_of_train hr
      have hk : s.model.noise = .known t.noise := by
        rw [hm]
        show Noise.ofOption gp.noise = _
        rw [hT.noise]; rfl
      refine ⟨t.noise, hk, fun v hv => ?_⟩
      have := rawModel_train_known (RawObject.new kernel regr optimizer noise).model v hv w₀ X₀ ⟨_, y₀⟩
      rw [A.1 gp t hr, ← hm, hk] at this
      injection this
  obtain ⟨σ, hk, hv⟩ := hσ
  refine ⟨σ, hk, hv, ?_⟩
  have hX0 : s.model.X = some X₀ := by rw [hs]; exact rawModel_train_X _ _ _ _
  have hy0 : s.y = some y₀ := by rw [hs]; rfl
  obtain ⟨d1, d2, d3, d4⟩ := updates_data s X₀ y₀ hX0 hy0 more
  have hu : (s.updates more).1.update w X y = (s.updates more).1.train w (concat (together X₀ (more.map fun u => u.2.1)) X) (concat (together y₀ (more.map fun u => u.2.2)) y) := by
    unfold RawObject.update
    rw [d1, d2]
  have e1 : together X₀ (more.map (fun u => u.2.1) ++ [X]) = concat (together X₀ (more.map fun u => u.2.1)) X := by
    unfold together; rw [List.foldl_append]; rfl
  have e2 : together y₀ (more.map (fun u => u.2.2) ++ [y]) = concat (together y₀ (more.map fun u => u.2.2)) y := by
    unfold together; rw [List.foldl_append]; rfl
  rw [hu] at h
  rw [hu, e1, e2]
  generalize concat (together X₀ (more.map fun u => u.2.1)) X = XX at h ⊢
  generalize concat (together y₀ (more.map fun u => u.2.2)) y = yy at h ⊢
  have S0 := rawTrain_settings (RawObject.new kernel regr optimizer noise).model w₀ X₀.2 y₀
  have hsm : s.model = ((RawObject.new kernel regr optimizer noise).model.train w₀ X₀.2 y₀).1 := by rw [hs]; rfl
  rw [← hsm] at S0
  have S : RawSettings (s.updates more).1.model (RawObject.new kernel regr optimizer (.known σ)).model :=
    ⟨(d3.regr.trans S0.regr).symm, (d3.optimizer.trans S0.optimizer).symm, (d3.low.trans S0.low).symm, (d3.high.trans S0.high).symm⟩
  unfold RawObject.train at h ⊢
  rcases hr : ((s.updates more).1.model.train w XX.2 yy).2 with e | W'
  · rw [hr] at h; cases h
  · have := rawModel_train_congr S σ (d4 σ hk) rfl w XX.2 yy hr
    rw [this, hr]

/-- C147 is false of calls that raise: their samples stay in the model.  After a call with different numbers of samples and responses every later call with matching numbers raises too, however often it is repeated. -/
theorem C147_failed_update_counterexample (s : RawObject d q) (X : Σ n, Samples n d) (y : Σ n, Fin n → ℝ) (hX : s.model.X = some X) (hy : s.y = some y) (hn : X.1 = y.1) (σ : ℝ) (hσ : s.model.noise = .known σ)
    (w : World d) (X' : Σ n, Samples n d) (y' : Σ n, Fin n → ℝ) (hbad : X'.1 ≠ y'.1) (more : List (World d × (Σ n, Samples n d) × (Σ n, Fin n → ℝ))) (hmore : ∀ u ∈ more, u.2.1.1 = u.2.2.1) :
    ∀ r ∈ (s.updates ((w, X', y') :: more)).2, r = .error .valueError := by
  have key : ∀ (more : List (World d × (Σ n, Samples n d) × (Σ n, Fin n → ℝ))) (s : RawObject d q) (X : Σ n, Samples n d) (y : Σ n, Fin n → ℝ), s.model.X = some X → s.y = some y → s.model.noise = .known σ →
      X.1 ≠ y.1 → (∀ u ∈ more, u.2.1.1 = u.2.2.1) → ∀ r ∈ (s.updates more).2, r = .error .valueError := by
    intro more
    induction more with
    | nil => intro s X y _ _ _ _ _ r hr; cases hr
    | cons u rest ih =>
      intro s X y hX hy hσ hne hm r hr
      obtain ⟨w, X', y'⟩ := u
      have hu : s.update w X' y' = s.train w (concat X X') (concat y y') := by
        unfold RawObject.update
        rw [hX, hy]
      have hne' : (concat y y').1 ≠ (concat X X').1 := by
        have := hm _ List.mem_cons_self
        dsimp only at this
        show y.1 + y'.1 ≠ X.1 + X'.1
        omega
      have ht := rawTrain_mismatch (s := s.model) (by simp [hσ]) w (concat X X').2 (concat y y') hne'
      unfold RawObject.updates at hr
      simp only [hu] at hr
      rcases List.mem_cons.mp hr with rfl | hr
      · unfold RawObject.train
        rw [ht]
        rfl
      · exact ih _ (concat X X') (concat y y') (rawModel_train_X _ _ _ _) rfl (rawModel_train_known _ σ hσ _ _ _) hne'.symm (fun u hu => hm u (List.mem_cons_of_mem _ hu)) r hr
  intro r hr
  have hu : s.update w X' y' = s.train w (concat X X') (concat y y') := by
    unfold RawObject.update
    rw [hX, hy]
  have hne' : (concat y y').1 ≠ (concat X X').1 := by
    show y.1 + y'.1 ≠ X.1 + X'.1
    omega
  have ht := rawTrain_mismatch (s := s.model) (by simp [hσ]) w (concat X X').2 (concat y y') hne'
  unfold RawObject.updates at hr
  simp only [hu] at hr
  rcases List.mem_cons.mp hr with rfl | hr
  · unfold RawObject.train
    rw [ht]
    rfl
  · exact key more _ (concat X X') (concat y y') (rawModel_train_X _ _ _ _) rfl (rawModel_train_known _ σ hσ _ _ _) hne'.symm hmore r hr

/-! ## A model with unknown noise -/

/-- A model with estimated noise and a constant trend. -/
noncomputable def exObject (noise : Noise) : RawObject 1 1 := RawObject.new (RBF.mk' (fun _ => 0) (-2) 3) (ordinary 1) none noise

/-- Every training of the example with non-zero noise succeeds; it stores the samples and settles the noise. -/
theorem exObject_trains (s : RawObject 1 1) (S : RawSettings (exObject .unknown).model s.model) (h0 : s.model.noise = .unknown ∨ ∃ σ, σ ≠ 0 ∧ s.model.noise = .known σ) (w : World 1) (hw : GoodMinimizer w.mini)
    (hs : w.starts ≠ []) (hsN : w.startsNoise ≠ []) (X : Samples n 1) (y : Fin n → ℝ) (hn : 0 < n) :
    ∃ gp t, s.model.view.train w X y = .ok (gp, t) ∧ s.train w ⟨n, X⟩ ⟨n, y⟩ = ({ model := rawAfter s.model gp t, y := some ⟨n, y⟩ }, .ok ()) := by
  have hnf : s.model.noise ≠ .nonFinite := by rcases h0 with h | ⟨σ, _, h⟩ <;> simp [h]
  obtain ⟨gp, t, ht⟩ := rawTrain_succeeds (gp := s.model.view) (w := w) (X := X) (y := y)
    (by show s.model.kernel.boundLow ≤ s.model.kernel.boundHigh; rw [S.low, S.high]; simp [exObject, RawObject.new, RBF.mk']; norm_num) hw
    (fun run h => by have : s.model.optimizer = some run := h; rw [S.optimizer] at this; simp [exObject, RawObject.new] at this) hs hsN hn
    (by show IndepColumns (regrMatrix s.model.regr X); rw [S.regr]; exact ordinary_indep X hn)
    (fun h => by
      have h' : s.model.noise.toOption = some 0 := h
      rcases h0 with h | ⟨σ, hσ, h⟩ <;> rw [h] at h' <;> simp [Noise.toOption] at h'
      exact absurd h' hσ)
  refine ⟨gp, t, ht, ?_⟩
  unfold RawObject.train
  rw [(rawTrain_eq hnf w X y).1 gp t ht]
  rfl

/-- The noise estimated by a one-restart search that answers one corner of the bounds. -/
theorem exObject_noise (mini : Minimizer) (upper : Bool) (hmini : ∀ p obj x0 lo hi r, mini p obj x0 lo hi = .ok r → r.1 = if upper then hi else lo) (X : Samples n 1) (y : Fin n → ℝ) (gp : RawGP 1 1) (t : RawFit n 1 1)
    (h : (exObject .unknown).model.view.train { mini := mini, starts := [fun _ => 0], startsNoise := [fun _ => 0] } X y = .ok (gp, t)) :
    gp.noise = some (if upper then noiseHigh else noiseLow) := by
  unfold RawGP.train at h
  obtain ⟨⟨theta, noise⟩, h1, h⟩ := Py.bind_ok.mp h
  obtain ⟨g, h2, h⟩ := Py.bind_ok.mp h
  simp only [Except.ok.injEq, Prod.mk.injEq] at h
  rw [← h.1]
  unfold RawGP.fitHyper at h1
  simp only [exObject, RawObject.new, RawModel.view, Noise.toOption] at h1
  obtain ⟨x, hx, h5⟩ := Py.bind_ok.mp h1
  simp only [Except.ok.injEq, Prod.mk.injEq] at h5
  unfold searchHyper at hx
  obtain ⟨r, h6, h7⟩ := Py.bind_ok.mp hx
  unfold restartLoop at h6
  obtain ⟨⟨x', f⟩, h8, h9⟩ := Py.bind_ok.mp h6
  simp only [WithTop.coe_lt_top, if_true] at h9
  unfold restartLoop at h9
  simp only [Except.ok.injEq] at h9
  rw [← h9] at h7
  simp only [Except.ok.injEq] at h7
  have := hmini _ _ _ _ _ _ h8
  dsimp only at this
  show some noise = _
  rw [← h5.2, ← h7, this]
  cases upper
  · simp only [Bool.false_eq_true, if_false]
    exact congrArg some (Fin.snoc_last (α := fun _ => ℝ) _ _)
  · simp only [if_true]
    exact congrArg some (Fin.snoc_last (α := fun _ => ℝ) _ _)

theorem cornerMinimizer_value (p : ℕ) (obj : (Fin p → ℝ) → Py ℝ) (x0 lo hi : Fin p → ℝ) (r) (h : cornerMinimizer p obj x0 lo hi = .ok r) : r.1 = lo := by
  unfold cornerMinimizer at h
  obtain ⟨f, _, hr⟩ := Py.bind_ok.mp h
  rw [← Except.ok.inj hr]

theorem upperMinimizer_value (p : ℕ) (obj : (Fin p → ℝ) → Py ℝ) (x0 lo hi : Fin p → ℝ) (r) (h : upperMinimizer p obj x0 lo hi = .ok r) : r.1 = hi := by
  unfold upperMinimizer at h
  obtain ⟨f, _, hr⟩ := Py.bind_ok.mp h
  rw [← Except.ok.inj hr]

/-- C147 is false of a model whose noise is to be estimated: the noise is settled by the first training and an update does not estimate it again.  Here the update returns, and leaves a noise other than the one a fresh model
estimates from the same samples in the same environment. -/
theorem C147_noise_counterexample (X X' : Σ n, Samples n 1) (y : Fin X.1 → ℝ) (y' : Fin X'.1 → ℝ) (hn : 0 < X.1) :
    ∃ s s₁ s₂ : RawObject 1 1, (exObject .unknown).train exWorld X ⟨_, y⟩ = (s, .ok ()) ∧ s.update exWorldUp X' ⟨_, y'⟩ = (s₁, .ok ()) ∧
      (exObject .unknown).train exWorldUp (concat X X') (concat ⟨_, y⟩ ⟨_, y'⟩) = (s₂, .ok ()) ∧ s₁.model.noise ≠ s₂.model.noise := by
  obtain ⟨gp, t, h1, e1⟩ := exObject_trains (exObject .unknown) ⟨rfl, rfl, rfl, rfl⟩ (.inl rfl) exWorld cornerMinimizer_good (by simp [exWorld]) (by simp [exWorld]) X.2 y hn
  have n1 := exObject_noise cornerMinimizer false (fun p obj x0 lo hi r h => cornerMinimizer_value p obj x0 lo hi r h) X.2 y gp t h1
  have hk : (rawAfter (exObject .unknown).model gp t).noise = .known noiseLow := by
    show Noise.ofOption gp.noise = _
    rw [n1]; rfl
  have hXs : (rawAfter (exObject .unknown).model gp t).X = some X := by
    show some _ = _
    rw [(rawTrained_of_train h1).2.1]
  have hS : RawSettings (exObject .unknown).model (rawAfter (exObject .unknown).model gp t) := by
    have S := rawTrain_settings (exObject .unknown).model exWorld X.2 ⟨_, y⟩
    rwa [(rawTrain_eq (by simp [exObject, RawObject.new]) exWorld X.2 y).1 gp t h1] at S
  have hn' : 0 < X.1 + X'.1 := by omega
  obtain ⟨gp2, t2, h2, e2⟩ := exObject_trains { model := rawAfter (exObject .unknown).model gp t, y := some ⟨_, y⟩ } hS (.inr ⟨_, by norm_num [noiseLow], hk⟩) exWorldUp upperMinimizer_good (by simp [exWorldUp])
    (by simp [exWorldUp]) (concat X X').2 (concat ⟨_, y⟩ ⟨_, y'⟩).2 hn'
  obtain ⟨gp3, t3, h3, e3⟩ := exObject_trains (exObject .unknown) ⟨rfl, rfl, rfl, rfl⟩ (.inl rfl) exWorldUp upperMinimizer_good (by simp [exWorldUp]) (by simp [exWorldUp])
    (concat X X').2 (concat ⟨_, y⟩ ⟨_, y'⟩).2 hn'
  have n3 := exObject_noise upperMinimizer true (fun p obj x0 lo hi r h => upperMinimizer_value p obj x0 lo hi r h) _ _ gp3 t3 h3
  refine ⟨_, { model := rawAfter (rawAfter (exObject .unknown).model gp t) gp2 t2, y := some (concat ⟨_, y⟩ ⟨_, y'⟩) }, _, e1, ?_, e3, ?_⟩
  · unfold RawObject.update
    simp only [hXs]
    exact e2
  · have hk2 := rawModel_train_known (rawAfter (exObject .unknown).model gp t) noiseLow hk exWorldUp (concat X X').2 (concat ⟨_, y⟩ ⟨_, y'⟩)
    have e2' := congrArg (fun r => r.1.model.noise) e2
    simp only [RawObject.train] at e2'
    rw [← e2']
    intro hc
    have hc' : (.known noiseLow : Noise) = Noise.ofOption gp3.noise := hk2.symm.trans hc
    rw [n3] at hc'
    simp [Noise.ofOption, noiseLow, noiseHigh] at hc'
    norm_num at hc'

/-- The hypotheses of `C147_update_partial` are met with an update that raised in between: train on two samples, update with matching and then with further samples, in whichever environment. -/
example : ∃ s : RawObject 1 1, (exObject .unknown).train exWorld ⟨2, fun i _ => ![0, 1] i⟩ ⟨2, ![0, 4]⟩ = (s, .ok ()) ∧
    (s.update exWorldUp ⟨1, fun _ _ => 2⟩ ⟨2, ![1, 2]⟩).2 = .error .valueError ∧
    ((s.updates [(exWorldUp, ⟨1, fun _ _ => 2⟩, ⟨2, ![1, 2]⟩)]).1.update exWorldUp ⟨2, fun i _ => ![3, 4] i⟩ ⟨1, fun _ => 3⟩).2 = .ok () := by
  obtain ⟨gp, t, h1, e1⟩ := exObject_trains (exObject .unknown) ⟨rfl, rfl, rfl, rfl⟩ (.inl rfl) exWorld cornerMinimizer_good (by simp [exWorld]) (by simp [exWorld]) (fun i _ => ![0, 1] i : Samples 2 1) ![0, 4] (by norm_num)
  have n1 := exObject_noise cornerMinimizer false (fun p obj x0 lo hi r h => cornerMinimizer_value p obj x0 lo hi r h) _ _ gp t h1
  have hk : (rawAfter (exObject .unknown).model gp t).noise = .known noiseLow := by
    show Noise.ofOption gp.noise = _
    rw [n1]; rfl
  have hXs : (rawAfter (exObject .unknown).model gp t).X = some ⟨2, fun i _ => ![0, 1] i⟩ := by
    show some _ = _
    rw [(rawTrained_of_train h1).2.1]
  have hS : RawSettings (exObject .unknown).model (rawAfter (exObject .unknown).model gp t) := by
    have S := rawTrain_settings (exObject .unknown).model exWorld (fun i _ => ![0, 1] i : Samples 2 1) ⟨_, ![0, 4]⟩
    rwa [(rawTrain_eq (by simp [exObject, RawObject.new]) exWorld _ _).1 gp t h1] at S
  generalize hm : rawAfter (exObject .unknown).model gp t = m at hk hXs hS e1
  have hbad := rawTrain_mismatch (s := m) (by simp [hk]) exWorldUp (concat (⟨2, fun i _ => ![0, 1] i⟩ : Σ n, Samples n 1) ⟨1, fun _ _ => 2⟩).2 (concat ⟨2, ![0, 4]⟩ ⟨2, ![1, 2]⟩) (by simp [concat])
  have hu : ({ model := m, y := some ⟨2, ![0, 4]⟩ } : RawObject 1 1).update exWorldUp ⟨1, fun _ _ => 2⟩ ⟨2, ![1, 2]⟩ =
      ({ model := m, y := some ⟨2, ![0, 4]⟩ } : RawObject 1 1).train exWorldUp (concat ⟨2, fun i _ => ![0, 1] i⟩ ⟨1, fun _ _ => 2⟩) (concat ⟨2, ![0, 4]⟩ ⟨2, ![1, 2]⟩) := by
    unfold RawObject.update
    simp only [hXs]
  refine ⟨_, e1, ?_, ?_⟩
  · rw [hu]
    unfold RawObject.train
    rw [hbad]
    rfl
  · simp only [RawObject.updates, hu]
    have S2 := rawTrain_settings m exWorldUp (concat (⟨2, fun i _ => ![0, 1] i⟩ : Σ n, Samples n 1) ⟨1, fun _ _ => 2⟩).2 (concat ⟨2, ![0, 4]⟩ ⟨2, ![1, 2]⟩)
    have k2 := rawModel_train_known m noiseLow hk exWorldUp (concat (⟨2, fun i _ => ![0, 1] i⟩ : Σ n, Samples n 1) ⟨1, fun _ _ => 2⟩).2 (concat ⟨2, ![0, 4]⟩ ⟨2, ![1, 2]⟩)
    have x2 := rawModel_train_X m exWorldUp (concat (⟨2, fun i _ => ![0, 1] i⟩ : Σ n, Samples n 1) ⟨1, fun _ _ => 2⟩).2 (concat ⟨2, ![0, 4]⟩ ⟨2, ![1, 2]⟩)
    obtain ⟨gp3, t3, h3, e3⟩ := exObject_trains (({ model := m, y := some ⟨2, ![0, 4]⟩ } : RawObject 1 1).train exWorldUp (concat ⟨2, fun i _ => ![0, 1] i⟩ ⟨1, fun _ _ => 2⟩) (concat ⟨2, ![0, 4]⟩ ⟨2, ![1, 2]⟩)).1
      ⟨S2.regr.trans hS.regr, S2.optimizer.trans hS.optimizer, S2.low.trans hS.low, S2.high.trans hS.high⟩ (.inr ⟨_, by norm_num [noiseLow], k2⟩) exWorldUp upperMinimizer_good (by simp [exWorldUp]) (by simp [exWorldUp])
      (concat (concat (⟨2, fun i _ => ![0, 1] i⟩ : Σ n, Samples n 1) ⟨1, fun _ _ => 2⟩) ⟨2, fun i _ => ![3, 4] i⟩).2 (concat (concat (⟨2, ![0, 4]⟩ : Σ n, Fin n → ℝ) ⟨2, ![1, 2]⟩) ⟨1, fun _ => 3⟩).2 (by simp [concat])
    have e3' := congrArg Prod.snd e3
    unfold RawObject.update
    have x2' : (({ model := m, y := some ⟨2, ![0, 4]⟩ } : RawObject 1 1).train exWorldUp (concat ⟨2, fun i _ => ![0, 1] i⟩ ⟨1, fun _ _ => 2⟩) (concat ⟨2, ![0, 4]⟩ ⟨2, ![1, 2]⟩)).1.model.X = _ := x2
    have y2' : (({ model := m, y := some ⟨2, ![0, 4]⟩ } : RawObject 1 1).train exWorldUp (concat ⟨2, fun i _ => ![0, 1] i⟩ ⟨1, fun _ _ => 2⟩) (concat ⟨2, ![0, 4]⟩ ⟨2, ![1, 2]⟩)).1.y = some (concat ⟨2, ![0, 4]⟩ ⟨2, ![1, 2]⟩) := rfl
    simp only [x2', y2']
    exact e3'

end Mfpml.Props
