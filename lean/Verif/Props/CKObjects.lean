import Verif.Props.CoKriging
import Verif.Lemmas.CKObjects

/-!
# Co-Kriging as an object (C109, C113): retraining, trainings on equal responses, failed trainings
-/

open scoped BigOperators Matrix

namespace Mfpml.Props

open Mfpml.GP Mfpml.Spec Mfpml.CKObjects
open Mfpml.EA (Box)

variable {n m nh nl d q : ℕ}

/-! ## Specification -/

/-- What a program may do with a `CoKriging` object between its creation and a training, as far as it can change the object: train it, ask for standard deviations, set the kernel parameters of the difference or of the
low-fidelity model.  (`predict(X)` and `predict_lf(X, …)` change nothing.) -/
inductive CKEvent (d : ℕ) where
  | train (w : CKWorld d) (Xh : Σ n, Samples n d) (yh : Σ n, Fin n → ℝ) (Xl : Σ n, Samples n d) (yl : Σ n, Fin n → ℝ)
  | predictStd (X : Σ n, Samples n d)
  | setParams (theta : Fin d → ℝ)
  | setParamsLf (theta : Fin d → ℝ)

/-- One event; exceptions are caught by the program. -/
noncomputable def ckStep (s : CKModel d q) : CKEvent d → CKModel d q
  | .train w Xh yh Xl yl => (s.train w Xh yh Xl yl).1
  | .predictStd X => (s.predictStd X.2).1
  | .setParams theta => { s with kernel := s.kernel.setParams theta }
  | .setParamsLf theta => { s with lf := { s.lf with kernel := s.lf.kernel.setParams theta } }

/-- The object after the events. -/
noncomputable def ckHistory (s : CKModel d q) (events : List (CKEvent d)) : CKModel d q := events.foldl ckStep s

/-- The high-fidelity responses of a training are not all equal. -/
def CKEvent.Varied : CKEvent d → Prop
  | .train _ _ yh _ _ => ∃ i j, yh.2 i ≠ yh.2 j
  | _ => True

/-- The event is a training with high-fidelity responses that are all equal. -/
def CKEvent.Flat : CKEvent d → Prop
  | .train _ _ yh _ _ => ∀ i j, yh.2 i = yh.2 j
  | _ => False

/-- An entry of the account of the noise level: a training on responses of this spread, or a standard deviation that was returned. -/
inductive CKEntry where
  | trained (spread : ℝ)
  | returned

/-- The entries that events make. -/
noncomputable def ckEntries (s : CKModel d q) : List (CKEvent d) → List CKEntry
  | [] => []
  | e :: rest => (match e with
    | .train _ _ yh _ _ => [CKEntry.trained (std yh.2)]
    | .predictStd X => match (s.predictStd X.2).2 with
      | .ok _ => [CKEntry.returned]
      | .error _ => []
    | _ => []) ++ ckEntries (ckStep s e) rest

/-- The noise level at the end of the account: trainings, returned or not, divide it by the spread of their responses; standard deviations multiply it by the spread of the last training. -/
noncomputable def ckLedger : ℝ → ℝ → List CKEntry → ℝ
  | σ, _, [] => σ
  | σ, _, .trained spread :: rest => ckLedger (σ / spread) spread rest
  | σ, last, .returned :: rest => ckLedger (σ * last) last rest

/-! ## C113: retraining -/

theorem ckLedger_zero (l : List CKEntry) : ∀ last, ckLedger 0 last l = 0 := by
  induction l with
  | nil => intro last; rfl
  | cons a rest ih =>
    intro last
    cases a with
    | trained sd => unfold ckLedger; rw [zero_div]; exact ih sd
    | returned => unfold ckLedger; rw [zero_mul]; exact ih last

theorem ckStep_settings (s : CKModel d q) (e : CKEvent d) : CKSettings s (ckStep s e) := by
  cases e with
  | train w Xh yh Xl yl => exact (train_keeps s w Xh yh Xl yl).1
  | predictStd X =>
    dsimp only [ckStep]
    rcases predictStd_state s X.2 with ⟨e, h⟩ | ⟨v, sd, r, _, _, h⟩
    · rw [h]; exact .refl s
    · rw [h]; exact ⟨rfl, rfl, rfl, rfl, rfl, rfl, .refl _⟩
  | setParams theta => exact ⟨rfl, rfl, rfl, rfl, rfl, rfl, .refl _⟩
  | setParamsLf theta => exact ⟨rfl, rfl, rfl, rfl, rfl, rfl, ⟨rfl, rfl, rfl, rfl⟩⟩

theorem ckHistory_settings (events : List (CKEvent d)) : ∀ s : CKModel d q, CKSettings s (ckHistory s events) := by
  induction events with
  | nil => exact fun s => .refl s
  | cons e rest ih => exact fun s => (ckStep_settings s e).trans (ih (ckStep s e))

theorem std_ne_zero_of_varied {y : Fin n → ℝ} (h : ∃ i j, y i ≠ y j) : std y ≠ 0 := fun h0 => by
  obtain ⟨i, j, hij⟩ := h
  exact hij ((std_eq_zero_iff y).mp h0 i j)

theorem ckHistory_noise (events : List (CKEvent d)) : ∀ (s : CKModel d q) (σ last : ℝ), s.noise = .known σ → (∀ sd, s.yhStd = some sd → sd = last) → (∀ e ∈ events, e.Varied) →
    (ckHistory s events).noise = .known (ckLedger σ last (ckEntries s events)) := by
  induction events with
  | nil => exact fun s σ last h _ _ => h
  | cons e rest ih =>
    intro s σ last h hl hv
    have hv' : ∀ e ∈ rest, e.Varied := fun e he => hv e (List.mem_cons_of_mem _ he)
    have he : e.Varied := hv e List.mem_cons_self
    show (ckHistory (ckStep s e) rest).noise = _
    unfold ckEntries
    cases e with
    | train w Xh yh Xl yl =>
      obtain ⟨_, k2, k3, _, _⟩ := train_keeps s w Xh yh Xl yl
      exact ih _ _ (std yh.2) (k3 σ h (std_ne_zero_of_varied he)) (fun sd hsd => Option.some.inj (hsd.symm.trans k2)) hv'
    | predictStd X =>
      rcases predictStd_state s X.2 with ⟨e, hp⟩ | ⟨v, sd, r, hn, hs, hp⟩
      · have e1 : ckStep s (.predictStd X) = s := by dsimp only [ckStep]; rw [hp]
        rw [e1]
        simp only [hp]
        exact ih s σ last h hl hv'
      · have e1 : ckStep s (.predictStd X) = { s with noise := .known (v * sd) } := by dsimp only [ckStep]; rw [hp]
        rw [h] at hn
        obtain rfl : σ = v := Noise.known.inj hn
        obtain rfl := hl sd hs
        have := ih (ckStep s (.predictStd X)) (σ * sd) sd (by rw [e1]) (fun sd' h' => hl sd' (by rw [e1] at h'; exact h')) hv'
        simp only [hp]
        exact this
    | setParams theta => exact ih _ σ last h hl hv'
    | setParamsLf theta => exact ih _ σ last h hl hv'

/-- C113 (partial). A co-Kriging object of known noise, after any history of trainings that returned or raised, standard deviations and kernel changes, as long as no training had high-fidelity responses that are all
equal: training it raises exactly what it raises for a new object whose noise is the one the account of the history ends with, and if it returns, both objects are equal, so they answer all later calls alike.
Missing: the new object does not have the noise the old one was created with; and trainings on equal responses are excluded, see `C113_ck_retraining_counterexample`. -/
theorem C113_ck_retraining_partial (box : Box ℝ d) (regr : Basis d q) (optimizer : Option PopOptimizer) (low high rhoLow rhoHigh σ : ℝ) (events : List (CKEvent d)) (hv : ∀ e ∈ events, e.Varied)
    (old new : CKModel d q) (hold : old = ckHistory (newCK box regr optimizer low high rhoLow rhoHigh (some σ)) events)
    (hnew : new = newCK box regr optimizer low high rhoLow rhoHigh (some (ckLedger σ 0 (ckEntries (newCK box regr optimizer low high rhoLow rhoHigh (some σ)) events))))
    (w : CKWorld d) (Xh : Σ n, Samples n d) (yh : Σ n, Fin n → ℝ) (Xl : Σ n, Samples n d) (yl : Σ n, Fin n → ℝ) :
    (old.train w Xh yh Xl yl).2 = (new.train w Xh yh Xl yl).2 ∧ ((new.train w Xh yh Xl yl).2 = .ok () → old.train w Xh yh Xl yl = new.train w Xh yh Xl yl) := by
  have hn := ckHistory_noise events (newCK box regr optimizer low high rhoLow rhoHigh (some σ)) σ 0 rfl (fun sd h => by cases h) hv
  have hs := ckHistory_settings events (newCK box regr optimizer low high rhoLow rhoHigh (some σ))
  rw [← hold] at hn hs
  refine train_congr (s := new) (s' := old) ?_ (by rw [hnew]; rfl) hn w Xh yh Xl yl
  rw [hnew]
  exact ⟨hs.box, hs.optimizer, hs.rhoLow, hs.rhoHigh, hs.low, hs.high, ⟨hs.lf.regr, hs.lf.optimizer, hs.lf.low, hs.lf.high⟩⟩

/-- C113 (objects without noise). With noise 0 and no training on equal responses, an object with any history is trained exactly like the object as it was created. -/
theorem C113_ck_noise_free (box : Box ℝ d) (regr : Basis d q) (optimizer : Option PopOptimizer) (low high rhoLow rhoHigh : ℝ) (events : List (CKEvent d)) (hv : ∀ e ∈ events, e.Varied)
    (old new : CKModel d q) (hnew : new = newCK box regr optimizer low high rhoLow rhoHigh (some 0)) (hold : old = ckHistory new events)
    (w : CKWorld d) (Xh : Σ n, Samples n d) (yh : Σ n, Fin n → ℝ) (Xl : Σ n, Samples n d) (yl : Σ n, Fin n → ℝ) :
    (old.train w Xh yh Xl yl).2 = (new.train w Xh yh Xl yl).2 ∧ ((new.train w Xh yh Xl yl).2 = .ok () → old.train w Xh yh Xl yl = new.train w Xh yh Xl yl) := by
  subst hnew
  exact C113_ck_retraining_partial box regr optimizer low high rhoLow rhoHigh 0 events hv old _ hold (by rw [ckLedger_zero]) w Xh yh Xl yl

/-- C113 (the object and the model). Training an object of known noise whose history is `events` does what training does in `Verif.Model.CoKriging` for the noise at the end of the account: the same exception, or the same
predictions and standard deviations of both fidelities. -/
theorem C113_ck_trained_object (box : Box ℝ d) (regr : Basis d q) (optimizer : Option PopOptimizer) (low high rhoLow rhoHigh σ : ℝ) (events : List (CKEvent d)) (hv : ∀ e ∈ events, e.Varied)
    (old : CKModel d q) (hold : old = ckHistory (newCK box regr optimizer low high rhoLow rhoHigh (some σ)) events) (v : CKObj d q)
    (hval : v = { box := box, kernel := RBF.mk' (fun _ => 0) low high, optimizer := optimizer, rhoLow := rhoLow, rhoHigh := rhoHigh, noise := some (ckLedger σ 0 (ckEntries (newCK box regr optimizer low high rhoLow rhoHigh (some σ)) events)), lf := { kernel := RBF.mk' (fun _ => 0) (-2) 3, regr := regr, optimizer := optimizer, noise := some σ } })
    (w : CKWorld d) (Xh : Samples nh d) (yh : Fin nh → ℝ) (Xl : Samples nl d) (yl : Fin nl → ℝ) :
    (∀ e, v.train w Xh yh Xl yl = .error e → (old.train w ⟨nh, Xh⟩ ⟨nh, yh⟩ ⟨nl, Xl⟩ ⟨nl, yl⟩).2 = .error e) ∧
    ∀ ck t, v.train w Xh yh Xl yl = .ok (ck, t) → ∃ s, old.train w ⟨nh, Xh⟩ ⟨nh, yh⟩ ⟨nl, Xl⟩ ⟨nl, yl⟩ = (s, .ok ()) ∧ ∀ (k : ℕ) (X : Samples k d),
      s.predict X = ck.predict t X ∧ s.predictLf X = ck.predictLf t X ∧ s.predictLfStd X = ck.predictLfStd t X ∧ ∀ ck' r, ck.predictStd t X = .ok (ck', r) → (s.predictStd X).2 = .ok r := by
  obtain ⟨c1, c2⟩ := C113_ck_retraining_partial box regr optimizer low high rhoLow rhoHigh σ events hv old _ hold rfl w ⟨nh, Xh⟩ ⟨nh, yh⟩ ⟨nl, Xl⟩ ⟨nl, yl⟩
  set new := newCK box regr optimizer low high rhoLow rhoHigh (some (ckLedger σ 0 (ckEntries (newCK box regr optimizer low high rhoLow rhoHigh (some σ)) events))) with hnew
  have A := train_eq (s := new) rfl w Xh yh Xl yl
  have hvv : v.train w Xh yh Xl yl = new.view.train w Xh yh Xl yl := by rw [hval, hnew]; rfl
  rw [hvv]
  refine ⟨fun e he => c1.trans (A.2 e he), fun ck t ht => ?_⟩
  have a := A.1 ck t ht
  refine ⟨_, (c2 (by rw [a])).trans a, fun k X => ?_⟩
  obtain ⟨hT, _, _, _, _, hbox, _⟩ := ckTrained_of_train ht
  have hreg : ck.lf.regr = new.lf.regr := (ckTrain_static ht).2.2.2.2.2.2.2.2.2
  refine ⟨ckAfter_predict hT hbox X, (ckAfter_predictLf hT hbox hreg X).1, (ckAfter_predictLf hT hbox hreg X).2, fun ck' r hr => ?_⟩
  obtain ⟨μ, sd⟩ := r
  rw [ckAfter_predictStd hT hbox X hr]

theorem ckStep_nonFinite {s : CKModel d q} (h : s.noise = .nonFinite) (e : CKEvent d) : (ckStep s e).noise = .nonFinite := by
  cases e with
  | train w Xh yh Xl yl => exact ((train_keeps s w Xh yh Xl yl).2.2.2.2 h).1
  | predictStd X =>
    dsimp only [ckStep]
    rcases predictStd_state s X.2 with ⟨e, hp⟩ | ⟨v, sd, r, hn, hs, hp⟩
    · rw [hp]; exact h
    · rw [h] at hn; cases hn
  | setParams theta => exact h
  | setParamsLf theta => exact h

theorem ckHistory_nonFinite (events : List (CKEvent d)) : ∀ s : CKModel d q, s.noise = .nonFinite → (ckHistory s events).noise = .nonFinite := by
  induction events with
  | nil => exact fun s h => h
  | cons e rest ih => exact fun s h => ih _ (ckStep_nonFinite h e)

theorem ckStep_known {s : CKModel d q} {σ : ℝ} (h : s.noise = .known σ) (e : CKEvent d) : (e.Flat → (ckStep s e).noise = .nonFinite) ∧ ((ckStep s e).noise = .nonFinite ∨ ∃ v, (ckStep s e).noise = .known v) := by
  cases e with
  | train w Xh yh Xl yl =>
    obtain ⟨_, _, k3, k4, _⟩ := train_keeps s w Xh yh Xl yl
    refine ⟨fun hf => k4 σ h ((std_eq_zero_iff _).mpr hf), ?_⟩
    by_cases hsd : std yh.2 = 0
    · exact .inl (k4 σ h hsd)
    · exact .inr ⟨_, k3 σ h hsd⟩
  | predictStd X =>
    refine ⟨False.elim, .inr ?_⟩
    dsimp only [ckStep]
    rcases predictStd_state s X.2 with ⟨e, hp⟩ | ⟨v, sd, r, hn, hs, hp⟩
    · rw [hp]; exact ⟨σ, h⟩
    · rw [hp]; exact ⟨_, rfl⟩
  | setParams theta => exact ⟨False.elim, .inr ⟨σ, h⟩⟩
  | setParamsLf theta => exact ⟨False.elim, .inr ⟨σ, h⟩⟩

theorem ckHistory_flat (events : List (CKEvent d)) : ∀ (s : CKModel d q) (σ : ℝ), s.noise = .known σ → (∃ e ∈ events, e.Flat) → (ckHistory s events).noise = .nonFinite := by
  induction events with
  | nil => rintro s σ _ ⟨e, he, _⟩; cases he
  | cons e rest ih =>
    rintro s σ h ⟨e', he', hf⟩
    show (ckHistory (ckStep s e) rest).noise = _
    rcases List.mem_cons.mp he' with rfl | he'
    · exact ckHistory_nonFinite rest _ ((ckStep_known h e').1 hf)
    · rcases (ckStep_known h e).2 with hn | ⟨v, hk⟩
      · exact ckHistory_nonFinite rest _ hn
      · exact ih _ v hk ⟨e', he', hf⟩

/-- C113 (what is wrong). Once a co-Kriging object of known noise has been given high-fidelity responses that are all equal, whatever is done with it before and afterwards, none of its later trainings returns with finite
values, on any data, and no standard deviation is a finite number. -/
theorem C113_ck_flat_responses (box : Box ℝ d) (regr : Basis d q) (optimizer : Option PopOptimizer) (low high rhoLow rhoHigh σ : ℝ) (events : List (CKEvent d)) (hf : ∃ e ∈ events, e.Flat)
    (old : CKModel d q) (hold : old = ckHistory (newCK box regr optimizer low high rhoLow rhoHigh (some σ)) events) :
    (∀ (w : CKWorld d) (Xh : Σ n, Samples n d) (yh : Σ n, Fin n → ℝ) (Xl : Σ n, Samples n d) (yl : Σ n, Fin n → ℝ), ∃ e, (old.train w Xh yh Xl yl).2 = .error e) ∧
    ∀ (k : ℕ) (X : Samples k d), ∃ e, (old.predictStd X).2 = .error e := by
  have hn : old.noise = .nonFinite := by rw [hold]; exact ckHistory_flat events _ σ rfl hf
  refine ⟨fun w Xh yh Xl yl => ((train_keeps old w Xh yh Xl yl).2.2.2.2 hn).2, fun k X => ?_⟩
  rcases predictStd_state old X with ⟨e, hp⟩ | ⟨v, sd, r, hn', hs, hp⟩
  · exact ⟨e, by rw [hp]⟩
  · rw [hn] at hn'; cases hn'

/-- The object of the example `exCK`. -/
noncomputable def exCKObject : CKModel 1 1 := newCK (exGP none).box (ordinary 1) none (-2) 3 (1 / 100) 10 (some 1)

/-- Two samples. -/
def exCKX : Σ n, Samples n 1 := ⟨2, fun i _ => ![0, 1] i⟩

theorem exCKObject_trains : ∃ (ck : CKObj 1 1) (t : CKFit 2 2 1 1), (exCK (some 1)).train exCKWorld exCKX.2 ![0, 4] exCKX.2 ![0, 1] = .ok (ck, t) ∧
    exCKObject.train exCKWorld exCKX ⟨2, ![0, 4]⟩ exCKX ⟨2, ![0, 1]⟩ = (ckAfter exCKObject ck t, .ok ()) := by
  obtain ⟨ck, t, h⟩ := exCK_trains (some 1) (by simp) (fun i _ => ![0, 1] i : Samples 2 1) ![0, 4] (fun i _ => ![0, 1] i : Samples 2 1) ![0, 1] 0 1 (by norm_num) (by norm_num)
  exact ⟨ck, t, h, (train_eq (s := exCKObject) rfl exCKWorld _ _ _ _).1 ck t h⟩

/-- C113 is false: after a training on equal responses, an object cannot be trained on data on which an object with the same settings that has no past can be trained. -/
theorem C113_ck_retraining_counterexample : ∃ (new : CKModel 1 1) (e : CKEvent 1) (w : CKWorld 1) (X : Σ n, Samples n 1) (yh yl : Σ n, Fin n → ℝ),
    (new.train w X yh X yl).2 = .ok () ∧ ((ckHistory new [e]).train w X yh X yl).2 ≠ .ok () := by
  obtain ⟨ck, t, _, h⟩ := exCKObject_trains
  refine ⟨exCKObject, .train exCKWorld exCKX ⟨2, fun _ => 3⟩ exCKX ⟨2, ![0, 1]⟩, exCKWorld, exCKX, ⟨2, ![0, 4]⟩, ⟨2, ![0, 1]⟩, by rw [h], fun hok => ?_⟩
  obtain ⟨e, he⟩ := (C113_ck_flat_responses (exGP none).box (ordinary 1) none (-2) 3 (1 / 100) 10 1 [.train exCKWorld exCKX ⟨2, fun _ => 3⟩ exCKX ⟨2, ![0, 1]⟩] ⟨_, List.mem_singleton.mpr rfl, fun _ _ => rfl⟩ _ rfl).1
    exCKWorld exCKX ⟨2, ![0, 4]⟩ exCKX ⟨2, ![0, 1]⟩
  have := he.symm.trans hok
  cases this

/-- The history of a training and a standard deviation ends with the noise the object was created with: 1 / 2 * 2. -/
example : (∀ e ∈ [CKEvent.train exCKWorld exCKX ⟨2, ![0, 4]⟩ exCKX ⟨2, ![0, 1]⟩, .predictStd exCKX], e.Varied) ∧
    ckEntries exCKObject [CKEvent.train exCKWorld exCKX ⟨2, ![0, 4]⟩ exCKX ⟨2, ![0, 1]⟩, .predictStd exCKX] = [.trained 2, .returned] ∧ ckLedger 1 0 [.trained 2, .returned] = 1 ∧
    ((ckHistory exCKObject [CKEvent.train exCKWorld exCKX ⟨2, ![0, 4]⟩ exCKX ⟨2, ![0, 1]⟩, .predictStd exCKX]).train exCKWorld exCKX ⟨2, ![0, 4]⟩ exCKX ⟨2, ![0, 1]⟩).2 = .ok () := by
  obtain ⟨ck, t, h, ho⟩ := exCKObject_trains
  have hvar : ∀ e ∈ [CKEvent.train exCKWorld exCKX ⟨2, ![0, 4]⟩ exCKX ⟨2, ![0, 1]⟩, .predictStd exCKX], e.Varied := by
    intro e he
    simp only [List.mem_cons, List.not_mem_nil, or_false] at he
    rcases he with rfl | rfl
    · exact ⟨(0 : Fin 2), (1 : Fin 2), by norm_num⟩
    · trivial
  obtain ⟨hT, _, _, _, hsd, hbox, _, _, hno, _⟩ := ckTrained_of_train h
  obtain ⟨μ, e, _, hstep⟩ := ckPredictStd_noise hT (exCKX.2)
  have hself : ck = { ck with noise := some (1 / 2) } := by
    have hn : ck.noise = some (1 / std (![0, 4] : Fin 2 → ℝ)) := (hno 1 rfl).1
    rw [exCK_std] at hn
    cases ck
    simp only at hn
    rw [hn]
  have hent : ckEntries exCKObject [CKEvent.train exCKWorld exCKX ⟨2, ![0, 4]⟩ exCKX ⟨2, ![0, 1]⟩, .predictStd exCKX] = [.trained 2, .returned] := by
    have h1 := hstep (1 / 2)
    rw [← hself] at h1
    have h2 := ckAfter_predictStd (s := exCKObject) hT hbox exCKX.2 h1
    obtain ⟨st, r, h3⟩ : ∃ st r, CKModel.predictStd (m := exCKX.1) (ckAfter exCKObject ck t) exCKX.2 = (st, .ok r) := ⟨_, _, h2⟩
    simp only [ckEntries, ckStep, ho, exCK_std, h3]
    rfl
  have hled : ckLedger 1 0 [.trained 2, .returned] = 1 := by
    simp only [ckLedger]
    norm_num
  refine ⟨hvar, hent, hled, ?_⟩
  have := C113_ck_retraining_partial (exGP none).box (ordinary 1) none (-2) 3 (1 / 100) 10 1 _ hvar _ _ rfl rfl exCKWorld exCKX ⟨2, ![0, 4]⟩ exCKX ⟨2, ![0, 1]⟩
  refine this.1.trans ?_
  have h3 : ckEntries (newCK (exGP none).box (ordinary 1) none (-2) 3 (1 / 100) 10 (some 1)) [CKEvent.train exCKWorld exCKX ⟨2, ![0, 4]⟩ exCKX ⟨2, ![0, 1]⟩, .predictStd exCKX] = [.trained 2, .returned] := hent
  rw [h3, hled]
  exact congrArg Prod.snd ho

/-! ## C109: a training that raises -/

theorem train_before_lf {s : CKModel d q} {σ : ℝ} (hs : s.noise = .known σ) (hr : ∀ j, s.box.high j - s.box.low j ≠ 0) (w : CKWorld d) (Xh : Σ n, Samples n d) (yh : Σ n, Fin n → ℝ) (Xl : Σ n, Samples n d) (yl : Σ n, Fin n → ℝ)
    (hw : yl.1 ≠ Xl.1 ∨ ∀ i j, yh.2 i = yh.2 j) : ∃ v e, s.train w Xh yh Xl yl = ({ s with xhs := some ⟨Xh.1, fun i => normPt s.box (Xh.2 i)⟩, xls := some ⟨Xl.1, fun i => normPt s.box (Xl.2 i)⟩, yhMean := some (GP.mean yh.2), yhStd := some (std yh.2), noise := v, lf := { s.lf with noise := v, X := some ⟨Xl.1, fun i => normPt s.box (Xl.2 i)⟩ } }, .error e) := by
  have h1 := normalizeInput_eq Xh.2 hr
  have h2 := normalizeInput_eq Xl.2 hr
  unfold CKModel.train
  dsimp only
  rw [h1, h2]
  dsimp only [bind, Except.bind]
  by_cases hsd : std yh.2 = 0
  · rw [if_pos hsd, hsd, load_flat hs]
    exact ⟨.nonFinite, _, rfl⟩
  · have hl : yl.1 ≠ Xl.1 := hw.resolve_right fun h => hsd ((std_eq_zero_iff _).mpr h)
    rw [if_neg hsd, load_known hs hsd]
    dsimp only
    have e := rawTrain_mismatch (s := { s.lf with noise := .known (σ / std yh.2) }) (by simp) w.lf (fun i => normPt s.box (Xl.2 i)) ⟨yl.1, fun i => (yl.2 i - GP.mean yh.2) / std yh.2⟩ hl
    rw [e]
    exact ⟨_, _, rfl⟩

theorem train_ok_value {s : CKModel d q} {σ : ℝ} (hs : s.noise = .known σ) {w : CKWorld d} {Xh : Samples nh d} {yh : Fin nh → ℝ} {Xl : Samples nl d} {yl : Fin nl → ℝ} {s1 : CKModel d q}
    (h : s.train w ⟨nh, Xh⟩ ⟨nh, yh⟩ ⟨nl, Xl⟩ ⟨nl, yl⟩ = (s1, .ok ())) : ∃ ck t, s.view.train w Xh yh Xl yl = .ok (ck, t) ∧ s1 = ckAfter s ck t := by
  have A := train_eq hs w Xh yh Xl yl
  cases hr : s.view.train w Xh yh Xl yl with
  | error e =>
    have := A.2 e hr
    rw [h] at this
    cases this
  | ok r =>
    have a := A.1 r.1 r.2 hr
    rw [h] at a
    exact ⟨r.1, r.2, rfl, (Prod.mk.inj a).1⟩

/-- C109 (co-Kriging, partial). A trained object of known noise is given data with a wrong number of low-fidelity responses, or high-fidelity responses that are all equal.  The training raises.  If the number of samples
of both fidelities together is another than before, every prediction raises afterwards.  If the samples are the same, predictions are the old ones moved to the mean and spread of the new responses; low-fidelity
predictions likewise.  Missing: the property (predictions are what they were before) does not hold, see `C109_ck_failed_training_counterexample`; other causes of exceptions. -/
theorem C109_ck_failed_training_partial (s s1 : CKModel d q) (σ : ℝ) (hs : s.noise = .known σ) (w w' : CKWorld d) (Xh : Samples nh d) (yh : Fin nh → ℝ) (Xl : Samples nl d) (yl : Fin nl → ℝ)
    (hok : s.train w ⟨nh, Xh⟩ ⟨nh, yh⟩ ⟨nl, Xl⟩ ⟨nl, yl⟩ = (s1, .ok ())) (Xh' : Σ n, Samples n d) (yh' : Σ n, Fin n → ℝ) (Xl' : Σ n, Samples n d) (yl' : Σ n, Fin n → ℝ)
    (hw : yl'.1 ≠ Xl'.1 ∨ ∀ i j, yh'.2 i = yh'.2 j) (s2 : CKModel d q) (r : Py Unit) (hfail : s1.train w' Xh' yh' Xl' yl' = (s2, r)) :
    r ≠ .ok () ∧
    (Xl'.1 + Xh'.1 ≠ nl + nh → ∀ (k : ℕ) (X : Samples k d), s2.predict X = .error .valueError) ∧
    (Xh' = ⟨nh, Xh⟩ → Xl' = ⟨nl, Xl⟩ → ∀ (k : ℕ) (X : Samples k d),
      (∃ μ, s1.predict X = .ok μ ∧ s2.predict X = .ok fun j => (μ j - GP.mean yh) / std yh * std yh'.2 + GP.mean yh'.2) ∧
      ∃ μ, s1.predictLf X = .ok μ ∧ s2.predictLf X = .ok fun j => (μ j - GP.mean yh) / std yh * std yh'.2 + GP.mean yh'.2) := by
  obtain ⟨ck, t, hv, rfl⟩ := train_ok_value hs hok
  obtain ⟨hT, _, _, hm, hsd, hbox, hXh, hXl, hno, hlf⟩ := ckTrained_of_train hv
  have hb : ck.box = s.box := hbox
  have hreg : ck.lf.regr = s.lf.regr := (ckTrain_static hv).2.2.2.2.2.2.2.2.2
  have hsp : std yh ≠ 0 := by rw [← hsd]; exact hT.stdpos.ne'
  have hn : (ckAfter s ck t).noise = .known (σ / std yh) := by
    show Noise.ofOption ck.noise = _
    rw [(hno σ (by unfold CKModel.view; rw [hs]; rfl)).1]; rfl
  have hr : ∀ j, (ckAfter s ck t).box.high j - (ckAfter s ck t).box.low j ≠ 0 := by
    show ∀ j, s.box.high j - s.box.low j ≠ 0
    rw [← hb]; exact hT.range
  obtain ⟨v, e, he⟩ := train_before_lf hn hr w' Xh' yh' Xl' yl' hw
  rw [hfail] at he
  obtain ⟨e1, e2⟩ := Prod.mk.inj he
  refine ⟨by rw [e2]; simp, fun hne k X => ?_, ?_⟩
  · refine predict_of_core_error ((predictCore_of (s := s2) X (by rw [e1]; exact hr) (by rw [e1]) (by rw [e1]) (W := ⟨nl, ⟨t.lfFit.F, t.lfFit.K, t.lfFit.gls⟩⟩) (by rw [e1]; rfl) (rho := t.rho) (by rw [e1]; rfl) (s2 := t.sigma2)
      (by rw [e1]; rfl) (mu := t.mu) (by rw [e1]; rfl) (LC := t.LC) (by rw [e1]; rfl) (y := t.y) (by rw [e1]; rfl) (by rw [e1]) (by rw [e1]) hT.LC).2 (fun h => hne h.symm))
  · rintro rfl rfl k X
    have hXh' : (fun i => normPt s.box (Xh i)) = t.Xhs := hXh.symm
    have hXl' : (fun i => normPt s.box (Xl i)) = t.Xls := hXl.symm
    constructor
    · have hp := predict_of_core (ckAfter_core (s := s) hT hb X)
      refine ⟨_, hp, ?_⟩
      have hc := (predictCore_of (s := s2) X (by rw [e1]; exact hr) (by rw [e1]) (by rw [e1]) (W := ⟨nl, ⟨t.lfFit.F, t.lfFit.K, t.lfFit.gls⟩⟩) (by rw [e1]; rfl) (rho := t.rho) (by rw [e1]; rfl) (s2 := t.sigma2)
        (by rw [e1]; rfl) (mu := t.mu) (by rw [e1]; rfl) (LC := t.LC) (by rw [e1]; rfl) (y := t.y) (by rw [e1]; rfl) (by rw [e1]) (by rw [e1]) hT.LC).1 rfl
      refine (predict_of_core hc).trans (congrArg _ ?_)
      funext j
      rw [hm, hsd, add_sub_cancel_right, mul_div_assoc, div_self hsp, mul_one, e1]
      congr 2
      show (_ + ∑ i, ckCross t.rho t.lfFit.gls.sigma2 t.sigma2 ck.lf.kernel ck.kernel (fun i => normPt s.box (Xl i)) (fun i => normPt s.box (Xh i)) (fun i => normPt s.box (X i)) i j * _) = _
      rw [hXh', hXl', ← hb]
      rfl
    · have hp : (ckAfter s ck t).predictLf X = .ok fun j => ck.lf.predict t.lfFit (fun i => normPt ck.box (X i)) j * t.yhStd + t.yhMean := by
        rw [(ckAfter_predictLf hT hb hreg X).1]
        unfold CKObj.predictLf
        exact Py.bind_ok.mpr ⟨_, normalizeInput_eq X hT.range, rfl⟩
      refine ⟨_, hp, ?_⟩
      have hX2 : t.lfFit.X = t.Xls := hT.lfX
      have hl2 : s2.lf.predict (fun i => normPt ck.box (X i)) = .ok (ck.lf.predict t.lfFit (fun i => normPt ck.box (X i))) := by
        rw [← rawAfter_predict (s := s.lf) hreg, e1]
        unfold RawModel.predict
        have hx : (rawAfter s.lf ck.lf t.lfFit).X = some ⟨nl, fun i => normPt s.box (Xl i)⟩ := by
          show some _ = some _
          rw [hX2, hXl']
        rw [hx]
        rfl
      unfold CKModel.predictLf
      refine Py.bind_ok.mpr ⟨fun i => normPt ck.box (X i), ?_, Py.bind_ok.mpr ⟨_, hl2, Py.bind_ok.mpr ⟨_, by rw [e1]; rfl, Py.bind_ok.mpr ⟨_, by rw [e1]; rfl, ?_⟩⟩⟩⟩
      · rw [show s2.box = ck.box by rw [e1]; exact hb.symm]
        exact normalizeInput_eq X hT.range
      · refine congrArg _ ?_
        funext j
        rw [hm, hsd, add_sub_cancel_right, mul_div_assoc, div_self hsp, mul_one]

theorem exCK_mean_shift : GP.mean (![0, 4] : Fin 2 → ℝ) = 2 ∧ GP.mean (![10, 14] : Fin 2 → ℝ) = 12 ∧ std (![10, 14] : Fin 2 → ℝ) = 2 := by
  have hm : GP.mean (![10, 14] : Fin 2 → ℝ) = 12 := by unfold GP.mean; simp; norm_num
  refine ⟨by unfold GP.mean; simp; norm_num, hm, ?_⟩
  unfold std
  rw [hm, Fin.sum_univ_two]
  show Real.sqrt (((10 - 12) ^ 2 + (14 - 12) ^ 2) / ((2 : ℕ) : ℝ)) = 2
  rw [show (((10 : ℝ) - 12) ^ 2 + (14 - 12) ^ 2) / ((2 : ℕ) : ℝ) = 2 ^ 2 by norm_num]
  exact Real.sqrt_sq (by norm_num)

/-- C109 is false for co-Kriging: a training with one low-fidelity response too many raises, and all predictions move by 10. -/
theorem C109_ck_failed_training_counterexample : ∃ (s s1 s2 : CKModel 1 1) (w : CKWorld 1) (X : Σ n, Samples n 1) (yh yl yh' yl' : Σ n, Fin n → ℝ) (e : PyErr),
    s.train w X yh X yl = (s1, .ok ()) ∧ s1.train w X yh' X yl' = (s2, .error e) ∧
    ∀ (k : ℕ) (Xnew : Samples k 1), ∃ μ, s1.predict Xnew = .ok μ ∧ s2.predict Xnew = .ok fun j => μ j + 10 := by
  obtain ⟨ck, t, h, ho⟩ := exCKObject_trains
  rcases hf : (ckAfter exCKObject ck t).train exCKWorld exCKX ⟨2, ![10, 14]⟩ exCKX ⟨3, ![0, 1, 2]⟩ with ⟨s2, r⟩
  obtain ⟨h1, _, h3⟩ := C109_ck_failed_training_partial exCKObject _ 1 rfl exCKWorld exCKWorld (nh := 2) (nl := 2) exCKX.2 ![0, 4] exCKX.2 ![0, 1] ho exCKX ⟨2, ![10, 14]⟩ exCKX ⟨3, ![0, 1, 2]⟩
    (.inl (by simp [exCKX])) s2 r hf
  cases r with
  | ok u => exact absurd rfl h1
  | error e =>
    refine ⟨_, _, s2, exCKWorld, exCKX, _, _, _, _, e, ho, hf, fun k Xnew => ?_⟩
    obtain ⟨⟨μ, a, b⟩, _⟩ := h3 rfl rfl k Xnew
    refine ⟨μ, a, b.trans (congrArg _ ?_)⟩
    funext j
    obtain ⟨m1, m2, m3⟩ := exCK_mean_shift
    simp only [m1, m2, m3, exCK_std]
    ring

end Mfpml.Props
