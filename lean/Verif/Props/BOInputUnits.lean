import Verif.Spec.BOInputUnits
import Verif.Props.InputUnits
import Verif.Props.SamplerUnits
import Verif.Props.BOUnits

/-!
# C154: Bayesian optimisation in other units of the design variables

Vocabulary: `Verif/Spec/BOInputUnits.lean`.
-/

namespace Mfpml.Props

open Mfpml Mfpml.Acq Mfpml.GP Mfpml.Spec Mfpml.BO
open Mfpml.EA (Box)
open Mfpml.Sampling (lhsSamples Env)

variable {d : ℕ}

/-! ### Arrays -/

theorem npRow_map {α β : Type} (φ : α → β) (l : List α) (i : ℕ) : npRow (l.map φ) i = (npRow l i).map φ := by
  unfold npRow
  rw [List.getElem?_map]
  cases l[i]? <;> rfl

theorem mapM_npRow_map {α β : Type} (φ : α → β) (l : List α) : ∀ is : List ℕ, is.mapM (npRow (l.map φ)) = (is.mapM (npRow l)).map fun r => r.map φ
  | [] => rfl
  | i :: is => by
    rw [List.mapM_cons, List.mapM_cons, npRow_map, mapM_npRow_map φ l is]
    cases npRow l i with
    | error e => rfl
    | ok x =>
      simp only [Except.map, bind, Except.bind]
      cases is.mapM (npRow l) <;> rfl

/-! ### The loop, for every surrogate -/

/-- The state with every point converted by `φ` and the surrogate by `U`. -/
def SFState.conv {X S W : Type} (U : S → S) (φ : X → X) (s : SFState ℝ X S W) : SFState ℝ X S W :=
  { initSample := s.initSample.map φ, initResponse := s.initResponse, sample := s.sample.map φ, response := s.response, surrogate := U s.surrogate, best := s.best, bestX := φ s.bestX,
    historyBest := s.historyBest, historyBestX := s.historyBestX.map φ, rng := s.rng, calls := s.calls.map fun l => l.map φ }

/-- `p'` is the problem `p` for converted points. -/
structure ConvOf {X S W : Type} (U : S → S) (φ : X → X) (p p' : SFProblem ℝ X S W) : Prop where
  f : ∀ xs, p'.f (xs.map φ) = p.f xs
  optimum : p'.optimum = p.optimum
  init : ∀ w, p'.init w = (p.init w).map fun r => (r.1.map φ, r.2)
  fresh : p'.fresh = U p.fresh
  train : ∀ s xs ys w, p'.train (U s) (xs.map φ) ys w = (p.train s xs ys w).map fun r => (U r.1, r.2)
  query : ∀ s w, p'.query (U s) w = (p.query s w).map fun r => (φ r.1, r.2)

theorem new_conv {X S W : Type} {U : S → S} {φ : X → X} {p p' : SFProblem ℝ X S W} (h : ConvOf U φ p p') (w : W) : p'.new w = (p.new w).map (SFState.conv U φ) := by
  unfold SFProblem.new
  rw [h.init, h.fresh]
  cases p.init w with
  | error e => rfl
  | ok r =>
    simp only [Except.map, bind, Except.bind, h.f]
    cases p.f r.1 with
    | error e => rfl
    | ok y =>
      simp only [h.train]
      cases p.train p.fresh r.1 y r.2 with
      | error e => rfl
      | ok t =>
        simp only [Except.map]
        cases npMin y with
        | error e => rfl
        | ok m =>
          cases npArgmin y with
          | error e => rfl
          | ok i =>
            simp only [npRow_map]
            cases npRow r.1 i <;> rfl

theorem iterate_conv {X S W : Type} {U : S → S} {φ : X → X} {p p' : SFProblem ℝ X S W} (h : ConvOf U φ p p') (s : SFState ℝ X S W) :
    p'.iterate (SFState.conv U φ s) = (p.iterate s).map (SFState.conv U φ) := by
  unfold SFProblem.iterate
  rw [show (SFState.conv U φ s).surrogate = U s.surrogate from rfl, show (SFState.conv U φ s).rng = s.rng from rfl, h.query]
  cases p.query s.surrogate s.rng with
  | error e => rfl
  | ok r =>
    have hf : p'.f [φ r.1] = p.f [r.1] := h.f [r.1]
    simp only [Except.map, bind, Except.bind, hf]
    cases p.f [r.1] with
    | error e => rfl
    | ok y =>
      have e : (SFState.conv U φ s).sample ++ [φ r.1] = (s.sample ++ [r.1]).map φ := by
        rw [List.map_append]; rfl
      simp only [e, show (SFState.conv U φ s).response = s.response from rfl, h.train]
      cases p.train s.surrogate (s.sample ++ [r.1]) (s.response ++ y) r.2 with
      | error e => rfl
      | ok t =>
        simp only [Except.map]
        cases npMin (s.response ++ y) with
        | error e => rfl
        | ok m =>
          cases npArgmin (s.response ++ y) with
          | error e => rfl
          | ok i =>
            simp only [npRow_map]
            cases npRow (s.sample ++ [r.1]) i with
            | error e => rfl
            | ok x =>
              simp only [SFState.conv, List.map_append, Except.map]
              rfl

theorem loop_conv {X S W : Type} {U : S → S} {φ : X → X} {p p' : SFProblem ℝ X S W} (h : ConvOf U φ p p') (stop : ℝ) : ∀ (k : ℕ) (s : SFState ℝ X S W),
    p'.loop stop k (SFState.conv U φ s) = (p.loop stop k s).map (SFState.conv U φ)
  | 0, _ => rfl
  | k + 1, s => by
    unfold SFProblem.loop
    rw [show (SFState.conv U φ s).best = s.best from rfl, h.optimum]
    split_ifs
    · rw [iterate_conv h]
      cases p.iterate s with
      | error e => rfl
      | ok s1 => exact loop_conv h stop k s1
    · rfl

theorem session_conv {X S W : Type} {U : S → S} {φ : X → X} {p p' : SFProblem ℝ X S W} (h : ConvOf U φ p p') (w : W) (runs : List (ℕ × ℝ)) :
    session p' w runs = (session p w runs).map (SFState.conv U φ) := by
  unfold session
  rw [new_conv h]
  cases p.new w with
  | error e => rfl
  | ok s =>
    simp only [Except.map, bind, Except.bind]
    induction runs generalizing s with
    | nil => rfl
    | cons r l ih =>
      simp only [List.foldlM_cons, bind, Except.bind, SFProblem.run, loop_conv h]
      cases p.loop r.2 r.1 s with
      | error e => rfl
      | ok s1 =>
        simp only [Except.map]
        exact ih s1

/-! ### The library's parts -/

/-- Back to the old units. -/
noncomputable def back (c : UnitChange ℝ d) (x : Fin d → ℝ) : Fin d → ℝ := fun j => (x j - c.shift j) / c.scale j

theorem back_point {c : UnitChange ℝ d} (hc : ∀ j, 0 < c.scale j) (x : Fin d → ℝ) : back c (c.point x) = x := by
  funext j
  have := (hc j).ne'
  simp only [back, UnitChange.point, add_sub_cancel_right]
  exact mul_div_cancel_left₀ _ this

theorem point_back {c : UnitChange ℝ d} (hc : ∀ j, 0 < c.scale j) (x : Fin d → ℝ) : c.point (back c x) = x := by
  funext j
  have := (hc j).ne'
  simp only [back, UnitChange.point]
  rw [mul_div_cancel₀ _ this, sub_add_cancel]

/-- The surrogate in other units of the variables. -/
noncomputable def Kriging.conv (c : UnitChange ℝ d) (k : Kriging d) : Kriging d :=
  { obj := inUnitsGP c.scale c.shift k.obj, fit := k.fit.map fun t => ⟨t.1, gpFitInUnits c.scale c.shift t.2⟩ }

theorem kriging_train_of (o : Outside d) (k : Kriging d) {n : ℕ} {xs : List (Fin d → ℝ)} {ys : List ℝ} (hx : xs.length = n) (hy : ys.length = n) {X : Samples n d} {y : Fin n → ℝ}
    (hX : ∀ i : Fin n, X i = xs[i]'(by omega)) (hY : ∀ i : Fin n, y i = ys[i]'(by omega)) (w : o.env.S) :
    k.train o xs ys w = (k.obj.train (o.world k.obj.kernel w).1 X y).map fun r => ({ obj := r.1, fit := some ⟨n, r.2⟩ }, (o.world k.obj.kernel w).2) := by
  subst hx
  obtain rfl : X = rows xs := funext hX
  obtain rfl : y = column ys hy := funext hY
  unfold Kriging.train
  rw [dif_pos hy]
  dsimp only
  cases k.obj.train (o.world k.obj.kernel w).1 (rows xs) (column ys hy) <;> rfl

theorem kriging_train_conv {c : UnitChange ℝ d} (hc : ∀ j, 0 < c.scale j) (o : Outside d) (k : Kriging d) (xs : List (Fin d → ℝ)) (ys : List ℝ) (w : o.env.S) :
    (Kriging.conv c k).train o (xs.map c.point) ys w = (k.train o xs ys w).map fun r => (Kriging.conv c r.1, r.2) := by
  by_cases h : ys.length = xs.length
  · rw [kriging_train_of o k rfl h (X := rows xs) (y := column ys h) (fun _ => rfl) (fun _ => rfl),
      kriging_train_of o (Kriging.conv c k) (List.length_map _) h (X := inUnits c.scale c.shift (rows xs)) (y := column ys h)
        (fun i => by simp only [Fin.getElem_fin, List.getElem_map]; rfl) (fun _ => rfl)]
    show Except.map _ ((inUnitsGP c.scale c.shift k.obj).train (o.world k.obj.kernel w).1 _ _) = _
    rw [gp_train_inUnits (fun j => (hc j).ne')]
    show _ = Except.map _ (Except.map _ (k.obj.train (o.world k.obj.kernel w).1 (rows xs) (column ys h)))
    generalize k.obj.train (o.world k.obj.kernel w).1 (rows xs) (column ys h) = q
    cases q <;> rfl
  · unfold Kriging.train
    rw [dif_neg h, dif_neg (by rw [List.length_map]; exact h)]
    rfl

/-- What the acquisition sees, in other units of the variables. -/
noncomputable def SFSurr.conv (c : UnitChange ℝ d) (s : SFSurr d) : SFSurr d :=
  { bounds := c.space s.bounds, sampleY := s.sampleY, predict := fun m X => s.predict m fun i => back c (X i) }

theorem kriging_view_conv {c : UnitChange ℝ d} (hc : ∀ j, 0 < c.scale j) (k : Kriging d) : (Kriging.conv c k).view = k.view.map (SFSurr.conv c) := by
  unfold Kriging.view Kriging.conv
  cases k.fit with
  | none => rfl
  | some t =>
    simp only [Option.map_some, Except.map, SFSurr.ofGP, SFSurr.conv, Except.ok.injEq, SFSurr.mk.injEq]
    refine ⟨rfl, rfl, ?_⟩
    funext m X
    rw [← gp_predictStd_inUnits (α := c.scale) (β := c.shift) (fun j => (hc j).ne') k.obj t.2 (fun i => back c (X i))]
    congr 1
    exact funext fun i => (point_back hc (X i)).symm

/-- The acquisition does not see the units of the variables. -/
def AcqConv (E : (m : ℕ) → SFSurr d → Samples m d → Py (Fin m → ℝ)) : Prop :=
  ∀ (c : UnitChange ℝ d), (∀ j, 0 < c.scale j) → ∀ s x, E 1 (SFSurr.conv c s) (fun i => c.point (x i)) = E 1 s x

theorem predict_conv {c : UnitChange ℝ d} (hc : ∀ j, 0 < c.scale j) (s : SFSurr d) {m : ℕ} (X : Samples m d) : (SFSurr.conv c s).predict m (fun i => c.point (X i)) = s.predict m X := by
  show s.predict m (fun i => back c (c.point (X i))) = _
  simp only [back_point hc]

theorem acqConv_library : (∀ kappa, AcqConv (d := d) fun _ => lcbEval kappa) ∧ AcqConv (d := d) (fun _ => eiEval) ∧ AcqConv (d := d) (fun _ => piEval) := by
  refine ⟨fun kappa c hc s x => ?_, fun c hc s x => ?_, fun c hc s x => ?_⟩
  · simp only [lcbEval, predict_conv hc]
  · simp only [eiEval, predict_conv hc]; rfl
  · simp only [piEval, predict_conv hc]; rfl

theorem single_conv {c : UnitChange ℝ d} {E E' : Samples 1 d → Py (Fin 1 → ℝ)} (h : ∀ x, E' (fun i => c.point (x i)) = E x) (x : Fin d → ℝ) : single E' (c.point x) = single E x := by
  unfold single
  rw [show onePoint (c.point x) = fun i => c.point (onePoint x i) from rfl, h]

theorem query_conv {W : Type} {c : UnitChange ℝ d} (hc : ∀ j, 0 < c.scale j) {E : (m : ℕ) → SFSurr d → Samples m d → Py (Fin m → ℝ)} (hE : AcqConv E) {de : DiffEvo W d}
    (hde : UnitFreeInputs de) (s : SFSurr d) (w : W) : sfQuery E none de (SFSurr.conv c s) w = (sfQuery E none de s w).map fun r => (c.point r.1, r.2) := by
  unfold sfQuery
  dsimp only
  rw [show (SFSurr.conv c s).bounds = c.space s.bounds from rfl, hde c (single (E 1 s)) _ hc (single_conv fun x => hE c hc s x)]
  generalize de (single (E 1 s)) s.bounds w = q
  cases q <;> rfl

theorem freshKriging_conv (c : UnitChange ℝ d) (box : Box ℝ d) : freshKriging (c.space box) = Kriging.conv c (freshKriging box) := rfl

theorem sfBO_convOf {c : UnitChange ℝ d} (hc : ∀ j, 0 < c.scale j) (o : Outside d) (hde : UnitFreeInputs o.de) (box : Box ℝ d) {f f' : List (Fin d → ℝ) → Py (List ℝ)}
    (hf : SameFunction c f f') (optimum : Option ℝ) {E : (m : ℕ) → SFSurr d → Samples m d → Py (Fin m → ℝ)} (hE : AcqConv E) (numInit seed : ℕ) :
    ConvOf (Kriging.conv c) c.point (sfBO o box f optimum E none numInit seed) (sfBO o (c.space box) f' optimum E none numInit seed) where
  f := hf
  optimum := rfl
  init := fun w => congrArg Except.ok ((C153_sf o.env c box numInit (o.env.seed seed w)).1 (some seed))
  fresh := freshKriging_conv c box
  train := fun s xs ys w => kriging_train_conv hc o s xs ys w
  query := fun s w => by
    show (do let v ← (Kriging.conv c s).view; sfQuery E none o.de v w) = Except.map _ (do let v ← s.view; sfQuery E none o.de v w)
    rw [kriging_view_conv hc]
    cases s.view with
    | error e => rfl
    | ok v => exact query_conv hc hE hde v w

theorem sameRunIn_conv {S W : Type} (U : S → S) (c : UnitChange ℝ d) (s : SFState ℝ (Fin d → ℝ) S W) : SameRunIn c s (SFState.conv U c.point s) :=
  ⟨rfl, rfl, rfl, rfl, rfl, rfl, rfl, rfl, rfl, rfl⟩

theorem map_same {α β : Type} {R : α → β → Prop} {g : α → β} (hg : ∀ a, R a (g a)) {p : Py α} {p' : Py β} (h : p' = p.map g) :
    (∀ e, p' = .error e ↔ p = .error e) ∧ ∀ s, p = .ok s → ∃ s', p' = .ok s' ∧ R s s' := by
  subst h
  cases p with
  | error e => exact ⟨fun e' => ⟨fun h => by cases h; rfl, fun h => by cases h; rfl⟩, fun s h => by cases h⟩
  | ok a =>
    refine ⟨fun e' => ⟨fun h => ?_, fun h => ?_⟩, fun s h => ?_⟩
    · cases h
    · cases h
    · cases h
      exact ⟨_, rfl, hg _⟩

/-- **C154 (single fidelity).** Give the problem in other units of the variables: the design space is converted, and the objective takes converted points.  Then the whole history of a Bayesian optimiser, with
any of the three acquisitions, from its construction through any number of `run_optimizer` calls, is the old one with the points converted: same values, same best values, same exceptions. -/
theorem C154_sf {c : UnitChange ℝ d} (hc : ∀ j, 0 < c.scale j) (o : Outside d) (hde : UnitFreeInputs o.de) (box : Box ℝ d) {f f' : List (Fin d → ℝ) → Py (List ℝ)}
    (hf : SameFunction c f f') (optimum : Option ℝ) {E : (m : ℕ) → SFSurr d → Samples m d → Py (Fin m → ℝ)}
    (hE : (∃ kappa, E = fun _ => lcbEval kappa) ∨ (E = fun _ => eiEval) ∨ E = fun _ => piEval) (numInit seed : ℕ) (w : o.env.S) (runs : List (ℕ × ℝ)) :
    (∀ e, session (sfBO o (c.space box) f' optimum E none numInit seed) w runs = .error e ↔ session (sfBO o box f optimum E none numInit seed) w runs = .error e) ∧
    ∀ s, session (sfBO o box f optimum E none numInit seed) w runs = .ok s →
      ∃ s', session (sfBO o (c.space box) f' optimum E none numInit seed) w runs = .ok s' ∧ SameRunIn c s s' := by
  have hE' : AcqConv E := by
    rcases hE with ⟨kappa, rfl⟩ | rfl | rfl
    · exact acqConv_library.1 kappa
    · exact acqConv_library.2.1
    · exact acqConv_library.2.2
  exact map_same (sameRunIn_conv (Kriging.conv c) c) (session_conv (sfBO_convOf hc o hde box hf optimum hE' numInit seed) w runs)

/-! ### Constrained -/

/-- The state of a constrained optimiser with every point converted by `φ` and the surrogates by `U`. -/
def ConsState.conv {X S W : Type} {n : ℕ} (U : S → S) (φ : X → X) (s : ConsState ℝ X S W n) : ConsState ℝ X S W n :=
  { sample := s.sample.map φ, objResponse := s.objResponse, consResponse := s.consResponse, surrogate := U s.surrogate, best := s.best, bestX := s.bestX.map fun l => l.map φ,
    historyBest := s.historyBest, historyBestX := s.historyBestX.map fun o => o.map fun l => l.map φ, rng := s.rng, calls := s.calls.map fun l => l.map φ }

/-- `p'` is the problem `p` for converted points. -/
structure ConsConvOf {X S W : Type} {n : ℕ} (U : S → S) (φ : X → X) (p p' : ConsProblem ℝ X S W n) : Prop where
  f : ∀ xs, p'.f (xs.map φ) = p.f xs
  fCons : ∀ xs, p'.fCons (xs.map φ) = p.fCons xs
  numCons : p'.numCons = p.numCons
  optimum : p'.optimum = p.optimum
  init : ∀ w, p'.init w = (p.init w).map fun r => (r.1.map φ, r.2)
  fresh : p'.fresh = U p.fresh
  train : ∀ s xs ys gs w, p'.train (U s) (xs.map φ) ys gs w = (p.train s xs ys gs w).map fun r => (U r.1, r.2)
  query : ∀ s w, p'.query (U s) w = (p.query s w).map fun r => (φ r.1, r.2)

theorem consPara_conv {X : Type} {n : ℕ} (φ : X → X) (numCons : ℕ) (sample : List X) (obj : List ℝ) (cons : List (Fin n → ℝ)) :
    consPara numCons (sample.map φ) obj cons = ((consPara numCons sample obj cons).1, (consPara numCons sample obj cons).2.map fun l => l.map φ) := by
  have h : consBest numCons (sample.map φ) obj cons = (consBest numCons sample obj cons).map fun r => (r.1, r.2.map φ) := by
    unfold consBest
    dsimp only
    cases (feasibleIndex numCons cons).mapM (npRow obj) with
    | error e => rfl
    | ok feas =>
      simp only [bind, Except.bind]
      cases npMin feas with
      | error e => rfl
      | ok y =>
        simp only [mapM_npRow_map]
        cases (positionsOf y obj).mapM (npRow sample) <;> rfl
  unfold consPara
  rw [h]
  cases consBest numCons sample obj cons <;> rfl

theorem consNew_conv {X S W : Type} {n : ℕ} {U : S → S} {φ : X → X} {p p' : ConsProblem ℝ X S W n} (h : ConsConvOf U φ p p') (w : W) :
    p'.new w = (p.new w).map (ConsState.conv U φ) := by
  unfold ConsProblem.new
  rw [h.init, h.fresh, h.numCons]
  cases p.init w with
  | error e => rfl
  | ok r =>
    simp only [Except.map, bind, Except.bind, h.f, h.fCons]
    cases p.f r.1 with
    | error e => rfl
    | ok y =>
      simp only
      cases p.fCons r.1 with
      | error e => rfl
      | ok g =>
        simp only [h.train]
        cases p.train p.fresh r.1 y g r.2 with
        | error e => rfl
        | ok t =>
          simp only [Except.map, consPara_conv]
          rfl

theorem consIterate_conv {X S W : Type} {n : ℕ} {U : S → S} {φ : X → X} {p p' : ConsProblem ℝ X S W n} (h : ConsConvOf U φ p p') (s : ConsState ℝ X S W n) :
    p'.iterate (ConsState.conv U φ s) = (p.iterate s).map (ConsState.conv U φ) := by
  unfold ConsProblem.iterate
  rw [show (ConsState.conv U φ s).surrogate = U s.surrogate from rfl, show (ConsState.conv U φ s).rng = s.rng from rfl, h.query, h.numCons]
  cases p.query s.surrogate s.rng with
  | error e => rfl
  | ok r =>
    have hf : p'.f [φ r.1] = p.f [r.1] := h.f [r.1]
    have hg : p'.fCons [φ r.1] = p.fCons [r.1] := h.fCons [r.1]
    simp only [Except.map, bind, Except.bind, hf, hg]
    cases p.f [r.1] with
    | error e => rfl
    | ok y =>
      simp only
      cases p.fCons [r.1] with
      | error e => rfl
      | ok g =>
        have e : (ConsState.conv U φ s).sample ++ [φ r.1] = (s.sample ++ [r.1]).map φ := by
          rw [List.map_append]; rfl
        simp only [e, show (ConsState.conv U φ s).objResponse = s.objResponse from rfl, show (ConsState.conv U φ s).consResponse = s.consResponse from rfl, h.train]
        cases p.train s.surrogate (s.sample ++ [r.1]) (s.objResponse ++ y) (s.consResponse ++ g) r.2 with
        | error e => rfl
        | ok t =>
          simp only [Except.map, consPara_conv]
          simp only [ConsState.conv, List.map_append]
          rfl

theorem consLoop_conv {X S W : Type} {n : ℕ} {U : S → S} {φ : X → X} {p p' : ConsProblem ℝ X S W n} (h : ConsConvOf U φ p p') (stop : ℝ) : ∀ (k : ℕ) (s : ConsState ℝ X S W n),
    p'.loop stop k (ConsState.conv U φ s) = (p.loop stop k s).map (ConsState.conv U φ)
  | 0, _ => rfl
  | k + 1, s => by
    unfold ConsProblem.loop
    rw [show (ConsState.conv U φ s).best = s.best from rfl, h.optimum]
    split_ifs
    · rw [consIterate_conv h]
      cases p.iterate s with
      | error e => rfl
      | ok s1 => exact consLoop_conv h stop k s1
    · rfl

theorem consSession_conv {X S W : Type} {n : ℕ} {U : S → S} {φ : X → X} {p p' : ConsProblem ℝ X S W n} (h : ConsConvOf U φ p p') (w : W) (runs : List (ℕ × ℝ)) :
    consSession p' w runs = (consSession p w runs).map (ConsState.conv U φ) := by
  unfold consSession
  rw [consNew_conv h]
  cases p.new w with
  | error e => rfl
  | ok s =>
    simp only [Except.map, bind, Except.bind]
    induction runs generalizing s with
    | nil => rfl
    | cons r l ih =>
      simp only [List.foldlM_cons, bind, Except.bind, ConsProblem.run, consLoop_conv h]
      cases p.loop r.2 r.1 s with
      | error e => rfl
      | ok s1 =>
        simp only [Except.map]
        exact ih s1

/-- All surrogates of a constrained optimiser in other units of the variables. -/
noncomputable def consSurrConv (c : UnitChange ℝ d) (k : Kriging d × List (Kriging d)) : Kriging d × List (Kriging d) := (Kriging.conv c k.1, k.2.map (Kriging.conv c))

theorem trainCons_conv {n : ℕ} {c : UnitChange ℝ d} (hc : ∀ j, 0 < c.scale j) (o : Outside d) (xs : List (Fin d → ℝ)) (gs : List (Fin n → ℝ)) : ∀ (ii : ℕ) (ks : List (Kriging d)) (w : o.env.S),
    trainCons o (xs.map c.point) gs ii (ks.map (Kriging.conv c)) w = (trainCons o xs gs ii ks w).map fun r => (r.1.map (Kriging.conv c), r.2)
  | _, [], _ => rfl
  | ii, k :: ks, w => by
    rw [List.map_cons]
    unfold trainCons
    cases consColumn ii gs with
    | error e => rfl
    | ok y =>
      simp only [bind, Except.bind, kriging_train_conv hc]
      cases k.train o xs y w with
      | error e => rfl
      | ok r =>
        simp only [Except.map, trainCons_conv hc o xs gs (ii + 1) ks r.2]
        cases trainCons o xs gs (ii + 1) ks r.2 <;> rfl

theorem mapM_view_conv {c : UnitChange ℝ d} (hc : ∀ j, 0 < c.scale j) : ∀ ks : List (Kriging d),
    (ks.map (Kriging.conv c)).mapM Kriging.view = (ks.mapM Kriging.view).map fun l => l.map (SFSurr.conv c)
  | [] => rfl
  | k :: ks => by
    rw [List.map_cons, List.mapM_cons, List.mapM_cons, kriging_view_conv hc, mapM_view_conv hc ks]
    cases k.view with
    | error e => rfl
    | ok s =>
      simp only [Except.map, bind, Except.bind]
      cases ks.mapM Kriging.view <;> rfl

theorem pofColumns_conv {c : UnitChange ℝ d} (hc : ∀ j, 0 < c.scale j) {m : ℕ} (x : Samples m d) : ∀ cs : List (SFSurr d),
    pofColumns (fun i => c.point (x i)) (cs.map (SFSurr.conv c)) = pofColumns x cs
  | [] => rfl
  | s :: cs => by
    rw [List.map_cons]
    unfold pofColumns
    rw [predict_conv hc, pofColumns_conv hc x cs]

theorem ceiEval_conv {c : UnitChange ℝ d} (hc : ∀ j, 0 < c.scale j) {m : ℕ} (s : SFSurr d) (cs : List (SFSurr d)) (x : Samples m d) :
    ceiEval (SFSurr.conv c s) (cs.map (SFSurr.conv c)) (fun i => c.point (x i)) = ceiEval s cs x := by
  unfold ceiEval ceiEi ceiPof
  rw [predict_conv hc, pofColumns_conv hc, show (SFSurr.conv c s).sampleY = s.sampleY from rfl]

theorem consQuery_conv {W : Type} {c : UnitChange ℝ d} (hc : ∀ j, 0 < c.scale j) {de : DiffEvo W d} (hde : UnitFreeInputs de) (s : SFSurr d) (cs : List (SFSurr d)) (w : W) :
    consQuery none de (SFSurr.conv c s) (cs.map (SFSurr.conv c)) w = (consQuery none de s cs w).map fun r => (c.point r.1, r.2) := by
  unfold consQuery
  dsimp only
  rw [show (SFSurr.conv c s).bounds = c.space s.bounds from rfl,
    hde c (single (fun x => do let v ← ceiEval s cs x; .ok (fun i => v i i))) _ hc (single_conv fun x => by rw [ceiEval_conv hc])]
  generalize de (single (fun x => do let v ← ceiEval s cs x; .ok (fun i => v i i))) s.bounds w = q
  cases q <;> rfl

theorem consBO_convOf {n : ℕ} {c : UnitChange ℝ d} (hc : ∀ j, 0 < c.scale j) (o : Outside d) (hde : UnitFreeInputs o.de) (box : Box ℝ d) {f f' : List (Fin d → ℝ) → Py (List ℝ)}
    (hf : SameFunction c f f') {g g' : List (Fin d → ℝ) → Py (List (Fin n → ℝ))} (hg : SameFunction c g g') (numCons : ℕ) (optimum : Option ℝ) (numInit seed : ℕ) :
    ConsConvOf (consSurrConv c) c.point (consBO o box f g numCons optimum none numInit seed) (consBO o (c.space box) f' g' numCons optimum none numInit seed) where
  f := hf
  fCons := hg
  numCons := rfl
  optimum := rfl
  init := fun w => congrArg Except.ok ((C153_sf o.env c box numInit (o.env.seed seed w)).1 (some seed))
  fresh := by
    show (freshKriging (c.space box), List.replicate numCons (freshKriging (c.space box))) = (Kriging.conv c (freshKriging box), (List.replicate numCons (freshKriging box)).map (Kriging.conv c))
    rw [List.map_replicate, freshKriging_conv]
  train := fun s xs ys gs w => by
    show (do let (obj, w) ← (Kriging.conv c s.1).train o (xs.map c.point) ys w
             let (cons, w) ← trainCons o (xs.map c.point) gs 0 (s.2.map (Kriging.conv c)) w
             .ok ((obj, cons), w)) = Except.map _ (do
             let (obj, w) ← s.1.train o xs ys w
             let (cons, w) ← trainCons o xs gs 0 s.2 w
             .ok ((obj, cons), w))
    rw [kriging_train_conv hc]
    cases s.1.train o xs ys w with
    | error e => rfl
    | ok r =>
      simp only [Except.map, bind, Except.bind, trainCons_conv hc]
      cases trainCons o xs gs 0 s.2 r.2 <;> rfl
  query := fun s w => by
    show (do let v ← (Kriging.conv c s.1).view
             let cs ← (s.2.map (Kriging.conv c)).mapM Kriging.view
             consQuery none o.de v cs w) = Except.map _ (do
             let v ← s.1.view
             let cs ← s.2.mapM Kriging.view
             consQuery none o.de v cs w)
    rw [kriging_view_conv hc, mapM_view_conv hc]
    cases s.1.view with
    | error e => rfl
    | ok v =>
      simp only [Except.map, bind, Except.bind]
      cases s.2.mapM Kriging.view with
      | error e => rfl
      | ok cs => exact consQuery_conv hc hde v cs w

theorem sameConsRunIn_conv {S W : Type} {n : ℕ} (U : S → S) (c : UnitChange ℝ d) (s : ConsState ℝ (Fin d → ℝ) S W n) : SameConsRunIn c s (ConsState.conv U c.point s) :=
  ⟨rfl, rfl, rfl, rfl, rfl, rfl, rfl, rfl, rfl⟩

/-- **C154 (constrained).** The same for the constrained optimiser, when objective and constraints take converted points. -/
theorem C154_constrained {n : ℕ} {c : UnitChange ℝ d} (hc : ∀ j, 0 < c.scale j) (o : Outside d) (hde : UnitFreeInputs o.de) (box : Box ℝ d) {f f' : List (Fin d → ℝ) → Py (List ℝ)}
    (hf : SameFunction c f f') {g g' : List (Fin d → ℝ) → Py (List (Fin n → ℝ))} (hg : SameFunction c g g') (numCons : ℕ) (optimum : Option ℝ) (numInit seed : ℕ) (w : o.env.S)
    (runs : List (ℕ × ℝ)) :
    (∀ e, consSession (consBO o (c.space box) f' g' numCons optimum none numInit seed) w runs = .error e ↔ consSession (consBO o box f g numCons optimum none numInit seed) w runs = .error e) ∧
    ∀ s, consSession (consBO o box f g numCons optimum none numInit seed) w runs = .ok s →
      ∃ s', consSession (consBO o (c.space box) f' g' numCons optimum none numInit seed) w runs = .ok s' ∧ SameConsRunIn c s s' :=
  map_same (sameConsRunIn_conv (consSurrConv c) c) (consSession_conv (consBO_convOf hc o hde box hf hg numCons optimum numInit seed) w runs)

/-! ### The hypotheses are met -/

/-- The search of the examples, which looks at one corner only, does not depend on the units of the variables. -/
theorem exOutside_unitFreeInputs (d : ℕ) : UnitFreeInputs (exOutside d).de := by
  intro c f f' hc h box w
  have hle : (∀ j, (c.space box).low j ≤ (c.space box).high j) ↔ ∀ j, box.low j ≤ box.high j := by
    refine forall_congr' fun j => ?_
    show c.scale j * box.low j + c.shift j ≤ c.scale j * box.high j + c.shift j ↔ _
    rw [add_le_add_iff_right, mul_le_mul_iff_right₀ (hc j)]
  have hlow : f' (c.space box).low = f box.low := h box.low
  simp only [exOutside, hlow]
  cases f box.low with
  | error e => rfl
  | ok v =>
    simp only [Except.map, bind, Except.bind, hle]
    split_ifs <;> rfl

/-- C154 is not vacuous: the optimiser of `exSF_reachable` runs, in metres and in millimetres counted from -5. -/
example : ∃ s s', session (sfBO (exOutside 1) exInterval (fun xs => .ok (xs.map fun x => x 0)) none (fun _ => eiEval) none 2 1996) (0 : ℕ) [(3, 0.1), (5, 0)] = .ok s ∧
    session (sfBO (exOutside 1) (UnitChange.space ⟨fun _ => 1000, fun _ => 5⟩ exInterval) (fun xs => .ok (xs.map fun x => (x 0 - 5) / 1000)) none (fun _ => eiEval) none 2 1996) (0 : ℕ)
      [(3, 0.1), (5, 0)] = .ok s' ∧ SameRunIn ⟨fun _ => 1000, fun _ => 5⟩ s s' := by
  obtain ⟨s, hs⟩ := exUnits_session none (eval := fun _ => eiEval) (Or.inr (Or.inl rfl)) [(3, 0.1), (5, 0)]
  have h := C154_sf (c := ⟨fun _ => 1000, fun _ => 5⟩) (by norm_num) (exOutside 1) (exOutside_unitFreeInputs 1) exInterval (f := fun xs => .ok (xs.map fun x => x 0))
    (f' := fun xs => .ok (xs.map fun x => (x 0 - 5) / 1000)) (fun xs => by simp [UnitChange.point]) none (E := fun _ => eiEval) (Or.inr (Or.inl rfl)) 2 1996 (0 : ℕ) [(3, 0.1), (5, 0)]
  obtain ⟨s', hs', hr⟩ := h.2 s hs
  exact ⟨s, s', hs, hs', hr⟩

/-- The constrained part is not vacuous: the optimiser of `exCons_reachable` runs in both units. -/
example : ∃ w s s', consSession (consBO (exOutside 1) exInterval (fun xs => .ok (xs.map fun x => x 0)) (fun xs => .ok (xs.map fun x (_ : Fin 1) => x 0 - 1 / 4)) 1 none none 2 1996) w [(3, 0.1)] = .ok s ∧
    consSession (consBO (exOutside 1) (UnitChange.space ⟨fun _ => 1000, fun _ => 5⟩ exInterval) (fun xs => .ok (xs.map fun x => (x 0 - 5) / 1000))
      (fun xs => .ok (xs.map fun x (_ : Fin 1) => (x 0 - 5) / 1000 - 1 / 4)) 1 none none 2 1996) w [(3, 0.1)] = .ok s' ∧ SameConsRunIn ⟨fun _ => 1000, fun _ => 5⟩ s s' := by
  obtain ⟨s1, hr⟩ := exCons_reachable
  obtain ⟨w, s0, h0⟩ : ∃ w s0, (consBO (exOutside 1) exInterval (fun xs => .ok (xs.map fun x => x 0)) (fun xs => .ok (xs.map fun x (_ : Fin 1) => x 0 - 1 / 4)) 1 none none 2 1996).new w = .ok s0 := by
    induction hr with
    | new w h => exact ⟨w, _, h⟩
    | run _ _ _ _ ih => exact ih
  obtain ⟨r, hrun⟩ := (C89_cons_succeeds (exOutside 1) (exOutside_lawful 1) one_pos exInterval (fun _ => by simp [exInterval]) (f := fun xs => .ok (xs.map fun x => x 0)) (g := fun x => x 0)
    (fun _ => rfl) (fCons := fun xs => .ok (xs.map fun x (_ : Fin 1) => x 0 - 1 / 4)) (gc := fun x _ => x 0 - 1 / 4) (fun _ => rfl) none 2 1996).2 s0 (.new w h0) 3 0.1
  have hs : consSession (consBO (exOutside 1) exInterval (fun xs => .ok (xs.map fun x => x 0)) (fun xs => .ok (xs.map fun x (_ : Fin 1) => x 0 - 1 / 4)) 1 none none 2 1996) w [(3, 0.1)] = .ok r.1 := by
    unfold consSession
    refine Py.bind_ok.mpr ⟨s0, h0, ?_⟩
    rw [List.foldlM_cons]
    exact Py.bind_ok.mpr ⟨r.1, Py.bind_ok.mpr ⟨r, hrun, rfl⟩, rfl⟩
  obtain ⟨s', hs', h⟩ := (C154_constrained (c := ⟨fun _ => 1000, fun _ => 5⟩) (by norm_num) (exOutside 1) (exOutside_unitFreeInputs 1) exInterval (f := fun xs => .ok (xs.map fun x => x 0))
    (f' := fun xs => .ok (xs.map fun x => (x 0 - 5) / 1000)) (fun xs => by simp [UnitChange.point]) (g := fun xs => .ok (xs.map fun x (_ : Fin 1) => x 0 - 1 / 4))
    (g' := fun xs => .ok (xs.map fun x (_ : Fin 1) => (x 0 - 5) / 1000 - 1 / 4)) (fun xs => by simp [UnitChange.point]) 1 none 2 1996 w [(3, 0.1)]).2 _ hs
  exact ⟨w, _, s', hs, hs', h⟩

end Mfpml.Props
