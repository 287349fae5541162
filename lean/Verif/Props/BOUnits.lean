import Verif.Spec.BOUnits
import Verif.Lemmas.Units
import Verif.Props.SearchSolvable

/-!
# C131: Bayesian optimisation in other units of the objective

Vocabulary: `Verif/Spec/BOUnits.lean`.
-/

namespace Mfpml.Props

open Mfpml Mfpml.Acq Mfpml.GP Mfpml.Spec Mfpml.BO
open Mfpml.EA (Box)
open Mfpml.Sampling (lhsSamples Env)

variable {d : ℕ}

/-! ### Arrays -/

theorem foldl_min_units {a : ℝ} (ha : 0 < a) (b : ℝ) : ∀ (l : List ℝ) (m : ℝ), (l.map fun y => a * y + b).foldl min (a * m + b) = a * l.foldl min m + b
  | [], _ => rfl
  | y :: l, m => by
    have : min (a * m + b) (a * y + b) = a * min m y + b := by
      have hmono : Monotone fun y : ℝ => a * y + b := fun u v h => by dsimp only; gcongr
      exact (hmono.map_min (a := m) (b := y)).symm
    rw [List.map_cons, List.foldl_cons, this, foldl_min_units ha b l, List.foldl_cons]

theorem npMin_units {a : ℝ} (ha : 0 < a) (b : ℝ) (l : List ℝ) : npMin (l.map fun y => a * y + b) = (npMin l).map fun y => a * y + b := by
  cases l with
  | nil => rfl
  | cons y l => exact congrArg Except.ok (foldl_min_units ha b l y)

theorem argminScan_units {a : ℝ} (ha : 0 < a) (b : ℝ) : ∀ (l : List ℝ) (m : ℝ) (k i : ℕ), argminScan (a * m + b) k i (l.map fun y => a * y + b) = argminScan m k i l
  | [], _, _, _ => rfl
  | y :: l, m, k, i => by
    have : a * y + b < a * m + b ↔ y < m := by
      rw [add_lt_add_iff_right, mul_lt_mul_iff_right₀ ha]
    simp only [List.map_cons, argminScan, this, argminScan_units ha b l]

theorem npArgmin_units {a : ℝ} (ha : 0 < a) (b : ℝ) (l : List ℝ) : npArgmin (l.map fun y => a * y + b) = npArgmin l := by
  cases l with
  | nil => rfl
  | cons y l => exact congrArg Except.ok (argminScan_units ha b l y 0 1)

/-! ### The loop, for every surrogate -/

/-- The state in other units, `U` being the change of units of the surrogate. -/
def SFState.inUnits {X S W : Type} (U : S → S) (a b : ℝ) (s : SFState ℝ X S W) : SFState ℝ X S W :=
  { s with initResponse := s.initResponse.map (fun y => a * y + b), response := s.response.map (fun y => a * y + b), surrogate := U s.surrogate, best := a * s.best + b,
           historyBest := s.historyBest.map fun y => a * y + b }

theorem sameRun_inUnits {X S W : Type} (U : S → S) (a b : ℝ) (s : SFState ℝ X S W) : SameRun a b s (SFState.inUnits U a b s) :=
  ⟨rfl, rfl, rfl, rfl, rfl, rfl, rfl, rfl, rfl, rfl⟩

/-- Two problems that differ by units. -/
structure UnitsOf {X S W : Type} (U : S → S) (a b : ℝ) (p p' : SFProblem ℝ X S W) : Prop where
  f : p'.f = Spec.inUnits a b p.f
  init : p'.init = p.init
  fresh : p'.fresh = U p.fresh
  train : ∀ s xs ys w, p'.train (U s) xs (ys.map fun y => a * y + b) w = (p.train s xs ys w).map fun r => (U r.1, r.2)
  query : ∀ s w, p'.query (U s) w = p.query s w

theorem new_inUnits {X S W : Type} {U : S → S} {a : ℝ} (ha : 0 < a) {b : ℝ} {p p' : SFProblem ℝ X S W} (h : UnitsOf U a b p p') (w : W) :
    p'.new w = (p.new w).map (SFState.inUnits U a b) := by
  unfold SFProblem.new
  rw [h.init, h.f, h.fresh]
  cases p.init w with
  | error e => rfl
  | ok r =>
    simp only [bind, Except.bind, Spec.inUnits]
    cases p.f r.1 with
    | error e => rfl
    | ok y =>
      simp only [Except.map, h.train]
      cases p.train p.fresh r.1 y r.2 with
      | error e => rfl
      | ok t =>
        simp only [Except.map, npMin_units ha, npArgmin_units ha]
        cases npMin y with
        | error e => rfl
        | ok m =>
          cases npArgmin y with
          | error e => rfl
          | ok i =>
            simp only
            cases npRow r.1 i <;> rfl

theorem iterate_inUnits {X S W : Type} {U : S → S} {a : ℝ} (ha : 0 < a) {b : ℝ} {p p' : SFProblem ℝ X S W} (h : UnitsOf U a b p p') (s : SFState ℝ X S W) :
    p'.iterate (SFState.inUnits U a b s) = (p.iterate s).map (SFState.inUnits U a b) := by
  unfold SFProblem.iterate
  rw [show (SFState.inUnits U a b s).surrogate = U s.surrogate from rfl, show (SFState.inUnits U a b s).rng = s.rng from rfl, h.query, h.f]
  cases p.query s.surrogate s.rng with
  | error e => rfl
  | ok r =>
    simp only [bind, Except.bind, Spec.inUnits]
    cases p.f [r.1] with
    | error e => rfl
    | ok y =>
      have e : (SFState.inUnits U a b s).response ++ y.map (fun y => a * y + b) = (s.response ++ y).map fun y => a * y + b := by
        rw [List.map_append]; rfl
      simp only [Except.map, e, show (SFState.inUnits U a b s).sample = s.sample from rfl, h.train]
      cases p.train s.surrogate (s.sample ++ [r.1]) (s.response ++ y) r.2 with
      | error e => rfl
      | ok t =>
        simp only [Except.map, npMin_units ha, npArgmin_units ha]
        cases npMin (s.response ++ y) with
        | error e => rfl
        | ok m =>
          cases npArgmin (s.response ++ y) with
          | error e => rfl
          | ok i =>
            simp only
            cases npRow (s.sample ++ [r.1]) i with
            | error e => rfl
            | ok x =>
              simp only [SFState.inUnits, List.map_append]
              rfl

theorem loop_inUnits {X S W : Type} {U : S → S} {a : ℝ} (ha : 0 < a) {b : ℝ} {p p' : SFProblem ℝ X S W} (h : UnitsOf U a b p p')
    (hstop : ∀ y, updateError (a * y + b) p'.optimum = updateError y p.optimum) (stop : ℝ) : ∀ (k : ℕ) (s : SFState ℝ X S W),
    p'.loop stop k (SFState.inUnits U a b s) = (p.loop stop k s).map (SFState.inUnits U a b)
  | 0, _ => rfl
  | k + 1, s => by
    unfold SFProblem.loop
    rw [show (SFState.inUnits U a b s).best = a * s.best + b from rfl, hstop]
    split_ifs
    · rw [iterate_inUnits ha h]
      cases p.iterate s with
      | error e => rfl
      | ok s1 => exact loop_inUnits ha h hstop stop k s1
    · rfl

/-! ### The library's parts -/

/-- The surrogate in other units. -/
noncomputable def Kriging.inUnits (a b : ℝ) (k : Kriging d) : Kriging d := { obj := k.obj.units a, fit := k.fit.map fun t => ⟨t.1, t.2.units a b⟩ }

theorem kriging_train_inUnits {a : ℝ} (ha : a ≠ 0) (b : ℝ) (o : Outside d) (k : Kriging d) (xs : List (Fin d → ℝ)) (ys : List ℝ) (w : o.env.S) :
    (Kriging.inUnits a b k).train o xs (ys.map fun y => a * y + b) w = (k.train o xs ys w).map fun r => (Kriging.inUnits a b r.1, r.2) := by
  unfold Kriging.train
  by_cases h : ys.length = xs.length
  · have h' : (ys.map fun y => a * y + b).length = xs.length := by rw [List.length_map, h]
    rw [dif_pos h, dif_pos h']
    have hc : column (ys.map fun y => a * y + b) h' = fun i => a * column ys h i + b := by
      funext i
      simp [column]
    show (do let (gp, fit) ← (k.obj.units a).train (o.world k.obj.kernel w).1 (rows xs) (column (ys.map fun y => a * y + b) h')
             .ok ({ obj := gp, fit := some ⟨_, fit⟩ }, (o.world k.obj.kernel w).2) : Py (Kriging d × o.env.S)) = _
    rw [hc, gp_train_units ha b]
    dsimp only
    cases k.obj.train (o.world k.obj.kernel w).1 (rows xs) (column ys h) with
    | error e => rfl
    | ok r => rfl
  · rw [dif_neg h, dif_neg (by rw [List.length_map]; exact h)]
    rfl

/-- What the acquisition sees, in other units. -/
noncomputable def SFSurr.inUnits (a b : ℝ) (s : SFSurr d) : SFSurr d :=
  { bounds := s.bounds, sampleY := s.sampleY.map fun y => a * y + b, predict := fun m X => (s.predict m X).map fun r => (fun j => a * r.1 j + b, fun j => a * r.2 j) }

theorem kriging_view_inUnits {a : ℝ} (ha : 0 < a) (b : ℝ) (k : Kriging d) : (Kriging.inUnits a b k).view = k.view.map (SFSurr.inUnits a b) := by
  unfold Kriging.view Kriging.inUnits
  cases k.fit with
  | none => rfl
  | some t =>
    simp only [Option.map_some, Except.map, SFSurr.ofGP, SFSurr.inUnits, Except.ok.injEq, SFSurr.mk.injEq]
    refine ⟨rfl, ?_, ?_⟩
    · rw [List.map_ofFn]; rfl
    · funext m X
      rw [gp_predictStd_units ha.ne' b k.obj t.2 X, abs_of_pos ha]
      rfl

/-- The acquisition `E'` in the new units is a rising affine function of the acquisition `E` in the old ones. -/
def AcqUnits (a b : ℝ) (E E' : (m : ℕ) → SFSurr d → Samples m d → Py (Fin m → ℝ)) : Prop :=
  ∃ c e : ℝ, 0 < c ∧ ∀ s x, E' 1 (SFSurr.inUnits a b s) x = (E 1 s x).map fun v j => c * v j + e

theorem query_inUnits {W : Type} {a b : ℝ} {E E' : (m : ℕ) → SFSurr d → Samples m d → Py (Fin m → ℝ)} (hE : AcqUnits a b E E') (opt : Option (PopOpt W d)) {de : DiffEvo W d}
    (hde : UnitFreeSearch de) (s : SFSurr d) (w : W) : sfQuery E' opt de (SFSurr.inUnits a b s) w = sfQuery E opt de s w := by
  obtain ⟨c, e, hc, hE⟩ := hE
  cases opt with
  | some run => rfl
  | none =>
    have h1 : single (E' 1 (SFSurr.inUnits a b s)) = fun x => (single (E 1 s) x).map fun v => c * v + e := by
      funext x
      unfold single
      rw [hE]
      cases E 1 s (onePoint x) <;> rfl
    have h2 : ∀ r : Py (((Fin d → ℝ) × ℝ) × W), (do let (res, w) ← r; .ok (res.1, w) : Py ((Fin d → ℝ) × W)) = r.map fun r => (r.1.1, r.2) := by
      intro r
      cases r <;> rfl
    unfold sfQuery
    simp only [h2, h1, show (SFSurr.inUnits a b s).bounds = s.bounds from rfl]
    exact hde _ c e hc _ _

theorem sfBO_unitsOf {a : ℝ} (ha : 0 < a) (b : ℝ) (o : Outside d) (hde : UnitFreeSearch o.de) (box : Box ℝ d) (f : List (Fin d → ℝ) → Py (List ℝ)) (optimum optimum' : Option ℝ)
    {E E' : (m : ℕ) → SFSurr d → Samples m d → Py (Fin m → ℝ)} (hE : AcqUnits a b E E') (opt : Option (PopOpt o.env.S d)) (numInit seed : ℕ) :
    UnitsOf (Kriging.inUnits a b) a b (sfBO o box f optimum E opt numInit seed) (sfBO o box (Spec.inUnits a b f) optimum' E' opt numInit seed) where
  f := rfl
  init := rfl
  fresh := by
    show freshKriging box = Kriging.inUnits a b (freshKriging box)
    simp [freshKriging, Kriging.inUnits, GPObj.units, freshGP]
  train := fun s xs ys w => kriging_train_inUnits ha.ne' b o s xs ys w
  query := fun s w => by
    show (do let v ← (Kriging.inUnits a b s).view; sfQuery E' opt o.de v w) = (do let v ← s.view; sfQuery E opt o.de v w)
    rw [kriging_view_inUnits ha b]
    cases s.view with
    | error e => rfl
    | ok v => exact query_inUnits hE opt hde v w

theorem lcb_acqUnits {a : ℝ} (ha : 0 < a) (b : ℝ) (kappa : ℝ × ℝ) : AcqUnits (d := d) a b (fun _ => lcbEval kappa) (fun _ => lcbEval kappa) := by
  refine ⟨a, kappa.1 * b, ha, fun s x => ?_⟩
  simp only [lcbEval, SFSurr.inUnits]
  cases s.predict 1 x with
  | error e => rfl
  | ok r =>
    simp only [Except.map, bind, Except.bind, Except.ok.injEq]
    funext j
    ring

theorem ei_acqUnits {a : ℝ} (ha : 0 < a) (b t : ℝ) : AcqUnits (d := d) a b (eiGuard (t / a)) (eiGuard t) := by
  refine ⟨a, 0, ha, fun s x => ?_⟩
  simp only [eiGuard, SFSurr.inUnits, npMin_units ha]
  cases npMin s.sampleY with
  | error e => rfl
  | ok m =>
    simp only [Except.map, bind, Except.bind]
    cases s.predict 1 x with
    | error e => rfl
    | ok r =>
      simp only [Except.map, Except.ok.injEq]
      funext j
      have h : (a * m + b - (a * r.1 j + b)) / (a * r.2 j + t) = (m - r.1 j) / (r.2 j + t / a) := by
        rw [← mul_div_mul_left (m - r.1 j) _ ha.ne']
        congr 1
        · ring
        · field_simp
      rw [h]
      ring

theorem pi_acqUnits {a : ℝ} (ha : 0 < a) (b t : ℝ) : AcqUnits (d := d) a b (piGuard (t / a)) (piGuard t) := by
  refine ⟨1, 0, one_pos, fun s x => ?_⟩
  simp only [piGuard, SFSurr.inUnits, npMin_units ha]
  cases npMin s.sampleY with
  | error e => rfl
  | ok m =>
    simp only [Except.map, bind, Except.bind]
    cases s.predict 1 x with
    | error e => rfl
    | ok r =>
      simp only [Except.map, Except.ok.injEq]
      funext j
      have h : (a * m + b - (a * r.1 j + b)) / (a * r.2 j + t) = (m - r.1 j) / (r.2 j + t / a) := by
        rw [← mul_div_mul_left (m - r.1 j) _ ha.ne']
        congr 1
        · ring
        · field_simp
      rw [h]
      ring

/-! ### C131 -/

theorem session_inUnits {X S W : Type} {U : S → S} {a : ℝ} (ha : 0 < a) {b : ℝ} {p p' : SFProblem ℝ X S W} (h : UnitsOf U a b p p')
    (hstop : ∀ y, updateError (a * y + b) p'.optimum = updateError y p.optimum) (w : W) (runs : List (ℕ × ℝ)) :
    session p' w runs = (session p w runs).map (SFState.inUnits U a b) := by
  unfold session
  rw [new_inUnits ha h]
  cases p.new w with
  | error e => rfl
  | ok s =>
    simp only [Except.map, bind, Except.bind]
    induction runs generalizing s with
    | nil => rfl
    | cons r l ih =>
      simp only [List.foldlM_cons, bind, Except.bind, SFProblem.run, loop_inUnits ha h hstop]
      cases p.loop r.2 r.1 s with
      | error e => rfl
      | ok s1 =>
        simp only [Except.map]
        exact ih s1

theorem updateError_units {a : ℝ} (ha : 0 < a) {b : ℝ} {optimum : Option ℝ} (h : optimum = none ∨ b = 0 ∧ optimum ≠ some 0) (y : ℝ) :
    updateError (a * y + b) (optimum.map fun o => a * o + b) = updateError y optimum := by
  cases optimum with
  | none => rfl
  | some o =>
    rcases h with h | ⟨rfl, h⟩
    · cases h
    · have ho : o ≠ 0 := fun e => h (by rw [e])
      have hao : a * o + 0 ≠ 0 := by rw [add_zero]; exact mul_ne_zero ha.ne' ho
      simp only [Option.map_some, updateError, npAbs_eq, if_pos ho, if_pos hao]
      congr 1
      rw [add_zero, add_zero, ← mul_sub, mul_div_mul_left _ _ ha.ne']

theorem c131_main {a : ℝ} (ha : 0 < a) (b : ℝ) (o : Outside d) (hde : UnitFreeSearch o.de) (box : Box ℝ d) (f : List (Fin d → ℝ) → Py (List ℝ)) (optimum : Option ℝ)
    (hstop : optimum = none ∨ b = 0 ∧ optimum ≠ some 0) {E E' : (m : ℕ) → SFSurr d → Samples m d → Py (Fin m → ℝ)} (hE : AcqUnits a b E E') (opt : Option (PopOpt o.env.S d))
    (numInit seed : ℕ) (w : o.env.S) (runs : List (ℕ × ℝ)) :
    (∀ e, session (sfBO o box (Spec.inUnits a b f) (optimum.map fun o => a * o + b) E' opt numInit seed) w runs = .error e ↔ session (sfBO o box f optimum E opt numInit seed) w runs = .error e) ∧
    ∀ s, session (sfBO o box f optimum E opt numInit seed) w runs = .ok s →
      ∃ s', session (sfBO o box (Spec.inUnits a b f) (optimum.map fun o => a * o + b) E' opt numInit seed) w runs = .ok s' ∧ SameRun a b s s' := by
  have h := session_inUnits ha (sfBO_unitsOf ha b o hde box f optimum (optimum.map fun o => a * o + b) hE opt numInit seed) (updateError_units ha hstop) w runs
  rw [h]
  cases session (sfBO o box f optimum E opt numInit seed) w runs with
  | error e => exact ⟨fun _ => Iff.rfl, fun s hs => by cases hs⟩
  | ok s => 
    refine ⟨fun e => ⟨fun h => ?_, fun h => ?_⟩, fun s' hs => ?_⟩
    · cases h
    · cases h
    · cases hs
      exact ⟨_, rfl, sameRun_inUnits _ a b s⟩

/-- C131 (LCB). With the lower confidence bound, the whole history of an optimiser, from its construction through any number of `run_optimizer` calls, does not depend on the units of the objective: it evaluates the
same points, reports the same best points and the converted best values, and raises exactly when it would.  The known optimum, if there is one, has to be converted by a factor only and not be zero (see
`C131_stopping_counterexample`). -/
theorem C131_lcb {a : ℝ} (ha : 0 < a) (b : ℝ) (o : Outside d) (hde : UnitFreeSearch o.de) (box : Box ℝ d) (f : List (Fin d → ℝ) → Py (List ℝ)) (optimum : Option ℝ)
    (hstop : optimum = none ∨ b = 0 ∧ optimum ≠ some 0) (kappa : ℝ × ℝ) (opt : Option (PopOpt o.env.S d)) (numInit seed : ℕ) (w : o.env.S) (runs : List (ℕ × ℝ)) :
    (∀ e, session (sfBO o box (Spec.inUnits a b f) (optimum.map fun o => a * o + b) (fun _ => lcbEval kappa) opt numInit seed) w runs = .error e ↔
      session (sfBO o box f optimum (fun _ => lcbEval kappa) opt numInit seed) w runs = .error e) ∧
    ∀ s, session (sfBO o box f optimum (fun _ => lcbEval kappa) opt numInit seed) w runs = .ok s →
      ∃ s', session (sfBO o box (Spec.inUnits a b f) (optimum.map fun o => a * o + b) (fun _ => lcbEval kappa) opt numInit seed) w runs = .ok s' ∧ SameRun a b s s' :=
  c131_main ha b o hde box f optimum hstop (lcb_acqUnits ha b kappa) opt numInit seed w runs

/-- C131 (EI). With the expected improvement the same is true up to the constant `1e-9` of the code, which is in the units of the objective: the history in the new units is the history in the old ones with
`1e-9 / a` in its place. -/
theorem C131_ei {a : ℝ} (ha : 0 < a) (b : ℝ) (o : Outside d) (hde : UnitFreeSearch o.de) (box : Box ℝ d) (f : List (Fin d → ℝ) → Py (List ℝ)) (optimum : Option ℝ)
    (hstop : optimum = none ∨ b = 0 ∧ optimum ≠ some 0) (opt : Option (PopOpt o.env.S d)) (numInit seed : ℕ) (w : o.env.S) (runs : List (ℕ × ℝ)) :
    (∀ e, session (sfBO o box (Spec.inUnits a b f) (optimum.map fun o => a * o + b) (fun _ => eiEval) opt numInit seed) w runs = .error e ↔
      session (sfBO o box f optimum (eiGuard (1e-9 / a)) opt numInit seed) w runs = .error e) ∧
    ∀ s, session (sfBO o box f optimum (eiGuard (1e-9 / a)) opt numInit seed) w runs = .ok s →
      ∃ s', session (sfBO o box (Spec.inUnits a b f) (optimum.map fun o => a * o + b) (fun _ => eiEval) opt numInit seed) w runs = .ok s' ∧ SameRun a b s s' :=
  c131_main ha b o hde box f optimum hstop (E' := fun _ => eiEval) (ei_acqUnits ha b 1e-9) opt numInit seed w runs

/-- C131 (PI). The same for the probability of improvement. -/
theorem C131_pi {a : ℝ} (ha : 0 < a) (b : ℝ) (o : Outside d) (hde : UnitFreeSearch o.de) (box : Box ℝ d) (f : List (Fin d → ℝ) → Py (List ℝ)) (optimum : Option ℝ)
    (hstop : optimum = none ∨ b = 0 ∧ optimum ≠ some 0) (opt : Option (PopOpt o.env.S d)) (numInit seed : ℕ) (w : o.env.S) (runs : List (ℕ × ℝ)) :
    (∀ e, session (sfBO o box (Spec.inUnits a b f) (optimum.map fun o => a * o + b) (fun _ => piEval) opt numInit seed) w runs = .error e ↔
      session (sfBO o box f optimum (piGuard (1e-9 / a)) opt numInit seed) w runs = .error e) ∧
    ∀ s, session (sfBO o box f optimum (piGuard (1e-9 / a)) opt numInit seed) w runs = .ok s →
      ∃ s', session (sfBO o box (Spec.inUnits a b f) (optimum.map fun o => a * o + b) (fun _ => piEval) opt numInit seed) w runs = .ok s' ∧ SameRun a b s s' :=
  c131_main ha b o hde box f optimum hstop (E' := fun _ => piEval) (pi_acqUnits ha b 1e-9) opt numInit seed w runs

/-- The guarded acquisitions are the library's for the guard `1e-9`. -/
theorem guard_library : (eiGuard (d := d) 1e-9 = fun _ => eiEval) ∧ (piGuard (d := d) 1e-9 = fun _ => piEval) := ⟨rfl, rfl⟩

/-! ### The hypotheses are met -/

/-- The search of the examples, which looks at one corner only, does not depend on units. -/
theorem exOutside_unitFree (d : ℕ) : UnitFreeSearch (exOutside d).de := by
  intro f a b _ box w
  simp only [exOutside]
  cases f box.low with
  | error e => rfl
  | ok v =>
    simp only [Except.map, bind, Except.bind]
    split_ifs <;> rfl

/-- Neither does a search that always finds a minimiser. -/
theorem exactSearch_unitFree {W : Type} (b0 : W → W) : UnitFreeSearch (exactSearch (d := d) b0) := by
  intro f a b ha box w
  have key : (fun x => ∃ v, InBounds box x ∧ ((f x).map fun v => a * v + b) = .ok v ∧ ∀ x', InBounds box x' → ∃ v', ((f x').map fun v => a * v + b) = .ok v' ∧ v ≤ v') =
      fun x => ∃ v, InBounds box x ∧ f x = .ok v ∧ ∀ x', InBounds box x' → ∃ v', f x' = .ok v' ∧ v ≤ v' := by
    have hm : ∀ (r : Py ℝ) v, (r.map fun v => a * v + b) = .ok v ↔ ∃ u, r = .ok u ∧ a * u + b = v := by
      intro r v
      cases r with
      | error e => simp [Except.map]
      | ok u => simp [Except.map]
    have hle : ∀ u u' : ℝ, a * u + b ≤ a * u' + b ↔ u ≤ u' := fun u u' => by rw [add_le_add_iff_right, mul_le_mul_iff_right₀ ha]
    funext x
    apply propext
    constructor
    · rintro ⟨v, h1, h2, h3⟩
      obtain ⟨u, hu, rfl⟩ := (hm _ _).mp h2
      refine ⟨u, h1, hu, fun x' hx' => ?_⟩
      obtain ⟨v', h4, h5⟩ := h3 x' hx'
      obtain ⟨u', hu', rfl⟩ := (hm _ _).mp h4
      exact ⟨u', hu', (hle _ _).mp h5⟩
    · rintro ⟨u, h1, h2, h3⟩
      refine ⟨_, h1, (hm _ _).mpr ⟨u, h2, rfl⟩, fun x' hx' => ?_⟩
      obtain ⟨u', h4, h5⟩ := h3 x' hx'
      exact ⟨_, (hm _ _).mpr ⟨u', h4, rfl⟩, (hle _ _).mpr h5⟩
  have choose_eq : ∀ (P Q : (Fin d → ℝ) → Prop), P = Q → ∀ (hP : ∃ x, P x) (hQ : ∃ x, Q x), hP.choose = hQ.choose := by
    rintro P Q rfl hP hQ; rfl
  have hiff : HasMinimum box (fun x => (f x).map fun v => a * v + b) ↔ HasMinimum box f := by
    unfold HasMinimum
    rw [key]
  unfold exactSearch
  by_cases h : HasMinimum box f
  · have h' := hiff.mpr h
    rw [dif_pos h, dif_pos h']
    exact congrArg Except.ok (Prod.ext (choose_eq _ _ key h' h) rfl)
  · rw [dif_neg h, dif_neg (fun h' => h (hiff.mp h'))]

theorem session_of_runs {X S W : Type} {p : SFProblem ℝ X S W} (hp : ∀ s, SFReachable p s → ∀ maxIter stop, ∃ r, p.run maxIter stop s = .ok r) (w : W) (hn : ∃ s, p.new w = .ok s)
    (runs : List (ℕ × ℝ)) : ∃ s, session p w runs = .ok s := by
  obtain ⟨s, hs⟩ := hn
  have hr : SFReachable p s := .new w hs
  have : session p w runs = runs.foldlM (fun s r => do let (s', _) ← p.run r.1 r.2 s; .ok s') s := by
    unfold session
    rw [hs]
    rfl
  rw [this]
  clear hs this
  induction runs generalizing s with
  | nil => exact ⟨s, rfl⟩
  | cons r l ih =>
    obtain ⟨⟨s1, y, x⟩, h1⟩ := hp s hr r.1 r.2
    rw [List.foldlM_cons, h1]
    exact ih s1 (.run _ _ hr h1)

theorem session_one {X S W : Type} {p : SFProblem ℝ X S W} {w : W} {s : SFState ℝ X S W} (h : p.new w = .ok s) (k : ℕ) (stop : ℝ) : session p w [(k, stop)] = p.loop stop k s := by
  unfold session
  rw [h]
  simp only [bind, Except.bind, List.foldlM_cons, List.foldlM_nil, SFProblem.run]
  cases p.loop stop k s <;> rfl

/-- The example optimiser, `x` on the unit interval with two initial samples at `1/2` and `1`. -/
theorem exUnits_new (optimum : Option ℝ) {eval : (m : ℕ) → SFSurr 1 → Samples m 1 → Py (Fin m → ℝ)} (he : LibraryAcq eval) :
    ∃ s, (sfBO (exOutside 1) exInterval (fun xs => .ok (xs.map fun x => x 0)) optimum eval none 2 1996).new (0 : ℕ) = .ok s ∧ s.best = 1 / 2 ∧ s.sample.length = 2 := by
  have hxs : (lhsSamples (exOutside 1).env exInterval 2 (some 1996) ((exOutside 1).env.seed 1996 (0 : ℕ))).1 = [fun _ => 1 / 2, fun _ => 1] := by
    simp only [lhsSamples, Sampling.scaleSamples, exOutside, List.range_succ]
    simp only [List.range_zero, List.nil_append, List.cons_append, List.map_cons, List.map_nil, List.cons.injEq, and_true]
    constructor <;> funext j <;> simp [Sampling.scalePt, exInterval]
  obtain ⟨s, hs⟩ := ((C86_sf_succeeds (exOutside 1) (exOutside_lawful 1) one_pos exInterval (fun _ => by simp [exInterval]) (f := fun xs => .ok (xs.map fun x => x 0)) (g := fun x => x 0)
    (fun _ => rfl) optimum he 2 1996).1 (0 : ℕ)).mpr (by
      rw [hxs]
      exact ⟨fun _ => 1 / 2, by simp, fun _ => 1, by simp, by norm_num⟩)
  refine ⟨s, hs, ?_⟩
  obtain ⟨w1, i, h1, h2, h3, h4, _⟩ := sf_new_steps hs
  have e : s.sample = [fun _ => 1 / 2, fun _ => 1] := (congrArg Prod.fst (Except.ok.inj h1)).symm.trans hxs
  have e2 : s.response = [1 / 2, 1] := by
    have h2' : (.ok (s.sample.map fun x => x 0) : Py (List ℝ)) = .ok s.response := h2
    rw [e] at h2'
    exact (Except.ok.inj h2').symm
  refine ⟨?_, by rw [e]; rfl⟩
  rw [e2] at h4
  have := Except.ok.inj h4
  rw [← this]
  norm_num

theorem exUnits_session (optimum : Option ℝ) {eval : (m : ℕ) → SFSurr 1 → Samples m 1 → Py (Fin m → ℝ)} (he : LibraryAcq eval) (runs : List (ℕ × ℝ)) :
    ∃ s, session (sfBO (exOutside 1) exInterval (fun xs => .ok (xs.map fun x => x 0)) optimum eval none 2 1996) (0 : ℕ) runs = .ok s := by
  obtain ⟨s0, h0, -, -⟩ := exUnits_new optimum he
  have hr := (C86_sf_succeeds (exOutside 1) (exOutside_lawful 1) one_pos exInterval (fun _ => by simp [exInterval]) (f := fun xs => .ok (xs.map fun x => x 0)) (g := fun x => x 0)
    (fun _ => rfl) optimum he 2 1996).2
  exact session_of_runs hr _ ⟨s0, h0⟩ runs

/-- C131 is not vacuous: the optimiser of `exSF_reachable`, with the acquisition LCB, runs, and so does the one whose objective is given in other units. -/
example : ∃ s s', session (sfBO (exOutside 1) exInterval (fun xs => .ok (xs.map fun x => x 0)) none (fun _ => lcbEval (1, 2)) none 2 1996) (0 : ℕ) [(3, 0.1), (5, 0)] = .ok s ∧
    session (sfBO (exOutside 1) exInterval (Spec.inUnits (9 / 5) 32 fun xs => .ok (xs.map fun x => x 0)) none (fun _ => lcbEval (1, 2)) none 2 1996) (0 : ℕ) [(3, 0.1), (5, 0)] = .ok s' ∧
    SameRun (9 / 5) 32 s s' := by
  obtain ⟨s, hs⟩ := exUnits_session none (eval := fun _ => lcbEval (1, 2)) (Or.inl ⟨(1, 2), rfl⟩) [(3, 0.1), (5, 0)]
  have h := C131_lcb (a := 9 / 5) (by norm_num) 32 (exOutside 1) (exOutside_unitFree 1) exInterval (fun xs => .ok (xs.map fun x => x 0)) none (Or.inl rfl) (1, 2) none 2 1996 (0 : ℕ)
    [(3, 0.1), (5, 0)]
  obtain ⟨s', hs', hr⟩ := h.2 s hs
  exact ⟨s, s', hs, hs', hr⟩

/-- C131 (stopping). With a known optimum `0` the stopping rule compares the best value itself with `stopping_error`: the same problem in other units then makes a different number of evaluations. -/
theorem C131_stopping_counterexample : ∃ (o : Outside 1) (box : Box ℝ 1) (f : List (Fin 1 → ℝ) → Py (List ℝ)) (w : o.env.S) (s s' : SFState ℝ (Fin 1 → ℝ) (Kriging 1) o.env.S),
    Lawful o ∧ UnitFreeSearch o.de ∧ session (sfBO o box f (some 0) (fun _ => lcbEval (1, 2)) none 2 1996) w [(1, 1)] = .ok s ∧
    session (sfBO o box (Spec.inUnits 4 0 f) (some (4 * 0 + 0)) (fun _ => lcbEval (1, 2)) none 2 1996) w [(1, 1)] = .ok s' ∧ s.sample.length = 2 ∧ s'.sample.length = 3 := by
  obtain ⟨s, hs, hbest, hlen⟩ := exUnits_new (some 0) (eval := fun _ => lcbEval (1, 2)) (Or.inl ⟨(1, 2), rfl⟩)
  set f : List (Fin 1 → ℝ) → Py (List ℝ) := fun xs => .ok (xs.map fun x => x 0) with hfdef
  have hu := sfBO_unitsOf (a := 4) (by norm_num) 0 (exOutside 1) (exOutside_unitFree 1) exInterval f (some 0) (some (4 * 0 + 0)) (lcb_acqUnits (by norm_num) 0 (1, 2)) none 2 1996
  have hs' := new_inUnits (a := 4) (by norm_num) hu (0 : ℕ)
  rw [hs] at hs'
  set s1 := SFState.inUnits (Kriging.inUnits 4 0) 4 0 s with hs1
  have hrow : Rowwise (Spec.inUnits 4 0 f) (fun x => 4 * x 0 + 0) := fun xs => by simp [Spec.inUnits, hfdef, Except.map]
  obtain ⟨⟨s2, y, x⟩, h2⟩ := (C86_sf_succeeds (exOutside 1) (exOutside_lawful 1) one_pos exInterval (fun _ => by simp [exInterval]) hrow (some (4 * 0 + 0))
    (eval := fun _ => lcbEval (1, 2)) (Or.inl ⟨(1, 2), rfl⟩) 2 1996).2 s1 (.new (0 : ℕ) hs') 1 1
  refine ⟨exOutside 1, exInterval, f, (0 : ℕ), s, s2, exOutside_lawful 1, exOutside_unitFree 1, ?_, ?_, hlen, ?_⟩
  · rw [session_one hs]
    have : ¬ updateError s.best (some 0) ≥ 1 := by
      rw [hbest]; simp [updateError, npAbs_eq]; norm_num
    exact if_neg this
  · rw [session_one hs']
    obtain ⟨s3, h3, h4⟩ := Py.bind_ok.mp h2
    cases h4
    exact h3
  · obtain ⟨s3, h3, h4⟩ := Py.bind_ok.mp h2
    cases h4
    unfold SFProblem.loop at h3
    have : updateError s1.best (some (4 * 0 + 0)) ≥ (1 : ℝ) := by
      have : s1.best = 2 := by
        show 4 * s.best + 0 = 2
        rw [hbest]; norm_num
      rw [this]; simp [updateError, npAbs_eq]
    replace h3 := (if_pos this).symm.trans h3
    obtain ⟨s4, h4, h5⟩ := Py.bind_ok.mp h3
    obtain rfl : s4 = s2 := Except.ok.inj h5
    obtain ⟨x, w1, y, i, _, _, _, h6, _⟩ := sf_iterate_steps h4
    rw [h6, List.length_append]
    show s.sample.length + 1 = 3
    rw [hlen]

end Mfpml.Props
