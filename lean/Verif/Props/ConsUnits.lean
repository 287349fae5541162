import Verif.Spec.ConsUnits
import Verif.Props.BOUnits
import Verif.Props.BOInputUnits

/-!
# C158: constrained Bayesian optimisation in other units of the objective and the constraints

Vocabulary: `Verif/Spec/ConsUnits.lean`.
-/

namespace Mfpml.Props

open Mfpml Mfpml.Acq Mfpml.GP Mfpml.Spec Mfpml.BO
open Mfpml.EA (Box)
open Mfpml.Sampling (lhsSamples)

variable {d : ℕ}

/-! ### The best feasible design -/

theorem feasibleIndex_units {n : ℕ} {k : ℕ → ℝ} (hk : ∀ j, 0 < k j) (numCons : ℕ) (cons : List (Fin n → ℝ)) :
    feasibleIndex numCons (cons.map fun v (j : Fin n) => k j * v j) = feasibleIndex numCons cons := by
  unfold feasibleIndex
  rw [List.length_map]
  refine List.filter_congr fun i _ => ?_
  rw [List.getElem?_map]
  cases cons[i]? with
  | none => rfl
  | some v =>
    have : ∀ j : Fin n, k j * v j ≤ 0 ↔ v j ≤ 0 := fun j =>
      ⟨fun h => le_of_mul_le_mul_left (by rwa [mul_zero]) (hk j), fun h => mul_nonpos_of_nonneg_of_nonpos (hk j).le h⟩
    simp only [Option.map_some, this]

theorem positionsOf_units {a : ℝ} (ha : 0 < a) (b y : ℝ) (obj : List ℝ) : positionsOf (a * y + b) (obj.map fun y => a * y + b) = positionsOf y obj := by
  unfold positionsOf
  rw [List.length_map]
  refine List.filter_congr fun i _ => ?_
  rw [List.getElem?_map]
  cases obj[i]? with
  | none => simp
  | some z =>
    have : a * z + b = a * y + b ↔ z = y := by rw [add_left_inj, mul_right_inj' ha.ne']
    simp only [Option.map_some, Option.some.injEq, this]

theorem consPara_units {X : Type} {n : ℕ} {a : ℝ} (ha : 0 < a) (b : ℝ) {k : ℕ → ℝ} (hk : ∀ j, 0 < k j) (numCons : ℕ) (sample : List X) (obj : List ℝ) (cons : List (Fin n → ℝ)) :
    consPara numCons sample (obj.map fun y => a * y + b) (cons.map fun v (j : Fin n) => k j * v j) =
      ((consPara numCons sample obj cons).1.map fun y => a * y + b, (consPara numCons sample obj cons).2) := by
  have h : consBest numCons sample (obj.map fun y => a * y + b) (cons.map fun v (j : Fin n) => k j * v j) = (consBest numCons sample obj cons).map fun r => (a * r.1 + b, r.2) := by
    unfold consBest
    dsimp only
    rw [feasibleIndex_units hk, mapM_npRow_map]
    cases (feasibleIndex numCons cons).mapM (npRow obj) with
    | error e => rfl
    | ok feas =>
      simp only [Except.map, bind, Except.bind, npMin_units ha]
      cases npMin feas with
      | error e => rfl
      | ok y =>
        simp only [positionsOf_units ha]
        cases (positionsOf y obj).mapM (npRow sample) <;> rfl
  unfold consPara
  rw [h]
  cases consBest numCons sample obj cons <;> rfl

/-! ### The loop, for every surrogate -/

/-- The state in other units, `U` being the change of units of the surrogates. -/
def ConsState.inUnits {X S W : Type} {n : ℕ} (U : S → S) (a b : ℝ) (k : ℕ → ℝ) (s : ConsState ℝ X S W n) : ConsState ℝ X S W n :=
  { s with objResponse := s.objResponse.map (fun y => a * y + b), consResponse := s.consResponse.map (fun v (j : Fin n) => k j * v j), surrogate := U s.surrogate, best := s.best.map fun y => a * y + b,
           historyBest := s.historyBest.map fun h => h.map fun y => a * y + b }

theorem sameConsRun_inUnits {X S W : Type} {n : ℕ} (U : S → S) (a b : ℝ) (k : ℕ → ℝ) (s : ConsState ℝ X S W n) : SameConsRun a b k s (ConsState.inUnits U a b k s) :=
  ⟨rfl, rfl, rfl, rfl, rfl, rfl, rfl, rfl, rfl⟩

/-- Two problems that differ by units. -/
structure ConsUnitsOf {X S W : Type} {n : ℕ} (U : S → S) (a b : ℝ) (k : ℕ → ℝ) (p p' : ConsProblem ℝ X S W n) : Prop where
  f : p'.f = Spec.inUnits a b p.f
  fCons : p'.fCons = consInUnits k p.fCons
  numCons : p'.numCons = p.numCons
  init : p'.init = p.init
  fresh : p'.fresh = U p.fresh
  train : ∀ s xs ys gs w, p'.train (U s) xs (ys.map fun y => a * y + b) (gs.map fun v (j : Fin n) => k j * v j) w = (p.train s xs ys gs w).map fun r => (U r.1, r.2)
  query : ∀ s w, p'.query (U s) w = p.query s w

theorem consNew_inUnits {X S W : Type} {n : ℕ} {U : S → S} {a : ℝ} (ha : 0 < a) {b : ℝ} {k : ℕ → ℝ} (hk : ∀ j, 0 < k j) {p p' : ConsProblem ℝ X S W n} (h : ConsUnitsOf U a b k p p') (w : W) :
    p'.new w = (p.new w).map (ConsState.inUnits U a b k) := by
  unfold ConsProblem.new
  rw [h.init, h.f, h.fCons, h.fresh, h.numCons]
  cases p.init w with
  | error e => rfl
  | ok r =>
    simp only [bind, Except.bind, Spec.inUnits, consInUnits]
    cases p.f r.1 with
    | error e => rfl
    | ok y =>
      simp only [Except.map]
      cases p.fCons r.1 with
      | error e => rfl
      | ok g =>
        simp only [h.train]
        cases p.train p.fresh r.1 y g r.2 with
        | error e => rfl
        | ok t =>
          simp only [Except.map, consPara_units ha b hk]
          rfl

theorem consIterate_inUnits {X S W : Type} {n : ℕ} {U : S → S} {a : ℝ} (ha : 0 < a) {b : ℝ} {k : ℕ → ℝ} (hk : ∀ j, 0 < k j) {p p' : ConsProblem ℝ X S W n} (h : ConsUnitsOf U a b k p p')
    (s : ConsState ℝ X S W n) : p'.iterate (ConsState.inUnits U a b k s) = (p.iterate s).map (ConsState.inUnits U a b k) := by
  unfold ConsProblem.iterate
  rw [show (ConsState.inUnits U a b k s).surrogate = U s.surrogate from rfl, show (ConsState.inUnits U a b k s).rng = s.rng from rfl, h.query, h.f, h.fCons, h.numCons]
  cases p.query s.surrogate s.rng with
  | error e => rfl
  | ok r =>
    simp only [bind, Except.bind, Spec.inUnits, consInUnits]
    cases p.f [r.1] with
    | error e => rfl
    | ok y =>
      simp only [Except.map]
      cases p.fCons [r.1] with
      | error e => rfl
      | ok g =>
        have e : (ConsState.inUnits U a b k s).objResponse ++ y.map (fun y => a * y + b) = (s.objResponse ++ y).map fun y => a * y + b := by
          rw [List.map_append]; rfl
        have e' : (ConsState.inUnits U a b k s).consResponse ++ g.map (fun v (j : Fin n) => k j * v j) = (s.consResponse ++ g).map fun v (j : Fin n) => k j * v j := by
          rw [List.map_append]; rfl
        simp only [e, e', show (ConsState.inUnits U a b k s).sample = s.sample from rfl, h.train]
        cases p.train s.surrogate (s.sample ++ [r.1]) (s.objResponse ++ y) (s.consResponse ++ g) r.2 with
        | error e => rfl
        | ok t =>
          simp only [Except.map, consPara_units ha b hk]
          simp only [ConsState.inUnits, List.map_append]
          rfl

theorem consLoop_inUnits {X S W : Type} {n : ℕ} {U : S → S} {a : ℝ} (ha : 0 < a) {b : ℝ} {k : ℕ → ℝ} (hk : ∀ j, 0 < k j) {p p' : ConsProblem ℝ X S W n} (h : ConsUnitsOf U a b k p p')
    (hstop : ∀ y : WithTop ℝ, consError (y.map fun y => a * y + b) p'.optimum = consError y p.optimum) (stop : ℝ) : ∀ (m : ℕ) (s : ConsState ℝ X S W n),
    p'.loop stop m (ConsState.inUnits U a b k s) = (p.loop stop m s).map (ConsState.inUnits U a b k)
  | 0, _ => rfl
  | m + 1, s => by
    unfold ConsProblem.loop
    rw [show (ConsState.inUnits U a b k s).best = s.best.map fun y => a * y + b from rfl, hstop]
    split_ifs
    · rw [consIterate_inUnits ha hk h]
      cases p.iterate s with
      | error e => rfl
      | ok s1 => exact consLoop_inUnits ha hk h hstop stop m s1
    · rfl

theorem consSession_inUnits {X S W : Type} {n : ℕ} {U : S → S} {a : ℝ} (ha : 0 < a) {b : ℝ} {k : ℕ → ℝ} (hk : ∀ j, 0 < k j) {p p' : ConsProblem ℝ X S W n} (h : ConsUnitsOf U a b k p p')
    (hstop : ∀ y : WithTop ℝ, consError (y.map fun y => a * y + b) p'.optimum = consError y p.optimum) (w : W) (runs : List (ℕ × ℝ)) :
    consSession p' w runs = (consSession p w runs).map (ConsState.inUnits U a b k) := by
  unfold consSession
  rw [consNew_inUnits ha hk h]
  cases p.new w with
  | error e => rfl
  | ok s =>
    simp only [Except.map, bind, Except.bind]
    induction runs generalizing s with
    | nil => rfl
    | cons r l ih =>
      simp only [List.foldlM_cons, bind, Except.bind, ConsProblem.run, consLoop_inUnits ha hk h hstop]
      cases p.loop r.2 r.1 s with
      | error e => rfl
      | ok s1 =>
        simp only [Except.map]
        exact ih s1

theorem consError_units {a : ℝ} (ha : 0 < a) {b : ℝ} {optimum : Option ℝ} (h : optimum = none ∨ b = 0 ∧ optimum ≠ some 0) (y : WithTop ℝ) :
    consError (y.map fun y => a * y + b) (optimum.map fun o => a * o + b) = consError y optimum := by
  cases optimum with
  | none => rfl
  | some o =>
    cases y with
    | top => rfl
    | coe y => exact congrArg ((↑) : ℝ → WithTop ℝ) (updateError_units ha h y)

/-! ### The library's parts -/

/-- The constraint surrogates from number `i` on, in other units. -/
noncomputable def consKriging (k : ℕ → ℝ) : ℕ → List (Kriging d) → List (Kriging d)
  | _, [] => []
  | i, m :: ms => Kriging.inUnits (k i) 0 m :: consKriging k (i + 1) ms

/-- What the acquisition sees of them. -/
noncomputable def consViews (k : ℕ → ℝ) : ℕ → List (SFSurr d) → List (SFSurr d)
  | _, [] => []
  | i, s :: ss => SFSurr.inUnits (k i) 0 s :: consViews k (i + 1) ss

theorem trainCons_inUnits {n : ℕ} {k : ℕ → ℝ} (hk : ∀ j, 0 < k j) (o : Outside d) (xs : List (Fin d → ℝ)) (gs : List (Fin n → ℝ)) : ∀ (ii : ℕ) (ms : List (Kriging d)) (w : o.env.S),
    trainCons o xs (gs.map fun v (j : Fin n) => k j * v j) ii (consKriging k ii ms) w = (trainCons o xs gs ii ms w).map fun r => (consKriging k ii r.1, r.2)
  | _, [], _ => rfl
  | ii, m :: ms, w => by
    unfold consKriging trainCons
    have hcol : consColumn ii (gs.map fun v (j : Fin n) => k j * v j) = (consColumn ii gs).map fun l => l.map fun y => k ii * y + 0 := by
      unfold consColumn
      split_ifs with h
      · simp [Except.map, Function.comp_def]
      · rfl
    rw [hcol]
    cases consColumn ii gs with
    | error e => rfl
    | ok y =>
      simp only [Except.map, bind, Except.bind, kriging_train_inUnits (hk ii).ne']
      cases m.train o xs y w with
      | error e => rfl
      | ok r =>
        simp only [trainCons_inUnits hk o xs gs (ii + 1) ms r.2]
        cases trainCons o xs gs (ii + 1) ms r.2 <;> rfl

theorem mapM_view_inUnits {k : ℕ → ℝ} (hk : ∀ j, 0 < k j) : ∀ (i : ℕ) (ms : List (Kriging d)), (consKriging k i ms).mapM Kriging.view = (ms.mapM Kriging.view).map fun l => consViews k i l
  | _, [] => rfl
  | i, m :: ms => by
    unfold consKriging
    rw [List.mapM_cons, List.mapM_cons, kriging_view_inUnits (hk i), mapM_view_inUnits hk (i + 1) ms]
    cases m.view with
    | error e => rfl
    | ok s =>
      simp only [Except.map, bind, Except.bind]
      cases ms.mapM Kriging.view <;> rfl

theorem pofGuard_units {k : ℕ → ℝ} (hk : ∀ j, 0 < k j) (ts : ℕ → ℝ) (x : Samples 1 d) : ∀ (i : ℕ) (cs : List (SFSurr d)), pofGuard ts x i (consViews k i cs) = pofGuard (fun j => ts j / k j) x i cs
  | _, [] => rfl
  | i, s :: cs => by
    unfold consViews pofGuard
    rw [pofGuard_units hk ts x (i + 1) cs]
    simp only [SFSurr.inUnits]
    cases s.predict 1 x with
    | error e => rfl
    | ok r =>
      simp only [Except.map, bind, Except.bind]
      have h : (k i * r.1 0 + 0) / (k i * r.2 0 + ts i) = r.1 0 / (r.2 0 + ts i / k i) := by
        have := (hk i).ne'
        rw [add_zero, ← mul_div_mul_left (r.1 0) _ this]
        congr 1
        field_simp
      rw [h]

theorem ceiGuard_units {a : ℝ} (ha : 0 < a) (b : ℝ) {k : ℕ → ℝ} (hk : ∀ j, 0 < k j) (t : ℝ) (ts : ℕ → ℝ) (s : SFSurr d) (cs : List (SFSurr d)) (x : Samples 1 d) :
    ceiGuard t ts (SFSurr.inUnits a b s) (consViews k 0 cs) x = (ceiGuard (t / a) (fun j => ts j / k j) s cs x).map fun v => a * v + 0 := by
  unfold ceiGuard
  rw [pofGuard_units hk]
  simp only [SFSurr.inUnits, npMin_units ha]
  cases npMin s.sampleY with
  | error e => rfl
  | ok m =>
    simp only [Except.map, bind, Except.bind]
    cases s.predict 1 x with
    | error e => rfl
    | ok r =>
      simp only
      cases pofGuard (fun j => ts j / k j) x 0 cs with
      | error e => rfl
      | ok q =>
        simp only [Except.ok.injEq]
        have h : (a * m + b - (a * r.1 0 + b)) / (a * r.2 0 + t) = (m - r.1 0) / (r.2 0 + t / a) := by
          rw [← mul_div_mul_left (m - r.1 0) _ ha.ne']
          congr 1
          · ring
          · field_simp
        rw [h]
        ring

/-- All surrogates of the constrained optimiser in other units. -/
noncomputable def consSurrUnits (a b : ℝ) (k : ℕ → ℝ) (m : Kriging d × List (Kriging d)) : Kriging d × List (Kriging d) := (Kriging.inUnits a b m.1, consKriging k 0 m.2)

theorem freshKriging_units (a b : ℝ) (box : Box ℝ d) : Kriging.inUnits a b (freshKriging box) = freshKriging box := by
  simp [freshKriging, Kriging.inUnits, GPObj.units, freshGP]

theorem consKriging_fresh (k : ℕ → ℝ) (box : Box ℝ d) : ∀ (n i : ℕ), consKriging k i (List.replicate n (freshKriging box)) = List.replicate n (freshKriging box)
  | 0, _ => rfl
  | n + 1, i => by
    rw [List.replicate_succ]
    unfold consKriging
    rw [freshKriging_units, consKriging_fresh k box n (i + 1)]

theorem consBO_unitsOf {n : ℕ} {a : ℝ} (ha : 0 < a) (b : ℝ) {k : ℕ → ℝ} (hk : ∀ j, 0 < k j) (t : ℝ) (ts : ℕ → ℝ) (o : Outside d) (hde : UnitFreeSearch o.de) (box : Box ℝ d)
    (f : List (Fin d → ℝ) → Py (List ℝ)) (g : List (Fin d → ℝ) → Py (List (Fin n → ℝ))) (numCons : ℕ) (optimum optimum' : Option ℝ) (numInit seed : ℕ) :
    ConsUnitsOf (consSurrUnits a b k) a b k (consBOGuard (t / a) (fun j => ts j / k j) o box f g numCons optimum numInit seed)
      (consBOGuard t ts o box (Spec.inUnits a b f) (consInUnits k g) numCons optimum' numInit seed) where
  f := rfl
  fCons := rfl
  numCons := rfl
  init := rfl
  fresh := by
    show (freshKriging box, List.replicate numCons (freshKriging box)) = (Kriging.inUnits a b (freshKriging box), consKriging k 0 (List.replicate numCons (freshKriging box)))
    rw [freshKriging_units, consKriging_fresh]
  train := fun s xs ys gs w => by
    show (do let (obj, w) ← (Kriging.inUnits a b s.1).train o xs (ys.map fun y => a * y + b) w
             let (cons, w) ← trainCons o xs (gs.map fun v (j : Fin n) => k j * v j) 0 (consKriging k 0 s.2) w
             .ok ((obj, cons), w)) = Except.map _ (do
             let (obj, w) ← s.1.train o xs ys w
             let (cons, w) ← trainCons o xs gs 0 s.2 w
             .ok ((obj, cons), w))
    rw [kriging_train_inUnits ha.ne']
    cases s.1.train o xs ys w with
    | error e => rfl
    | ok r =>
      simp only [Except.map, bind, Except.bind, trainCons_inUnits hk]
      cases trainCons o xs gs 0 s.2 r.2 <;> rfl
  query := fun s w => by
    show (do let v ← (Kriging.inUnits a b s.1).view
             let cs ← (consKriging k 0 s.2).mapM Kriging.view
             let (res, w) ← o.de (fun x => ceiGuard t ts v cs (onePoint x)) v.bounds w
             .ok (res.1, w)) = (do
             let v ← s.1.view
             let cs ← s.2.mapM Kriging.view
             let (res, w) ← o.de (fun x => ceiGuard (t / a) (fun j => ts j / k j) v cs (onePoint x)) v.bounds w
             .ok (res.1, w))
    rw [kriging_view_inUnits ha, mapM_view_inUnits hk]
    cases s.1.view with
    | error e => rfl
    | ok v =>
      simp only [Except.map, bind, Except.bind]
      cases s.2.mapM Kriging.view with
      | error e => rfl
      | ok cs =>
        simp only [ceiGuard_units ha b hk, show (SFSurr.inUnits a b v).bounds = v.bounds from rfl]
        have h := hde (fun x => ceiGuard (t / a) (fun j => ts j / k j) v cs (onePoint x)) a 0 ha v.bounds w
        revert h
        generalize o.de (fun x => (ceiGuard (t / a) (fun j => ts j / k j) v cs (onePoint x)).map fun v => a * v + 0) v.bounds w = q
        generalize o.de (fun x => ceiGuard (t / a) (fun j => ts j / k j) v cs (onePoint x)) v.bounds w = q'
        intro h
        cases q <;> cases q' <;> simp_all [Except.map]

theorem pofGuard_library (x : Samples 1 d) : ∀ (i : ℕ) (cs : List (SFSurr d)),
    pofGuard (fun _ => 1e-9) x i cs = (pofColumns x cs).map fun ps => (ps.map fun p => normCdf (0 - p.1 0 / (p.2 0 + tiny9))).prod
  | _, [] => rfl
  | i, s :: cs => by
    unfold pofGuard pofColumns
    rw [pofGuard_library x (i + 1) cs]
    cases s.predict 1 x with
    | error e => rfl
    | ok r =>
      simp only [bind, Except.bind, if_pos]
      cases pofColumns x cs with
      | error e => rfl
      | ok ps => simp [Except.map, tiny9]

/-- With the guards `1e-9` of the code, `consBOGuard` is the library's constrained optimiser. -/
theorem C158_library {n : ℕ} (o : Outside d) (box : Box ℝ d) (f : List (Fin d → ℝ) → Py (List ℝ)) (g : List (Fin d → ℝ) → Py (List (Fin n → ℝ))) (numCons : ℕ) (optimum : Option ℝ) (numInit seed : ℕ) :
    consBOGuard 1e-9 (fun _ => 1e-9) o box f g numCons optimum numInit seed = consBO o box f g numCons optimum none numInit seed := by
  have h : ∀ (s : SFSurr d) cs, (fun x => ceiGuard 1e-9 (fun _ => 1e-9) s cs (onePoint x)) = single (fun x => do let v ← ceiEval s cs x; .ok (fun i => v i i)) := by
    intro s cs
    funext x
    unfold ceiGuard single ceiEval ceiEi ceiPof
    rw [pofGuard_library]
    cases npMin s.sampleY with
    | error e => rfl
    | ok m =>
      simp only [bind, Except.bind]
      cases s.predict 1 (onePoint x) with
      | error e => rfl
      | ok r =>
        simp only
        cases pofColumns (onePoint x) cs with
        | error e => rfl
        | ok ps => rfl
  unfold consBOGuard consBO
  simp only [h, consQuery]

/-! ### C158 -/

/-- **C158.** Give the objective and the constraints of a problem in other units: `a * f + b` and `k j * g j`, with `a` and all `k j` positive. Then the whole history of the constrained optimiser, from its
construction through any number of `run_optimizer` calls, is that of the original problem with the guards `1e-9` of the code converted as well: the same points in the same order, the same best points, converted
values, the same exceptions. -/
theorem C158_units {n : ℕ} {a : ℝ} (ha : 0 < a) (b : ℝ) {k : ℕ → ℝ} (hk : ∀ j, 0 < k j) (o : Outside d) (hde : UnitFreeSearch o.de) (box : Box ℝ d)
    (f : List (Fin d → ℝ) → Py (List ℝ)) (g : List (Fin d → ℝ) → Py (List (Fin n → ℝ))) (numCons : ℕ) (optimum : Option ℝ) (hstop : optimum = none ∨ b = 0 ∧ optimum ≠ some 0)
    (numInit seed : ℕ) (w : o.env.S) (runs : List (ℕ × ℝ)) :
    (∀ e, consSession (consBO o box (Spec.inUnits a b f) (consInUnits k g) numCons (optimum.map fun o => a * o + b) none numInit seed) w runs = .error e ↔
      consSession (consBOGuard (1e-9 / a) (fun j => 1e-9 / k j) o box f g numCons optimum numInit seed) w runs = .error e) ∧
    ∀ s, consSession (consBOGuard (1e-9 / a) (fun j => 1e-9 / k j) o box f g numCons optimum numInit seed) w runs = .ok s →
      ∃ s', consSession (consBO o box (Spec.inUnits a b f) (consInUnits k g) numCons (optimum.map fun o => a * o + b) none numInit seed) w runs = .ok s' ∧ SameConsRun a b k s s' := by
  rw [← C158_library]
  exact map_same (sameConsRun_inUnits (consSurrUnits a b k) a b k) (consSession_inUnits ha hk (consBO_unitsOf ha b hk 1e-9 (fun _ => 1e-9) o hde box f g numCons optimum _ numInit seed)
    (consError_units ha hstop) w runs)

/-- C158 is not vacuous: objective `x` given as `2 * x + 3`, constraint `x ≤ 1/4` given as `5 * (x - 1/4) ≤ 0`; both optimisers are constructed, run, and report the same run. -/
example : ∃ w s s', consSession (consBOGuard (1e-9 / 2) (fun _ => 1e-9 / 5) (exOutside 1) exInterval (fun xs => .ok (xs.map fun x => x 0)) (fun xs => .ok (xs.map fun x (_ : Fin 1) => x 0 - 1 / 4)) 1 none 2 1996)
      w [(3, 0.1)] = .ok s ∧
    consSession (consBO (exOutside 1) exInterval (Spec.inUnits 2 3 fun xs => .ok (xs.map fun x => x 0)) (consInUnits (fun _ => 5) fun xs => .ok (xs.map fun x (_ : Fin 1) => x 0 - 1 / 4)) 1 none none 2 1996)
      w [(3, 0.1)] = .ok s' ∧ SameConsRun 2 3 (fun _ => 5) s s' := by
  have m0 : (fun _ => 0 + ((0 : ℝ) + 1) / 2 * (1 - 0) : Fin 1 → ℝ) ∈ (lhsSamples (exOutside 1).env exInterval 2 (some 1996) ((exOutside 1).env.seed 1996 (0 : ℕ))).1 := by
    simp only [lhsSamples, Sampling.scaleSamples, List.mem_map, exOutside, List.mem_range]
    exact ⟨_, ⟨0, by norm_num, rfl⟩, by funext j; simp [Sampling.scalePt, exInterval]⟩
  have m1 : (fun _ => 0 + ((1 : ℝ) + 1) / 2 * (1 - 0) : Fin 1 → ℝ) ∈ (lhsSamples (exOutside 1).env exInterval 2 (some 1996) ((exOutside 1).env.seed 1996 (0 : ℕ))).1 := by
    simp only [lhsSamples, Sampling.scaleSamples, List.mem_map, exOutside, List.mem_range]
    exact ⟨_, ⟨1, by norm_num, rfl⟩, by funext j; simp [Sampling.scalePt, exInterval]⟩
  have hC := C89_cons_succeeds (exOutside 1) (exOutside_lawful 1) one_pos exInterval (fun _ => by simp [exInterval]) (f := Spec.inUnits 2 3 fun xs => .ok (xs.map fun x => x 0))
    (g := fun x => 2 * x 0 + 3) (fun xs => by simp [Spec.inUnits, Except.map, Function.comp_def]) (fCons := consInUnits (fun _ => 5) fun xs => .ok (xs.map fun x (_ : Fin 1) => x 0 - 1 / 4))
    (gc := fun x _ => 5 * (x 0 - 1 / 4)) (fun xs => by simp [consInUnits, Except.map, Function.comp_def]) none 2 1996
  obtain ⟨s0, h0⟩ := (hC.1 (0 : ℕ)).mpr ⟨⟨_, m0, _, m1, by norm_num⟩, fun _ => ⟨_, m0, _, m1, by norm_num⟩⟩
  obtain ⟨r, hrun⟩ := hC.2 s0 (.new _ h0) 3 0.1
  have hs : consSession (consBO (exOutside 1) exInterval (Spec.inUnits 2 3 fun xs => .ok (xs.map fun x => x 0)) (consInUnits (fun _ => 5) fun xs => .ok (xs.map fun x (_ : Fin 1) => x 0 - 1 / 4)) 1 none none 2 1996)
      (0 : ℕ) [(3, 0.1)] = .ok r.1 := by
    unfold consSession
    refine Py.bind_ok.mpr ⟨s0, h0, ?_⟩
    rw [List.foldlM_cons]
    exact Py.bind_ok.mpr ⟨r.1, Py.bind_ok.mpr ⟨r, hrun, rfl⟩, rfl⟩
  have h := C158_units (a := 2) (by norm_num) 3 (k := fun _ => 5) (by norm_num) (exOutside 1) (exOutside_unitFree 1) exInterval (fun xs => .ok (xs.map fun x => x 0))
    (fun xs => .ok (xs.map fun x (_ : Fin 1) => x 0 - 1 / 4)) 1 none (Or.inl rfl) 2 1996 (0 : ℕ) [(3, 0.1)]
  cases hg : consSession (consBOGuard (1e-9 / 2) (fun _ => 1e-9 / 5) (exOutside 1) exInterval (fun xs => .ok (xs.map fun x => x 0)) (fun xs => .ok (xs.map fun x (_ : Fin 1) => x 0 - 1 / 4)) 1 none 2 1996)
      (0 : ℕ) [(3, 0.1)] with
  | error e =>
    have := (h.1 e).mpr hg
    rw [Option.map_none, hs] at this
    cases this
  | ok s =>
    obtain ⟨s', hs', hr⟩ := h.2 s hg
    exact ⟨_, s, s', hg, hs', hr⟩

end Mfpml.Props
