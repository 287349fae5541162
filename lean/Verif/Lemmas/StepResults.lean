import Verif.Spec.StepResults
import Verif.Lemmas.Py
import Mathlib.Data.List.Basic
import Mathlib.Tactic.SplitIfs

/-! # Step results: the loop with its events -/

set_option linter.unusedSectionVars false

namespace Mfpml.EA

open Mfpml.Spec

variable {K : Type} [Add K] [Sub K] [Mul K] [Div K] [Neg K] [Zero K] [LinearOrder K] {S : Type} {P D : ℕ}

/-- The loop without events. -/
def genLoop (stop : Option K) (view : S → StepView K P D) (step : ℕ → S → Py S) : ℕ → ℕ → S → Py (S × ℕ)
  | 0, iter, s => do
    let s' ← step iter s
    .ok (s', iter)
  | more + 1, iter, s => do
    let s' ← step iter s
    if stopNow stop ((view s').genBest (iter + 1)) then .ok (s', iter)
    else genLoop stop view step more (iter + 1) s'

theorem genLoop_zero_of (stop : Option K) (view : S → StepView K P D) {step : ℕ → S → Py S} {iter : ℕ} {s s' : S} (h : step iter s = .ok s') : genLoop stop view step 0 iter s = .ok (s', iter) := by
  rw [genLoop, h]; rfl

theorem genLoop_succ_of {stop : Option K} {view : S → StepView K P D} {step : ℕ → S → Py S} {iter : ℕ} {s s' : S} (h : step iter s = .ok s')
    (hs : stopNow stop ((view s').genBest (iter + 1)) = false) (more : ℕ) : genLoop stop view step (more + 1) iter s = genLoop stop view step more (iter + 1) s' := by
  rw [genLoop, h]
  show (if _ then _ else _) = _
  rw [hs]
  rfl

theorem genLoop_stop_of {stop : Option K} {view : S → StepView K P D} {step : ℕ → S → Py S} {iter : ℕ} {s s' : S} (h : step iter s = .ok s')
    (hs : stopNow stop ((view s').genBest (iter + 1)) = true) (more : ℕ) : genLoop stop view step (more + 1) iter s = .ok (s', iter) := by
  rw [genLoop, h]
  show (if _ then _ else _) = _
  rw [hs]
  rfl

theorem genLoop_error_of (stop : Option K) (view : S → StepView K P D) {step : ℕ → S → Py S} {iter : ℕ} {s : S} {e : PyErr} (h : step iter s = .error e) (more : ℕ) :
    genLoop stop view step more iter s = .error e := by
  cases more <;> (rw [genLoop, h]; rfl)

theorem psoLoopM_eq {p : ℕ} (cfg : PSOCfg K) (b : Box K D) (func : Pop K (p + 1) D → Py (Fin (p + 1) → K)) (rnd : PSORand K (p + 1) D) (stop : Option K) (more : ℕ) :
    ∀ (iter : ℕ) (s : PSOState K (p + 1) D), psoLoopM cfg b func rnd stop more iter s = genLoop stop PSOState.view (psoStepM cfg b func rnd) more iter s := by
  induction more with
  | zero => intro iter s; rfl
  | succ more ih =>
    intro iter s
    rw [psoLoopM, genLoop]
    congr 1
    funext s'
    rw [ih]
    rfl

theorem deLoopM_eq {p : ℕ} (cfg : DECfg K) (b : Box K D) (func : Pop K (p + 1) D → Py (Fin (p + 1) → K)) (rnd : DERand K (p + 1) D) (stop : Option K) (more : ℕ) :
    ∀ (iter : ℕ) (s : DEState K (p + 1) D), deLoopM cfg b func rnd stop more iter s = genLoop stop DEState.view (deStepM cfg b func rnd) more iter s := by
  induction more with
  | zero => intro iter s; rfl
  | succ more ih =>
    intro iter s
    rw [deLoopM, genLoop]
    congr 1
    funext s'
    rw [ih]
    rfl

/-- The events of one iteration. -/
def nowEvents (opts : StepOpts) (b : Box K D) (numGen : ℕ) (view : S → StepView K P D) (iter : ℕ) (s s' : S) : List (StepEvent K P D) :=
  (if opts.print then printInfo iter (view s) else []) ++ .iterated :: if opts.save then saveResults b numGen (view s') else []

section unfold

variable (opts : StepOpts) (b : Box K D) (numGen : ℕ) (stop : Option K) (view : S → StepView K P D) (step : ℕ → S → Py S)

theorem loopS_error {iter : ℕ} {s : S} {e : PyErr} (h : step iter s = .error e) (more : ℕ) :
    loopS opts b numGen stop view step more iter s = (if opts.print then printInfo iter (view s) else [], .error e) := by
  cases more <;> simp only [loopS, h]

theorem loopS_zero {iter : ℕ} {s s' : S} (h : step iter s = .ok s') : loopS opts b numGen stop view step 0 iter s = (nowEvents opts b numGen view iter s s', .ok (s', iter)) := by
  simp only [loopS, h, nowEvents]

theorem loopS_stop {iter : ℕ} {s s' : S} (h : step iter s = .ok s') (hs : stopNow stop ((view s').genBest (iter + 1)) = true) (more : ℕ) :
    loopS opts b numGen stop view step (more + 1) iter s = (nowEvents opts b numGen view iter s s', .ok (s', iter)) := by
  simp only [loopS, h, hs, nowEvents, if_true]

theorem loopS_succ {iter : ℕ} {s s' : S} (h : step iter s = .ok s') (hs : stopNow stop ((view s').genBest (iter + 1)) = false) (more : ℕ) :
    loopS opts b numGen stop view step (more + 1) iter s =
      (nowEvents opts b numGen view iter s s' ++ (loopS opts b numGen stop view step more (iter + 1) s').1, (loopS opts b numGen stop view step more (iter + 1) s').2) := by
  simp only [loopS, h, hs, nowEvents]
  simp

/-- The cases of the loop. -/
theorem loop_cases (more iter : ℕ) (s : S) :
    (∃ e, step iter s = .error e) ∨ (∃ s', step iter s = .ok s' ∧ (more = 0 ∨ stopNow stop ((view s').genBest (iter + 1)) = true)) ∨
      ∃ s' m, step iter s = .ok s' ∧ more = m + 1 ∧ stopNow stop ((view s').genBest (iter + 1)) = false := by
  rcases h : step iter s with e | s'
  · exact Or.inl ⟨e, rfl⟩
  · rcases more with _ | m
    · exact Or.inr (Or.inl ⟨s', rfl, Or.inl rfl⟩)
    · rcases hs : stopNow stop ((view s').genBest (iter + 1))
      · exact Or.inr (Or.inr ⟨s', m, rfl, rfl, hs⟩)
      · exact Or.inr (Or.inl ⟨s', rfl, Or.inr hs⟩)

theorem loopS_last {more iter : ℕ} {s s' : S} (h : step iter s = .ok s') (hm : more = 0 ∨ stopNow stop ((view s').genBest (iter + 1)) = true) :
    loopS opts b numGen stop view step more iter s = (nowEvents opts b numGen view iter s s', .ok (s', iter)) ∧ genLoop stop view step more iter s = .ok (s', iter) := by
  rcases more with _ | m
  · exact ⟨loopS_zero _ _ _ _ _ _ h, genLoop_zero_of _ _ h⟩
  · rcases hm with hm | hm
    · omega
    · exact ⟨loopS_stop _ _ _ _ _ _ h hm m, genLoop_stop_of h hm m⟩

theorem loopS_result (more : ℕ) : ∀ (iter : ℕ) (s : S), (loopS opts b numGen stop view step more iter s).2 = genLoop stop view step more iter s := by
  induction more with
  | zero =>
    intro iter s
    rcases loop_cases stop view step 0 iter s with ⟨e, h⟩ | ⟨s', h, hm⟩ | ⟨s', m, h, hm, _⟩
    · rw [loopS_error _ _ _ _ _ _ h, genLoop_error_of _ _ h]
    · obtain ⟨h1, h2⟩ := loopS_last opts b numGen stop view step h hm
      rw [h1, h2]
    · omega
  | succ more ih =>
    intro iter s
    rcases loop_cases stop view step (more + 1) iter s with ⟨e, h⟩ | ⟨s', h, hm⟩ | ⟨s', m, h, hm, hs⟩
    · rw [loopS_error _ _ _ _ _ _ h, genLoop_error_of _ _ h]
    · obtain ⟨h1, h2⟩ := loopS_last opts b numGen stop view step h hm
      rw [h1, h2]
    · rw [loopS_succ _ _ _ _ _ _ h hs, genLoop_succ_of h hs]
      exact ih _ _

end unfold

/-! ## Prefixes of the events -/

/-- The record pickled for the state `s`. -/
def recordOf (b : Box K D) (numGen : ℕ) (v : StepView K P D) : StepRecord K P D :=
  { bestX := v.genBestXs, bestY := v.genBest, bestXHist := v.genBestXs, bestYHist := v.genBest, allSamples := v.samples, allResponses := v.responses, designSpace := b, pop := P, gen := numGen }

/-- What holds after an initial part `p` of the events; `traj j s`: the state after `j` iterations is `s`. -/
structure Inv (rec : S → StepRecord K P D) (traj : ℕ → S → Prop) (f : StepFile K P D) (p : List (StepEvent K P D)) : Prop where
  le1 : numDumped p ≤ numOpened p
  le2 : numOpened p ≤ numIterated p
  le3 : numIterated p ≤ numDumped p + 1
  reach : ∀ j, 1 ≤ j → j ≤ numIterated p → ∃ s, traj j s
  before : numOpened p = 0 → p.foldl StepFile.after f = f
  torn : numOpened p = numDumped p + 1 → p.foldl StepFile.after f = .unreadable
  full : 1 ≤ numDumped p → numOpened p = numDumped p → ∃ s, traj (numDumped p) s ∧ p.foldl StepFile.after f = .holds (rec s)

theorem prefix_append_cases {α : Type} {p a c : List α} (h : p <+: a ++ c) : p <+: a ∨ ∃ p', p = a ++ p' ∧ p' <+: c := by
  rcases List.prefix_or_prefix_of_prefix h (List.prefix_append a c) with h1 | ⟨t, rfl⟩
  · exact Or.inl h1
  · exact Or.inr ⟨t, rfl, (List.prefix_append_right_inj a).mp h⟩

theorem numDumped_append (p q : List (StepEvent K P D)) : numDumped (p ++ q) = numDumped p + numDumped q := List.countP_append
theorem numOpened_append (p q : List (StepEvent K P D)) : numOpened (p ++ q) = numOpened p + numOpened q := List.countP_append
theorem numIterated_append (p q : List (StepEvent K P D)) : numIterated (p ++ q) = numIterated p + numIterated q := List.countP_append

theorem now_counts {opts : StepOpts} (hsave : opts.save = true) (b : Box K D) (numGen : ℕ) (view : S → StepView K P D) (iter : ℕ) (s s' : S) :
    numDumped (nowEvents opts b numGen view iter s s') = 1 ∧ numOpened (nowEvents opts b numGen view iter s s') = 1 ∧ numIterated (nowEvents opts b numGen view iter s s') = 1 ∧
      ∀ f, (nowEvents opts b numGen view iter s s').foldl StepFile.after f = .holds (recordOf b numGen (view s')) := by
  rcases opts with ⟨_ | _, sv⟩ <;> (simp only at hsave; subst hsave) <;>
    simp [nowEvents, saveResults, printInfo, numDumped, numOpened, numIterated, StepFile.after, recordOf]

theorem now_prefix {opts : StepOpts} (hsave : opts.save = true) (b : Box K D) (numGen : ℕ) (view : S → StepView K P D) (iter : ℕ) (s s' : S) {traj : ℕ → S → Prop} (h1 : traj 1 s')
    (f : StepFile K P D) {p : List (StepEvent K P D)} (hp : p <+: nowEvents opts b numGen view iter s s') : Inv (fun s => recordOf b numGen (view s)) traj f p := by
  have h1' : ∀ j, 1 ≤ j → j ≤ 1 → ∃ s, traj j s := fun j a c => ⟨s', by rwa [le_antisymm c a]⟩
  rcases opts with ⟨_ | _, sv⟩ <;> (simp only at hsave; subst hsave) <;>
    simp only [nowEvents, saveResults, printInfo, if_true, List.nil_append, List.cons_append, List.prefix_cons_iff, List.prefix_nil, Bool.false_eq_true, if_false] at hp
  · rcases hp with rfl | ⟨_, rfl, rfl | ⟨_, rfl, rfl | ⟨_, rfl, rfl⟩⟩⟩ <;>
      constructor <;> simp_all [numDumped, numOpened, numIterated, StepFile.after, recordOf]
    · intro j a c; omega
    · exact ⟨s', h1, by simp⟩
  · rcases hp with rfl | ⟨_, rfl, rfl | ⟨_, rfl, rfl | ⟨_, rfl, rfl | ⟨_, rfl, rfl⟩⟩⟩⟩ <;>
      constructor <;> simp_all [numDumped, numOpened, numIterated, StepFile.after, recordOf]
    · intro j a c; omega
    · intro j a c; omega
    · exact ⟨s', h1, by simp⟩

/-- The state after `j` iterations from `s` on. -/
def Traj (stop : Option K) (view : S → StepView K P D) (step : ℕ → S → Py S) (iter : ℕ) (s : S) (j : ℕ) (s' : S) : Prop := genLoop stop view step (j - 1) iter s = .ok (s', iter + (j - 1))

theorem loopS_prefix {opts : StepOpts} (hsave : opts.save = true) (b : Box K D) (numGen : ℕ) (stop : Option K) (view : S → StepView K P D) (step : ℕ → S → Py S) (more : ℕ) :
    ∀ (iter : ℕ) (s : S) (f : StepFile K P D) (p : List (StepEvent K P D)), p <+: (loopS opts b numGen stop view step more iter s).1 →
      Inv (fun s => recordOf b numGen (view s)) (Traj stop view step iter s) f p := by
  have hpr : ∀ (iter : ℕ) (s : S) (f : StepFile K P D) (p : List (StepEvent K P D)) (tr : ℕ → S → Prop), p <+: (if opts.print then printInfo iter (view s) else []) →
      Inv (fun s => recordOf b numGen (view s)) tr f p := by
    intro iter s f p tr hp
    rcases opts with ⟨_ | _, sv⟩ <;> simp only [printInfo, if_true, List.prefix_cons_iff, List.prefix_nil, Bool.false_eq_true, if_false] at hp
    · subst hp
      constructor <;> simp [numDumped, numOpened, numIterated]
      intro j a c; omega
    · rcases hp with rfl | ⟨_, rfl, rfl⟩ <;> constructor <;> simp [numDumped, numOpened, numIterated, StepFile.after] <;> (intro j a c; omega)
  have hlast : ∀ (more iter : ℕ) (s : S) (f : StepFile K P D) (p : List (StepEvent K P D)) (s' : S), step iter s = .ok s' → (more = 0 ∨ stopNow stop ((view s').genBest (iter + 1)) = true) →
      p <+: (loopS opts b numGen stop view step more iter s).1 → Inv (fun s => recordOf b numGen (view s)) (Traj stop view step iter s) f p := by
    intro more iter s f p s' h hm hp
    rw [(loopS_last opts b numGen stop view step h hm).1] at hp
    exact now_prefix hsave b numGen view iter s s' (by unfold Traj; simpa using genLoop_zero_of stop view h) f hp
  induction more with
  | zero =>
    intro iter s f p hp
    rcases loop_cases stop view step 0 iter s with ⟨e, h⟩ | ⟨s', h, hm⟩ | ⟨s', m, h, hm, _⟩
    · rw [loopS_error _ _ _ _ _ _ h] at hp
      exact hpr _ _ _ _ _ hp
    · exact hlast _ _ _ _ _ _ h hm hp
    · omega
  | succ more ih =>
    intro iter s f p hp
    rcases loop_cases stop view step (more + 1) iter s with ⟨e, h⟩ | ⟨s', h, hm⟩ | ⟨s', m, h, hm, hs⟩
    · rw [loopS_error _ _ _ _ _ _ h] at hp
      exact hpr _ _ _ _ _ hp
    · exact hlast _ _ _ _ _ _ h hm hp
    · rw [loopS_succ _ _ _ _ _ _ h hs] at hp
      have ht1 : Traj stop view step iter s 1 s' := by unfold Traj; simpa using genLoop_zero_of stop view h
      rcases prefix_append_cases hp with hp | ⟨q, rfl, hq⟩
      · exact now_prefix hsave b numGen view iter s s' ht1 f hp
      · obtain ⟨c1, c2, c3, c4⟩ := now_counts hsave b numGen view iter s s'
        have I := ih (iter + 1) s' (.holds (recordOf b numGen (view s'))) q hq
        have hshift : ∀ j t, 1 ≤ j → Traj stop view step (iter + 1) s' j t → Traj stop view step iter s (j + 1) t := by
          intro j t hj ht
          unfold Traj at ht ⊢
          obtain ⟨i, rfl⟩ : ∃ i, j = i + 1 := ⟨j - 1, by omega⟩
          simp only [Nat.add_sub_cancel] at ht ⊢
          rw [genLoop_succ_of h hs, ht, show iter + 1 + i = iter + (i + 1) by omega]
        have e1 : numDumped (nowEvents opts b numGen view iter s s' ++ q) = 1 + numDumped q := by rw [numDumped_append, c1]
        have e2 : numOpened (nowEvents opts b numGen view iter s s' ++ q) = 1 + numOpened q := by rw [numOpened_append, c2]
        have e3 : numIterated (nowEvents opts b numGen view iter s s' ++ q) = 1 + numIterated q := by rw [numIterated_append, c3]
        refine ⟨by rw [e1, e2]; have := I.le1; omega, by rw [e2, e3]; have := I.le2; omega, by rw [e1, e3]; have := I.le3; omega, ?_, ?_, ?_, ?_⟩
        · intro j hj hj2
          rw [e3] at hj2
          by_cases h1 : j = 1
          · subst h1; exact ⟨s', ht1⟩
          · obtain ⟨t, ht⟩ := I.reach (j - 1) (by omega) (by omega)
            have := hshift (j - 1) t (by omega) ht
            rw [show j - 1 + 1 = j by omega] at this
            exact ⟨t, this⟩
        · intro h0; rw [e2] at h0; omega
        · intro h0
          rw [e1, e2] at h0
          rw [List.foldl_append, c4]
          exact I.torn (by omega)
        · intro hd ho
          rw [e1, e2] at ho
          rw [List.foldl_append, c4, e1]
          have ho' : numOpened q = numDumped q := by omega
          by_cases hz : numDumped q = 0
          · refine ⟨s', ?_, I.before (by omega)⟩
            rw [hz]; exact ht1
          · obtain ⟨t, ht, hf⟩ := I.full (by omega) ho'
            refine ⟨t, ?_, hf⟩
            rw [Nat.add_comm]
            exact hshift _ t (by omega) ht

/-- The whole of the events. -/
theorem loopS_all {opts : StepOpts} (hsave : opts.save = true) (b : Box K D) (numGen : ℕ) (stop : Option K) (view : S → StepView K P D) (step : ℕ → S → Py S) (more : ℕ) :
    ∀ (iter : ℕ) (s : S), let r := loopS opts b numGen stop view step more iter s
      numOpened r.1 = numDumped r.1 ∧ numIterated r.1 = numDumped r.1 ∧
        ∀ s' it, r.2 = .ok (s', it) → it + 1 = iter + numDumped r.1 ∧ ∀ f, r.1.foldl StepFile.after f = .holds (recordOf b numGen (view s')) := by
  have herr : ∀ (more iter : ℕ) (s : S) (e : PyErr), step iter s = .error e → let r := loopS opts b numGen stop view step more iter s
      numOpened r.1 = numDumped r.1 ∧ numIterated r.1 = numDumped r.1 ∧
        ∀ s' it, r.2 = .ok (s', it) → it + 1 = iter + numDumped r.1 ∧ ∀ f, r.1.foldl StepFile.after f = .holds (recordOf b numGen (view s')) := by
    intro more iter s e h
    rw [loopS_error _ _ _ _ _ _ h]
    refine ⟨?_, ?_, fun s' it h => by cases h⟩ <;> rcases opts with ⟨_ | _, sv⟩ <;> simp [printInfo, numDumped, numOpened, numIterated]
  have hlast : ∀ (more iter : ℕ) (s s' : S), step iter s = .ok s' → (more = 0 ∨ stopNow stop ((view s').genBest (iter + 1)) = true) → let r := loopS opts b numGen stop view step more iter s
      numOpened r.1 = numDumped r.1 ∧ numIterated r.1 = numDumped r.1 ∧
        ∀ s' it, r.2 = .ok (s', it) → it + 1 = iter + numDumped r.1 ∧ ∀ f, r.1.foldl StepFile.after f = .holds (recordOf b numGen (view s')) := by
    intro more iter s s' h hm
    rw [(loopS_last opts b numGen stop view step h hm).1]
    obtain ⟨c1, c2, c3, c4⟩ := now_counts hsave b numGen view iter s s'
    refine ⟨by rw [c1, c2], by rw [c1, c3], fun s'' it h => ?_⟩
    cases h
    exact ⟨by rw [c1], c4⟩
  induction more with
  | zero =>
    intro iter s
    rcases loop_cases stop view step 0 iter s with ⟨e, h⟩ | ⟨s', h, hm⟩ | ⟨s', m, h, hm, _⟩
    · exact herr _ _ _ _ h
    · exact hlast _ _ _ _ h hm
    · omega
  | succ more ih =>
    intro iter s
    rcases loop_cases stop view step (more + 1) iter s with ⟨e, h⟩ | ⟨s', h, hm⟩ | ⟨s', m, h, hm, hs⟩
    · exact herr _ _ _ _ h
    · exact hlast _ _ _ _ h hm
    · rw [loopS_succ _ _ _ _ _ _ h hs]
      obtain ⟨c1, c2, c3, c4⟩ := now_counts hsave b numGen view iter s s'
      obtain ⟨i1, i2, i3⟩ := ih (iter + 1) s'
      refine ⟨?_, ?_, fun t it ht => ?_⟩
      · simp only [numOpened_append, numDumped_append, c1, c2, i1]
      · simp only [numIterated_append, numDumped_append, c1, c3, i2]
      · obtain ⟨h1, h2⟩ := i3 t it ht
        refine ⟨?_, fun f => ?_⟩
        · simp only [numDumped_append, c1]; omega
        · simp only [List.foldl_append]; exact h2 _

theorem fileAfter_nosave {opts : StepOpts} (hsave : opts.save = false) (b : Box K D) (numGen : ℕ) (stop : Option K) (view : S → StepView K P D) (step : ℕ → S → Py S) (more : ℕ) :
    ∀ (iter : ℕ) (s : S), numOpened (loopS opts b numGen stop view step more iter s).1 = 0 ∧ numDumped (loopS opts b numGen stop view step more iter s).1 = 0 := by
  have hnow : ∀ iter s s', numOpened (nowEvents opts b numGen view iter s s') = 0 ∧ numDumped (nowEvents opts b numGen view iter s s') = 0 := by
    intro iter s s'
    rcases opts with ⟨_ | _, sv⟩ <;> (simp only at hsave; subst hsave) <;> simp [nowEvents, printInfo, numDumped, numOpened]
  have hpr : ∀ iter s, numOpened (if opts.print then printInfo iter (view s) else []) = 0 ∧ numDumped (if opts.print then printInfo iter (view s) else []) = 0 := by
    intro iter s
    rcases opts with ⟨_ | _, sv⟩ <;> simp [printInfo, numDumped, numOpened]
  induction more with
  | zero =>
    intro iter s
    rcases loop_cases stop view step 0 iter s with ⟨e, h⟩ | ⟨s', h, hm⟩ | ⟨s', m, h, hm, _⟩
    · rw [loopS_error _ _ _ _ _ _ h]; exact hpr _ _
    · rw [(loopS_last opts b numGen stop view step h hm).1]; exact hnow _ _ _
    · omega
  | succ more ih =>
    intro iter s
    rcases loop_cases stop view step (more + 1) iter s with ⟨e, h⟩ | ⟨s', h, hm⟩ | ⟨s', m, h, hm, hs⟩
    · rw [loopS_error _ _ _ _ _ _ h]; exact hpr _ _
    · rw [(loopS_last opts b numGen stop view step h hm).1]; exact hnow _ _ _
    · rw [loopS_succ _ _ _ _ _ _ h hs]
      simp only [numOpened_append, numDumped_append, (hnow iter s s').1, (hnow iter s s').2, ih (iter + 1) s']
      exact ⟨trivial, trivial⟩

/-! ## Rows -/

/-- Rows beyond `n` are zero. -/
structure Blank (v : StepView K P D) (n : ℕ) : Prop where
  genBest : ∀ i, n < i → v.genBest i = 0
  genBestXs : ∀ i, n < i → v.genBestXs i = fun _ => 0
  samples : ∀ i, n < i → v.samples i = fun _ _ => 0
  responses : ∀ i, n < i → v.responses i = fun _ => 0

/-- A step writes row `iter + 1` only. -/
structure RowStep (view : S → StepView K P D) (step : ℕ → S → Py S) : Prop where
  blank : ∀ iter s s', step iter s = .ok s' → Blank (view s) iter → Blank (view s') (iter + 1)
  keep : ∀ iter s s', step iter s = .ok s' → ∀ i, i ≤ iter → (view s').genBest i = (view s).genBest i ∧ (view s').genBestXs i = (view s).genBestXs i

theorem genLoop_blank {stop : Option K} {view : S → StepView K P D} {step : ℕ → S → Py S} (hr : RowStep view step) (more : ℕ) :
    ∀ {iter it : ℕ} {s s' : S}, Blank (view s) iter → genLoop stop view step more iter s = .ok (s', it) → Blank (view s') (it + 1) := by
  induction more with
  | zero =>
    intro iter it s s' hb h
    obtain ⟨t, h1, h⟩ := Py.bind_ok.mp h
    cases h
    exact hr.blank _ _ _ h1 hb
  | succ more ih =>
    intro iter it s s' hb h
    obtain ⟨t, h1, h⟩ := Py.bind_ok.mp h
    have := hr.blank _ _ _ h1 hb
    split_ifs at h
    · cases h; exact this
    · exact ih this h

theorem genLoop_keep {stop : Option K} {view : S → StepView K P D} {step : ℕ → S → Py S} (hr : RowStep view step) (more : ℕ) :
    ∀ {iter it : ℕ} {s s' : S}, genLoop stop view step more iter s = .ok (s', it) → iter ≤ it ∧ ∀ i, i ≤ iter → (view s').genBest i = (view s).genBest i ∧ (view s').genBestXs i = (view s).genBestXs i := by
  induction more with
  | zero =>
    intro iter it s s' h
    obtain ⟨t, h1, h⟩ := Py.bind_ok.mp h
    cases h
    exact ⟨le_rfl, hr.keep _ _ _ h1⟩
  | succ more ih =>
    intro iter it s s' h
    obtain ⟨t, h1, h⟩ := Py.bind_ok.mp h
    split_ifs at h
    · cases h; exact ⟨le_rfl, hr.keep _ _ _ h1⟩
    · obtain ⟨h2, h3⟩ := ih h
      refine ⟨by omega, fun i hi => ?_⟩
      have a := h3 i (by omega)
      have c := hr.keep _ _ _ h1 i hi
      exact ⟨a.1.trans c.1, a.2.trans c.2⟩

theorem printedLines_append (p q : List (StepEvent K P D)) : printedLines (p ++ q) = printedLines p ++ printedLines q := List.filterMap_append

theorem loopS_printed {opts : StepOpts} (hpr : opts.print = true) (b : Box K D) (numGen : ℕ) {stop : Option K} {view : S → StepView K P D} {step : ℕ → S → Py S} (hr : RowStep view step) (more : ℕ) :
    ∀ {iter it : ℕ} {s s' : S}, (loopS opts b numGen stop view step more iter s).2 = .ok (s', it) →
      printedLines (loopS opts b numGen stop view step more iter s).1 = (List.range' iter (it + 1 - iter)).map fun i => (i, (view s').genBest i, (view s').genBestXs i) := by
  have hnow : ∀ iter s s', printedLines (nowEvents opts b numGen view iter s s') = [(iter, (view s).genBest iter, (view s).genBestXs iter)] := by
    intro iter s s'
    rcases opts with ⟨pr, _ | _⟩ <;> (simp only at hpr; subst hpr) <;> simp [nowEvents, printInfo, saveResults, printedLines]
  have hlast : ∀ (more iter it : ℕ) (s s' t : S), step iter s = .ok t → (more = 0 ∨ stopNow stop ((view t).genBest (iter + 1)) = true) → (loopS opts b numGen stop view step more iter s).2 = .ok (s', it) →
      printedLines (loopS opts b numGen stop view step more iter s).1 = (List.range' iter (it + 1 - iter)).map fun i => (i, (view s').genBest i, (view s').genBestXs i) := by
    intro more iter it s s' t h hm hok
    rw [(loopS_last opts b numGen stop view step h hm).1] at hok ⊢
    cases hok
    have := hr.keep _ _ _ h iter le_rfl
    simp [hnow, this.1, this.2]
  induction more with
  | zero =>
    intro iter it s s' hok
    rcases loop_cases stop view step 0 iter s with ⟨e, h⟩ | ⟨t, h, hm⟩ | ⟨t, m, h, hm, _⟩
    · rw [loopS_error _ _ _ _ _ _ h] at hok; cases hok
    · exact hlast _ _ _ _ _ _ h hm hok
    · omega
  | succ more ih =>
    intro iter it s s' hok
    rcases loop_cases stop view step (more + 1) iter s with ⟨e, h⟩ | ⟨t, h, hm⟩ | ⟨t, m, h, hm, hs⟩
    · rw [loopS_error _ _ _ _ _ _ h] at hok; cases hok
    · exact hlast _ _ _ _ _ _ h hm hok
    · rw [loopS_succ _ _ _ _ _ _ h hs] at hok ⊢
      have h2 := ih hok
      have h3 := hok
      simp only at h3
      rw [loopS_result] at h3
      obtain ⟨hle, hk⟩ := genLoop_keep hr more h3
      have a := hk iter (by omega)
      have c := hr.keep _ _ _ h iter le_rfl
      simp only [printedLines_append, h2, hnow]
      rw [show it + 1 - iter = (it + 1 - (iter + 1)) + 1 by omega, List.range'_succ]
      simp [a.1, a.2, c.1, c.2]

/-! ## PSO and DE -/

theorem update_row {α : Type} {f : ℕ → α} {n : ℕ} {z x : α} (h : ∀ i, n < i → f i = z) (i : ℕ) (hi : n + 1 < i) : Function.update f (n + 1) x i = z := by
  rw [Function.update_of_ne (by omega)]
  exact h i (by omega)

theorem updateGenOptimum_rows {p D : ℕ} (iter : ℕ) (g : ℕ → K) (gx : ℕ → Fin D → K) (x : Pop K (p + 1) D) (obj : Fin (p + 1) → K) :
    (∃ a, (updateGenOptimum iter g gx x obj).1 = Function.update g (iter + 1) a) ∧ ∃ a, (updateGenOptimum iter g gx x obj).2 = Function.update gx (iter + 1) a := by
  unfold updateGenOptimum
  split_ifs
  · exact ⟨⟨_, rfl⟩, ⟨_, rfl⟩⟩
  · exact ⟨⟨_, rfl⟩, ⟨_, rfl⟩⟩

theorem pso_rowStep {p : ℕ} (cfg : PSOCfg K) (b : Box K D) (func : Pop K (p + 1) D → Py (Fin (p + 1) → K)) (rnd : PSORand K (p + 1) D) : RowStep PSOState.view (psoStepM cfg b func rnd) := by
  constructor
  · intro iter s s' h hb
    obtain ⟨obj, _, h⟩ := Py.bind_ok.mp h
    cases h
    constructor
    · obtain ⟨⟨a, ha⟩, _⟩ := updateGenOptimum_rows iter s.genBest s.genBestXs (psoUpdatePop cfg b rnd iter s).x obj
      show ∀ i, _ → (updateGenOptimum iter s.genBest s.genBestXs (psoUpdatePop cfg b rnd iter s).x obj).1 i = 0
      rw [ha]
      exact update_row hb.genBest
    · obtain ⟨_, ⟨a, ha⟩⟩ := updateGenOptimum_rows iter s.genBest s.genBestXs (psoUpdatePop cfg b rnd iter s).x obj
      show ∀ i, _ → (updateGenOptimum iter s.genBest s.genBestXs (psoUpdatePop cfg b rnd iter s).x obj).2 i = _
      rw [ha]
      exact update_row hb.genBestXs
    · exact update_row hb.samples
    · exact update_row hb.responses
  · intro iter s s' h i hi
    obtain ⟨obj, _, h⟩ := Py.bind_ok.mp h
    cases h
    obtain ⟨⟨a, ha⟩, ⟨c, hc⟩⟩ := updateGenOptimum_rows iter s.genBest s.genBestXs (psoUpdatePop cfg b rnd iter s).x obj
    show (updateGenOptimum iter s.genBest s.genBestXs (psoUpdatePop cfg b rnd iter s).x obj).1 i = _ ∧ (updateGenOptimum iter s.genBest s.genBestXs (psoUpdatePop cfg b rnd iter s).x obj).2 i = _
    rw [ha, hc, Function.update_of_ne (by omega), Function.update_of_ne (by omega)]
    exact ⟨rfl, rfl⟩

theorem de_rowStep {p : ℕ} (cfg : DECfg K) (b : Box K D) (func : Pop K (p + 1) D → Py (Fin (p + 1) → K)) (rnd : DERand K (p + 1) D) : RowStep DEState.view (deStepM cfg b func rnd) := by
  constructor
  · intro iter s s' h hb
    obtain ⟨_, _, h⟩ := Py.bind_ok.mp h
    obtain ⟨obj, _, h⟩ := Py.bind_ok.mp h
    cases h
    constructor
    · obtain ⟨⟨a, ha⟩, _⟩ := updateGenOptimum_rows iter s.genBest s.genBestXs (deUpdateObj (fun _ => obj) iter (deTrial cfg b rnd iter s) s).x (deUpdateObj (fun _ => obj) iter (deTrial cfg b rnd iter s) s).obj
      show ∀ i, _ → (updateGenOptimum iter s.genBest s.genBestXs (deUpdateObj (fun _ => obj) iter (deTrial cfg b rnd iter s) s).x (deUpdateObj (fun _ => obj) iter (deTrial cfg b rnd iter s) s).obj).1 i = 0
      rw [ha]
      exact update_row hb.genBest
    · obtain ⟨_, ⟨a, ha⟩⟩ := updateGenOptimum_rows iter s.genBest s.genBestXs (deUpdateObj (fun _ => obj) iter (deTrial cfg b rnd iter s) s).x (deUpdateObj (fun _ => obj) iter (deTrial cfg b rnd iter s) s).obj
      show ∀ i, _ → (updateGenOptimum iter s.genBest s.genBestXs (deUpdateObj (fun _ => obj) iter (deTrial cfg b rnd iter s) s).x (deUpdateObj (fun _ => obj) iter (deTrial cfg b rnd iter s) s).obj).2 i = _
      rw [ha]
      exact update_row hb.genBestXs
    · exact update_row hb.samples
    · exact update_row hb.responses
  · intro iter s s' h i hi
    obtain ⟨_, _, h⟩ := Py.bind_ok.mp h
    obtain ⟨obj, _, h⟩ := Py.bind_ok.mp h
    cases h
    obtain ⟨⟨a, ha⟩, ⟨c, hc⟩⟩ := updateGenOptimum_rows iter s.genBest s.genBestXs (deUpdateObj (fun _ => obj) iter (deTrial cfg b rnd iter s) s).x (deUpdateObj (fun _ => obj) iter (deTrial cfg b rnd iter s) s).obj
    show (updateGenOptimum iter s.genBest s.genBestXs (deUpdateObj (fun _ => obj) iter (deTrial cfg b rnd iter s) s).x (deUpdateObj (fun _ => obj) iter (deTrial cfg b rnd iter s) s).obj).1 i = _ ∧
      (updateGenOptimum iter s.genBest s.genBestXs (deUpdateObj (fun _ => obj) iter (deTrial cfg b rnd iter s) s).x (deUpdateObj (fun _ => obj) iter (deTrial cfg b rnd iter s) s).obj).2 i = _
    rw [ha, hc, Function.update_of_ne (by omega), Function.update_of_ne (by omega)]
    exact ⟨rfl, rfl⟩

theorem psoInit_blank {p : ℕ} (cfg : PSOCfg K) (b : Box K D) (func : Pop K (p + 1) D → Fin (p + 1) → K) (rnd : PSORand K (p + 1) D) : Blank (psoInit cfg b func rnd).view 0 := by
  constructor <;> (intro i hi; simp only [psoInit, PSOState.view]; rw [Function.update_of_ne (Nat.pos_iff_ne_zero.mp hi)])

theorem deInit_blank {p : ℕ} (b : Box K D) (func : Pop K (p + 1) D → Fin (p + 1) → K) (rnd : DERand K (p + 1) D) : Blank (deInit b func rnd).view 0 := by
  constructor <;> (intro i hi; simp only [deInit, DEState.view]; rw [Function.update_of_ne (Nat.pos_iff_ne_zero.mp hi)])

/-- Records of a state. -/
theorem records_of_blank {v : StepView K P D} {k : ℕ} (hb : Blank v k) (b : Box K D) (numGen : ℕ) {R : Result K P D} (h1 : R.bestYHist = v.genBest) (h2 : R.bestXHist = v.genBestXs)
    (h3 : R.allSamples = v.samples) (h4 : R.allResponses = v.responses) : Records (recordOf b numGen v) R k := by
  refine ⟨?_, ?_, ?_, ?_, rfl, rfl⟩ <;> intro i <;> split_ifs with hi
  · rw [h1]; rfl
  · exact hb.genBest i (by omega)
  · rw [h2]; rfl
  · exact hb.genBestXs i (by omega)
  · rw [h3]; rfl
  · exact hb.samples i (by omega)
  · rw [h4]; rfl
  · exact hb.responses i (by omega)

end Mfpml.EA
