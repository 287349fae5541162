import Verif.Lemmas.EvolutionaryHeap
import Mathlib.Data.Rat.Defs
import Mathlib.Algebra.Order.Ring.Rat
import Mathlib.Tactic.NormNum
import Mathlib.Tactic.FinCases
import Mathlib.Data.Fin.VecNotation

/-!
# Optimiser objects, objective functions and shared arrays (C97–C99)

`w.run q` is a call of `run_optimizer`; `h.read m` is what the returned results contain when they are looked at in memory `m`.
-/

set_option linter.unusedSectionVars false

namespace Mfpml.Props

open Mfpml.EA Mfpml.EAHeap Mfpml.Spec

variable {K : Type} [Add K] [Sub K] [Mul K] [Div K] [Neg K] [Zero K] [LinearOrder K] {P D : ℕ}

/-! ## C97: reuse -/

/-- The objective of a request. -/
def objectiveOf : Request K P D → Objective K P D
  | .pso _ _ _ o _ _ => o
  | .de _ _ _ o _ _ => o

/-- What the value model of `Model/Evolutionary.lean` (to which C01–C14 apply) says about a request. -/
def valueModel : Request K P D → Py (Result K P D)
  | .pso _ cfg b o stop rnd => (psoRun cfg b o.value stop rnd).map (·.toResult)
  | .de _ cfg b o stop rnd => deRun cfg b o.value stop rnd

/-- What a call returned, looked at in memory `m`. -/
def seen (m : Mem K P D) (r : Py (Handle K P D)) : Py (Result K P D) := r.map (·.read m)

theorem run_eq_valueModel (w : World K P D) (q : Request K P D) (hq : FirstArrayNotReturnedAgain (objectiveOf q)) :
    seen (w.run q).2.mem (w.run q).1 = valueModel q := by
  cases q with
  | pso k cfg b o stop rnd => exact psoRunM_eq cfg b o stop rnd hq _ _
  | de k cfg b o stop rnd => exact deRunM_eq cfg b o stop rnd hq _ _

theorem run_indep (w w' : World K P D) (q : Request K P D) :
    seen (w.run q).2.mem (w.run q).1 = seen (w'.run q).2.mem (w'.run q).1 := by
  cases q with
  | pso k cfg b o stop rnd => exact psoRunM_indep cfg b o stop rnd _ _ _ _
  | de k cfg b o stop rnd => exact deRunM_indep cfg b o stop rnd _ _ _ _

theorem run_frame (w : World K P D) (q : Request K P D) :
    (∀ r, r < w.mem.nextHist → (w.run q).2.mem.hists r = w.mem.hists r) ∧ (w.run q).2.mem.nextHist = w.mem.nextHist + 1 ∧
    ∀ h, (w.run q).1 = .ok h → h.hist = w.mem.nextHist := by
  cases q with
  | pso k cfg b o stop rnd =>
    obtain ⟨h1, h2, h3⟩ := psoRunM_frame cfg b o stop rnd (w.psos k) w.mem
    exact ⟨fun r hr => h1 r (by omega), h2, h3⟩
  | de k cfg b o stop rnd =>
    obtain ⟨h1, h2, h3⟩ := deRunM_frame cfg b o stop rnd (w.des k) w.mem
    exact ⟨fun r hr => h1 r (by omega), h2, h3⟩

theorem runAll_frame (w : World K P D) (qs : List (Request K P D)) (r : ℕ) (hr : r < w.mem.nextHist) :
    (w.runAll qs).2.mem.hists r = w.mem.hists r := by
  induction qs generalizing w with
  | nil => rfl
  | cons q qs ih =>
    obtain ⟨h1, h2, _⟩ := run_frame w q
    change (World.runAll (w.run q).2 qs).2.mem.hists r = _
    rw [ih _ (by omega), h1 r hr]

/-- C97, first half.  Whatever optimiser objects are run later, on whatever objective functions and with whatever outcome (also exceptions), the
results a call returned keep the values they had when it returned. -/
theorem C97_results_stay (w : World K P D) (q : Request K P D) (qs : List (Request K P D)) :
    seen ((w.run q).2.runAll qs).2.mem (w.run q).1 = seen (w.run q).2.mem (w.run q).1 := by
  obtain ⟨_, h2, h3⟩ := run_frame w q
  generalize he : (w.run q).1 = e at h3
  cases e with
  | error e => rfl
  | ok h =>
    have hh := h3 h rfl
    have := runAll_frame (w.run q).2 qs h.hist (by omega)
    simp only [seen, Except.map, Handle.read, this]

/-- C97, second half.  In a program that calls `run_optimizer` any number of times, on new objects or on objects that were already used (and may have failed),
each call returns what the same call returns as the first thing done with a new object; and what it returned still reads the same at the end of the program. -/
theorem C97_runs_are_independent (w : World K P D) (qs : List (Request K P D)) (new : World K P D) :
    (w.runAll qs).1.map (seen (w.runAll qs).2.mem) = qs.map fun q => seen (new.run q).2.mem (new.run q).1 := by
  induction qs generalizing w with
  | nil => rfl
  | cons q qs ih =>
    have h1 := C97_results_stay w q qs
    have h2 := ih (w.run q).2
    simp only [World.runAll, List.map_cons]
    rw [h1, h2, run_indep w new q]

/-- The same with the value model on the right, for objectives that do not return their first array again, so that C01–C14 hold for every call of such a program. -/
theorem C97_value_model (w : World K P D) (qs : List (Request K P D))
    (hq : ∀ q ∈ qs, FirstArrayNotReturnedAgain (objectiveOf q)) :
    (w.runAll qs).1.map (seen (w.runAll qs).2.mem) = qs.map valueModel := by
  rw [C97_runs_are_independent w qs w]
  apply List.map_congr_left
  intro q h
  exact run_eq_valueModel w q (hq q h)

/-! ## C98: objectives that reuse the array they return -/

/-- C98 (partial), the part that holds for `PSO` whatever arrays the objective returns.  The recorded responses are the objective's values at the recorded positions,
`best_y_historical[g]` is the minimum of all responses so far with a recorded place, and the second and third return values are those of the last generation.
Missing: the personal bests, see `C98_pso_same_array_forgets_personal_bests`, and `DE`, see `C98_de_same_array_counterexample`. -/
theorem C98_pso_reports_partial {cfg : PSOCfg K} {b : Box K D} {o : Objective K P D} {stop : Option K} {rnd : PSORand K P D}
    {self : PSOAttrs K P D} {m : Mem K P D} {h : Handle K P D} (hr : (psoRunM cfg b o stop rnd self m).1 = .ok h) :
    ∃ r, r = h.read (psoRunM cfg b o stop rnd self m).2.2 ∧ ∃ last, LastGen cfg.numGen stop r.bestYHist last ∧
      r.calls = (List.range (last + 1)).map r.allSamples ∧
      (∀ g ≤ last, r.allResponses g = o.value (r.allSamples g) ∧ RunningMin r.allResponses g (r.bestYHist g) ∧
        RecordedAt r.allSamples r.allResponses g (r.bestXHist g) (r.bestYHist g)) ∧
      r.retY = r.bestYHist last ∧ r.retX = r.bestXHist last := by
  cases P with
  | zero => simp [psoRunM] at hr
  | succ p =>
    refine ⟨_, rfl, ?_⟩
    revert hr
    simp only [psoRunM]
    split
    · intro hr; simp at hr
    split
    · split
      · intro hr; simp at hr
      · rename_i g hg
        obtain ⟨k, hk, h1, hn, hw⟩ := psoLoopM_eq cfg b o rnd self m stop g 0
        change psoLoopM cfg b o rnd stop g 0 (psoInitM cfg b o rnd self m) = _ at h1
        rw [h1]
        simp only [Except.ok.injEq, Nat.zero_add] at hn hw ⊢
        intro hr
        have hh := psoSeqM_hist cfg b o rnd self m
        have hinv := psoSeqM_inv cfg b o rnd self m (k + 1)
        generalize hX : psoX cfg b o rnd self m = X at hh
        have hY : ∀ n, (histSeq X (fun k => o.value (X k)) n).genBest n =
            (histSeq X (fun k => o.value (X k)) n).genBest n := fun _ => rfl
        simp only [hh] at hn hw
        have hread : h.read (psoSeqM cfg b o rnd self m (k + 1)).2 =
          { bestX := (histSeq X (fun k => o.value (X k)) (k + 1)).genBestXs cfg.numGen
            bestY := (histSeq X (fun k => o.value (X k)) (k + 1)).genBest cfg.numGen
            bestXHist := (histSeq X (fun k => o.value (X k)) (k + 1)).genBestXs
            bestYHist := (histSeq X (fun k => o.value (X k)) (k + 1)).genBest
            allSamples := (histSeq X (fun k => o.value (X k)) (k + 1)).samples
            allResponses := (histSeq X (fun k => o.value (X k)) (k + 1)).responses
            retY := (histSeq X (fun k => o.value (X k)) (k + 1)).genBest (k + 1)
            retX := (histSeq X (fun k => o.value (X k)) (k + 1)).genBestXs (k + 1)
            calls := (psoSeqM cfg b o rnd self m (k + 1)).1.calls } := by
          rw [← hr]; simp only [Handle.read, hh (k + 1)]
        rw [hread]
        refine ⟨k + 1, ⟨by omega, by omega, ?_, ?_⟩, ?_, ?_, rfl, rfl⟩
        · intro g' h1 h2
          have := hn (g' - 1) (by omega)
          rw [show g' - 1 + 1 = g' by omega] at this
          simp only
          rw [(histSeq_rows X _ (k + 1) g' (by omega)).2.2.1]
          exact this
        · rcases hw with hw | hw
          · left; omega
          · right; exact hw
        · simp only
          rw [hinv.calls, hh (k + 1)]
        · intro g' hg'
          obtain ⟨r1, r2, r3, r4⟩ := histSeq_rows X (fun k => o.value (X k)) (k + 1) g' hg'
          obtain ⟨⟨b1, k1, hk1, i1, e1⟩, k2, hk2, i2, e2, e3⟩ := histSeq_best X (fun k => o.value (X k)) g'
          have hsam : ∀ j ≤ g', (histSeq X (fun k => o.value (X k)) (k + 1)).samples j = X j :=
            fun j hj => (histSeq_rows X _ (k + 1) j (by omega)).1
          have hres : ∀ j ≤ g', (histSeq X (fun k => o.value (X k)) (k + 1)).responses j = o.value (X j) :=
            fun j hj => (histSeq_rows X _ (k + 1) j (by omega)).2.1
          simp only
          refine ⟨by rw [r1, r2], ⟨?_, k1, hk1, i1, ?_⟩, k2, hk2, i2, ?_, ?_⟩
          · intro j hj i; rw [r3, hres j hj]; exact b1 j hj i
          · rw [r3, hres k1 hk1]; exact e1
          · rw [r4, hsam k2 hk2]; exact e2
          · rw [r3, hres k2 hk2]; exact e3
    · intro hr; simp at hr

/-- C98 (partial), both optimisers: if no later call returns the array of the first call (in particular if every call makes a new array, or if the objective returns a slice
of its argument), then the aliases the code creates (`pop_best = obj`, `pop_best_x = x`, the in-place selection of `DE`) have no effect:
the results are those of the model without shared arrays. -/
theorem C98_no_reuse_no_effect_partial (w : World K P D) (q : Request K P D) (hq : FirstArrayNotReturnedAgain (objectiveOf q)) :
    seen (w.run q).2.mem (w.run q).1 = valueModel q := run_eq_valueModel w q hq

/-- C98, what goes wrong in `PSO`: if the objective returns the same array every time, each particle's "personal best" is
just its present position and response, whatever it saw before. -/
theorem C98_pso_same_array_forgets_personal_bests {cfg : PSOCfg K} {b : Box K D} {o : Objective K P D} {stop : Option K} {rnd : PSORand K P D}
    {self : PSOAttrs K P D} {m : Mem K P D} {h : Handle K P D} (hsame : ReturnsSameArray o)
    (hr : (psoRunM cfg b o stop rnd self m).1 = .ok h) :
    ∃ last, h.row = last ∧ 1 ≤ last ∧
      (psoRunM cfg b o stop rnd self m).2.2.pops (psoRunM cfg b o stop rnd self m).2.1.popBestX =
        (h.read (psoRunM cfg b o stop rnd self m).2.2).allSamples last ∧
      (psoRunM cfg b o stop rnd self m).2.2.col (psoRunM cfg b o stop rnd self m).2.1.popBest =
        (h.read (psoRunM cfg b o stop rnd self m).2.2).allResponses last := by
  cases P with
  | zero => simp [psoRunM] at hr
  | succ p =>
    revert hr
    simp only [psoRunM]
    split
    · intro hr; simp at hr
    split
    · split
      · intro hr; simp at hr
      · rename_i g hg
        obtain ⟨k, hk, h1, hn, hw⟩ := psoLoopM_eq cfg b o rnd self m stop g 0
        change psoLoopM cfg b o rnd stop g 0 (psoInitM cfg b o rnd self m) = _ at h1
        rw [h1]
        simp only [Except.ok.injEq, Nat.zero_add]
        intro hr
        obtain ⟨s1, s2, s3⟩ := psoSeqM_same cfg b o rnd self m hsame (k + 1)
        have hrow := histSeq_rows (psoX cfg b o rnd self m) (fun k => o.value (psoX cfg b o rnd self m k)) (k + 1) (k + 1) (le_refl _)
        refine ⟨k + 1, by rw [← hr], by omega, ?_, ?_⟩
        · rw [s2, ← hr]; simp only [Handle.read]; rw [psoSeqM_hist, hrow.1]
        · rw [s3, ← hr]; simp only [Handle.read]; rw [psoSeqM_hist, hrow.2.1]
    · intro hr; simp at hr

/-- C98, what goes wrong in `DE`: if the objective returns the same array every time, no trial point is ever accepted — all recorded populations are the initial one — while the
recorded responses are those of the trial populations. -/
theorem C98_de_same_array_never_moves {cfg : DECfg K} {b : Box K D} {o : Objective K P D} {stop : Option K} {rnd : DERand K P D}
    {self : DEAttrs K P D} {m : Mem K P D} {h : Handle K P D} (hsame : ReturnsSameArray o)
    (hr : (deRunM cfg b o stop rnd self m).1 = .ok h) :
    ∃ r, r = h.read (deRunM cfg b o stop rnd self m).2.2 ∧ 1 ≤ h.row ∧
      (∀ g ≤ h.row, r.allSamples g = r.allSamples 0) ∧
      ∀ g ≤ h.row, ∃ q, r.calls[g]? = some q ∧ r.allResponses g = o.value q := by
  cases P with
  | zero => simp [deRunM] at hr
  | succ p =>
    revert hr
    simp only [deRunM]
    split
    · intro hr; simp at hr
    split
    · intro hr; simp at hr
    · split
      · intro hr; simp at hr
      · rename_i g hg _ _ _
        obtain ⟨k, hk, h1, hn, hw⟩ := deLoopM_eq cfg b o rnd self m stop g 0
        change deLoopM cfg b o rnd stop g 0 (deInitM b o rnd self m) = _ at h1
        rw [h1]
        simp only [Except.ok.injEq, Nat.zero_add]
        intro hr
        obtain ⟨s1, s2, s3⟩ := deSeqM_same cfg b o rnd self m hsame (k + 1)
        refine ⟨_, rfl, by rw [← hr]; exact Nat.le_add_left 1 k, ?_, ?_⟩
        · intro g' hg'
          rw [← hr] at hg' ⊢
          simp only [Handle.read]
          rw [s2 g' hg', s2 0 (by omega)]
        · intro g' hg'
          rw [← hr] at hg' ⊢
          exact s3 g' hg'

/-! ## C99: the arrays the objective sees -/

/-- C99 (partial), `PSO`.  Take an objective that makes a new array for every call.  After the run every array it was called with, except the first, still holds the population of that call; the first holds
the particles' personal-best positions.  Every array it returned, except the first, still holds its values; the first holds the
personal-best responses.  Missing: the first arrays being left alone, which is false, see `C99_pso_counterexample`. -/
theorem C99_pso_arrays_partial {cfg : PSOCfg K} {b : Box K D} {o : Objective K P D} {stop : Option K} {rnd : PSORand K P D}
    {self : PSOAttrs K P D} {m : Mem K P D} {h : Handle K P D} (hnew : MakesNewArrays o)
    (hr : (psoRunM cfg b o stop rnd self m).1 = .ok h) :
    ∃ v, psoRun cfg b o.value stop rnd = .ok v ∧ h.calls = v.calls ∧
      h.argRefs.length = h.calls.length ∧ h.retRefs.length = h.calls.length ∧ h.argRefs.Nodup ∧
      (∀ k a, 1 ≤ k → h.argRefs[k]? = some a → h.calls[k]? = some ((psoRunM cfg b o stop rnd self m).2.2.pops a)) ∧
      (∀ k c, 1 ≤ k → h.retRefs[k]? = some c → ∃ q, h.calls[k]? = some q ∧ (psoRunM cfg b o stop rnd self m).2.2.col c = o.value q) ∧
      (∀ a, h.argRefs[0]? = some a → (psoRunM cfg b o stop rnd self m).2.2.pops a = v.popBestX) ∧
      ∀ c, h.retRefs[0]? = some c → (psoRunM cfg b o stop rnd self m).2.2.col c = v.popBest := by
  cases P with
  | zero => simp [psoRunM] at hr
  | succ p =>
    have ho := hnew.first
    obtain ⟨kk, hinj, hkk⟩ := hnew
    revert hr
    simp only [psoRunM, psoRun]
    split
    · intro hr; simp at hr
    split
    · cases hg : cfg.numGen with
      | zero => intro hr; simp at hr
      | succ g =>
        simp only []
        obtain ⟨k, h1, h2⟩ := psoLoopM_sync cfg b o rnd ho self m stop g 0
        change psoLoopM cfg b o rnd stop g 0 (psoInitM cfg b o rnd self m) = _ at h1
        change psoLoop cfg b o.value rnd stop g 0 (psoInit cfg b o.value rnd) = _ at h2
        rw [h1, h2]
        simp only [Except.ok.injEq, Nat.zero_add]
        intro hr
        have hinv := psoSeqM_inv cfg b o rnd self m (k + 1)
        have hrel := psoSeqM_rel cfg b o rnd ho self m (k + 1)
        obtain ⟨hb1, hb2⟩ := psoSeqM_bufs cfg b o rnd self m kk hinj hkk (k + 1)
        have hh := psoSeqM_hist cfg b o rnd self m (k + 1)
        have hsam : ∀ j ≤ k + 1, ((psoSeqM cfg b o rnd self m (k + 1)).2.hists (psoSeqM cfg b o rnd self m (k + 1)).1.hist).samples j =
            psoX cfg b o rnd self m j := by
          intro j hj; rw [hh]; exact (histSeq_rows _ _ _ j hj).1
        have hcall : ∀ j ≤ k + 1, h.calls[j]? = some (psoX cfg b o rnd self m j) := by
          intro j hj
          rw [← hr]; simp only
          rw [hinv.calls, List.getElem?_map, List.getElem?_range (by omega), Option.map_some, hsam j hj]
        refine ⟨_, rfl, ?_, ?_, ?_, ?_, ?_, ?_, ?_, ?_⟩
        · rw [← hr]; exact hrel.calls
        · rw [← hr]; simp only; rw [hinv.argRefs, hinv.calls]; simp
        · rw [← hr]; simp only; rw [hinv.rets, hinv.calls]; simp
        · rw [← hr]; simp only; rw [hinv.argRefs]
          exact List.Nodup.map (fun a b hab => by simpa using hab) List.nodup_range
        · intro j a hj ha
          rw [← hr] at ha
          simp only at ha
          rw [hinv.argRefs, List.getElem?_map] at ha
          have hlt : j < k + 1 + 1 := by
            by_contra hc
            rw [List.getElem?_eq_none (by simp; omega)] at ha
            simp at ha
          rw [List.getElem?_range hlt] at ha
          simp only [Option.map_some, Option.some.injEq] at ha
          rw [hcall j (by omega), ← ha, hinv.later j hj (by omega), hsam j (by omega)]
        · intro j c hj hc
          rw [← hr] at hc
          simp only at hc
          rw [hb1, List.getElem?_map] at hc
          have hlt : j < k + 1 + 1 := by
            by_contra hcon
            rw [List.getElem?_eq_none (by simp; omega)] at hc
            simp at hc
          rw [List.getElem?_range hlt] at hc
          simp only [Option.map_some, Option.some.injEq] at hc
          refine ⟨_, hcall j (by omega), ?_⟩
          rw [← hc]
          exact hb2 j hj (by omega)
        · intro a ha
          rw [← hr] at ha
          simp only at ha
          rw [hinv.argRefs, List.getElem?_map, List.getElem?_range (by omega)] at ha
          simp only [Option.map_some, Option.some.injEq, Nat.add_zero] at ha
          rw [← ha, ← hinv.pbx]; exact hrel.pbx
        · intro c hc
          rw [← hr] at hc
          simp only at hc
          rw [hinv.ret0] at hc
          injection hc with hc
          rw [← hc]; exact hrel.pb
    · intro hr; simp at hr

/-- C99 (partial), `DE`.  Take an objective that makes a new array for every call.  After the run the first array it was called with holds the final population; all later calls were made with one and the same
array, which now holds the trial population of the last call.  Every array it returned, except the first, still holds its values; the first
holds the final responses.  Missing: the arrays being left alone, which is false, see `C99_de_counterexample`. -/
theorem C99_de_arrays_partial {cfg : DECfg K} {b : Box K D} {o : Objective K P D} {stop : Option K} {rnd : DERand K P D}
    {self : DEAttrs K P D} {m : Mem K P D} {h : Handle K P D} (hnew : MakesNewArrays o)
    (hr : (deRunM cfg b o stop rnd self m).1 = .ok h) :
    ∃ v, deRun cfg b o.value stop rnd = .ok v ∧ h.calls = v.calls ∧
      h.argRefs.length = h.calls.length ∧ h.retRefs.length = h.calls.length ∧
      (∀ a, h.argRefs[0]? = some a → (deRunM cfg b o stop rnd self m).2.2.pops a = v.allSamples h.row) ∧
      (∃ u, (∀ k a, 1 ≤ k → h.argRefs[k]? = some a → a = u) ∧
        h.calls[h.row]? = some ((deRunM cfg b o stop rnd self m).2.2.pops u) ∧ h.calls.length = h.row + 1) ∧
      (∀ k c, 1 ≤ k → h.retRefs[k]? = some c → ∃ q, h.calls[k]? = some q ∧ (deRunM cfg b o stop rnd self m).2.2.col c = o.value q) ∧
      ∀ c, h.retRefs[0]? = some c → (deRunM cfg b o stop rnd self m).2.2.col c = v.allResponses h.row := by
  cases P with
  | zero => simp [deRunM] at hr
  | succ p =>
    have ho := hnew.first
    obtain ⟨kk, hinj, hkk⟩ := hnew
    revert hr
    simp only [deRunM, deRun]
    split
    · intro hr; simp at hr
    cases hg : cfg.numGen with
    | zero => intro hr; simp at hr
    | succ g =>
      simp only []
      cases hck : deCheck cfg (p + 1) with
      | error e => intro hr; simp at hr
      | ok _ =>
        obtain ⟨k, h1, h2⟩ := deLoopM_sync cfg b o rnd ho hck self m stop g 0
        change deLoopM cfg b o rnd stop g 0 (deInitM b o rnd self m) = _ at h1
        change deLoop cfg b o.value rnd stop g 0 (deInit b o.value rnd) = _ at h2
        rw [h1, h2]
        simp only [Except.ok.injEq, Nat.zero_add, bind, Except.bind]
        intro hr
        have hinv := deSeqM_inv cfg b o rnd self m (k + 1)
        have hview := deSeqM_view cfg b o rnd ho self m (k + 1)
        obtain ⟨hb1, hb2⟩ := deSeqM_bufs cfg b o rnd self m kk hinj hkk (k + 1)
        have hrow : h.row = k + 1 := by rw [← hr]
        refine ⟨_, rfl, ?_, ?_, ?_, ?_, ?_, ?_, ?_⟩
        · rw [← hr]; simp only; rw [← hview]; rfl
        · rw [← hr]; simp only; rw [hinv.argRefs, hinv.len]; simp
        · rw [← hr]; simp only; rw [hinv.rets, hinv.len]
        · intro a ha
          rw [← hr] at ha
          simp only at ha
          rw [hinv.argRefs] at ha
          simp only [List.getElem?_cons_zero, Option.some.injEq] at ha
          rw [hrow, ← hview, ← ha, ← hinv.x]
          exact hinv.curX.symm
        · refine ⟨(deSeqM cfg b o rnd self m (k + 1)).1.u, ?_, ?_, ?_⟩
          · intro j a hj ha
            rw [← hr] at ha
            simp only at ha
            rw [hinv.argRefs] at ha
            obtain ⟨j', rfl⟩ : ∃ j', j = j' + 1 := ⟨j - 1, by omega⟩
            rw [List.getElem?_cons_succ] at ha
            rw [hinv.u]
            exact List.eq_of_mem_replicate (List.mem_of_getElem? ha)
          · rw [hrow, ← hr]; exact hinv.curU (by omega)
          · rw [hrow, ← hr]; exact hinv.len
        · intro j c hj hc
          rw [← hr] at hc ⊢
          simp only at hc ⊢
          rw [hb1, List.getElem?_map] at hc
          have hlt : j < k + 1 + 1 := by
            by_contra hcon
            rw [List.getElem?_eq_none (by simp; omega)] at hc
            simp at hc
          rw [List.getElem?_range hlt] at hc
          simp only [Option.map_some, Option.some.injEq] at hc
          obtain ⟨q, hq, hv⟩ := hb2 j hj (by omega)
          exact ⟨q, hq, by rw [← hc]; exact hv⟩
        · intro c hc
          rw [← hr] at hc
          simp only at hc
          rw [hinv.ret0] at hc
          injection hc with hc
          rw [hrow, ← hview, ← hc]
          exact hinv.curY.symm

/-! ## Concrete programs -/

section Examples

/-- `f(x) = x[:, 0]`, computed into the array `arr n` at the `n`-th call. -/
def firstCoordInto {P D : ℕ} (j : Fin D) (arr : ℕ → ℕ) : Objective ℚ P D where
  value := fun x i => x i j
  reply := fun n => .array (arr n)
  column_ok := fun _ _ h => by cases h

/-- `f(x) = -x[:, 0]`, computed into the array `arr n` at the `n`-th call. -/
def negCoordInto {P D : ℕ} (j : Fin D) (arr : ℕ → ℕ) : Objective ℚ P D where
  value := fun x i => - x i j
  reply := fun n => .array (arr n)
  column_ok := fun _ _ h => by cases h

/-- `lambda x: x[:, 0]`. -/
def slice {P D : ℕ} (j : Fin D) : Objective ℚ P D where
  value := fun x i => x i j
  reply := fun _ => .column j
  column_ok := fun _ j' h x i => by injection h with h; rw [h]

/-- An empty memory. -/
def emptyMem {P D : ℕ} : Mem ℚ P D := ⟨fun _ _ _ => 0, 0, fun _ _ => 0, fun _ => ⟨fun _ => 0, fun _ _ => 0, fun _ _ _ => 0, fun _ _ => 0⟩, 0⟩

/-- The design space `[0, 4]`. -/
def box4 : Box ℚ 1 := ⟨fun _ => 0, fun _ => 4⟩

/-- A new `DE` object. -/
def newDE {P D : ℕ} : DEAttrs ℚ P D := ⟨0, 0, .buf 0, .buf 0, 0, [], [], []⟩

/-- A new `PSO` object. -/
def newPSO {P D : ℕ} : PSOAttrs ℚ P D := ⟨0, fun _ _ => 0, .buf 0, .buf 0, 0, 0, [], [], []⟩

/-- One generation of DE/best/1/bin with two members. -/
def deCfg1 : DECfg ℚ := ⟨1, 1, 1, "DE/best/1/bin"⟩

/-- Initial population `4, 2`; both partners drawn are the two members. -/
def deRnd1 : DERand ℚ 2 1 where
  pos := fun i _ => if i = 0 then 1 else 1 / 2
  choice3 := fun _ _ _ => 0
  choice2 := fun _ _ k => if k = 0 then 0 else 1
  c := fun _ _ => 0
  cr := fun _ _ _ => 0
  repl := fun _ _ _ _ => 0

/-- One generation of PSO with one particle that keeps its velocity. -/
def psoCfg1 : PSOCfg ℚ := ⟨1, 0, 0, 1, 1 / 4⟩

/-- The particle starts at `0` with velocity `1`. -/
def psoRnd1 : PSORand ℚ 1 1 where
  pos := fun _ _ => 0
  vel := fun _ _ => 1
  repl := fun _ _ _ _ => 0

/-- To exhibit the outcome of a computation it is enough to evaluate. -/
theorem exists_ok_of_eval {α : Type} {r : Py α} {Q : α → Prop} (d : ∀ a, Decidable (Q a))
    (h : (r.toOption.any fun a => @decide (Q a) (d a)) = true) : ∃ a, r = .ok a ∧ Q a := by
  cases r with
  | error e => simp [Except.toOption] at h
  | ok a => exact ⟨a, rfl, by simpa [Except.toOption] using h⟩

/-- C98: for an objective that returns the same array every time, `DE` minimising `f(x) = x` on `[0, 4]` reports `best_x = 4` with `best_y = 2`. -/
theorem C98_de_same_array_counterexample :
    ReturnsSameArray (firstCoordInto (P := 2) (0 : Fin 1) fun _ => 0) ∧
    ∃ h, (deRunM deCfg1 box4 (firstCoordInto 0 fun _ => 0) none deRnd1 newDE emptyMem).1 = .ok h ∧
      let r := h.read (deRunM deCfg1 box4 (firstCoordInto 0 fun _ => 0) none deRnd1 newDE emptyMem).2.2
      r.retX 0 = 4 ∧ r.retY = 2 ∧ r.bestX 0 = 4 ∧ r.bestY = 2 := by
  refine ⟨⟨0, fun _ => rfl⟩, _, rfl, ?_⟩
  decide +kernel

/-- C98: for an objective that returns the same array every time, the `pop_best` of `PSO` is not the best response a particle has had: the particle had response `0`, and `pop_best` is `1`. -/
theorem C98_pso_same_array_counterexample :
    ReturnsSameArray (firstCoordInto (P := 1) (0 : Fin 1) fun _ => 0) ∧
    ∃ h, (psoRunM psoCfg1 box4 (firstCoordInto 0 fun _ => 0) none psoRnd1 newPSO emptyMem).1 = .ok h ∧
      let s := (psoRunM psoCfg1 box4 (firstCoordInto 0 fun _ => 0) none psoRnd1 newPSO emptyMem).2
      (h.read s.2).allResponses 0 0 = 0 ∧ s.2.col s.1.popBest 0 = 1 := by
  refine ⟨⟨0, fun _ => rfl⟩, exists_ok_of_eval (fun _ => instDecidableAnd) ?_⟩
  decide +kernel

/-- The same run with a new array for every call: `pop_best` is `0`. -/
example : ∃ h, (psoRunM psoCfg1 box4 (firstCoordInto 0 id) none psoRnd1 newPSO emptyMem).1 = .ok h ∧
      let s := (psoRunM psoCfg1 box4 (firstCoordInto 0 id) none psoRnd1 newPSO emptyMem).2
      (h.read s.2).allResponses 0 0 = 0 ∧ s.2.col s.1.popBest 0 = 0 := by
  refine exists_ok_of_eval (fun _ => instDecidableAnd) ?_
  decide +kernel

/-- The `DE` run with a new array for every call: the first member moves to `2`, and the pair returned is `f(2) = 2`.  The same for `lambda x: x[:, 0]`. -/
example : ∃ h, (deRunM deCfg1 box4 (firstCoordInto 0 id) none deRnd1 newDE emptyMem).1 = .ok h ∧
      let r := h.read (deRunM deCfg1 box4 (firstCoordInto 0 id) none deRnd1 newDE emptyMem).2.2
      r.retX 0 = 2 ∧ r.retY = 2 ∧ r.allSamples 1 0 0 = 2 := by
  refine ⟨_, rfl, ?_⟩
  decide +kernel

example : ∃ h, (deRunM deCfg1 box4 (slice 0) none deRnd1 newDE emptyMem).1 = .ok h ∧
      let r := h.read (deRunM deCfg1 box4 (slice 0) none deRnd1 newDE emptyMem).2.2
      r.retX 0 = 2 ∧ r.retY = 2 ∧ r.allSamples 1 0 0 = 2 := by
  refine ⟨_, rfl, ?_⟩
  decide +kernel

/-- The hypotheses on objectives are met by these objectives. -/
example : MakesNewArrays (firstCoordInto (P := 2) (0 : Fin 1) id) := ⟨id, fun _ _ h => h, fun _ => rfl⟩
example : FirstArrayNotReturnedAgain (slice (P := 2) (0 : Fin 1)) := ReturnsColumn.first ⟨0, fun _ => rfl⟩
/-- Also by an objective with two arrays, the first of which it uses only once. -/
example : FirstArrayNotReturnedAgain (firstCoordInto (P := 2) (0 : Fin 1) fun n => if n = 0 then 0 else 1) := by
  intro k h n hn
  simp [firstCoordInto] at h hn
  omega

/-- C99: `PSO` writes to the first array it gave to the objective and to the first array the objective returned.  The objective `f(x) = -x` was called with the population `0` and returned `0`; after the run
these two arrays hold `1` and `-1`. -/
theorem C99_pso_counterexample :
    MakesNewArrays (negCoordInto (P := 1) (0 : Fin 1) id) ∧
    ∃ h, (psoRunM psoCfg1 box4 (negCoordInto 0 id) none psoRnd1 newPSO emptyMem).1 = .ok h ∧
      let m := (psoRunM psoCfg1 box4 (negCoordInto 0 id) none psoRnd1 newPSO emptyMem).2.2
      h.argRefs[0]? = some 0 ∧ h.retRefs[0]? = some (.buf 0) ∧ (h.calls[0]?.map fun q => q 0 0) = some 0 ∧
        m.pops 0 0 0 = 1 ∧ m.col (.buf 0) 0 = -1 := by
  refine ⟨⟨id, fun _ _ h => h, fun _ => rfl⟩, exists_ok_of_eval (fun _ => instDecidableAnd) ?_⟩
  decide +kernel

/-- Two generations of DE/best/1/bin. -/
def deCfg2 : DECfg ℚ := ⟨2, 1, 1, "DE/best/1/bin"⟩

/-- Initial population `4, 2`; the second trial population is drawn anew because step sizes take it out of the design space. -/
def deRnd2 : DERand ℚ 2 1 where
  pos := fun i _ => if i = 0 then 1 else 1 / 2
  choice3 := fun _ _ _ => 0
  choice2 := fun _ _ k => if k = 0 then 0 else 1
  c := fun _ _ => 0
  cr := fun t i _ => if t = 1 ∧ i = 0 then 2 else 0
  repl := fun _ _ _ _ => 0

/-- C99: `DE` writes to the first array it gave to the objective and to the first array the objective returned, and uses one array for all later calls.  Maximising on `[0, 4]` from the population `2, 4`
(the objective is `-x`): the first array then held `2` in its first row and the returned array `-2`; after the run they hold `4` and `-4`. -/
theorem C99_de_counterexample :
    MakesNewArrays (negCoordInto (P := 2) (0 : Fin 1) id) ∧
    ∃ h, (deRunM deCfg2 box4 (negCoordInto 0 id) none { deRnd1 with pos := fun i _ => if i = 0 then 1 / 2 else 1 } newDE emptyMem).1 = .ok h ∧
      let m := (deRunM deCfg2 box4 (negCoordInto 0 id) none { deRnd1 with pos := fun i _ => if i = 0 then 1 / 2 else 1 } newDE emptyMem).2.2
      ∃ a c, h.argRefs[0]? = some a ∧ h.retRefs[0]? = some c ∧ (h.calls[0]?.map fun q => q 0 0) = some 2 ∧
        m.pops a 0 0 = 4 ∧ m.col c 0 = -4 ∧ h.argRefs[1]? = h.argRefs[2]? := by
  refine ⟨⟨id, fun _ _ h => h, fun _ => rfl⟩, _, rfl, 0, .buf 0, ?_⟩
  decide +kernel

/-- A world with new objects only. -/
def newWorld : World ℚ 2 1 := ⟨fun _ => newPSO, fun _ => newDE, emptyMem⟩

/-- C97 on a concrete program: object 0 first fails (three partners cannot be drawn from two members), is then used with DE/best/1/bin, and is used again with other draws. -/
def program : List (Request ℚ 2 1) :=
  [.de 0 ⟨1, 1, 1, "DE/rand/1/bin"⟩ box4 (firstCoordInto 0 id) none deRnd1,
   .de 0 deCfg1 box4 (firstCoordInto 0 id) none deRnd1,
   .de 0 deCfg2 box4 (slice 0) none deRnd2]

example : (newWorld.runAll program).1.map (seen (newWorld.runAll program).2.mem) = program.map valueModel :=
  C97_value_model newWorld program (by
    simp only [program, List.forall_mem_cons, List.not_mem_nil, false_imp_iff, implies_true, and_true, objectiveOf]
    exact ⟨MakesNewArrays.first ⟨id, fun _ _ h => h, fun _ => rfl⟩, MakesNewArrays.first ⟨id, fun _ _ h => h, fun _ => rfl⟩,
      ReturnsColumn.first ⟨0, fun _ => rfl⟩⟩)

example : (newWorld.runAll program).1.map (fun r => (seen (newWorld.runAll program).2.mem r).toOption.map fun r => (r.retX 0, r.retY)) =
    [none, some (2, 2), some (2, 2)] := by
  decide +kernel

end Examples

end Mfpml.Props
