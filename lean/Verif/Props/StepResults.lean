import Verif.Lemmas.StepResults
import Mathlib.Tactic.NormNum

/-!
# C140: step results and crashes

`psoRunS`, `deRunS` list what a run does outside the process: lines printed, iterations computed, `step_results.pickle` opened (emptied) and written.  A process killed at any moment has done an initial part `p` of this list
(`p <+: …`).  Vocabulary: `Verif/Spec/StepResults.lean`.
-/

set_option linter.unusedSectionVars false

namespace Mfpml.Props

open Mfpml Mfpml.EA Mfpml.Spec

variable {K : Type} [Add K] [Sub K] [Mul K] [Div K] [Neg K] [Zero K] [LinearOrder K] {P D : ℕ} {b : Box K D} {f : Pop K P D → Py (Fin P → K)} {stop : Option K}

/-! ## Printing and saving do not change the result -/

/-- PSO: the result (or exception) is the same for every choice of `print_info` and `save_step_results`. -/
theorem C140_pso_result (opts : StepOpts) (cfg : PSOCfg K) (rnd : PSORand K P D) : (psoRunS opts cfg b f stop rnd).2 = psoRunM cfg b f stop rnd := by
  cases P with
  | zero =>
    simp only [psoRunS, psoRunM]
    rcases f (locInit b rnd.pos) with e | o <;> rfl
  | succ p =>
    simp only [psoRunS, psoRunM]
    rcases f (locInit b rnd.pos) with e | o
    · rfl
    · show _ = (if D = 0 then _ else _)
      simp only
      split_ifs with h0 hv
      · rfl
      · rcases hg : cfg.numGen with _ | g
        · rfl
        · simp only
          rw [loopS_result, ← psoLoopM_eq]
          rcases psoLoopM cfg b f rnd stop g 0 (psoInit cfg b (fun _ => o) rnd) with e | ⟨s, it⟩ <;> rfl
      · rfl

/-- DE: the same. -/
theorem C140_de_result (opts : StepOpts) (cfg : DECfg K) (rnd : DERand K P D) : (deRunS opts cfg b f stop rnd).2 = deRunM cfg b f stop rnd := by
  cases P with
  | zero =>
    simp only [deRunS, deRunM]
    rcases f (locInit b rnd.pos) with e | o <;> rfl
  | succ p =>
    simp only [deRunS, deRunM]
    rcases f (locInit b rnd.pos) with e | o
    · rfl
    · show _ = (if D = 0 then _ else _)
      simp only
      split_ifs with h0
      · rfl
      · rcases hg : cfg.numGen with _ | g
        · rfl
        · simp only
          rw [loopS_result, ← deLoopM_eq]
          rcases deLoopM cfg b f rnd stop g 0 (deInit b (fun _ => o) rnd) with e | ⟨s, it⟩ <;> rfl

/-! ## The cases of a run -/

theorem psoRunS_cases (opts : StepOpts) (cfg : PSOCfg K) (rnd : PSORand K P D) :
    (psoRunS opts cfg b f stop rnd).1 = [] ∧ (∀ R, (psoRunS opts cfg b f stop rnd).2 ≠ .ok R) ∨
      ∃ (p : ℕ) (hp : P = p + 1), ∃ (rnd' : PSORand K (p + 1) D) (f' : Pop K (p + 1) D → Py (Fin (p + 1) → K)) (obj : Fin (p + 1) → K) (g : ℕ),
        hp ▸ rnd = rnd' ∧ hp ▸ f = f' ∧ f' (locInit b rnd'.pos) = .ok obj ∧ D ≠ 0 ∧ (∀ j, 0 ≤ vMax cfg b j) ∧ cfg.numGen = g + 1 := by
  cases P with
  | zero =>
    left
    simp only [psoRunS]
    rcases f (locInit b rnd.pos) with e | o <;> exact ⟨by trivial, fun R h => by cases h⟩
  | succ p =>
    rcases h : f (locInit b rnd.pos) with e | o
    · left; simp only [psoRunS, h]; exact ⟨by trivial, fun R h => by cases h⟩
    · by_cases h0 : D = 0
      · left; simp only [psoRunS, h, h0, if_true]; exact ⟨by trivial, fun R h => by cases h⟩
      · by_cases hv : ∀ j, 0 ≤ vMax cfg b j
        · rcases hg : cfg.numGen with _ | g
          · left
            have : psoRunS opts cfg b f stop rnd = ([], .error .unboundLocal) := by
              simp only [psoRunS, h, if_neg h0, if_pos hv]
              rw [hg]
            rw [this]; exact ⟨by trivial, fun R h => by cases h⟩
          · right; exact ⟨p, rfl, rnd, f, o, g, rfl, rfl, h, h0, hv, rfl⟩
        · left; simp only [psoRunS, h, if_neg h0, if_neg hv]; exact ⟨by trivial, fun R h => by cases h⟩

theorem psoRunS_events {p : ℕ} (opts : StepOpts) (cfg : PSOCfg K) {f : Pop K (p + 1) D → Py (Fin (p + 1) → K)} (rnd : PSORand K (p + 1) D) {obj : Fin (p + 1) → K}
    (h : f (locInit b rnd.pos) = .ok obj) (h0 : D ≠ 0) (hv : ∀ j, 0 ≤ vMax cfg b j) {g : ℕ} (hg : cfg.numGen = g + 1) :
    (psoRunS opts cfg b f stop rnd).1 = (loopS opts b cfg.numGen stop PSOState.view (psoStepM cfg b f rnd) g 0 (psoInit cfg b (fun _ => obj) rnd)).1 := by
  simp only [psoRunS, h, if_neg h0, if_pos hv]
  rw [hg]
  simp only
  rcases (loopS opts b (g + 1) stop PSOState.view (psoStepM cfg b f rnd) g 0 (psoInit cfg b (fun _ => obj) rnd)).2 with e | ⟨s, it⟩ <;> rfl

theorem psoRunM_of {p : ℕ} (cfg : PSOCfg K) {f : Pop K (p + 1) D → Py (Fin (p + 1) → K)} (rnd : PSORand K (p + 1) D) {obj : Fin (p + 1) → K}
    (h : f (locInit b rnd.pos) = .ok obj) (h0 : D ≠ 0) (hv : ∀ j, 0 ≤ vMax cfg b j) {k : ℕ} (hk : cfg.numGen = k + 1) {s : PSOState K (p + 1) D} {it : ℕ}
    (hl : genLoop stop PSOState.view (psoStepM cfg b f rnd) k 0 (psoInit cfg b (fun _ => obj) rnd) = .ok (s, it)) :
    ∃ R, psoRunM cfg b f stop rnd = .ok R ∧ R.bestYHist = s.genBest ∧ R.bestXHist = s.genBestXs ∧ R.allSamples = s.samples ∧ R.allResponses = s.responses := by
  simp only [psoRunM, h]
  show ∃ R, (if D = 0 then _ else _) = _ ∧ _
  rw [if_neg h0, if_pos hv, hk]
  simp only
  rw [psoLoopM_eq, hl]
  exact ⟨_, rfl, rfl, rfl, rfl, rfl⟩

theorem psoRunM_inv {p : ℕ} (cfg : PSOCfg K) {f : Pop K (p + 1) D → Py (Fin (p + 1) → K)} (rnd : PSORand K (p + 1) D) {obj : Fin (p + 1) → K}
    (h : f (locInit b rnd.pos) = .ok obj) (h0 : D ≠ 0) (hv : ∀ j, 0 ≤ vMax cfg b j) {k : ℕ} (hk : cfg.numGen = k + 1) {R : PSOResult K (p + 1) D} (hR : psoRunM cfg b f stop rnd = .ok R) :
    ∃ s it, genLoop stop PSOState.view (psoStepM cfg b f rnd) k 0 (psoInit cfg b (fun _ => obj) rnd) = .ok (s, it) ∧ R.bestYHist = s.genBest ∧ R.bestXHist = s.genBestXs ∧ R.allSamples = s.samples ∧
      R.allResponses = s.responses ∧ R.retY = s.genBest (it + 1) := by
  simp only [psoRunM, h] at hR
  replace hR : (if D = 0 then _ else _) = _ := hR
  rw [if_neg h0, if_pos hv, hk] at hR
  simp only at hR
  rw [psoLoopM_eq] at hR
  obtain ⟨⟨s, it⟩, h1, h2⟩ := Py.bind_ok.mp hR
  cases h2
  exact ⟨s, it, h1, rfl, rfl, rfl, rfl, rfl⟩

/-- **PSO, killed at any moment** (full claim: from the first saved iteration on the file is readable; see `C140_counterexample`).  With `save_step_results`, after any initial part of the run: the file is at most one iteration behind;
before it is first opened it is as before the run; while it is being written it is unreadable; otherwise it holds the record of as many iterations as have been saved, which is what a run with only that number of
generations returns.  The record always names the design space, the population size and the number of generations asked for (not the number made). -/
theorem C140_pso_partial {opts : StepOpts} (hsave : opts.save = true) (cfg : PSOCfg K) (rnd : PSORand K P D) {p : List (StepEvent K P D)} (hp : p <+: (psoRunS opts cfg b f stop rnd).1) :
    numDumped p ≤ numOpened p ∧ numOpened p ≤ numIterated p ∧ numIterated p ≤ numDumped p + 1 ∧
      (numOpened p = 0 → fileAfter p = .asBefore) ∧ (numOpened p = numDumped p + 1 → fileAfter p = .unreadable) ∧
      (1 ≤ numDumped p → numOpened p = numDumped p → ∃ r R, fileAfter p = .holds r ∧ psoRunM { cfg with numGen := numDumped p } b f stop rnd = .ok R ∧ Records r R.toResult (numDumped p) ∧
        r.designSpace = b ∧ r.pop = P ∧ r.gen = cfg.numGen) := by
  rcases psoRunS_cases (b := b) (f := f) (stop := stop) opts cfg rnd with ⟨h, _⟩ | ⟨q, rfl, rnd', f', obj, g, rfl, rfl, h, h0, hv, hg⟩
  · rw [h, List.prefix_nil] at hp
    subst hp
    simp [numDumped, numOpened, numIterated, fileAfter]
  · simp only at h
    rw [psoRunS_events opts cfg rnd h h0 hv hg] at hp
    have I := loopS_prefix hsave b cfg.numGen stop PSOState.view (psoStepM cfg b f rnd) g 0 (psoInit cfg b (fun _ => obj) rnd) .asBefore p hp
    refine ⟨I.le1, I.le2, I.le3, I.before, I.torn, fun h1 h2 => ?_⟩
    obtain ⟨s, hs, hfile⟩ := I.full h1 h2
    unfold Traj at hs
    have hb := genLoop_blank (pso_rowStep cfg b f rnd) _ (psoInit_blank cfg b _ rnd) hs
    obtain ⟨R, hR, e1, e2, e3, e4⟩ := psoRunM_of { cfg with numGen := numDumped p } rnd h h0 hv (k := numDumped p - 1) (by simp only; omega) hs
    refine ⟨_, R, hfile, hR, ?_, rfl, rfl, rfl⟩
    rw [show 0 + (numDumped p - 1) + 1 = numDumped p by omega] at hb
    exact records_of_blank hb b cfg.numGen e1 e2 e3 e4

/-- **PSO, at the end of the run.**  Every computed iteration has been saved.  If the run returns, the file holds exactly the histories of the returned results; if it raises, it holds the record of the completed iterations
(by `C140_pso_partial`; if there are none it is as before the run). -/
theorem C140_pso_end {opts : StepOpts} (hsave : opts.save = true) (cfg : PSOCfg K) (rnd : PSORand K P D) :
    let es := (psoRunS opts cfg b f stop rnd).1
    numOpened es = numDumped es ∧ numIterated es = numDumped es ∧
      ∀ R, (psoRunS opts cfg b f stop rnd).2 = .ok R → 1 ≤ numDumped es ∧ R.retY = R.bestYHist (numDumped es) ∧
        ∃ r, fileAfter es = .holds r ∧ Records r R.toResult (numDumped es) ∧ r.bestYHist = R.bestYHist ∧ r.bestXHist = R.bestXHist ∧ r.allSamples = R.allSamples ∧ r.allResponses = R.allResponses := by
  intro es
  rcases psoRunS_cases (b := b) (f := f) (stop := stop) opts cfg rnd with ⟨h, hne⟩ | ⟨q, rfl, rnd', f', obj, g, rfl, rfl, h, h0, hv, hg⟩
  · simp only [es, h]
    refine ⟨rfl, rfl, fun R hR => absurd hR (hne R)⟩
  · simp only at h
    have he : es = _ := psoRunS_events opts cfg rnd h h0 hv hg
    obtain ⟨a1, a2, a3⟩ := loopS_all hsave b cfg.numGen stop PSOState.view (psoStepM cfg b f rnd) g 0 (psoInit cfg b (fun _ => obj) rnd)
    rw [he]
    refine ⟨a1, a2, fun R hR => ?_⟩
    rw [C140_pso_result] at hR
    obtain ⟨s, it, hl, e1, e2, e3, e4, e5⟩ := psoRunM_inv cfg rnd h h0 hv hg hR
    obtain ⟨c1, c2⟩ := a3 s it ((loopS_result _ _ _ _ _ _ _ _ _).trans hl)
    have hb := genLoop_blank (pso_rowStep cfg b f rnd) _ (psoInit_blank cfg b _ rnd) hl
    refine ⟨by omega, ?_, _, c2 _, ?_, e1.symm, e2.symm, e3.symm, e4.symm⟩
    · rw [e5, e1]; congr 1; omega
    · rw [show it + 1 = numDumped (loopS opts b cfg.numGen stop PSOState.view (psoStepM cfg b f rnd) g 0 (psoInit cfg b (fun _ => obj) rnd)).1 by omega] at hb
      exact records_of_blank hb b cfg.numGen e1 e2 e3 e4

/-- Without `save_step_results` the file is never touched. -/
theorem C140_pso_nosave {opts : StepOpts} (hsave : opts.save = false) (cfg : PSOCfg K) (rnd : PSORand K P D) :
    numOpened (psoRunS opts cfg b f stop rnd).1 = 0 ∧ numDumped (psoRunS opts cfg b f stop rnd).1 = 0 := by
  rcases psoRunS_cases (b := b) (f := f) (stop := stop) opts cfg rnd with ⟨h, hne⟩ | ⟨q, rfl, rnd', f', obj, g, rfl, rfl, h, h0, hv, hg⟩
  · rw [h]; exact ⟨rfl, rfl⟩
  · simp only at h
    rw [psoRunS_events opts cfg rnd h h0 hv hg]
    exact fileAfter_nosave hsave b cfg.numGen stop _ _ g 0 _

/-- With `print_info` a run that returns has printed the best value and point at the beginning of each iteration: rows 0, 1, … of the returned histories, one line per iteration (so the final best is never printed). -/
theorem C140_pso_print {opts : StepOpts} (hpr : opts.print = true) (hsave : opts.save = true) (cfg : PSOCfg K) (rnd : PSORand K P D) {R : PSOResult K P D} (hR : (psoRunS opts cfg b f stop rnd).2 = .ok R) :
    printedLines (psoRunS opts cfg b f stop rnd).1 = (List.range (numIterated (psoRunS opts cfg b f stop rnd).1)).map fun i => (i, R.bestYHist i, R.bestXHist i) := by
  rcases psoRunS_cases (b := b) (f := f) (stop := stop) opts cfg rnd with ⟨h, hne⟩ | ⟨q, rfl, rnd', f', obj, g, rfl, rfl, h, h0, hv, hg⟩
  · exact absurd hR (hne R)
  · simp only at h
    rw [psoRunS_events opts cfg rnd h h0 hv hg]
    rw [C140_pso_result] at hR
    obtain ⟨s, it, hl, e1, e2, e3, e4, e5⟩ := psoRunM_inv cfg rnd h h0 hv hg hR
    have hl' := (loopS_result opts b cfg.numGen stop PSOState.view (psoStepM cfg b f rnd) g 0 (psoInit cfg b (fun _ => obj) rnd)).trans hl
    obtain ⟨_, a2, a3⟩ := loopS_all hsave b cfg.numGen stop PSOState.view (psoStepM cfg b f rnd) g 0 (psoInit cfg b (fun _ => obj) rnd)
    have c1 := (a3 s it hl').1
    rw [loopS_printed hpr b cfg.numGen (pso_rowStep cfg b f rnd) g hl', a2, show it + 1 - 0 = numDumped (loopS opts b cfg.numGen stop PSOState.view (psoStepM cfg b f rnd) g 0 (psoInit cfg b (fun _ => obj) rnd)).1 by omega,
      List.range_eq_range', e1, e2]
    rfl

/-! ## DE -/

theorem deRunS_cases (opts : StepOpts) (cfg : DECfg K) (rnd : DERand K P D) :
    (deRunS opts cfg b f stop rnd).1 = [] ∧ (∀ R, (deRunS opts cfg b f stop rnd).2 ≠ .ok R) ∨
      ∃ (p : ℕ) (hp : P = p + 1), ∃ (rnd' : DERand K (p + 1) D) (f' : Pop K (p + 1) D → Py (Fin (p + 1) → K)) (obj : Fin (p + 1) → K) (g : ℕ),
        hp ▸ rnd = rnd' ∧ hp ▸ f = f' ∧ f' (locInit b rnd'.pos) = .ok obj ∧ D ≠ 0 ∧ cfg.numGen = g + 1 := by
  cases P with
  | zero =>
    left
    simp only [deRunS]
    rcases f (locInit b rnd.pos) with e | o <;> exact ⟨by trivial, fun R h => by cases h⟩
  | succ p =>
    rcases h : f (locInit b rnd.pos) with e | o
    · left; simp only [deRunS, h]; exact ⟨by trivial, fun R h => by cases h⟩
    · by_cases h0 : D = 0
      · left; simp only [deRunS, h, h0, if_true]; exact ⟨by trivial, fun R h => by cases h⟩
      · rcases hg : cfg.numGen with _ | g
        · left
          have : deRunS opts cfg b f stop rnd = ([], .error .unboundLocal) := by
            simp only [deRunS, h, if_neg h0]
            rw [hg]
          rw [this]; exact ⟨by trivial, fun R h => by cases h⟩
        · right; exact ⟨p, rfl, rnd, f, o, g, rfl, rfl, h, h0, rfl⟩

theorem deRunS_events {p : ℕ} (opts : StepOpts) (cfg : DECfg K) {f : Pop K (p + 1) D → Py (Fin (p + 1) → K)} (rnd : DERand K (p + 1) D) {obj : Fin (p + 1) → K}
    (h : f (locInit b rnd.pos) = .ok obj) (h0 : D ≠ 0) {g : ℕ} (hg : cfg.numGen = g + 1) :
    (deRunS opts cfg b f stop rnd).1 = (loopS opts b cfg.numGen stop DEState.view (deStepM cfg b f rnd) g 0 (deInit b (fun _ => obj) rnd)).1 := by
  simp only [deRunS, h, if_neg h0]
  rw [hg]
  simp only
  rcases (loopS opts b (g + 1) stop DEState.view (deStepM cfg b f rnd) g 0 (deInit b (fun _ => obj) rnd)).2 with e | ⟨s, it⟩ <;> rfl

theorem deRunM_of {p : ℕ} (cfg : DECfg K) {f : Pop K (p + 1) D → Py (Fin (p + 1) → K)} (rnd : DERand K (p + 1) D) {obj : Fin (p + 1) → K}
    (h : f (locInit b rnd.pos) = .ok obj) (h0 : D ≠ 0) {k : ℕ} (hk : cfg.numGen = k + 1) {s : DEState K (p + 1) D} {it : ℕ}
    (hl : genLoop stop DEState.view (deStepM cfg b f rnd) k 0 (deInit b (fun _ => obj) rnd) = .ok (s, it)) :
    ∃ R, deRunM cfg b f stop rnd = .ok R ∧ R.bestYHist = s.genBest ∧ R.bestXHist = s.genBestXs ∧ R.allSamples = s.samples ∧ R.allResponses = s.responses := by
  simp only [deRunM, h]
  show ∃ R, (if D = 0 then _ else _) = _ ∧ _
  rw [if_neg h0, hk]
  simp only
  rw [deLoopM_eq, hl]
  exact ⟨_, rfl, rfl, rfl, rfl, rfl⟩

theorem deRunM_inv {p : ℕ} (cfg : DECfg K) {f : Pop K (p + 1) D → Py (Fin (p + 1) → K)} (rnd : DERand K (p + 1) D) {obj : Fin (p + 1) → K}
    (h : f (locInit b rnd.pos) = .ok obj) (h0 : D ≠ 0) {k : ℕ} (hk : cfg.numGen = k + 1) {R : Result K (p + 1) D} (hR : deRunM cfg b f stop rnd = .ok R) :
    ∃ s it, genLoop stop DEState.view (deStepM cfg b f rnd) k 0 (deInit b (fun _ => obj) rnd) = .ok (s, it) ∧ R.bestYHist = s.genBest ∧ R.bestXHist = s.genBestXs ∧ R.allSamples = s.samples ∧
      R.allResponses = s.responses ∧ R.retY = s.genBest (it + 1) := by
  simp only [deRunM, h] at hR
  replace hR : (if D = 0 then _ else _) = _ := hR
  rw [if_neg h0, hk] at hR
  simp only at hR
  rw [deLoopM_eq] at hR
  obtain ⟨⟨s, it⟩, h1, h2⟩ := Py.bind_ok.mp hR
  cases h2
  exact ⟨s, it, h1, rfl, rfl, rfl, rfl, rfl⟩

/-- **DE, killed at any moment**: as `C140_pso_partial`. -/
theorem C140_de_partial {opts : StepOpts} (hsave : opts.save = true) (cfg : DECfg K) (rnd : DERand K P D) {p : List (StepEvent K P D)} (hp : p <+: (deRunS opts cfg b f stop rnd).1) :
    numDumped p ≤ numOpened p ∧ numOpened p ≤ numIterated p ∧ numIterated p ≤ numDumped p + 1 ∧
      (numOpened p = 0 → fileAfter p = .asBefore) ∧ (numOpened p = numDumped p + 1 → fileAfter p = .unreadable) ∧
      (1 ≤ numDumped p → numOpened p = numDumped p → ∃ r R, fileAfter p = .holds r ∧ deRunM { cfg with numGen := numDumped p } b f stop rnd = .ok R ∧ Records r R (numDumped p) ∧
        r.designSpace = b ∧ r.pop = P ∧ r.gen = cfg.numGen) := by
  rcases deRunS_cases (b := b) (f := f) (stop := stop) opts cfg rnd with ⟨h, _⟩ | ⟨q, rfl, rnd', f', obj, g, rfl, rfl, h, h0, hg⟩
  · rw [h, List.prefix_nil] at hp
    subst hp
    simp [numDumped, numOpened, numIterated, fileAfter]
  · simp only at h
    rw [deRunS_events opts cfg rnd h h0 hg] at hp
    have I := loopS_prefix hsave b cfg.numGen stop DEState.view (deStepM cfg b f rnd) g 0 (deInit b (fun _ => obj) rnd) .asBefore p hp
    refine ⟨I.le1, I.le2, I.le3, I.before, I.torn, fun h1 h2 => ?_⟩
    obtain ⟨s, hs, hfile⟩ := I.full h1 h2
    unfold Traj at hs
    have hb := genLoop_blank (de_rowStep cfg b f rnd) _ (deInit_blank b _ rnd) hs
    obtain ⟨R, hR, e1, e2, e3, e4⟩ := deRunM_of { cfg with numGen := numDumped p } rnd h h0 (k := numDumped p - 1) (by simp only; omega) hs
    refine ⟨_, R, hfile, hR, ?_, rfl, rfl, rfl⟩
    rw [show 0 + (numDumped p - 1) + 1 = numDumped p by omega] at hb
    exact records_of_blank hb b cfg.numGen e1 e2 e3 e4

/-- **DE, at the end of the run**: as `C140_pso_end`. -/
theorem C140_de_end {opts : StepOpts} (hsave : opts.save = true) (cfg : DECfg K) (rnd : DERand K P D) :
    let es := (deRunS opts cfg b f stop rnd).1
    numOpened es = numDumped es ∧ numIterated es = numDumped es ∧
      ∀ R, (deRunS opts cfg b f stop rnd).2 = .ok R → 1 ≤ numDumped es ∧ R.retY = R.bestYHist (numDumped es) ∧
        ∃ r, fileAfter es = .holds r ∧ Records r R (numDumped es) ∧ r.bestYHist = R.bestYHist ∧ r.bestXHist = R.bestXHist ∧ r.allSamples = R.allSamples ∧ r.allResponses = R.allResponses := by
  intro es
  rcases deRunS_cases (b := b) (f := f) (stop := stop) opts cfg rnd with ⟨h, hne⟩ | ⟨q, rfl, rnd', f', obj, g, rfl, rfl, h, h0, hg⟩
  · simp only [es, h]
    refine ⟨rfl, rfl, fun R hR => absurd hR (hne R)⟩
  · simp only at h
    have he : es = _ := deRunS_events opts cfg rnd h h0 hg
    obtain ⟨a1, a2, a3⟩ := loopS_all hsave b cfg.numGen stop DEState.view (deStepM cfg b f rnd) g 0 (deInit b (fun _ => obj) rnd)
    rw [he]
    refine ⟨a1, a2, fun R hR => ?_⟩
    rw [C140_de_result] at hR
    obtain ⟨s, it, hl, e1, e2, e3, e4, e5⟩ := deRunM_inv cfg rnd h h0 hg hR
    obtain ⟨c1, c2⟩ := a3 s it ((loopS_result _ _ _ _ _ _ _ _ _).trans hl)
    have hb := genLoop_blank (de_rowStep cfg b f rnd) _ (deInit_blank b _ rnd) hl
    refine ⟨by omega, ?_, _, c2 _, ?_, e1.symm, e2.symm, e3.symm, e4.symm⟩
    · rw [e5, e1]; congr 1; omega
    · rw [show it + 1 = numDumped (loopS opts b cfg.numGen stop DEState.view (deStepM cfg b f rnd) g 0 (deInit b (fun _ => obj) rnd)).1 by omega] at hb
      exact records_of_blank hb b cfg.numGen e1 e2 e3 e4

/-- Without `save_step_results` the file is never touched. -/
theorem C140_de_nosave {opts : StepOpts} (hsave : opts.save = false) (cfg : DECfg K) (rnd : DERand K P D) :
    numOpened (deRunS opts cfg b f stop rnd).1 = 0 ∧ numDumped (deRunS opts cfg b f stop rnd).1 = 0 := by
  rcases deRunS_cases (b := b) (f := f) (stop := stop) opts cfg rnd with ⟨h, hne⟩ | ⟨q, rfl, rnd', f', obj, g, rfl, rfl, h, h0, hg⟩
  · rw [h]; exact ⟨rfl, rfl⟩
  · simp only at h
    rw [deRunS_events opts cfg rnd h h0 hg]
    exact fileAfter_nosave hsave b cfg.numGen stop _ _ g 0 _

/-- DE prints the same way. -/
theorem C140_de_print {opts : StepOpts} (hpr : opts.print = true) (hsave : opts.save = true) (cfg : DECfg K) (rnd : DERand K P D) {R : Result K P D} (hR : (deRunS opts cfg b f stop rnd).2 = .ok R) :
    printedLines (deRunS opts cfg b f stop rnd).1 = (List.range (numIterated (deRunS opts cfg b f stop rnd).1)).map fun i => (i, R.bestYHist i, R.bestXHist i) := by
  rcases deRunS_cases (b := b) (f := f) (stop := stop) opts cfg rnd with ⟨h, hne⟩ | ⟨q, rfl, rnd', f', obj, g, rfl, rfl, h, h0, hg⟩
  · exact absurd hR (hne R)
  · simp only at h
    rw [deRunS_events opts cfg rnd h h0 hg]
    rw [C140_de_result] at hR
    obtain ⟨s, it, hl, e1, e2, e3, e4, e5⟩ := deRunM_inv cfg rnd h h0 hg hR
    have hl' := (loopS_result opts b cfg.numGen stop DEState.view (deStepM cfg b f rnd) g 0 (deInit b (fun _ => obj) rnd)).trans hl
    obtain ⟨_, a2, a3⟩ := loopS_all hsave b cfg.numGen stop DEState.view (deStepM cfg b f rnd) g 0 (deInit b (fun _ => obj) rnd)
    have c1 := (a3 s it hl').1
    rw [loopS_printed hpr b cfg.numGen (de_rowStep cfg b f rnd) g hl', a2, show it + 1 - 0 = numDumped (loopS opts b cfg.numGen stop DEState.view (deStepM cfg b f rnd) g 0 (deInit b (fun _ => obj) rnd)).1 by omega,
      List.range_eq_range', e1, e2]
    rfl

/-! ## Counterexample and example -/

/-- One particle, one dimension, two generations, objective constantly 1, for the examples. -/
def stepCfg : PSOCfg ℚ := { numGen := 2, cognition := 1, social := 1, weight := 1, maxVRate := 1 }

/-- The unit interval. -/
def stepBox : Box ℚ 1 := ⟨fun _ => 0, fun _ => 1⟩

/-- All draws zero. -/
def stepRnd : PSORand ℚ 1 1 := { pos := fun _ _ => 0, vel := fun _ _ => 0, repl := fun _ _ _ _ => 0 }

/-- The constant objective. -/
def stepFunc : Pop ℚ 1 1 → Py (Fin 1 → ℚ) := fun _ => .ok fun _ => 1

theorem stepRun_events : ∃ r₁ r₂, (psoRunS ⟨false, true⟩ stepCfg stepBox stepFunc none stepRnd).1 = [.iterated, .opened, .dumped r₁, .iterated, .opened, .dumped r₂] ∧
    ∃ R, (psoRunS ⟨false, true⟩ stepCfg stepBox stepFunc none stepRnd).2 = .ok R := by
  have hv : ∀ j, 0 ≤ vMax stepCfg stepBox j := by intro j; norm_num [vMax, stepCfg, stepBox]
  have h : stepFunc (locInit stepBox stepRnd.pos) = .ok fun _ => 1 := rfl
  rw [psoRunS_events ⟨false, true⟩ stepCfg stepRnd h (by norm_num) hv (g := 1) rfl, C140_pso_result]
  refine ⟨_, _, rfl, ?_⟩
  obtain ⟨R, hR, _⟩ := psoRunM_of (stop := none) stepCfg stepRnd h (by norm_num) hv (k := 1) rfl rfl
  exact ⟨R, hR⟩

/-- The saved results do not survive a crash at every moment: there is a run that saves the first iteration and, when killed while it saves the second, leaves a file that cannot be read. -/
theorem C140_counterexample : ∃ p₁ p₂ : List (StepEvent ℚ 1 1), p₁ <+: p₂ ∧ p₂ <+: (psoRunS ⟨false, true⟩ stepCfg stepBox stepFunc none stepRnd).1 ∧
    (∃ r, fileAfter p₁ = .holds r) ∧ fileAfter p₂ = .unreadable := by
  obtain ⟨r₁, r₂, h, _⟩ := stepRun_events
  rw [h]
  exact ⟨[.iterated, .opened, .dumped r₁], [.iterated, .opened, .dumped r₁, .iterated, .opened], by simp, by simp, ⟨r₁, rfl⟩, rfl⟩

/-- And the saved entry `best_y` is not the best value found, nor is its last row: killed after the first of two iterations with an objective that is 1 everywhere, the file holds a record with last row 0. -/
theorem C140_best_counterexample : ∃ (p : List (StepEvent ℚ 1 1)) (r : StepRecord ℚ 1 1), p <+: (psoRunS ⟨false, true⟩ stepCfg stepBox stepFunc none stepRnd).1 ∧ fileAfter p = .holds r ∧
    r.bestY r.gen = 0 ∧ ∀ X y, stepFunc X = .ok y → ∀ i, y i = 1 := by
  obtain ⟨r₁, r₂, h, _⟩ := stepRun_events
  have hp : [.iterated, .opened, .dumped r₁] <+: (psoRunS ⟨false, true⟩ stepCfg stepBox stepFunc none stepRnd).1 := by rw [h]; simp
  obtain ⟨_, _, _, _, _, h6⟩ := C140_pso_partial (f := stepFunc) rfl stepCfg stepRnd hp
  obtain ⟨r, R, hr, _, hrec, _, _, hgen⟩ := h6 le_rfl rfl
  refine ⟨_, r, hp, hr, ?_, ?_⟩
  · have : numDumped ([.iterated, .opened, .dumped r₁] : List (StepEvent ℚ 1 1)) = 1 := rfl
    rw [this] at hrec
    rw [hrec.bestY', hrec.bestY, hgen]
    rfl
  · intro X y hy i
    cases hy
    rfl

/-- The same for DE: two individuals, one generation; the run saves its iteration. -/
example : ∃ r, (deRunS ⟨false, true⟩ ({ numGen := 1, stepSize := 1, crossoverRate := 1, strategy := "DE/best/1/bin" } : DECfg ℚ) stepBox (fun (_ : Pop ℚ 2 1) => .ok fun _ => 1) none
    { pos := fun _ _ => 0, choice3 := fun _ _ _ => 0, choice2 := fun _ _ _ => 0, c := fun _ _ => 0, cr := fun _ _ _ => 0, repl := fun _ _ _ _ => 0 }).1 = [.iterated, .opened, .dumped r] := by
  rw [deRunS_events _ _ _ rfl (by norm_num) (g := 0) rfl]
  exact ⟨_, rfl⟩

end Mfpml.Props
