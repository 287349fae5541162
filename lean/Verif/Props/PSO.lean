import Verif.Lemmas.Evolutionary
import Mathlib.Tactic.NormNum

/-!
# Properties of `PSO.run_optimizer` (C01–C07, C14)

`psoRun cfg b func stop rnd = .ok r` says that the call returned; `r` holds everything it returned.  All theorems quantify over
the objective `func`, the design space `b`, the settings `cfg`, `stop` (= `stopping_error`) and all random draws `rnd`.
`Spec.LastGen cfg.numGen stop r.bestYHist last` says that `last` is the last generation that ran; `C05_pso_stopping_rule` shows it exists
(and `Spec.LastGen.unique` that it is unique).
-/

set_option linter.unusedSectionVars false

namespace Mfpml.Props

open Mfpml.EA Mfpml.Spec

section AnyArithmetic
variable {K : Type} [Add K] [Sub K] [Mul K] [Div K] [Neg K] [Zero K] [LinearOrder K]

variable {P D : ℕ} {cfg : PSOCfg K} {b : Box K D} {func : Pop K P D → Fin P → K} {stop : Option K}
  {rnd : PSORand K P D} {r : PSOResult K P D}

/-- C01, in every arithmetic. Whatever the operations `+ - * /` do (they may round), if the drawn numbers scale into the design space then every array the objective is called with, every recorded sample of the generations that ran, and the returned best point lie
in the design space. -/
theorem C01_pso_in_design_space_any_arithmetic (hpos : ∀ i, ScalesIntoBox b.low b.high (rnd.pos i))
    (hrepl : ∀ t k i, ScalesIntoBox b.low b.high (rnd.repl t k i))
    (h : psoRun cfg b func stop rnd = .ok r) :
    (∀ q ∈ r.calls, ∀ i, InBox b.low b.high (q i)) ∧ InBox b.low b.high r.retX ∧
    ∀ last, LastGen cfg.numGen stop r.bestYHist last →
      ∀ g ≤ last, (∀ i, InBox b.low b.high (r.allSamples g i)) ∧ InBox b.low b.high (r.bestXHist g) := by
  cases P with
  | zero => simp [psoRun] at h
  | succ p =>
    obtain ⟨last, hl, _, _, _, h3, h4, h5, h6, h7, h8, h9, _, _⟩ := psoRun_ok cfg b func rnd h
    have hx := psoSeq_inBox cfg b func rnd hpos hrepl
    have hbest : ∀ g ≤ last, InBox b.low b.high ((psoSeq cfg b func rnd last).genBestXs g) := by
      intro g hg
      obtain ⟨k, _, i, hk, _⟩ := (psoSeq_best cfg b func rnd g).2
      rw [(psoSeq_rows_stable cfg b func rnd last g hg).2.2.2, ← hk]
      exact hx k i
    refine ⟨?_, ?_, ?_⟩
    · intro q hq i
      rw [h9, psoSeq_calls] at hq
      obtain ⟨k, hk, rfl⟩ := List.mem_map.mp hq
      have hk := List.mem_range.mp hk
      rw [(psoSeq_row cfg b func rnd last k (by omega)).1]
      exact hx k i
    · rw [h8]; exact hbest last (le_refl _)
    · intro last' hl' g hg
      obtain rfl := hl.unique hl'
      refine ⟨fun i => ?_, ?_⟩
      · rw [h5, (psoSeq_row cfg b func rnd last g hg).1]
        exact hx g i
      · rw [h3]; exact hbest g hg

/-- C02. `best_y_historical[g]` is the minimum of all responses of generations `0 … g`; it never increases; the returned value is the
minimum over the whole run. -/
theorem C02_pso_running_minimum (h : psoRun cfg b func stop rnd = .ok r) :
    ∀ last, LastGen cfg.numGen stop r.bestYHist last →
      (∀ g ≤ last, RunningMin r.allResponses g (r.bestYHist g)) ∧
      (∀ g < last, r.bestYHist (g + 1) ≤ r.bestYHist g) ∧
      RunningMin r.allResponses last r.retY := by
  cases P with
  | zero => simp [psoRun] at h
  | succ p =>
    obtain ⟨last, hl, _, _, _, h3, h4, h5, h6, h7, h8, h9, _, _⟩ := psoRun_ok cfg b func rnd h
    intro last' hl'
    obtain rfl := hl.unique hl'
    have key : ∀ g ≤ last, RunningMin r.allResponses g (r.bestYHist g) := by
      intro g hg
      obtain ⟨h1, k, hk, i, _, hy⟩ := psoSeq_best cfg b func rnd g
      rw [h4, h6, (psoSeq_rows_stable cfg b func rnd last g hg).2.2.1]
      refine ⟨?_, k, hk, i, ?_⟩
      · intro k hk i
        rw [(psoSeq_row cfg b func rnd last k (by omega)).2]
        exact h1 k hk i
      · rw [(psoSeq_row cfg b func rnd last k (by omega)).2]
        exact hy
    refine ⟨key, ?_, ?_⟩
    · intro g hg
      obtain ⟨k, hk, i, hi⟩ := (key g (by omega)).2
      rw [← hi]
      exact (key (g+1) hg).1 k (by omega) i
    · have := key last (le_refl _)
      rw [h4] at this
      rw [h7]; exact this

/-- C03. `best_x_historical[g]` is a recorded sample of generations `0 … g` whose recorded response is `best_y_historical[g]`; recorded
responses are the objective's values at the recorded samples; for a row-wise objective `f`, the returned pair satisfies
`f best_x = best_y`. -/
theorem C03_pso_best_attained (h : psoRun cfg b func stop rnd = .ok r) :
    (∀ last, LastGen cfg.numGen stop r.bestYHist last →
      (∀ g ≤ last, RecordedAt r.allSamples r.allResponses g (r.bestXHist g) (r.bestYHist g)) ∧
      (∀ g ≤ last, r.allResponses g = func (r.allSamples g)) ∧
      RecordedAt r.allSamples r.allResponses last r.retX r.retY) ∧
    ∀ f : (Fin D → K) → K, (∀ q i, func q i = f (q i)) → f r.retX = r.retY := by
  cases P with
  | zero => simp [psoRun] at h
  | succ p =>
    obtain ⟨last, hl, _, _, _, h3, h4, h5, h6, h7, h8, h9, _, _⟩ := psoRun_ok cfg b func rnd h
    have key : ∀ g ≤ last, RecordedAt r.allSamples r.allResponses g (r.bestXHist g) (r.bestYHist g) := by
      intro g hg
      obtain ⟨_, k, hk, i, hx, hy⟩ := psoSeq_best cfg b func rnd g
      obtain ⟨e1, e2⟩ := psoSeq_row cfg b func rnd last k (by omega)
      obtain ⟨_, _, e3, e4⟩ := psoSeq_rows_stable cfg b func rnd last g hg
      exact ⟨k, hk, i, by rw [h5, h3, e1, e4, hx], by rw [h6, h4, e2, e3, hy]⟩
    have resp : ∀ g ≤ last, r.allResponses g = func (r.allSamples g) := by
      intro g hg
      obtain ⟨e1, e2⟩ := psoSeq_row cfg b func rnd last g hg
      rw [h5, h6, e1, e2]
    have ret : RecordedAt r.allSamples r.allResponses last r.retX r.retY := by
      have := key last (le_refl _)
      rw [h3, h4] at this
      rw [h7, h8]; exact this
    refine ⟨?_, ?_⟩
    · intro last' hl'
      obtain rfl := hl.unique hl'
      exact ⟨key, resp, ret⟩
    · intro f hf
      obtain ⟨k, hk, i, hx, hy⟩ := ret
      rw [← hx, ← hy, resp k hk, hf]

/-- C04 (partial). If the run used all its generations — in particular whenever `stopping_error` is `None` — the dictionary entries
`best_x`, `best_y` are the returned optimum.  Missing: runs ended early by `stopping_error`, see `C04_pso_dictionary_counterexample`. -/
theorem C04_pso_dictionary_partial (h : psoRun cfg b func stop rnd = .ok r) :
    (stop = none → r.bestX = r.retX ∧ r.bestY = r.retY) ∧
    (LastGen cfg.numGen stop r.bestYHist cfg.numGen → r.bestX = r.retX ∧ r.bestY = r.retY) := by
  cases P with
  | zero => simp [psoRun] at h
  | succ p =>
    obtain ⟨last, hl, _, h1, h2, h3, h4, h5, h6, h7, h8, h9, _, _⟩ := psoRun_ok cfg b func rnd h
    have key : last = cfg.numGen → r.bestX = r.retX ∧ r.bestY = r.retY := by
      intro e
      rw [h1, h2, h7, h8, e]; exact ⟨rfl, rfl⟩
    refine ⟨?_, fun hl' => key (hl.unique hl')⟩
    intro hs
    rcases hl.why with e | e
    · exact key e
    · rw [hs] at e; exact absurd e id

/-- What the dictionary holds instead when the run ends early: zeros, whatever was evaluated. -/
theorem C04_pso_dictionary_early_stop_zero (h : psoRun cfg b func stop rnd = .ok r) (last : ℕ)
    (hl : LastGen cfg.numGen stop r.bestYHist last) (hlt : last < cfg.numGen) :
    r.bestX = (fun _ => 0) ∧ r.bestY = 0 := by
  cases P with
  | zero => simp [psoRun] at h
  | succ p =>
    obtain ⟨last', hl', _, h1, h2, _⟩ := psoRun_ok cfg b func rnd h
    obtain rfl := hl.unique hl'
    obtain ⟨_, _, e3, e4⟩ := psoSeq_rows_zero cfg b func rnd last _ hlt
    exact ⟨by rw [h1, e4], by rw [h2, e3]⟩

/-- C05. The run stops right after the first generation whose best value is below `stopping_error` and after `num_gen` generations at
the latest; the objective is called once initially and once per generation, with the recorded samples; the returned pair is the one of the
last generation; rows of generations that did not run are zero. -/
theorem C05_pso_stopping_rule (h : psoRun cfg b func stop rnd = .ok r) :
    ∃ last, LastGen cfg.numGen stop r.bestYHist last ∧
      r.calls = (List.range (last + 1)).map r.allSamples ∧
      r.retY = r.bestYHist last ∧ r.retX = r.bestXHist last ∧
      ∀ g > last, r.allSamples g = (fun _ _ => 0) ∧ r.allResponses g = (fun _ => 0) ∧
        r.bestYHist g = 0 ∧ r.bestXHist g = (fun _ => 0) := by
  cases P with
  | zero => simp [psoRun] at h
  | succ p =>
    obtain ⟨last, hl, _, h1, h2, h3, h4, h5, h6, h7, h8, h9, _, _⟩ := psoRun_ok cfg b func rnd h
    refine ⟨last, hl, ?_, by rw [h7, h4], by rw [h8, h3], ?_⟩
    · rw [h9, h5]; exact psoSeq_calls cfg b func rnd last
    · intro g hg
      obtain ⟨e1, e2, e3, e4⟩ := psoSeq_rows_zero cfg b func rnd last g hg
      rw [h3, h4, h5, h6]
      exact ⟨e1, e2, e3, e4⟩

/-- C07. After a run (of any number of generations) `pop_best[i]` is the smallest of particle `i`'s own responses, and `pop_best_x[i]` is one of
its own positions with that response. -/
theorem C07_pso_personal_best (h : psoRun cfg b func stop rnd = .ok r) (last : ℕ)
    (hl : LastGen cfg.numGen stop r.bestYHist last) (i : Fin P) :
    (∀ g ≤ last, r.popBest i ≤ r.allResponses g i) ∧
    ∃ g ≤ last, r.allSamples g i = r.popBestX i ∧ r.allResponses g i = r.popBest i := by
  cases P with
  | zero => simp [psoRun] at h
  | succ p =>
    obtain ⟨last', hl', _, h1, h2, h3, h4, h5, h6, h7, h8, h9, h10, h11⟩ := psoRun_ok cfg b func rnd h
    obtain rfl := hl.unique hl'
    obtain ⟨hmin, k, hk, hx, hy⟩ := psoSeq_own cfg b func rnd last i
    rw [h5, h6, h10, h11]
    refine ⟨?_, k, hk, ?_, ?_⟩
    · intro g hg
      rw [(psoSeq_row cfg b func rnd last g hg).2]
      exact hmin g hg
    · rw [(psoSeq_row cfg b func rnd last k hk).1, hx]
    · rw [(psoSeq_row cfg b func rnd last k hk).2, hy]

/-- C14 (PSO). The call returns exactly when population, dimension and generation count are positive (for a non-negative velocity bound);
otherwise it raises `ValueError` (no population or no dimension) or `UnboundLocalError` (no generation). -/
theorem C14_pso_returns_iff (cfg : PSOCfg K) (b : Box K D) (func : Pop K P D → Fin P → K) (stop : Option K)
    (rnd : PSORand K P D) (hv : ∀ j, 0 ≤ (b.high j - b.low j) * cfg.maxVRate) :
    ((∃ r, psoRun cfg b func stop rnd = .ok r) ↔ 0 < P ∧ 0 < D ∧ 0 < cfg.numGen) ∧
    (P = 0 ∨ D = 0 → psoRun cfg b func stop rnd = .error .valueError) ∧
    (0 < P → 0 < D → cfg.numGen = 0 → psoRun cfg b func stop rnd = .error .unboundLocal) := by
  cases P with
  | zero => simp [psoRun]
  | succ p =>
    simp only [psoRun]
    by_cases hD : D = 0
    · simp [hD]
    · have hv' : ∀ j, 0 ≤ vMax cfg b j := hv
      rw [if_neg hD, if_pos hv']
      cases hg : cfg.numGen with
      | zero => simp [hD]
      | succ g => simp [hD]; omega

end AnyArithmetic

section Exact
variable {K : Type} [Field K] [LinearOrder K] [IsStrictOrderedRing K]

/-- Draws of `np.random.random` lie in the unit interval. -/
def PSOUnitDraws {P D : ℕ} (rnd : PSORand K P D) : Prop :=
  (∀ i j, 0 ≤ rnd.pos i j ∧ rnd.pos i j ≤ 1) ∧ (∀ i j, 0 ≤ rnd.vel i j ∧ rnd.vel i j ≤ 1) ∧
  (∀ t k i j, 0 ≤ rnd.repl t k i j ∧ rnd.repl t k i j ≤ 1)

variable {P D : ℕ} {cfg : PSOCfg K} {b : Box K D} {func : Pop K P D → Fin P → K} {stop : Option K}
  {rnd : PSORand K P D} {r : PSOResult K P D}

/-- C01. Every array the objective is called with, every recorded sample of the generations that ran, and the returned best point lie
in the design space. -/
theorem C01_pso_in_design_space (hb : ∀ j, b.low j ≤ b.high j) (hu : PSOUnitDraws rnd)
    (h : psoRun cfg b func stop rnd = .ok r) :
    (∀ q ∈ r.calls, ∀ i, InBox b.low b.high (q i)) ∧ InBox b.low b.high r.retX ∧
    ∀ last, LastGen cfg.numGen stop r.bestYHist last →
      ∀ g ≤ last, (∀ i, InBox b.low b.high (r.allSamples g i)) ∧ InBox b.low b.high (r.bestXHist g) := by
  exact C01_pso_in_design_space_any_arithmetic (fun i => scalesIntoBox_exact hb (hu.1 i))
    (fun t k i => scalesIntoBox_exact hb (hu.2.2 t k i)) h

/-- C06. There are velocities `vel g` and personal best positions `own g` (positions of minimal response among the particle's own past)
such that `vel 0` lies in `[0, v_max]`, every later velocity is the clipped PSO update, and each coordinate of the next generation is the old
one plus the velocity, unless that leaves the design space, in which case it is `low + u·(high − low)` for one of the drawn `u`.
Hence a coordinate moves by at most `max_velocity_rate·(high − low)` or is redrawn. -/
theorem C06_pso_step (hu : PSOUnitDraws rnd) (h : psoRun cfg b func stop rnd = .ok r) :
    ∃ last, LastGen cfg.numGen stop r.bestYHist last ∧
    ∃ (vel : ℕ → Fin P → Fin D → K) (own : ℕ → Fin P → Fin D → K),
      (∀ g ≤ last, ∀ i, OwnBest r.allSamples r.allResponses g i (own g i)) ∧
      (∀ i j, 0 ≤ vel 0 i j ∧ vel 0 i j ≤ (b.high j - b.low j) * cfg.maxVRate) ∧
      ∀ g < last, ∀ i j,
        vel (g + 1) i j = clip ((b.high j - b.low j) * cfg.maxVRate)
          (cfg.weight * vel g i j + cfg.cognition * (own g i j - r.allSamples g i j)
            + cfg.social * (r.bestXHist g j - r.allSamples g i j)) ∧
        (if b.low j ≤ r.allSamples g i j + vel (g + 1) i j ∧ r.allSamples g i j + vel (g + 1) i j ≤ b.high j
          then r.allSamples (g + 1) i j = r.allSamples g i j + vel (g + 1) i j
          else r.allSamples (g + 1) i j = b.low j + rnd.repl g j i j * (b.high j - b.low j)) ∧
        (|r.allSamples (g + 1) i j - r.allSamples g i j| ≤ (b.high j - b.low j) * cfg.maxVRate ∨
          r.allSamples (g + 1) i j = b.low j + rnd.repl g j i j * (b.high j - b.low j)) := by
  cases P with
  | zero => simp [psoRun] at h
  | succ p =>
    obtain ⟨last, hl, hv, h1, h2, h3, h4, h5, h6, h7, h8, h9, _, _⟩ := psoRun_ok cfg b func rnd h
    refine ⟨last, hl, fun g => (psoSeq cfg b func rnd g).v, fun g => (psoSeq cfg b func rnd g).popBestX, ?_, ?_, ?_⟩
    · intro g hg i
      obtain ⟨hmin, k, hk, hx, hy⟩ := psoSeq_own cfg b func rnd g i
      refine ⟨k, hk, ?_, ?_⟩
      · rw [h5, (psoSeq_row cfg b func rnd last k (by omega)).1, hx]
      · intro k' hk'
        rw [h6, (psoSeq_row cfg b func rnd last k (by omega)).2,
          (psoSeq_row cfg b func rnd last k' (by omega)).2, hy]
        exact hmin k' hk'
    · intro i j
      have hd := hu.2.1 i j
      have hvj := hv j
      change 0 ≤ rnd.vel i j * vMax cfg b j ∧ rnd.vel i j * vMax cfg b j ≤ vMax cfg b j
      exact ⟨mul_nonneg hd.1 hvj, by have := mul_le_mul_of_nonneg_right hd.2 hvj; linarith⟩
    · intro g hg i j
      rw [h3, h5, (psoSeq_row cfg b func rnd last g (by omega)).1,
        (psoSeq_row cfg b func rnd last (g+1) (by omega)).1,
        (psoSeq_rows_stable cfg b func rnd last g (by omega)).2.2.2]
      have ev : (psoSeq cfg b func rnd (g+1)).v i j = clip (vMax cfg b j)
          (cfg.weight * (psoSeq cfg b func rnd g).v i j +
            cfg.cognition * ((psoSeq cfg b func rnd g).popBestX i j - (psoSeq cfg b func rnd g).x i j)
            + cfg.social * ((psoSeq cfg b func rnd g).genBestXs g j - (psoSeq cfg b func rnd g).x i j)) := by
        simp only [psoSeq, psoStep, psoUpdateGenOptimum, psoUpdatePopOptimum, psoUpdateObj, psoUpdatePop]
        rw [velocityCons_clip _ _ hv]
      have ex : (psoSeq cfg b func rnd (g+1)).x i j =
          if b.low j ≤ (psoSeq cfg b func rnd g).x i j + (psoSeq cfg b func rnd (g+1)).v i j ∧
            (psoSeq cfg b func rnd g).x i j + (psoSeq cfg b func rnd (g+1)).v i j ≤ b.high j
          then (psoSeq cfg b func rnd g).x i j + (psoSeq cfg b func rnd (g+1)).v i j
          else b.low j + rnd.repl g j i j * (b.high j - b.low j) := by
        have : (psoSeq cfg b func rnd (g+1)).x i j = locCons b (rnd.repl g)
          (fun i j => (psoSeq cfg b func rnd g).x i j + (psoSeq cfg b func rnd (g+1)).v i j) i j := rfl
        rw [this]
        unfold locCons locInit
        by_cases hc : b.low j ≤ (psoSeq cfg b func rnd g).x i j + (psoSeq cfg b func rnd (g+1)).v i j ∧
            (psoSeq cfg b func rnd g).x i j + (psoSeq cfg b func rnd (g+1)).v i j ≤ b.high j
        · rw [if_pos hc, if_neg]
          push Not
          exact hc
        · rw [if_neg hc, if_pos, add_comm]
          by_contra hn
          push Not at hn
          exact hc hn
      have hclip : |(psoSeq cfg b func rnd (g+1)).v i j| ≤ vMax cfg b j := by
        rw [ev]
        have := hv j
        unfold clip
        rw [abs_le]
        exact ⟨le_max_left _ _, max_le (by linarith) (min_le_left _ _)⟩
      refine ⟨ev, ?_, ?_⟩
      · by_cases hc : b.low j ≤ (psoSeq cfg b func rnd g).x i j + (psoSeq cfg b func rnd (g+1)).v i j ∧
            (psoSeq cfg b func rnd g).x i j + (psoSeq cfg b func rnd (g+1)).v i j ≤ b.high j
        · rw [if_pos hc]; rw [if_pos hc] at ex; exact ex
        · rw [if_neg hc]; rw [if_neg hc] at ex; exact ex
      · rw [ex]
        split
        · left
          have : (psoSeq cfg b func rnd g).x i j + (psoSeq cfg b func rnd (g+1)).v i j -
            (psoSeq cfg b func rnd g).x i j = (psoSeq cfg b func rnd (g+1)).v i j := by ring
          rw [this]; exact hclip
        · right; rfl

end Exact

/-! ### A concrete run meeting the hypotheses, and the counterexample to C04 -/

section Concrete

/-- One particle in one dimension on `[0, 1]`, objective `x - 5`, two generations. -/
def exCfg : PSOCfg ℚ := { numGen := 2, cognition := 3/2, social := 3/2, weight := 4/5, maxVRate := 1/5 }
/-- The unit interval. -/
def exBox : Box ℚ 1 := { low := fun _ => 0, high := fun _ => 1 }
/-- Objective `x₀ - 5`. -/
def exFunc : Pop ℚ 1 1 → Fin 1 → ℚ := fun q i => q i 0 - 5
/-- All draws `1/2`. -/
def exRnd : PSORand ℚ 1 1 := { pos := fun _ _ => 1/2, vel := fun _ _ => 1/2, repl := fun _ _ _ _ => 1/2 }

/-- The hypotheses of C01–C07 are met by a run (any stopping threshold). -/
example (stop : Option ℚ) : (∀ j, exBox.low j ≤ exBox.high j) ∧ PSOUnitDraws exRnd ∧
    ∃ r, psoRun exCfg exBox exFunc stop exRnd = .ok r := by
  refine ⟨fun j => by simp [exBox], ⟨?_, ?_, ?_⟩, ?_⟩
  · intro i j; norm_num [exRnd]
  · intro i j; norm_num [exRnd]
  · intro t k i j; norm_num [exRnd]
  · refine ((C14_pso_returns_iff exCfg exBox exFunc stop exRnd ?_).1).mpr ?_
    · intro j; norm_num [exBox, exCfg]
    · norm_num [exCfg]

/-- C04 is false of the code: with `stopping_error = 0` the run ends after the first of its two generations; the returned optimum is
below `-4`, but the dictionary's `best_y` is `0`. -/
theorem C04_pso_dictionary_counterexample :
    ∃ r, psoRun exCfg exBox exFunc (some 0) exRnd = .ok r ∧ r.retY < -4 ∧ r.bestY = 0 := by
  obtain ⟨r, hr⟩ := ((C14_pso_returns_iff exCfg exBox exFunc (some 0) exRnd
    (by intro j; norm_num [exBox, exCfg])).1).mpr (by norm_num [exCfg])
  have hin := C01_pso_in_design_space (fun j => by simp [exBox])
    ⟨fun i j => by norm_num [exRnd], fun i j => by norm_num [exRnd], fun t k i j => by norm_num [exRnd]⟩ hr
  obtain ⟨last, hl, hcalls, hy, hx, _⟩ := C05_pso_stopping_rule hr
  have hrec := (C03_pso_best_attained hr).1 last hl
  have hval : ∀ g ≤ last, r.allResponses g 0 ≤ -4 := by
    intro g hg
    rw [hrec.2.1 g hg]
    have := ((hin.2.2 last hl g hg).1 0 0).2
    simp only [exFunc, exBox] at *
    linarith
  have hneg : ∀ g ≤ last, 1 ≤ g → r.bestYHist g ≤ -4 := by
    intro g hg _
    exact (((C02_pso_running_minimum hr last hl).1 g hg).1 g (le_refl _) 0).trans (hval g hg)
  have hlast : last = 1 := by
    have h1 := hl.pos
    by_contra hne
    exact hl.notBefore 1 (le_refl _) (by omega) (by
      have := hneg 1 (by omega) (le_refl _)
      change r.bestYHist 1 < 0
      linarith)
  refine ⟨r, hr, ?_, (C04_pso_dictionary_early_stop_zero hr last hl (by rw [hlast]; decide)).2⟩
  -- generation 0 already contains the response `1/2 - 5`
  have h0 := ((C02_pso_running_minimum hr last hl).2.2).1 0 (by omega) 0
  rw [hrec.2.1 0 (by omega)] at h0
  have hp : r.allSamples 0 0 0 = 1/2 := by
    obtain ⟨last', hl', _, _, _, _, _, h5, _⟩ := psoRun_ok exCfg exBox exFunc exRnd hr
    rw [h5, (psoSeq_row exCfg exBox exFunc exRnd last' 0 (by omega)).1]
    simp [psoSeq, psoInit, locInit, exRnd, exBox]
  simp only [exFunc, hp] at h0
  linarith

end Concrete

end Mfpml.Props
