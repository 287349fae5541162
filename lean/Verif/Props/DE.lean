import Verif.Lemmas.Evolutionary
import Mathlib.Tactic.NormNum
import Mathlib.Data.Fin.VecNotation
import Mathlib.Tactic.FinCases
import Mathlib.Data.Fintype.EquivFin

/-!
# Properties of `DE.run_optimizer` (C08–C14)

`deRun cfg b func stop rnd = .ok r` says that the call returned `r`; see `Props/PSO.lean` for the conventions.
-/

set_option linter.unusedSectionVars false

namespace Mfpml.Props

open Mfpml.EA Mfpml.Spec

section AnyArithmetic
variable {K : Type} [Add K] [Sub K] [Mul K] [Div K] [Neg K] [Zero K] [LinearOrder K]

variable {P D : ℕ} {cfg : DECfg K} {b : Box K D} {func : Pop K P D → Fin P → K} {stop : Option K}
  {rnd : DERand K P D} {r : Result K P D}

/-- C08, in every arithmetic. Whatever the operations `+ - * /` do (they may round), if the drawn numbers scale into the design space then every population the objective is evaluated on (initial and trial populations), every recorded sample, and the returned best point
lie in the design space. -/
theorem C08_de_in_design_space_any_arithmetic (hpos : ∀ i, ScalesIntoBox b.low b.high (rnd.pos i))
    (hrepl : ∀ t k i, ScalesIntoBox b.low b.high (rnd.repl t k i))
    (h : deRun cfg b func stop rnd = .ok r) :
    (∀ q ∈ r.calls, ∀ i, InBox b.low b.high (q i)) ∧ InBox b.low b.high r.retX ∧
    ∀ last, LastGen cfg.numGen stop r.bestYHist last →
      ∀ g ≤ last, (∀ i, InBox b.low b.high (r.allSamples g i)) ∧ InBox b.low b.high (r.bestXHist g) := by
  cases P with
  | zero => simp [deRun] at h
  | succ p =>
    obtain ⟨last, hl, _, _, _, _, h3, h4, h5, h6, h7, h8, h9⟩ := deRun_ok cfg b func rnd h
    have hx := deSeq_inBox cfg b func rnd hpos hrepl
    have hbest : ∀ g ≤ last, InBox b.low b.high ((deSeq cfg b func rnd last).genBestXs g) := by
      intro g hg
      obtain ⟨i, hk, _⟩ := (deSeq_best cfg b func rnd g).2
      rw [(deSeq_rows_stable cfg b func rnd last g hg).2.2.2, ← hk]
      exact hx g i
    refine ⟨?_, ?_, ?_⟩
    · intro q hq i
      rw [h9, deSeq_calls] at hq
      rcases List.mem_cons.mp hq with rfl | hq
      · exact hx 0 i
      · obtain ⟨k, hk, rfl⟩ := List.mem_map.mp hq
        exact deTrialSeq_inBox cfg b func rnd hrepl k i
    · rw [h8]; exact hbest last (le_refl _)
    · intro last' hl' g hg
      obtain rfl := hl.unique hl'
      refine ⟨fun i => ?_, ?_⟩
      · rw [h5, (deSeq_row cfg b func rnd last g hg).1]
        exact hx g i
      · rw [h3]; exact hbest g hg

/-- The call log of a DE run: the initial population first, then exactly one trial population per generation that ran. -/
theorem de_call_log (h : deRun cfg b func stop rnd = .ok r) :
    ∃ last, LastGen cfg.numGen stop r.bestYHist last ∧ r.calls.length = last + 1 ∧
      r.calls[0]? = some (r.allSamples 0) ∧ r.allResponses 0 = func (r.allSamples 0) ∧
      r.retY = r.bestYHist last ∧ r.retX = r.bestXHist last ∧
      ∀ g > last, r.allSamples g = (fun _ _ => 0) ∧ r.allResponses g = (fun _ => 0) ∧
        r.bestYHist g = 0 ∧ r.bestXHist g = (fun _ => 0) := by
  cases P with
  | zero => simp [deRun] at h
  | succ p =>
    obtain ⟨last, hl, _, _, _, _, h3, h4, h5, h6, h7, h8, h9⟩ := deRun_ok cfg b func rnd h
    refine ⟨last, hl, ?_, ?_, ?_, by rw [h7, h4], by rw [h8, h3], ?_⟩
    · rw [h9, deSeq_calls]; simp
    · rw [h9, deSeq_calls, h5, (deSeq_row cfg b func rnd last 0 (by omega)).1]; simp
    · rw [h5, h6, (deSeq_row cfg b func rnd last 0 (by omega)).1, (deSeq_row cfg b func rnd last 0 (by omega)).2]
      rfl
    · intro g hg
      obtain ⟨e1, e2, e3, e4⟩ := deSeq_rows_zero cfg b func rnd last g hg
      rw [h3, h4, h5, h6]
      exact ⟨e1, e2, e3, e4⟩

/-- C09. In every generation each slot is compared with its trial point (row `i` of the population evaluated in that generation): it takes the trial
point and its response if that response is strictly smaller, and is left unchanged otherwise; so responses never increase.  For a row-wise
objective the recorded responses are always those of the recorded samples. -/
theorem C09_de_selection (h : deRun cfg b func stop rnd = .ok r) (last : ℕ)
    (hl : LastGen cfg.numGen stop r.bestYHist last) :
    (∀ g < last, ∃ q, r.calls[g + 1]? = some q ∧ ∀ i,
      (func q i < r.allResponses g i →
        r.allSamples (g + 1) i = q i ∧ r.allResponses (g + 1) i = func q i) ∧
      (¬ func q i < r.allResponses g i →
        r.allSamples (g + 1) i = r.allSamples g i ∧ r.allResponses (g + 1) i = r.allResponses g i)) ∧
    (∀ g < last, ∀ i, r.allResponses (g + 1) i ≤ r.allResponses g i) ∧
    ∀ f : (Fin D → K) → K, (∀ q i, func q i = f (q i)) →
      ∀ g ≤ last, ∀ i, r.allResponses g i = f (r.allSamples g i) := by
  cases P with
  | zero => simp [deRun] at h
  | succ p =>
    obtain ⟨last', hl', _, _, _, _, h3, h4, h5, h6, h7, h8, h9⟩ := deRun_ok cfg b func rnd h
    obtain rfl := hl.unique hl'
    refine ⟨?_, ?_, ?_⟩
    · intro g hg
      refine ⟨deTrialSeq cfg b func rnd g, ?_, ?_⟩
      · rw [h9, deSeq_calls]
        simp [hg]
      · intro i
        rw [h5, h6, (deSeq_row cfg b func rnd last (g+1) hg).1, (deSeq_row cfg b func rnd last (g+1) hg).2,
          (deSeq_row cfg b func rnd last g hg.le).1, (deSeq_row cfg b func rnd last g hg.le).2]
        rcases deSeq_succ cfg b func rnd g i with ⟨a1, a2, a3⟩ | ⟨a1, a2, a3⟩
        · exact ⟨fun _ => ⟨a2, a3⟩, fun hn => absurd a1 hn⟩
        · exact ⟨fun hn => absurd hn (not_lt.mpr a1), fun _ => ⟨a2, a3⟩⟩
    · intro g hg i
      rw [h6, (deSeq_row cfg b func rnd last (g+1) hg).2, (deSeq_row cfg b func rnd last g hg.le).2]
      exact deSeq_obj_mono cfg b func rnd (g+1) g (by omega) i
    · intro f hf g hg i
      rw [h5, h6, (deSeq_row cfg b func rnd last g hg).1, (deSeq_row cfg b func rnd last g hg).2]
      obtain ⟨q, _, hx, hy⟩ := deSeq_origin cfg b func rnd g i
      rw [hx, hy, hf]

/-- C10. `best_y_historical[g]` is the minimum of generation `g`'s responses and of all responses of generations `0 … g`, it never increases, and
`best_x_historical[g]` is a sample of generation `g` with that response; the returned pair is the one of the last generation. -/
theorem C10_de_running_minimum (h : deRun cfg b func stop rnd = .ok r) (last : ℕ)
    (hl : LastGen cfg.numGen stop r.bestYHist last) :
    (∀ g ≤ last, RunningMin r.allResponses g (r.bestYHist g) ∧
      (∀ i, r.bestYHist g ≤ r.allResponses g i) ∧
      ∃ i, r.allSamples g i = r.bestXHist g ∧ r.allResponses g i = r.bestYHist g) ∧
    (∀ g < last, r.bestYHist (g + 1) ≤ r.bestYHist g) ∧
    r.retY = r.bestYHist last ∧ r.retX = r.bestXHist last ∧
    ∀ f : (Fin D → K) → K, (∀ q i, func q i = f (q i)) → f r.retX = r.retY := by
  have hsel := C09_de_selection h last hl
  cases P with
  | zero => simp [deRun] at h
  | succ p =>
    obtain ⟨last', hl', _, _, _, _, h3, h4, h5, h6, h7, h8, h9⟩ := deRun_ok cfg b func rnd h
    obtain rfl := hl.unique hl'
    have key : ∀ g ≤ last, RunningMin r.allResponses g (r.bestYHist g) ∧
      (∀ i, r.bestYHist g ≤ r.allResponses g i) ∧
      ∃ i, r.allSamples g i = r.bestXHist g ∧ r.allResponses g i = r.bestYHist g := by
      intro g hg
      obtain ⟨hmin, i, hx, hy⟩ := deSeq_best cfg b func rnd g
      obtain ⟨_, _, e3, e4⟩ := deSeq_rows_stable cfg b func rnd last g hg
      have c2 : ∀ i, r.bestYHist g ≤ r.allResponses g i := by
        intro i; rw [h4, h6, e3, (deSeq_row cfg b func rnd last g hg).2]; exact hmin i
      have c3 : r.allSamples g i = r.bestXHist g ∧ r.allResponses g i = r.bestYHist g := by
        rw [h3, h4, h5, h6, e3, e4, (deSeq_row cfg b func rnd last g hg).1, (deSeq_row cfg b func rnd last g hg).2]
        exact ⟨hx, hy⟩
      refine ⟨⟨?_, g, le_refl _, i, c3.2⟩, c2, i, c3⟩
      intro k hk i'
      refine (c2 i').trans ?_
      rw [h6, (deSeq_row cfg b func rnd last g hg).2, (deSeq_row cfg b func rnd last k (by omega)).2]
      exact deSeq_obj_mono cfg b func rnd g k hk i'
    refine ⟨key, ?_, by rw [h7, h4], by rw [h8, h3], ?_⟩
    · intro g hg
      obtain ⟨k, hk, i, hi⟩ := (key g hg.le).1.2
      rw [← hi]
      exact (key (g+1) hg).1.1 k (by omega) i
    · intro f hf
      obtain ⟨i, hx, hy⟩ := (key last (le_refl _)).2.2
      rw [show r.retX = r.bestXHist last by rw [h8, h3], show r.retY = r.bestYHist last by rw [h7, h4], ← hx, ← hy]
      exact (hsel.2.2 f hf last (le_refl _) i).symm

/-- C11 (partial). If all generations ran (always when `stopping_error` is `None`), the dictionary holds the returned optimum; if the run ended early
the dictionary's `best_x` and `best_y` are zeros.  Missing: agreement after an early stop, which is false, see
`C11_de_dictionary_counterexample`. -/
theorem C11_de_dictionary_partial (h : deRun cfg b func stop rnd = .ok r) :
    (stop = none → r.bestX = r.retX ∧ r.bestY = r.retY) ∧
    ∀ last, LastGen cfg.numGen stop r.bestYHist last →
      (last = cfg.numGen → r.bestX = r.retX ∧ r.bestY = r.retY) ∧
      (last < cfg.numGen → r.bestX = (fun _ => 0) ∧ r.bestY = 0) := by
  cases P with
  | zero => simp [deRun] at h
  | succ p =>
    obtain ⟨last, hl, _, _, h1, h2, h3, h4, h5, h6, h7, h8, h9⟩ := deRun_ok cfg b func rnd h
    have key : last = cfg.numGen → r.bestX = r.retX ∧ r.bestY = r.retY := by
      intro e
      rw [h1, h2, h7, h8, e]; exact ⟨rfl, rfl⟩
    refine ⟨?_, ?_⟩
    · intro hs
      rcases hl.why with e | e
      · exact key e
      · rw [hs] at e; exact absurd e id
    · intro last' hl'
      obtain rfl := hl.unique hl'
      refine ⟨key, fun hlt => ?_⟩
      obtain ⟨_, _, e3, e4⟩ := deSeq_rows_zero cfg b func rnd last _ hlt
      exact ⟨by rw [h1, e4], by rw [h2, e3]⟩

/-- C13 (and the part of C12 that holds, in terms of a run). For every generation and individual `i` the trial point evaluated is obtained as follows:
partner indices `a k ≠ i`, equal to the drawn indices unless the draw hit `i` itself; donor `x_{a0} + F (x_{a1} - x_{a2})` (DE/rand/1/bin) or
`best_x + F (x_{a0} - x_{a1})` (DE/best/1/bin) formed from the current population; a crossover point `pre` that takes coordinate `j` from the donor if the crossover
number is below `crossover_rate` or `j` is the forced coordinate and from the parent otherwise (so at least one coordinate comes from the donor);
finally coordinates outside the design space, and only those, are replaced by `u·(high − low) + low`. -/
theorem C13_de_trial (hc : ∀ t i, rnd.c t i < D) (h : deRun cfg b func stop rnd = .ok r) (last : ℕ)
    (hl : LastGen cfg.numGen stop r.bestYHist last) (g : ℕ) (hg : g < last) (i : Fin P) :
    ∃ (q : Fin P → Fin D → K) (donor pre : Fin D → K),
      r.calls[g + 1]? = some q ∧
      (cfg.strategy = "DE/rand/1/bin" ∧ (∃ a : Fin 3 → Fin P, (∀ k, a k ≠ i) ∧
          (∀ k, rnd.choice3 g i k ≠ i → a k = rnd.choice3 g i k) ∧ (∀ k, rnd.choice3 g i k = i → (a k).val = (i.val + 1) % P) ∧
          ∀ j, donor j = r.allSamples g (a 0) j +
            cfg.stepSize * (r.allSamples g (a 1) j - r.allSamples g (a 2) j)) ∨
        cfg.strategy = "DE/best/1/bin" ∧ (∃ a : Fin 2 → Fin P, (∀ k, a k ≠ i) ∧
          (∀ k, rnd.choice2 g i k ≠ i → a k = rnd.choice2 g i k) ∧ (∀ k, rnd.choice2 g i k = i → (a k).val = (i.val + 1) % P) ∧
          ∀ j, donor j = r.bestXHist g j +
            cfg.stepSize * (r.allSamples g (a 0) j - r.allSamples g (a 1) j))) ∧
      (∀ j, rnd.cr g i j < cfg.crossoverRate → pre j = donor j) ∧
      (∀ j : Fin D, j.val = rnd.c g i → pre j = donor j) ∧
      (∀ j : Fin D, ¬ rnd.cr g i j < cfg.crossoverRate → j.val ≠ rnd.c g i → pre j = r.allSamples g i j) ∧
      (∃ j, pre j = donor j) ∧
      (∀ j, b.low j ≤ pre j ∧ pre j ≤ b.high j → q i j = pre j) ∧
      (∀ j, ¬ (b.low j ≤ pre j ∧ pre j ≤ b.high j) →
        q i j = rnd.repl g j i j * (b.high j - b.low j) + b.low j) := by
  cases P with
  | zero => exact i.elim0
  | succ p =>
    obtain ⟨last', hl', hck, _, h1, h2, h3, h4, h5, h6, h7, h8, h9⟩ := deRun_ok cfg b func rnd h
    obtain rfl := hl.unique hl'
    have hrow := (deSeq_row cfg b func rnd last g hg.le).1
    have hbx := (deSeq_rows_stable cfg b func rnd last g hg.le).2.2.2
    have hP : 2 ≤ p + 1 := by
      unfold deCheck at hck
      split at hck
      · split at hck
        · cases hck
        · omega
      · split at hck
        · split at hck
          · cases hck
          · omega
        · cases hck
    have hfix : ∀ k : Fin (p+1), fixPartner i k ≠ i := by
      intro k
      unfold fixPartner
      split
      · split
        · intro e
          have := congrArg Fin.val e
          simp at this
        · rename_i _ hlt
          intro e
          have := congrArg Fin.val e
          have hi := i.isLt
          simp at this
          omega
      · assumption
    have hfix' : ∀ k : Fin (p+1), k ≠ i → fixPartner i k = k := by
      intro k hk
      unfold fixPartner
      rw [if_neg hk]
    have hfix2 : ∀ k : Fin (p+1), k = i → (fixPartner i k).val = (i.val + 1) % (p + 1) := by
      intro k hk
      unfold fixPartner
      rw [if_pos hk]
      split
      · rw [Nat.mod_eq_of_lt (by omega)]
      · rename_i hlt
        have : i.val + 1 = p + 1 := by have := i.isLt; omega
        rw [this, Nat.mod_self]
        rfl
    let s := deSeq cfg b func rnd g
    let donor : Fin D → K :=
      if cfg.strategy = "DE/rand/1/bin" then donorRand cfg.stepSize s.x i (rnd.choice3 g i)
      else donorBest cfg.stepSize s.x (s.genBestXs g) i (rnd.choice2 g i)
    let pre : Fin D → K := crossover cfg.crossoverRate (rnd.c g i) (rnd.cr g i) donor (s.x i)
    have hpre : ∀ j, pre j = if rnd.cr g i j < cfg.crossoverRate ∨ rnd.c g i = j.val then donor j else s.x i j :=
      fun j => rfl
    have hq : ∀ j, deTrialSeq cfg b func rnd g i j =
      if pre j < b.low j ∨ pre j > b.high j then rnd.repl g j i j * (b.high j - b.low j) + b.low j else pre j :=
      fun j => rfl
    refine ⟨deTrialSeq cfg b func rnd g, donor, pre, ?_, ?_, ?_, ?_, ?_, ?_, ?_, ?_⟩
    · rw [h9, deSeq_calls]; simp [hg]
    · by_cases hs : cfg.strategy = "DE/rand/1/bin"
      · left
        refine ⟨hs, fun k => fixPartner i (rnd.choice3 g i k), fun k => hfix _, fun k hk => hfix' _ hk, fun k hk => hfix2 _ hk, ?_⟩
        intro j
        rw [h5, hrow]
        simp only [donor, if_pos hs]
        rfl
      · right
        have hs2 : cfg.strategy = "DE/best/1/bin" := by
          unfold deCheck at hck
          rw [if_neg hs] at hck
          split at hck
          · assumption
          · cases hck
        refine ⟨hs2, fun k => fixPartner i (rnd.choice2 g i k), fun k => hfix _, fun k hk => hfix' _ hk, fun k hk => hfix2 _ hk, ?_⟩
        intro j
        rw [h5, hrow, h3, hbx]
        simp only [donor, if_neg hs]
        rfl
    · intro j hj; rw [hpre, if_pos (Or.inl hj)]
    · intro j hj; rw [hpre, if_pos (Or.inr hj.symm)]
    · intro j hj1 hj2
      rw [hpre, if_neg, h5, hrow]
      rintro (h | h)
      · exact hj1 h
      · exact hj2 h.symm
    · refine ⟨⟨rnd.c g i, hc g i⟩, ?_⟩
      rw [hpre, if_pos (Or.inr rfl)]
    · intro j hj
      rw [hq, if_neg]
      push Not
      exact hj
    · intro j hj
      rw [hq, if_pos]
      by_contra hn
      push Not at hn
      exact hj hn

/-! ### C12: mutation partners -/

/-- The successor index used by the code when a draw hits the target (`ii + 1`, or `0` for the last individual). -/
def nextIndex {p : ℕ} (i : Fin (p + 1)) : Fin (p + 1) := if h : i.val < p then ⟨i.val + 1, by omega⟩ else 0

/-- C12 (partial). In a population of at least two the partners used never include the target itself, and for draws without repetition they are mutually
distinct unless the draw contains both the target and its successor.  Missing: distinctness in that case, which is false
(`C12_de_partners_counterexample`). -/
theorem C12_de_partners_partial {p m : ℕ} (hp : 1 ≤ p) (i : Fin (p + 1)) (draw : Fin m → Fin (p + 1))
    (hinj : Function.Injective draw) :
    (∀ k, fixPartner i (draw k) ≠ i) ∧
    (Function.Injective (fun k => fixPartner i (draw k)) ↔
      ¬ (i ∈ Set.range draw ∧ nextIndex i ∈ Set.range draw)) := by
  have hne : nextIndex i ≠ i := by
    unfold nextIndex
    split
    · intro e; have := congrArg Fin.val e; simp at this
    · intro e
      have := congrArg Fin.val e
      have hi := i.isLt
      simp at this
      omega
  have hfix : ∀ k, fixPartner i (draw k) = if draw k = i then nextIndex i else draw k := fun k => rfl
  refine ⟨?_, ?_, ?_⟩
  · intro k
    rw [hfix]
    split
    · exact hne
    · assumption
  · rintro hi ⟨⟨a, ha⟩, ⟨c, hc⟩⟩
    have : fixPartner i (draw a) = fixPartner i (draw c) := by
      rw [hfix, hfix, if_pos ha, if_neg (by rw [hc]; exact hne), hc]
    have := hi this
    rw [this, hc] at ha
    exact hne ha
  · intro hn a c hac
    simp only [hfix] at hac
    by_cases ha : draw a = i <;> by_cases hc : draw c = i
    · exact hinj (ha.trans hc.symm)
    · rw [if_pos ha, if_neg hc] at hac
      exact absurd ⟨⟨a, ha⟩, ⟨c, hac.symm⟩⟩ hn
    · rw [if_neg ha, if_pos hc] at hac
      exact absurd ⟨⟨c, hc⟩, ⟨a, hac⟩⟩ hn
    · rw [if_neg ha, if_neg hc] at hac
      exact hinj hac

/-- Non-vacuity of `C12_de_partners_partial`: a draw of three distinct members of a population of five. -/
example : Function.Injective (![0, 2, 4] : Fin 3 → Fin 5) := by decide

/-- C12 is false of the code, for every population size and every target: there is a draw of three different members after which two of the
three partners used coincide. -/
theorem C12_de_partners_counterexample {p : ℕ} (hp : 2 ≤ p) (i : Fin (p + 1)) :
    ∃ draw : Fin 3 → Fin (p + 1), Function.Injective draw ∧
      fixPartner i (draw 0) = fixPartner i (draw 1) := by
  have hne : nextIndex i ≠ i := by
    unfold nextIndex
    split
    · intro e; have := congrArg Fin.val e; simp at this
    · intro e
      have := congrArg Fin.val e
      have hi := i.isLt
      simp at this
      omega
  obtain ⟨c, hc⟩ : ∃ c : Fin (p+1), c ≠ i ∧ c ≠ nextIndex i := by
    by_contra hcon
    push Not at hcon
    have hcard : (Finset.univ : Finset (Fin (p+1))) ⊆ {i, nextIndex i} := by
      intro x _
      by_cases hx : x = i
      · simp [hx]
      · simp [hcon x hx]
    have := Finset.card_le_card hcard
    have h2 : ({i, nextIndex i} : Finset (Fin (p+1))).card ≤ 2 := Finset.card_le_two
    simp at this
    omega
  refine ⟨![i, nextIndex i, c], ?_, ?_⟩
  · intro a d had
    fin_cases a <;> fin_cases d <;> simp at had <;> first | rfl | (exfalso; first | exact hne had | exact hne had.symm | exact hc.1 had | exact hc.1 had.symm | exact hc.2 had | exact hc.2 had.symm)
  · have h1 : fixPartner i i = nextIndex i := by simp [fixPartner, nextIndex]
    have h2 : fixPartner i (nextIndex i) = nextIndex i := by unfold fixPartner; rw [if_neg hne]
    simp [h1, h2]

/-- Which draws without repetition leave the partners different. -/
theorem partners_injective_iff {P m : ℕ} (hP : 2 ≤ P) (i : Fin P) {draw a : Fin m → Fin P} (hinj : Function.Injective draw) (h1 : ∀ k, draw k ≠ i → a k = draw k) (h2 : ∀ k, draw k = i → (a k).val = (i.val + 1) % P) :
    Function.Injective a ↔ ¬ ((∃ k, draw k = i) ∧ ∃ k, (draw k).val = (i.val + 1) % P) := by
  have hne : (i.val + 1) % P ≠ i.val := by
    have := i.isLt
    rcases Nat.lt_or_ge (i.val + 1) P with h | h
    · rw [Nat.mod_eq_of_lt h]; omega
    · rw [show i.val + 1 = P by omega, Nat.mod_self]; omega
  constructor
  · rintro hi ⟨⟨k, hk⟩, ⟨l, hl⟩⟩
    have hli : draw l ≠ i := fun e => hne (by rw [← hl, e])
    have := hi (Fin.ext (by rw [h2 k hk, h1 l hli, hl]) : a k = a l)
    rw [this] at hk
    exact hli hk
  · intro hn k l hkl
    by_cases hk : draw k = i <;> by_cases hl : draw l = i
    · exact hinj (hk.trans hl.symm)
    · exact absurd ⟨⟨k, hk⟩, ⟨l, by rw [← h1 l hl, ← hkl, h2 k hk]⟩⟩ hn
    · exact absurd ⟨⟨l, hl⟩, ⟨k, by rw [← h1 k hk, hkl, h2 l hl]⟩⟩ hn
    · exact hinj (by rw [← h1 k hk, ← h1 l hl, hkl])

/-- C12 (partial), for runs.  In every generation of every run the donor of individual `i` is made of members `a` different from `i`.  If the members were drawn without repetition they are
mutually different unless the draw contained both `i` and the next index, and then they are not.  Missing: that they are always different, which is false. -/
theorem C12_de_run_partial (hc : ∀ t i, rnd.c t i < D) (h : deRun cfg b func stop rnd = .ok r) (last : ℕ)
    (hl : LastGen cfg.numGen stop r.bestYHist last) (g : ℕ) (hg : g < last) (i : Fin P) (hinj3 : Function.Injective (rnd.choice3 g i)) (hinj2 : Function.Injective (rnd.choice2 g i)) :
    ∃ (q : Fin P → Fin D → K) (donor : Fin D → K), r.calls[g + 1]? = some q ∧
      (∀ j, rnd.cr g i j < cfg.crossoverRate → b.low j ≤ donor j ∧ donor j ≤ b.high j → q i j = donor j) ∧
      (cfg.strategy = "DE/rand/1/bin" ∧ (∃ a : Fin 3 → Fin P, (∀ k, a k ≠ i) ∧
          (Function.Injective a ↔ ¬ ((∃ k, rnd.choice3 g i k = i) ∧ ∃ k, (rnd.choice3 g i k).val = (i.val + 1) % P)) ∧
          ∀ j, donor j = r.allSamples g (a 0) j + cfg.stepSize * (r.allSamples g (a 1) j - r.allSamples g (a 2) j)) ∨
        cfg.strategy = "DE/best/1/bin" ∧ (∃ a : Fin 2 → Fin P, (∀ k, a k ≠ i) ∧
          (Function.Injective a ↔ ¬ ((∃ k, rnd.choice2 g i k = i) ∧ ∃ k, (rnd.choice2 g i k).val = (i.val + 1) % P)) ∧
          ∀ j, donor j = r.bestXHist g j + cfg.stepSize * (r.allSamples g (a 0) j - r.allSamples g (a 1) j))) := by
  obtain ⟨q, donor, pre, h1, h2, h3, _, _, _, h7, _⟩ := C13_de_trial hc h last hl g hg i
  refine ⟨q, donor, h1, fun j hj hb => by rw [← h3 j hj] at hb ⊢; exact h7 j hb, ?_⟩
  have hP : 2 ≤ P := by
    rcases h2 with ⟨_, a, ha, _⟩ | ⟨_, a, ha, _⟩
    all_goals
      have h5 := ha 0
      have h6 := (a 0).isLt
      have h8 := i.isLt
      have h9 : (a 0).val ≠ i.val := fun e => h5 (Fin.ext e)
      omega
  rcases h2 with ⟨hs, a, h4, h5, h6, h8⟩ | ⟨hs, a, h4, h5, h6, h8⟩
  · exact .inl ⟨hs, a, h4, partners_injective_iff hP i hinj3 h5 h6, h8⟩
  · exact .inr ⟨hs, a, h4, partners_injective_iff hP i hinj2 h5 h6, h8⟩

/-- C12 is false in every run of DE/rand/1/bin with three individuals: two of the three members combined are always the same. -/
theorem C12_de_three_members {b : Box K D} {func : Pop K 3 D → Fin 3 → K} {rnd : DERand K 3 D} {r : Result K 3 D} (hc : ∀ t i, rnd.c t i < D) (hs : cfg.strategy = "DE/rand/1/bin")
    (h : deRun cfg b func stop rnd = .ok r) (last : ℕ) (hl : LastGen cfg.numGen stop r.bestYHist last) (g : ℕ) (hg : g < last) (i : Fin 3) (hinj : Function.Injective (rnd.choice3 g i)) :
    ∃ (q : Fin 3 → Fin D → K) (donor : Fin D → K), r.calls[g + 1]? = some q ∧ (∀ j, rnd.cr g i j < cfg.crossoverRate → b.low j ≤ donor j ∧ donor j ≤ b.high j → q i j = donor j) ∧
      ∃ a : Fin 3 → Fin 3, ¬ Function.Injective a ∧ ∀ j, donor j = r.allSamples g (a 0) j + cfg.stepSize * (r.allSamples g (a 1) j - r.allSamples g (a 2) j) := by
  obtain ⟨q, donor, pre, h1, h2, h3, _, _, _, h7, _⟩ := C13_de_trial hc h last hl g hg i
  refine ⟨q, donor, h1, fun j hj hb => by rw [← h3 j hj] at hb ⊢; exact h7 j hb, ?_⟩
  rcases h2 with ⟨_, a, h4, h5, h6, h8⟩ | ⟨hs', _⟩
  · refine ⟨a, fun ha => (partners_injective_iff (by norm_num) i hinj h5 h6).mp ha ?_, h8⟩
    have hsurj := Finite.surjective_of_injective hinj
    obtain ⟨k, hk⟩ := hsurj i
    obtain ⟨l, hl⟩ := hsurj ⟨(i.val + 1) % 3, Nat.mod_lt _ (by norm_num)⟩
    exact ⟨⟨k, hk⟩, l, by rw [hl]⟩
  · rw [hs] at hs'
    exact absurd hs' (by decide)

/-- C14 (DE). The call returns exactly when population, dimension and generation count are positive, the strategy is one of the two known ones and the population
is large enough for its draw (3 resp. 2); otherwise it raises `ValueError`, or `UnboundLocalError` if only the generation count is zero. -/
theorem C14_de_returns_iff (cfg : DECfg K) (b : Box K D) (func : Pop K P D → Fin P → K) (stop : Option K)
    (rnd : DERand K P D) :
    ((∃ r, deRun cfg b func stop rnd = .ok r) ↔ 0 < D ∧ 0 < cfg.numGen ∧
      (cfg.strategy = "DE/rand/1/bin" ∧ 3 ≤ P ∨ cfg.strategy = "DE/best/1/bin" ∧ 2 ≤ P)) ∧
    (0 < P → 0 < D → cfg.numGen = 0 → deRun cfg b func stop rnd = .error .unboundLocal) ∧
    (P = 0 ∨ D = 0 ∨ (0 < cfg.numGen ∧
      ¬ (cfg.strategy = "DE/rand/1/bin" ∧ 3 ≤ P ∨ cfg.strategy = "DE/best/1/bin" ∧ 2 ≤ P)) →
        deRun cfg b func stop rnd = .error .valueError) := by
  cases P with
  | zero => simp [deRun]
  | succ p =>
    simp only [deRun]
    by_cases hD : D = 0
    · simp [hD]
    · rw [if_neg hD]
      have hD' : 0 < D := Nat.pos_of_ne_zero hD
      cases hg : cfg.numGen with
      | zero => simp [hD]
      | succ g =>
        have hck : (deCheck cfg (p+1) = .ok () ∧
            (cfg.strategy = "DE/rand/1/bin" ∧ 3 ≤ p + 1 ∨ cfg.strategy = "DE/best/1/bin" ∧ 2 ≤ p + 1)) ∨
            (deCheck cfg (p+1) = .error .valueError ∧
            ¬ (cfg.strategy = "DE/rand/1/bin" ∧ 3 ≤ p + 1 ∨ cfg.strategy = "DE/best/1/bin" ∧ 2 ≤ p + 1)) := by
          unfold deCheck
          by_cases hs : cfg.strategy = "DE/rand/1/bin"
          · rw [if_pos hs]
            have : cfg.strategy ≠ "DE/best/1/bin" := by rw [hs]; decide
            by_cases h3 : p + 1 < 3
            · right; rw [if_pos h3]; refine ⟨rfl, ?_⟩
              rintro (⟨_, h⟩ | ⟨h, _⟩)
              · omega
              · exact this h
            · left; rw [if_neg h3]; exact ⟨rfl, Or.inl ⟨hs, by omega⟩⟩
          · rw [if_neg hs]
            by_cases hs2 : cfg.strategy = "DE/best/1/bin"
            · rw [if_pos hs2]
              by_cases h3 : p + 1 < 2
              · right; rw [if_pos h3]; refine ⟨rfl, ?_⟩
                rintro (⟨h, _⟩ | ⟨_, h⟩)
                · exact hs h
                · omega
              · left; rw [if_neg h3]; exact ⟨rfl, Or.inr ⟨hs2, by omega⟩⟩
            · right; rw [if_neg hs2]; refine ⟨rfl, ?_⟩
              rintro (⟨h, _⟩ | ⟨h, _⟩)
              · exact hs h
              · exact hs2 h
        rcases hck with ⟨hck, hok⟩ | ⟨hck, hno⟩
        · obtain ⟨m, _, he, _, _⟩ := deLoop_eq cfg b func rnd stop hck g 0
          change deLoop cfg b func rnd stop g 0 (deInit b func rnd) = _ at he
          simp only
          rw [he]
          refine ⟨⟨fun _ => ⟨hD', by omega, hok⟩, fun _ => ⟨_, rfl⟩⟩, by simp, ?_⟩
          rintro (h | h | ⟨_, h⟩)
          · omega
          · exact absurd h hD
          · exact absurd hok h
        · have he := deLoop_error cfg b func rnd stop _ hck g 0 (deInit b func rnd)
          simp only
          rw [he]
          refine ⟨⟨fun ⟨r, hr⟩ => (by cases hr), fun ⟨_, _, h⟩ => absurd h hno⟩, by simp, fun _ => rfl⟩

end AnyArithmetic

section Exact
variable {K : Type} [Field K] [LinearOrder K] [IsStrictOrderedRing K]

/-- Draws of `np.random.random` lie in the unit interval. -/
def DEUnitDraws {P D : ℕ} (rnd : DERand K P D) : Prop :=
  (∀ i j, 0 ≤ rnd.pos i j ∧ rnd.pos i j ≤ 1) ∧
  (∀ t k i j, 0 ≤ rnd.repl t k i j ∧ rnd.repl t k i j ≤ 1)

variable {P D : ℕ} {cfg : DECfg K} {b : Box K D} {func : Pop K P D → Fin P → K} {stop : Option K}
  {rnd : DERand K P D} {r : Result K P D}

/-- C08. Every population the objective is evaluated on (initial and trial populations), every recorded sample, and the returned best point
lie in the design space. -/
theorem C08_de_in_design_space (hb : ∀ j, b.low j ≤ b.high j) (hu : DEUnitDraws rnd)
    (h : deRun cfg b func stop rnd = .ok r) :
    (∀ q ∈ r.calls, ∀ i, InBox b.low b.high (q i)) ∧ InBox b.low b.high r.retX ∧
    ∀ last, LastGen cfg.numGen stop r.bestYHist last →
      ∀ g ≤ last, (∀ i, InBox b.low b.high (r.allSamples g i)) ∧ InBox b.low b.high (r.bestXHist g) := by
  exact C08_de_in_design_space_any_arithmetic (fun i => scalesIntoBox_exact hb (hu.1 i))
    (fun t k i => scalesIntoBox_exact hb (hu.2 t k i)) h

/-- A visible consequence: with a population of two, DE/best/1/bin always uses the same member twice, so the donor is always the best point itself and the
population never gets a new direction. -/
theorem C12_de_best_two_members_degenerate (F : K) (x : Pop K 2 D) (xBest : Fin D → K) (i : Fin 2)
    (draw : Fin 2 → Fin 2) (_hinj : Function.Injective draw) :
    donorBest F x xBest i draw = xBest := by
  have h : ∀ k : Fin 2, fixPartner i k = nextIndex i := by
    intro k
    revert i k
    decide
  funext j
  simp [donorBest, h]

end Exact

/-! ### A concrete run meeting the hypotheses, and the counterexample to C11 -/

section Concrete

/-- Two generations of DE/best/1/bin. -/
def exDECfg : DECfg ℚ := { numGen := 2, stepSize := 1/2, crossoverRate := 1/2, strategy := "DE/best/1/bin" }
/-- The unit interval. -/
def exDEBox : Box ℚ 1 := { low := fun _ => 0, high := fun _ => 1 }
/-- Objective `x₀ - 5`. -/
def exDEFunc : Pop ℚ 3 1 → Fin 3 → ℚ := fun q i => q i 0 - 5
/-- Positions `0, 1/2, 1`; draws `(1, 2)` for all individuals; forced coordinate `0`. -/
def exDERnd : DERand ℚ 3 1 :=
  { pos := fun i _ => ![0, 1/2, 1] i, choice3 := fun _ _ k => k, choice2 := fun _ _ k => k.succ,
    c := fun _ _ => 0, cr := fun _ _ _ => 3/4, repl := fun _ _ _ _ => 1/2 }

/-- The hypotheses of C08–C13 are met by a run, for both strategies. -/
example (stop : Option ℚ) : (∀ j, exDEBox.low j ≤ exDEBox.high j) ∧ DEUnitDraws exDERnd ∧
    (∀ t i, exDERnd.c t i < 1) ∧ (∀ t i, Function.Injective (exDERnd.choice2 t i)) ∧ (∀ t i, Function.Injective (exDERnd.choice3 t i)) ∧
    (∃ r, deRun exDECfg exDEBox exDEFunc stop exDERnd = .ok r) ∧
    ∃ r, deRun { exDECfg with strategy := "DE/rand/1/bin" } exDEBox exDEFunc stop exDERnd = .ok r := by
  refine ⟨fun j => by simp [exDEBox], ⟨?_, ?_⟩, fun _ _ => by simp [exDERnd], fun t i => Fin.succ_injective _, fun t i _ _ h => h, ?_, ?_⟩
  · intro i j; fin_cases i <;> norm_num [exDERnd]
  · intro t k i j; norm_num [exDERnd]
  · exact ((C14_de_returns_iff exDECfg exDEBox exDEFunc stop exDERnd).1).mpr (by simp [exDECfg])
  · exact ((C14_de_returns_iff _ exDEBox exDEFunc stop exDERnd).1).mpr (by simp [exDECfg])

/-- C11 is false of the code: with `stopping_error = 0` the run ends after the first of two generations, the returned optimum is below `-4`, the dictionary's
`best_y` is `0`. -/
theorem C11_de_dictionary_counterexample :
    ∃ r, deRun exDECfg exDEBox exDEFunc (some 0) exDERnd = .ok r ∧ r.retY < -4 ∧ r.bestY = 0 := by
  obtain ⟨r, hr⟩ := ((C14_de_returns_iff exDECfg exDEBox exDEFunc (some 0) exDERnd).1).mpr (by simp [exDECfg])
  obtain ⟨last, hl, _, _, hresp0, hy, _⟩ := de_call_log hr
  have h10 := C10_de_running_minimum hr last hl
  have hp : r.allSamples 0 1 0 = 1/2 := by
    obtain ⟨last', hl', _, _, _, _, _, _, h5, _⟩ := deRun_ok exDECfg exDEBox exDEFunc exDERnd hr
    rw [h5, (deSeq_row exDECfg exDEBox exDEFunc exDERnd last' 0 (by omega)).1]
    simp [deSeq, deInit, locInit, exDERnd, exDEBox]
  have hneg : ∀ g ≤ last, r.bestYHist g < -4 := by
    intro g hg
    have := (h10.1 g hg).1.1 0 (by omega) 1
    rw [hresp0] at this
    simp only [exDEFunc, hp] at this
    linarith
  have hlast : last = 1 := by
    have h1 := hl.pos
    by_contra hne
    exact hl.notBefore 1 (le_refl _) (by omega) (by
      have := hneg 1 (by omega)
      change r.bestYHist 1 < 0
      linarith)
  refine ⟨r, hr, ?_, (((C11_de_dictionary_partial hr).2 last hl).2 (by rw [hlast]; decide)).2⟩
  rw [hy]; exact hneg last (le_refl _)

end Concrete

end Mfpml.Props
