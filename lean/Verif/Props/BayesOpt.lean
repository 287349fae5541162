import Mathlib.Tactic.NormNum
import Mathlib.Data.Rat.Defs
import Mathlib.Algebra.Order.Ring.Rat
import Mathlib.Algebra.Field.Rat
import Verif.Lemmas.BayesOpt

/-!
# Properties of the Bayesian optimisation loops (C51 – C59)
-/

set_option linter.unusedSectionVars false

namespace Mfpml.Props

open Mfpml.BO Mfpml.Spec

variable {K : Type} [Zero K] [One K] [Neg K] [Sub K] [Div K] [LinearOrder K] {X S W : Type}

/-! ## Single fidelity -/

/-- **C51.** After construction and any number of `run_optimizer` calls: `best` is the smallest response observed so far and `best_x` a sample where it was observed; entry `i` of the
history is the smallest of the initial responses and the first `i` later ones (and its design one where it was observed), so the history never increases; there is one history entry per
iteration plus one. -/
theorem C51_sf_best (p : SFProblem K X S W) (hp : OneRowEach p.f) {s : SFState K X S W} (h : SFReachable p s) :
    IsLeast {y | y ∈ s.response} s.best ∧
    (∃ j : ℕ, s.sample[j]? = some s.bestX ∧ s.response[j]? = some s.best) ∧
    s.historyBest.Pairwise (· ≥ ·) ∧
    s.historyBest.length = (s.sample.length - s.initSample.length) + 1 ∧ s.historyBestX.length = s.historyBest.length ∧
    (∀ (i : ℕ) (b : K) (x : X), s.historyBest[i]? = some b → s.historyBestX[i]? = some x →
      IsLeast {y | y ∈ s.response.take (s.initSample.length + i)} b ∧
      ∃ j < s.initSample.length + i, s.sample[j]? = some x ∧ s.response[j]? = some b) ∧
    s.historyBest.getLast? = some s.best ∧ s.historyBestX.getLast? = some s.bestX := by
  have hi := sfInv_reachable hp h
  have hc := hi.count
  have hin := hi.init
  have hcx := hi.countX
  have hl := hi.last
  have hlx := hi.lastX
  rw [List.getLast?_eq_getElem?] at hl hlx
  rw [hcx] at hlx
  have hall : s.response.take (s.initSample.length + (s.historyBest.length - 1)) = s.response := List.take_of_length_le (by rw [hi.align]; omega)
  refine ⟨?_, ?_, ?_, by omega, hcx, fun i b x hb hx => ⟨hi.hist i b hb, hi.histX i b x hb hx⟩, hi.last, hi.lastX⟩
  · have := hi.hist _ _ hl
    rwa [hall] at this
  · obtain ⟨j, _, e⟩ := hi.histX _ _ _ hl hlx
    exact ⟨j, e⟩
  · rw [List.pairwise_iff_getElem]
    intro i j hi' hj hij
    have h1 := hi.hist i _ (List.getElem?_eq_getElem hi')
    have h2 := hi.hist j _ (List.getElem?_eq_getElem hj)
    refine h2.2 ?_
    have hsub : s.response.take (s.initSample.length + i) ⊆ s.response.take (s.initSample.length + j) := (List.take_prefix_take_left (by omega)).subset
    exact hsub h1.1

/-- **C52.** A completed `run_optimizer` call has appended at most `max_iter` samples and one response each to what was there; the objective has been called once per iteration, with
that single sample; the call stopped because the budget was used up or because the error was below the threshold, and the error was not below it before any of its iterations. -/
theorem C52_sf_budget (p : SFProblem K X S W) (hp : OneRowEach p.f) {s s' : SFState K X S W} (hs : SFReachable p s) {k : ℕ} {stop b : K} {x : X}
    (h : p.run k stop s = .ok (s', b, x)) :
    b = s'.best ∧ x = s'.bestX ∧ s'.initSample = s.initSample ∧ s'.initResponse = s.initResponse ∧
    ∃ (xs : List X) (ys : List K), xs.length ≤ k ∧ ys.length = xs.length ∧ s'.sample = s.sample ++ xs ∧ s'.response = s.response ++ ys ∧
      s'.calls = s.calls ++ xs.map ([·]) ∧ (∀ (i : ℕ) (z : X), xs[i]? = some z → ∃ y, ys[i]? = some y ∧ p.f [z] = .ok [y]) ∧
      (xs.length = k ∨ computedError s'.best p.optimum < stop) ∧
      (∀ i < xs.length, ∀ c, s'.historyBest[s.historyBest.length - 1 + i]? = some c → stop ≤ computedError c p.optimum) := by
  obtain ⟨h, hb, hx⟩ := sf_run_ok h
  have hi := sfInv_reachable hp hs
  suffices H : ∀ (k : ℕ) (s : SFState K X S W), SFInv s → p.loop stop k s = .ok s' → s'.initSample = s.initSample ∧ s'.initResponse = s.initResponse ∧ s.historyBest <+: s'.historyBest ∧
      ∃ (xs : List X) (ys : List K), xs.length ≤ k ∧ ys.length = xs.length ∧ s'.sample = s.sample ++ xs ∧ s'.response = s.response ++ ys ∧
      s'.calls = s.calls ++ xs.map ([·]) ∧ (∀ (i : ℕ) (z : X), xs[i]? = some z → ∃ y, ys[i]? = some y ∧ p.f [z] = .ok [y]) ∧
      (xs.length = k ∨ computedError s'.best p.optimum < stop) ∧
      (∀ i < xs.length, ∀ c, s'.historyBest[s.historyBest.length - 1 + i]? = some c → stop ≤ computedError c p.optimum) by
    obtain ⟨a1, a2, _, a3⟩ := H k s hi h
    exact ⟨hb, hx, a1, a2, a3⟩
  clear h hi hs hb hx
  intro k
  induction k with
  | zero =>
    intro s _ h
    cases h
    exact ⟨rfl, rfl, List.prefix_rfl, [], [], by simp, rfl, by simp, by simp, by simp, by simp, Or.inl rfl, by simp⟩
  | succ k ih =>
    intro s hi h
    simp only [SFProblem.loop] at h
    split_ifs at h with hstop
    · obtain ⟨t, ht, h⟩ := Py.bind_ok.mp h
      obtain ⟨a1, a2, a3, xs, ys, e1, e2, e3, e4, e5, e6, e7, e8⟩ := ih t (sfInv_iterate hp hi ht) h
      obtain ⟨z, y, i, hy, g1, g2, g3, g4, g5, g6, g7, g8, g9, g10⟩ := sf_iterate_ok ht
      obtain ⟨a, rfl⟩ := length_one (hp _ _ hy)
      have hpre : s.historyBest <+: s'.historyBest := by
        refine List.IsPrefix.trans ?_ a3
        rw [g7]; exact List.prefix_append _ _
      refine ⟨a1.trans g9, a2.trans g10, hpre, z :: xs, a :: ys, by simp [e1], by simp [e2], by rw [e3, g1]; simp, by rw [e4, g2]; simp, by rw [e5, g3]; simp, ?_, ?_, ?_⟩
      · intro j w hw
        cases j with
        | zero =>
          simp only [List.getElem?_cons_zero, Option.some.injEq] at hw
          subst hw
          exact ⟨a, rfl, hy⟩
        | succ j => simpa using e6 j w (by simpa using hw)
      · rcases e7 with e7 | e7
        · left; simp [e7]
        · exact Or.inr e7
      · intro j hj c hc
        have hne : s.historyBest.length ≠ 0 := by
          intro h0
          have := hi.last
          rw [List.length_eq_zero_iff.mp h0] at this; cases this
        cases j with
        | zero =>
          have hl := hi.last
          rw [List.getLast?_eq_getElem?] at hl
          obtain ⟨suf, hsuf⟩ := hpre
          rw [← hsuf, Nat.add_zero, List.getElem?_append_left (by omega), hl] at hc
          cases hc
          rw [← updateError_computed]; exact hstop
        | succ j =>
          refine e8 j (by simpa using hj) c ?_
          rw [← hc, g7]
          congr 1
          simp; omega
    · cases h
      refine ⟨rfl, rfl, List.prefix_rfl, [], [], by simp, rfl, by simp, by simp, by simp, by simp, Or.inr ?_, by simp⟩
      rw [← updateError_computed]; exact not_le.mp hstop

/-- **C52 (rows aligned).** For an objective evaluated row by row, response `i` is the objective's value at sample `i` at any time, and the samples are exactly the rows the objective has
been called with. -/
theorem C52_sf_aligned (p : SFProblem K X S W) (g : X → K) (hg : ∀ xs, p.f xs = .ok (xs.map g)) {s : SFState K X S W} (h : SFReachable p s) :
    s.response = s.sample.map g ∧ s.calls.flatten = s.sample := by
  have hp : OneRowEach p.f := by
    intro xs ys h
    rw [hg] at h; cases h; simp
  refine ⟨?_, (sfInv_reachable hp h).calls⟩
  induction h with
  | new rng h =>
    unfold SFProblem.new at h
    obtain ⟨⟨x, r⟩, _, h⟩ := Py.bind_ok.mp h
    obtain ⟨y, hy, h⟩ := Py.bind_ok.mp h
    obtain ⟨⟨su, r'⟩, _, h⟩ := Py.bind_ok.mp h
    obtain ⟨m, hm, h⟩ := Py.bind_ok.mp h
    obtain ⟨i, hi, h⟩ := Py.bind_ok.mp h
    obtain ⟨bx, hbx, h⟩ := Py.bind_ok.mp h
    rw [hg] at hy
    cases hy; cases h
    rfl
  | run k stop _ h ih =>
    refine sf_loop_inv (fun t => t.response = t.sample.map g) ?_ stop k _ _ ih (sf_run_ok h).1
    intro t t' ht hit
    obtain ⟨x, y, i, hy, g1, g2, _⟩ := sf_iterate_ok hit
    rw [hg] at hy
    cases hy
    rw [g1, g2, ht]; simp

theorem sf_loop_add (p : SFProblem K X S W) (stop : K) (b : ℕ) : ∀ (a : ℕ) (s : SFState K X S W), p.loop stop (a + b) s = p.loop stop a s >>= p.loop stop b := by
  have hstopped : ∀ (b : ℕ) (s : SFState K X S W), ¬updateError s.best p.optimum ≥ stop → p.loop stop b s = .ok s := by
    intro b s h
    cases b with
    | zero => rfl
    | succ b => simp only [SFProblem.loop, if_neg h]
  intro a
  induction a with
  | zero => intro s; simp only [Nat.zero_add, SFProblem.loop]; rfl
  | succ a ih =>
    intro s
    rw [Nat.add_right_comm]
    simp only [SFProblem.loop]
    split_ifs with h
    · cases ht : p.iterate s with
      | error e => rfl
      | ok t => exact ih t
    · exact (hstopped b s h).symm

/-- **C53.** Running `a` and then `b` iterations is running `a + b` iterations: same final state, same returned pair, same exception — for the same stopping error. -/
theorem C53_sf_resume (p : SFProblem K X S W) (stop : K) (a b : ℕ) (s : SFState K X S W) :
    p.run (a + b) stop s = p.run a stop s >>= fun r => p.run b stop r.1 := by
  unfold SFProblem.run
  rw [sf_loop_add]
  cases p.loop stop a s with
  | error e => rfl
  | ok t => rfl

/-- Distance to 3, searched by walking up from 1: a concrete problem whose optimiser runs. -/
def exSF : SFProblem ℚ ℚ ℕ ℕ where
  f xs := .ok (xs.map fun x => (x - 3) ^ 2)
  optimum := some 0
  init w := .ok ([0, 10], w)
  fresh := 0
  train s _ _ w := .ok (s + 1, w)
  query _ w := .ok ((w : ℚ), w + 1)

/-- Non-vacuity for C51–C53: the optimiser is constructed, a run with a budget of five stops after three iterations at the optimum, having improved every time. -/
theorem exSF_runs : (exSF.new 1 >>= exSF.run 5 (1 / 2)).map (fun r => (r.2, r.1.sample, r.1.historyBest)) = .ok ((0, 3), [0, 10, 1, 2, 3], [9, 4, 1, 0]) := by
  norm_num [SFProblem.new, SFProblem.run, SFProblem.loop, SFProblem.iterate, exSF, npMin, npArgmin, argminScan, npRow, updateError, npAbs, bind, Except.bind, Except.map]

/-! ## Multi-fidelity -/

/-- A multi-fidelity problem answers with one response per sample, at each fidelity and for the initial design (shown for the library's problems under C68/C75). -/
structure MFRows (p : MFProblem K X S W) : Prop where
  hf : OneRowEach p.hf
  lf : OneRowEach p.lf
  call : ∀ xs ys, p.call xs = .ok ys → ys.1.length = xs.1.length ∧ ys.2.length = xs.2.length

/-- **C54.** At any time `best` is the smallest high-fidelity response so far and `best_x` a high-fidelity sample where it was observed; the history never increases; an iteration that
queried the low fidelity leaves both entries as they were. -/
theorem C54_mf_best (p : MFProblem K X S W) (hp : MFRows p) {s : MFState K X S W} (h : MFReachable p s) :
    IsLeast {y | y ∈ s.responseH} s.best ∧
    (∃ j : ℕ, s.sampleH[j]? = some s.bestX ∧ s.responseH[j]? = some s.best) ∧
    s.historyBest.Pairwise (· ≥ ·) ∧ s.historyBest.getLast? = some s.best ∧ s.historyBestX.getLast? = some s.bestX ∧
    (∀ (i : ℕ) (fid : ℤ), s.fidelityOrder[i]? = some fid → fid ≠ 0 →
      s.historyBest[i + 1]? = s.historyBest[i]? ∧ s.historyBestX[i + 1]? = s.historyBestX[i]?) := by
  have hi := mfInv_reachable hp.hf hp.lf hp.call h
  exact ⟨hi.best, hi.bestX, hi.anti, hi.last, hi.lastX, hi.stay⟩

/-- **C55.** A completed `run_optimizer` call made a list of queries `q` (point, fidelity), at most `max_iter` long: the fidelities were appended to the query order, the points to the
sample array of their fidelity (0 = high) and to no other, the functions were called once per query, with that point, on that fidelity, and the responses were appended to that fidelity's array. -/
theorem C55_mf_bookkeeping (p : MFProblem K X S W) (hp : MFRows p) {k : ℕ} {cr stop : K} {s s' : MFState K X S W} (h : p.run k cr stop s = .ok s') :
    ∃ q : List (X × ℤ), q.length ≤ k ∧ s'.fidelityOrder = s.fidelityOrder ++ q.map Prod.snd ∧
      s'.sampleH = s.sampleH ++ (q.filter (·.2 = 0)).map Prod.fst ∧ s'.sampleL = s.sampleL ++ (q.filter (·.2 ≠ 0)).map Prod.fst ∧
      s'.calls = s.calls ++ q.map (fun a => (decide (a.2 = 0), [a.1])) ∧
      (∃ ys : List K, s'.responseH = s.responseH ++ ys ∧ List.Forall₂ (fun x y => p.hf [x] = .ok [y]) ((q.filter (·.2 = 0)).map Prod.fst) ys) ∧
      (∃ ys : List K, s'.responseL = s.responseL ++ ys ∧ List.Forall₂ (fun x y => p.lf [x] = .ok [y]) ((q.filter (·.2 ≠ 0)).map Prod.fst) ys) ∧
      s'.historyBest.length = s.historyBest.length + q.length ∧ s'.historyBestX.length = s.historyBestX.length + q.length ∧
      (q.length = k ∨ computedError s'.best p.optimum ≤ stop) := by
  unfold MFProblem.run at h
  induction k generalizing s with
  | zero => cases h; exact ⟨[], by simp, by simp, by simp, by simp, by simp, ⟨[], by simp, by simp⟩, ⟨[], by simp, by simp⟩, rfl, rfl, Or.inl rfl⟩
  | succ k ih =>
    simp only [MFProblem.loop] at h
    split_ifs at h with hstop
    · obtain ⟨t, ht, h⟩ := Py.bind_ok.mp h
      obtain ⟨q, e1, e2, e3, e4, e5, ⟨yh, e6, e6'⟩, ⟨yl, e7, e7'⟩, e8, e9, e10⟩ := ih h
      obtain ⟨x, fid, h1, h2, h3, h4, hc⟩ := mf_iterate_ok ht
      refine ⟨(x, fid) :: q, by simp [e1], by rw [e2, h1]; simp, ?_⟩
      have hl1 : s'.historyBest.length = s.historyBest.length + ((x, fid) :: q).length := by rw [e8, h2]; simp; omega
      have hl2 : s'.historyBestX.length = s.historyBestX.length + ((x, fid) :: q).length := by rw [e9, h3]; simp; omega
      have hl3 : ((x, fid) :: q).length = k + 1 ∨ computedError s'.best p.optimum ≤ stop := by
        rcases e10 with e | e
        · left; simp [e]
        · exact Or.inr e
      rcases hc with ⟨hf, y, hy, c1, c2, c3, c4, c5, _⟩ | ⟨hf, y, hy, c1, c2, c3, c4, c5, _⟩
      · obtain ⟨a, rfl⟩ := length_one (hp.hf _ _ hy)
        refine ⟨by rw [e3, c1]; simp [hf], by rw [e4, c3]; simp [hf], by rw [e5, c5]; simp [hf], ⟨a :: yh, by rw [e6, c2]; simp, ?_⟩, ⟨yl, by rw [e7, c4], ?_⟩, hl1, hl2, hl3⟩
        · simpa [hf] using ⟨hy, by simpa using e6'⟩
        · simpa [hf] using e7'
      · obtain ⟨a, rfl⟩ := length_one (hp.lf _ _ hy)
        refine ⟨by rw [e3, c3]; simp [hf], by rw [e4, c1]; simp [hf], by rw [e5, c5]; simp [hf], ⟨yh, by rw [e6, c4], ?_⟩, ⟨a :: yl, by rw [e7, c2]; simp, ?_⟩, hl1, hl2, hl3⟩
        · simpa [hf] using e6'
        · simpa [hf] using ⟨hy, by simpa using e7'⟩
    · cases h
      refine ⟨[], by simp, by simp, by simp, by simp, by simp, ⟨[], by simp, by simp⟩, ⟨[], by simp, by simp⟩, rfl, rfl, Or.inr ?_⟩
      rw [← updateError_computed]; exact not_lt.mp hstop

/-- **C55 (counts).** At any time the sample counts are the initial counts plus the number of queries of that fidelity, responses are aligned with samples, and there is one history entry
per query plus one. -/
theorem C55_mf_counts (p : MFProblem K X S W) (hp : MFRows p) {s : MFState K X S W} (h : MFReachable p s) :
    s.sampleH.length = s.initSample.1.length + s.fidelityOrder.countP (· = 0) ∧ s.sampleL.length = s.initSample.2.length + s.fidelityOrder.countP (· ≠ 0) ∧
    s.responseH.length = s.sampleH.length ∧ s.responseL.length = s.sampleL.length ∧ s.calls.length = s.fidelityOrder.length ∧
    s.historyBest.length = s.fidelityOrder.length + 1 ∧ s.historyBestX.length = s.historyBest.length := by
  have hi := mfInv_reachable hp.hf hp.lf hp.call h
  exact ⟨hi.countH, hi.countL, hi.alignH, hi.alignL, hi.countCalls, hi.count, hi.countX⟩

/-- A concrete two-fidelity problem: the high-fidelity function is the squared distance to 3, the low-fidelity one is 5 lower, queries alternate between the fidelities. -/
def exMF : MFProblem ℚ ℚ ℕ ℕ where
  hf xs := .ok (xs.map fun x => (x - 3) ^ 2)
  lf xs := .ok (xs.map fun x => (x - 3) ^ 2 - 5)
  call xs := .ok (xs.1.map fun x => (x - 3) ^ 2, xs.2.map fun x => (x - 3) ^ 2 - 5)
  optimum := some 0
  init w := .ok (([0, 10], [0, 5, 10]), w)
  fresh := .ok 0
  train s _ _ w := .ok (s + 1, w)
  query _ _ _ w := .ok (((w : ℚ), ((w % 2 : ℕ) : ℤ)), w + 1)

theorem exMF_rows : MFRows exMF where
  hf := by intro xs ys h; cases h; simp
  lf := by intro xs ys h; cases h; simp
  call := by intro xs ys h; cases h; simp

/-- Non-vacuity for C54 and C55: a run that queries both fidelities; the low-fidelity value −5 does not become the best value. -/
theorem exMF_runs : (exMF.new 1 >>= exMF.run 4 1 (1 / 2)).map (fun s => (s.best, s.bestX, s.sampleH, s.sampleL, s.fidelityOrder, s.historyBest, s.responseL)) =
    .ok (1, 2, [0, 10, 2, 4], [0, 5, 10, 1, 3], [1, 0, 1, 0], [9, 9, 1, 1, 1], [4, -1, 44, -1, -5]) := by
  norm_num [MFProblem.new, MFProblem.run, MFProblem.loop, MFProblem.iterate, exMF, npMin, npArgmin, argminScan, npRow, updateError, npAbs, bind, Except.bind, Except.map, mfUpdatePara]

/-! ## Whole budget when the optimum is unknown -/

/-- **C56 (single-fidelity and constrained optimisers).** With an unknown optimum and the default stopping error 1, a completed call has made exactly `max_iter` iterations.  The claim is
false of the multi-fidelity optimiser, see `C56_mf_counterexample`. -/
theorem C56_whole_budget_partial {c : ℕ} (k : ℕ) :
    (∀ (p : SFProblem K X S W), p.optimum = none → ∀ s s' b x, p.run k 1 s = .ok (s', b, x) →
      s'.sample.length = s.sample.length + k ∧ s'.calls.length = s.calls.length + k ∧ s'.historyBest.length = s.historyBest.length + k) ∧
    (∀ (p : ConsProblem K X S W c), p.optimum = none → ∀ s s' b x, p.run k 1 s = .ok (s', b, x) →
      s'.sample.length = s.sample.length + k ∧ s'.calls.length = s.calls.length + k ∧ s'.historyBest.length = s.historyBest.length + k) := by
  constructor
  · intro p hn s s' b x h
    replace h := (sf_run_ok h).1
    induction k generalizing s with
    | zero => cases h; exact ⟨rfl, rfl, rfl⟩
    | succ k ih =>
      simp only [SFProblem.loop, hn, updateError, ge_iff_le, le_refl, if_true] at h
      obtain ⟨t, ht, h⟩ := Py.bind_ok.mp h
      obtain ⟨e1, e2, e3⟩ := ih t h
      obtain ⟨z, y, i, hy, g1, g2, g3, g4, g5, g6, g7, _⟩ := sf_iterate_ok ht
      rw [e1, e2, e3, g1, g3, g7]
      simp; omega
  · intro p hn s s' b x h
    replace h := (cons_run_ok h).1
    induction k generalizing s with
    | zero => cases h; exact ⟨rfl, rfl, rfl⟩
    | succ k ih =>
      simp only [ConsProblem.loop, hn, consError, ge_iff_le, le_refl, if_true] at h
      obtain ⟨t, ht, h⟩ := Py.bind_ok.mp h
      obtain ⟨e1, e2, e3⟩ := ih t h
      obtain ⟨z, y, g, _, _, g1, _, _, g4, _, g6, _⟩ := cons_iterate_ok ht
      rw [e1, e2, e3, g1, g4, g6]
      simp; omega

/-- **C56 is false of the multi-fidelity optimiser**: with an unknown optimum and the default stopping error 1 it makes no iteration at all, whatever the budget. -/
theorem C56_mf_counterexample (p : MFProblem K X S W) (hn : p.optimum = none) (k : ℕ) (cr : K) (s : MFState K X S W) : p.run k cr 1 s = .ok s := by
  unfold MFProblem.run
  cases k with
  | zero => rfl
  | succ k => simp only [MFProblem.loop, hn, updateError, gt_iff_lt, lt_irrefl, if_false]

/-- Non-vacuity: the three-iteration budget of a single-fidelity run with unknown optimum is used up, while the multi-fidelity optimiser of the same problem does nothing. -/
theorem exNone_runs : (({ exSF with optimum := none } : SFProblem ℚ ℚ ℕ ℕ).new 5 >>= ({ exSF with optimum := none } : SFProblem ℚ ℚ ℕ ℕ).run 3 1).map (fun r => r.1.sample) =
      .ok [0, 10, 5, 6, 7] ∧
    (({ exMF with optimum := none } : MFProblem ℚ ℚ ℕ ℕ).new 5 >>= ({ exMF with optimum := none } : MFProblem ℚ ℚ ℕ ℕ).run 3 1 1).map (fun r => (r.sampleH, r.sampleL)) =
      .ok ([0, 10], [0, 5, 10]) := by
  constructor
  · norm_num [SFProblem.new, SFProblem.run, SFProblem.loop, SFProblem.iterate, exSF, npMin, npArgmin, argminScan, npRow, updateError, npAbs, bind, Except.bind, Except.map]
  · norm_num [MFProblem.new, MFProblem.run, MFProblem.loop, MFProblem.iterate, exMF, npMin, npArgmin, argminScan, npRow, updateError, npAbs, bind, Except.bind, Except.map]

/-! ## The error measure -/

/-- **C57.** The stopping error is `|best - optimum| / |optimum|` for a non-zero known optimum, `|best - optimum|` for optimum 0 and 1 when it is unknown; it is never negative and is 0
exactly when the known optimum is reached; the constrained optimiser uses the same measure, infinite as long as no feasible point is known. -/
theorem C57_error_measure {K : Type} [Field K] [LinearOrder K] [IsStrictOrderedRing K] (best o : K) :
    updateError best none = 1 ∧ updateError best (some (0 : K)) = |best - 0| ∧ (o ≠ 0 → updateError best (some o) = |best - o| / |o|) ∧
    (∀ known, 0 ≤ updateError best known) ∧ (updateError best (some o) = 0 ↔ best = o) ∧
    (∀ known, consError (best : WithTop K) known = (updateError best known : K)) ∧ consError (⊤ : WithTop K) (some o) = ⊤ ∧ consError (⊤ : WithTop K) none = ((1 : K) : WithTop K) ∧
    (∀ known, computedError best known = optimumError best known) := by
  refine ⟨rfl, by simp [updateError, npAbs_eq], fun h => by simp [updateError, h, npAbs_eq, abs_div], ?_, ?_, ?_, rfl, rfl, fun known => by rw [← updateError_computed, updateError_eq]⟩
  · intro known
    rw [updateError_eq]
    cases known with
    | none => exact zero_le_one
    | some o => simp only [optimumError]; split_ifs <;> positivity
  · simp only [updateError, npAbs_eq]
    by_cases h : o = 0
    · subst h; simp
    · simp [h, sub_eq_zero]
  · intro known
    cases known <;> rfl

/-! ## Constrained -/

/-- **C58.** After construction and after any number of `run_optimizer` calls `best` is the smallest objective value over the observed points that satisfy every constraint (`≤ 0`), or
`+inf` with `best_x` being `None` if there is none; the history never increases and has one entry per evaluation call. -/
theorem C58_cons_best {c : ℕ} (p : ConsProblem K X S W c) (hn : p.numCons = c) (hf : OneRowEach p.f) (hg : OneRowEach p.fCons) {s : ConsState K X S W c} (h : ConsReachable p s) :
    ((∃ b : K, s.best = b ∧ IsLeast {y | ∃ i, FeasibleAt s.objResponse s.consResponse i y} b ∧ s.bestX ≠ none) ∨
      (s.best = ⊤ ∧ s.bestX = none ∧ ¬∃ i y, FeasibleAt s.objResponse s.consResponse i y)) ∧
    s.historyBest.Pairwise (· ≥ ·) ∧ s.historyBest.getLast? = some s.best ∧ s.historyBestX.getLast? = some s.bestX ∧
    s.historyBest.length = s.calls.length ∧ s.objResponse.length = s.sample.length ∧ s.consResponse.length = s.sample.length ∧ s.calls.flatten = s.sample := by
  have hi := consInv_reachable hn hf hg h
  refine ⟨?_, hi.anti, hi.last, hi.lastX, hi.countCalls.symm, hi.alignO, hi.alignC, hi.calls⟩
  rcases consPara_spec s.sample s.objResponse s.consResponse hi.alignO hi.alignC with ⟨b, xs, hb, hl, _⟩ | ⟨hb, hno⟩
  · rw [← hi.best] at hb
    have e1 : s.best = b := congrArg Prod.fst hb
    have e2 : s.bestX = some xs := congrArg Prod.snd hb
    exact Or.inl ⟨b, e1, hl, by rw [e2]; simp⟩
  · rw [← hi.best] at hb
    exact Or.inr ⟨congrArg Prod.fst hb, congrArg Prod.snd hb, hno⟩

/-- **C59 (part).** The rows reported in `best_x` are exactly the observed points whose objective value is `best`; at least one of them satisfies all constraints, and all of them do if no
infeasible observation has that objective value.  Without that hypothesis the claim is false, see `C59_counterexample`. -/
theorem C59_cons_bestX_partial {c : ℕ} (p : ConsProblem K X S W c) (hn : p.numCons = c) (hf : OneRowEach p.f) (hg : OneRowEach p.fCons) {s : ConsState K X S W c}
    (h : ConsReachable p s) {xs : List X} (hx : s.bestX = some xs) :
    ∃ b : K, s.best = b ∧ (∀ x, x ∈ xs ↔ ∃ i : ℕ, s.sample[i]? = some x ∧ s.objResponse[i]? = some b) ∧
      (∃ (i : ℕ) (x : X), x ∈ xs ∧ s.sample[i]? = some x ∧ FeasibleAt s.objResponse s.consResponse i b) ∧
      ((∀ i : ℕ, s.objResponse[i]? = some b → FeasibleAt s.objResponse s.consResponse i b) →
        ∀ x ∈ xs, ∃ i : ℕ, s.sample[i]? = some x ∧ FeasibleAt s.objResponse s.consResponse i b) := by
  have hi := consInv_reachable hn hf hg h
  rcases consPara_spec s.sample s.objResponse s.consResponse hi.alignO hi.alignC with ⟨b, xs', hb, hl, hm⟩ | ⟨hb, hno⟩
  · rw [← hi.best] at hb
    have e1 : s.best = b := congrArg Prod.fst hb
    have e2 : s.bestX = some xs' := congrArg Prod.snd hb
    rw [hx] at e2
    cases e2
    refine ⟨b, e1, hm, ?_, ?_⟩
    · obtain ⟨i, hfe⟩ := hl.1
      have hlt : i < s.sample.length := by
        have h1 := hfe.1
        by_contra hc
        rw [List.getElem?_eq_none (by rw [hi.alignO]; omega)] at h1; cases h1
      exact ⟨i, s.sample[i], (hm _).mpr ⟨i, List.getElem?_eq_getElem hlt, hfe.1⟩, List.getElem?_eq_getElem hlt, hfe⟩
    · intro hall x hx
      obtain ⟨i, h1, h2⟩ := (hm x).mp hx
      exact ⟨i, h1, hall i h2⟩
  · rw [← hi.best] at hb
    have : s.bestX = none := congrArg Prod.snd hb
    rw [hx] at this; cases this

/-- Minimise `x²` subject to `x ≤ 0`, starting from the design `{1, -1}`. -/
def exCons : ConsProblem ℚ ℚ ℕ ℕ 1 where
  f xs := .ok (xs.map fun x => x ^ 2)
  fCons xs := .ok (xs.map fun x _ => x)
  numCons := 1
  optimum := none
  init w := .ok ([1, -1], w)
  fresh := 0
  train s _ _ _ w := .ok (s + 1, w)
  query _ w := .ok ((w : ℚ), w + 1)

theorem exCons_rows : OneRowEach exCons.f ∧ OneRowEach exCons.fCons := by
  constructor <;> (intro xs ys h; cases h; simp)

/-- Non-vacuity for C58: the optimiser is constructed, the best value is that of the feasible design −1, and a run of two iterations (infeasible designs 3 and 4 with larger values)
completes. -/
theorem exCons_runs : (exCons.new 3 >>= exCons.run 2 1).map (fun r => (r.2.1, r.1.sample, r.1.historyBest)) =
    .ok (((1 : ℚ) : WithTop ℚ), [1, -1, 3, 4], [((1 : ℚ) : WithTop ℚ), ((1 : ℚ) : WithTop ℚ), ((1 : ℚ) : WithTop ℚ)]) := by
  norm_num [ConsProblem.new, ConsProblem.run, ConsProblem.loop, ConsProblem.iterate, exCons, consPara, consBest, feasibleIndex, positionsOf, List.range, List.range.loop, npMin, npRow, consError,
    bind, Except.bind, Except.map, pure, Except.pure, List.filter, List.mapM_cons, List.mapM_nil, Finset.filter]

/-- **C59 is false.** Minimising `x²` subject to `x ≤ 0` from the initial design `{1, -1}`: the best feasible value 1 is attained by −1, but `best_x` also reports the infeasible design 1,
because its objective value is the same. -/
theorem C59_counterexample : ∃ s, ConsReachable exCons s ∧ s.best = ((1 : ℚ) : WithTop ℚ) ∧ s.bestX = some [1, -1] ∧ s.consResponse = [fun _ => 1, fun _ => -1] := by
  refine ⟨_, ConsReachable.new 0 rfl, ?_, ?_, rfl⟩ <;>
  norm_num [consPara, consBest, feasibleIndex, positionsOf, List.range, List.range.loop, npMin, npRow, bind, Except.bind, pure, Except.pure, List.filter, List.mapM_cons, List.mapM_nil,
    Finset.filter, exCons]

/-! ## Budgets and resumption of the other two optimisers -/

theorem mf_loop_add (p : MFProblem K X S W) (cr stop : K) (b : ℕ) : ∀ (a : ℕ) (s : MFState K X S W), p.loop cr stop (a + b) s = p.loop cr stop a s >>= p.loop cr stop b := by
  have hstopped : ∀ (b : ℕ) (s : MFState K X S W), ¬updateError s.best p.optimum > stop → p.loop cr stop b s = .ok s := by
    intro b s h
    cases b with
    | zero => rfl
    | succ b => simp only [MFProblem.loop, if_neg h]
  intro a
  induction a with
  | zero => intro s; simp only [Nat.zero_add, MFProblem.loop]; rfl
  | succ a ih =>
    intro s
    rw [Nat.add_right_comm]
    simp only [MFProblem.loop]
    split_ifs with h
    · cases ht : p.iterate cr s with
      | error e => rfl
      | ok t => exact ih t
    · exact (hstopped b s h).symm

theorem cons_loop_add {c : ℕ} (p : ConsProblem K X S W c) (stop : K) (b : ℕ) :
    ∀ (a : ℕ) (s : ConsState K X S W c), p.loop stop (a + b) s = p.loop stop a s >>= p.loop stop b := by
  have hstopped : ∀ (b : ℕ) (s : ConsState K X S W c), ¬consError s.best p.optimum ≥ (stop : WithTop K) → p.loop stop b s = .ok s := by
    intro b s h
    cases b with
    | zero => rfl
    | succ b => simp only [ConsProblem.loop, if_neg h]
  intro a
  induction a with
  | zero => intro s; simp only [Nat.zero_add, ConsProblem.loop]; rfl
  | succ a ih =>
    intro s
    rw [Nat.add_right_comm]
    simp only [ConsProblem.loop]
    split_ifs with h
    · cases ht : p.iterate s with
      | error e => rfl
      | ok t => exact ih t
    · exact (hstopped b s h).symm

/-- **C77 (resumption).** The multi-fidelity and the constrained optimiser can be resumed too: running `a` and then `b` iterations is running `a + b` iterations. -/
theorem C77_resume {c : ℕ} (a b : ℕ) (stop : K) :
    (∀ (p : MFProblem K X S W) (cr : K) s, p.run (a + b) cr stop s = p.run a cr stop s >>= p.run b cr stop) ∧
    (∀ (p : ConsProblem K X S W c) s, p.run (a + b) stop s = p.run a stop s >>= fun r => p.run b stop r.1) := by
  constructor
  · exact fun p cr s => mf_loop_add p cr stop b a s
  · intro p s
    unfold ConsProblem.run
    rw [cons_loop_add]
    cases p.loop stop a s with
    | error e => rfl
    | ok t => rfl

/-- "The error to the known optimum" when the best value may be infinite (no feasible point known). -/
def consComputedError (best : WithTop K) (known : Option K) : WithTop K :=
  match known, best with
  | none, _ => ((1 : K) : WithTop K)
  | some _, ⊤ => ⊤
  | some o, (b : K) => (computedError b (some o) : K)

theorem consError_eq (best : WithTop K) (known : Option K) : consError best known = consComputedError best known := by
  cases known with
  | none => rfl
  | some o =>
    cases best with
    | top => rfl
    | coe b => exact congrArg _ (updateError_computed b (some o))

/-- **C77 (constrained budget).** A completed `run_optimizer` call of the constrained optimiser has appended at most `max_iter` samples, with one objective and one constraint row each; objective and
constraints were evaluated at that single sample; it stopped because the budget was used up or because the error was below the threshold. -/
theorem C77_cons_budget {c : ℕ} (p : ConsProblem K X S W c) (hf : OneRowEach p.f) (hg : OneRowEach p.fCons) {k : ℕ} {stop : K} {s s' : ConsState K X S W c} {b x}
    (h : p.run k stop s = .ok (s', b, x)) :
    b = s'.best ∧ x = s'.bestX ∧ ∃ (xs : List X) (ys : List K) (gs : List (Fin c → K)), xs.length ≤ k ∧ s'.sample = s.sample ++ xs ∧ s'.objResponse = s.objResponse ++ ys ∧
      s'.consResponse = s.consResponse ++ gs ∧ s'.calls = s.calls ++ xs.map ([·]) ∧ List.Forall₂ (fun x y => p.f [x] = .ok [y]) xs ys ∧
      List.Forall₂ (fun x g => p.fCons [x] = .ok [g]) xs gs ∧ s'.historyBest.length = s.historyBest.length + xs.length ∧
      (xs.length = k ∨ consComputedError s'.best p.optimum < (stop : WithTop K)) := by
  obtain ⟨hl, hb, hx⟩ := cons_run_ok h
  refine ⟨hb, hx, ?_⟩
  clear hb hx h b x
  rename' hl => h
  induction k generalizing s with
  | zero => cases h; exact ⟨[], [], [], by simp, by simp, by simp, by simp, by simp, by simp, by simp, rfl, Or.inl rfl⟩
  | succ k ih =>
    simp only [ConsProblem.loop] at h
    split_ifs at h with hstop
    · obtain ⟨t, ht, h⟩ := Py.bind_ok.mp h
      obtain ⟨xs, ys, gs, e1, e2, e3, e4, e5, e6, e7, e8, e9⟩ := ih h
      obtain ⟨z, y, g, hy, hz, g1, g2, g3, g4, _, g6, _⟩ := cons_iterate_ok ht
      obtain ⟨a, rfl⟩ := length_one (hf _ _ hy)
      obtain ⟨q, rfl⟩ := List.length_eq_one_iff.mp (hg _ _ hz)
      refine ⟨z :: xs, a :: ys, q :: gs, by simp [e1], by rw [e2, g1]; simp, by rw [e3, g2]; simp, by rw [e4, g3]; simp, by rw [e5, g4]; simp, by simp [hy, e6], by simp [hz, e7],
        by rw [e8, g6]; simp; omega, ?_⟩
      rcases e9 with e | e
      · left; simp [e]
      · exact Or.inr e
    · cases h
      refine ⟨[], [], [], by simp, by simp, by simp, by simp, by simp, by simp, by simp, rfl, Or.inr ?_⟩
      rw [← consError_eq]; exact not_le.mp hstop

/-! ## Exceptions in the middle of an iteration -/

/-- States of a single-fidelity optimiser when iterations may also be cut short by an exception. -/
inductive SFCrashReachable (p : SFProblem K X S W) : SFState K X S W → Prop
  | new (rng : W) {s} : p.new rng = .ok s → SFCrashReachable p s
  | step {s s'} : SFCrashReachable p s → p.iterate s = .ok s' → SFCrashReachable p s'
  | crash {s s'} : SFCrashReachable p s → p.Crash s s' → SFCrashReachable p s'

/-- The same for the multi-fidelity optimiser. -/
inductive MFCrashReachable (p : MFProblem K X S W) (cr : K) : MFState K X S W → Prop
  | new (rng : W) {s} : p.new rng = .ok s → MFCrashReachable p cr s
  | step {s s'} : MFCrashReachable p cr s → p.iterate cr s = .ok s' → MFCrashReachable p cr s'
  | crash {s s'} : MFCrashReachable p cr s → p.Crash cr s s' → MFCrashReachable p cr s'

/-- **C78 (single fidelity).** If an exception (raised by the acquisition, the objective or the surrogate's training) cuts an iteration short, samples and responses stay aligned, `best` and the history are
untouched; and whatever happened before, after the next completed iteration `best` is again the smallest of *all* responses held, observed at `best_x`.
The multi-fidelity optimiser does not recover, see `C78_mf_counterexample`. -/
theorem C78_sf_crash_partial (p : SFProblem K X S W) (hp : OneRowEach p.f) {s : SFState K X S W} (h : SFCrashReachable p s) :
    s.response.length = s.sample.length ∧
    (∀ s', p.Crash s s' → s'.best = s.best ∧ s'.bestX = s.bestX ∧ s'.historyBest = s.historyBest ∧ s.sample <+: s'.sample ∧ s.response <+: s'.response) ∧
    (∀ s', p.iterate s = .ok s' → IsLeast {y | y ∈ s'.response} s'.best ∧ ∃ j : ℕ, s'.sample[j]? = some s'.bestX ∧ s'.response[j]? = some s'.best) := by
  refine ⟨?_, ?_, ?_⟩
  · induction h with
    | new rng h => exact (sfInv_new hp h).align
    | step _ h ih =>
      obtain ⟨x, y, i, hy, g1, g2, _⟩ := sf_iterate_ok h
      rw [g1, g2]
      simp [ih, hp _ _ hy]
    | crash _ h ih =>
      cases h with
      | query => exact ih
      | objective => exact ih
      | training hq hf ht => simp [ih, hp _ _ hf]
  · intro s' h
    cases h with
    | query => exact ⟨rfl, rfl, rfl, List.prefix_rfl, List.prefix_rfl⟩
    | objective => exact ⟨rfl, rfl, rfl, List.prefix_rfl, List.prefix_rfl⟩
    | training => exact ⟨rfl, rfl, rfl, List.prefix_append _ _, List.prefix_append _ _⟩
  · intro s' h
    obtain ⟨x, y, i, hy, g1, g2, g3, g4, g5, g6, _⟩ := sf_iterate_ok h
    rw [g2]
    exact ⟨npMin_isLeast g4, i, by rw [g1]; exact g6, npArgmin_at g4 g5⟩

/-- The same for the constrained optimiser. -/
inductive ConsCrashReachable {c : ℕ} (p : ConsProblem K X S W c) : ConsState K X S W c → Prop
  | new (rng : W) {s} : p.new rng = .ok s → ConsCrashReachable p s
  | step {s s'} : ConsCrashReachable p s → p.iterate s = .ok s' → ConsCrashReachable p s'
  | crash {s s'} : ConsCrashReachable p s → p.Crash s s' → ConsCrashReachable p s'

/-- **C78 (constrained).** If an exception of the acquisition, the objective, the constraints or a training cuts an iteration short, samples, objective values and constraint rows stay aligned, and `best`,
`best_x` and the history are untouched; whatever happened before, after the next completed iteration `best` is again the smallest objective value over *all* held observations that satisfy every constraint (`+inf` with `best_x`
`None` if there is none). -/
theorem C78_cons_crash_partial {c : ℕ} (p : ConsProblem K X S W c) (hn : p.numCons = c) (hf : OneRowEach p.f) (hg : OneRowEach p.fCons) {s : ConsState K X S W c} (h : ConsCrashReachable p s) :
    (s.objResponse.length = s.sample.length ∧ s.consResponse.length = s.sample.length) ∧
    (∀ s', p.Crash s s' → s'.best = s.best ∧ s'.bestX = s.bestX ∧ s'.historyBest = s.historyBest ∧ s.sample <+: s'.sample ∧ s.objResponse <+: s'.objResponse ∧ s.consResponse <+: s'.consResponse) ∧
    (∀ s', p.iterate s = .ok s' →
      (∃ b : K, s'.best = b ∧ IsLeast {y | ∃ i, FeasibleAt s'.objResponse s'.consResponse i y} b ∧ s'.bestX ≠ none) ∨
      (s'.best = ⊤ ∧ s'.bestX = none ∧ ¬∃ i y, FeasibleAt s'.objResponse s'.consResponse i y)) := by
  have align : s.objResponse.length = s.sample.length ∧ s.consResponse.length = s.sample.length := by
    induction h with
    | new rng h => exact ⟨(consInv_new hn hf hg h).alignO, (consInv_new hn hf hg h).alignC⟩
    | step _ h ih =>
      obtain ⟨x, y, g, hy, hz, g1, g2, g3, _⟩ := cons_iterate_ok h
      rw [g1, g2, g3]
      simp [ih.1, ih.2, hf _ _ hy, hg _ _ hz]
    | crash _ h ih =>
      cases h with
      | query => exact ih
      | objective => exact ih
      | constraints => exact ih
      | training hq hy hz ht => simp [ih.1, ih.2, hf _ _ hy, hg _ _ hz]
  refine ⟨align, ?_, ?_⟩
  · intro s' h
    cases h with
    | query => exact ⟨rfl, rfl, rfl, List.prefix_rfl, List.prefix_rfl, List.prefix_rfl⟩
    | objective => exact ⟨rfl, rfl, rfl, List.prefix_rfl, List.prefix_rfl, List.prefix_rfl⟩
    | constraints => exact ⟨rfl, rfl, rfl, List.prefix_rfl, List.prefix_rfl, List.prefix_rfl⟩
    | training => exact ⟨rfl, rfl, rfl, List.prefix_append _ _, List.prefix_append _ _, List.prefix_append _ _⟩
  · intro s' h
    obtain ⟨x, y, g, hy, hz, g1, g2, g3, g4, g5, _⟩ := cons_iterate_ok h
    have a1 : s'.objResponse.length = s'.sample.length := by rw [g1, g2]; simp [align.1, hf _ _ hy]
    have a2 : s'.consResponse.length = s'.sample.length := by rw [g1, g3]; simp [align.2, hg _ _ hz]
    rw [hn] at g5
    rcases consPara_spec s'.sample s'.objResponse s'.consResponse a1 a2 with ⟨b, xs, hb, hl, _⟩ | ⟨hb, hno⟩
    · rw [← g5] at hb
      exact Or.inl ⟨b, congrArg Prod.fst hb, hl, by rw [show s'.bestX = some xs from congrArg Prod.snd hb]; simp⟩
    · rw [← g5] at hb
      exact Or.inr ⟨congrArg Prod.fst hb, congrArg Prod.snd hb, hno⟩

/-- **C78 (multi-fidelity, part).** After any crashes the samples and responses of both fidelities are aligned, a crash leaves `best`, `best_x` and the history untouched, `best` is a held high-fidelity response observed
at `best_x`, and a completed high-fidelity iteration sets it to the smaller one of itself and the new response.  What is missing, the responses held from the iterations that crashed, is never looked at again:
`C78_mf_counterexample`. -/
theorem C78_mf_crash_partial (p : MFProblem K X S W) (hh : OneRowEach p.hf) (hl : OneRowEach p.lf)
    (hp : ∀ xs ys, p.call xs = .ok ys → ys.1.length = xs.1.length ∧ ys.2.length = xs.2.length) {cr : K} {s : MFState K X S W} (h : MFCrashReachable p cr s) :
    (s.responseH.length = s.sampleH.length ∧ s.responseL.length = s.sampleL.length) ∧
    (∃ j : ℕ, s.sampleH[j]? = some s.bestX ∧ s.responseH[j]? = some s.best) ∧
    (∀ s', p.Crash cr s s' → s'.best = s.best ∧ s'.bestX = s.bestX ∧ s'.historyBest = s.historyBest) ∧
    (∀ s', p.iterate cr s = .ok s' → (s'.responseH = s.responseH ∧ s'.best = s.best) ∨ ∃ y, s'.responseH = s.responseH ++ [y] ∧ s'.best = min s.best y) := by
  have align : (s.responseH.length = s.sampleH.length ∧ s.responseL.length = s.sampleL.length) ∧ ∃ j : ℕ, s.sampleH[j]? = some s.bestX ∧ s.responseH[j]? = some s.best := by
    have ext : ∀ {α : Type} {l : List α} {j : ℕ} {a : α} (m : List α), l[j]? = some a → (l ++ m)[j]? = some a := by
      intro α l j a m h
      rw [List.getElem?_append_left (List.getElem?_eq_some_iff.mp h).1, h]
    induction h with
    | new rng h => exact ⟨⟨(mfInv_new hp h).alignH, (mfInv_new hp h).alignL⟩, (mfInv_new hp h).bestX⟩
    | @step s s' _ h ih =>
      obtain ⟨x, fid, -, -, -, -, h⟩ := mf_iterate_ok h
      obtain ⟨⟨a1, a2⟩, j, j1, j2⟩ := ih
      rcases h with ⟨-, y, hy, g1, g2, g3, g4, -, y0, hy0, hb⟩ | ⟨-, y, hy, g1, g2, g3, g4, -, hb, hx⟩
      · refine ⟨⟨by rw [g1, g2]; simp [a1, hh _ _ hy], by rw [g3, g4, a2]⟩, ?_⟩
        rcases hb with ⟨-, e1, e2⟩ | ⟨-, e1, e2⟩
        · refine ⟨s.sampleH.length, by rw [g1, e2]; simp, ?_⟩
          rw [g2, e1, ← a1, List.getElem?_append_right (le_refl _)]
          simpa using hy0
        · exact ⟨j, by rw [g1, e2]; exact ext _ j1, by rw [g2, e1]; exact ext _ j2⟩
      · exact ⟨⟨by rw [g3, g4, a1], by rw [g1, g2]; simp [a2, hl _ _ hy]⟩, j, by rw [g3, hx]; exact j1, by rw [g4, hb]; exact j2⟩
    | crash _ h ih =>
      obtain ⟨⟨a1, a2⟩, j, j1, j2⟩ := ih
      cases h with
      | query => exact ⟨⟨a1, a2⟩, j, j1, j2⟩
      | evaluationH => exact ⟨⟨a1, a2⟩, j, j1, j2⟩
      | evaluationL => exact ⟨⟨a1, a2⟩, j, j1, j2⟩
      | trainingH hq hy ht => exact ⟨⟨by simp [a1, hh _ _ hy], a2⟩, j, ext _ j1, ext _ j2⟩
      | trainingL hq h0 hy ht => exact ⟨⟨a1, by simp [a2, hl _ _ hy]⟩, j, j1, j2⟩
  refine ⟨align.1, align.2, ?_, ?_⟩
  · intro s' h
    cases h <;> exact ⟨rfl, rfl, rfl⟩
  · intro s' h
    obtain ⟨x, fid, -, -, -, -, h⟩ := mf_iterate_ok h
    rcases h with ⟨-, y, hy, g1, g2, g3, g4, -, y0, hy0, hb⟩ | ⟨-, y, hy, g1, g2, g3, g4, -, hb, hx⟩
    · obtain ⟨a, rfl⟩ := length_one (hh _ _ hy)
      simp only [List.getElem?_cons_zero, Option.some.injEq] at hy0
      subst hy0
      refine Or.inr ⟨a, g2, ?_⟩
      rcases hb with ⟨hlt, e1, -⟩ | ⟨hle, e1, -⟩
      · rw [e1, min_eq_right hlt.le]
      · rw [e1, min_eq_left hle]
    · exact Or.inl ⟨g4, hb⟩

/-- A surrogate whose training fails on three samples. -/
def exSFCrash : SFProblem ℚ ℚ ℕ ℕ :=
  { exSF with train := fun s xs _ w => if xs.length = 3 then .error .linAlgError else .ok (s + 1, w) }

/-- Non-vacuity: this single-fidelity optimiser crashes in its first iteration, after the optimum was evaluated and recorded. -/
theorem exSFCrash_crashes : ∃ s s', exSFCrash.new 3 = .ok s ∧ exSFCrash.Crash s s' ∧ s'.sample = [0, 10, 3] ∧ s'.best = 9 := by
  have h : exSFCrash.new 3 = .ok { initSample := [0, 10], initResponse := [9, 49], sample := [0, 10], response := [9, 49], surrogate := 1, best := 9, bestX := 0, historyBest := [9],
                                   historyBestX := [0], rng := 3, calls := [[0, 10]] } := by
    norm_num [SFProblem.new, exSFCrash, exSF, npMin, npArgmin, argminScan, npRow, bind, Except.bind]
  refine ⟨_, _, h, SFProblem.Crash.training (x := 3) (r := 4) (y := [(3 - 3) ^ 2]) (e := .linAlgError) (su := 0) (w := 0) ?_ ?_ ?_, ?_, ?_⟩ <;> rfl

/-- A constrained problem whose constraint function raises at 3 and whose surrogate cannot be trained on three samples. -/
def exConsCrash : ConsProblem ℚ ℚ ℕ ℕ 1 :=
  { exCons with
    fCons := fun xs => if xs = [3] then .error .valueError else .ok (xs.map fun x _ => -x)
    train := fun s xs _ _ w => if xs.length = 3 then .error .linAlgError else .ok (s + 1, w)
    query := fun _ w => .ok ((w : ℚ), w + 1) }

/-- Non-vacuity: this constrained optimiser crashes in its first iteration, after the feasible point 0 with a better objective value was recorded; the next iteration completes and reports it. -/
theorem exConsCrash_recovers : ∃ s, ConsCrashReachable exConsCrash s ∧ s.sample = [1, -1, 0, 1] ∧ s.best = ((0 : ℚ) : WithTop ℚ) := by
  refine ⟨_, ConsCrashReachable.step (ConsCrashReachable.crash (ConsCrashReachable.new 0 rfl)
    (ConsProblem.Crash.training (x := 0) (r := 1) (y := [0]) (g := [fun _ => 0]) (e := .linAlgError) (su := 0) (w := 1) ?_ ?_ ?_ ?_)) rfl, ?_, ?_⟩
  · norm_num [exConsCrash, exCons]
  · norm_num [exConsCrash, exCons]
  · norm_num [exConsCrash, exCons]
  · norm_num [exConsCrash, exCons]
  · norm_num [exConsCrash, exCons]
  · norm_num [consPara, consBest, feasibleIndex, positionsOf, List.range, List.range.loop, npMin, npRow, bind, Except.bind, pure, Except.pure, List.filter, List.mapM_cons, List.mapM_nil,
      Finset.filter, exCons, exConsCrash]

/-- A surrogate whose training fails exactly when the newest high-fidelity sample is 3 (the minimiser). -/
def exCrash : MFProblem ℚ ℚ ℕ ℕ :=
  { exMF with
    train := fun s xs _ w => if xs.1.getLast? = some 3 then .error .linAlgError else .ok (s + 1, w)
    query := fun _ _ _ w => .ok (((w : ℚ), 0), w + 1) }

def exCrashStart : MFState ℚ ℚ ℕ ℕ where
  initSample := ([0, 10], [0, 5, 10])
  initResponse := ([9, 49], [4, -1, 44])
  sampleH := [0, 10]
  sampleL := [0, 5, 10]
  responseH := [9, 49]
  responseL := [4, -1, 44]
  surrogate := 1
  best := 9
  bestX := 0
  historyBest := [9]
  historyBestX := [0]
  fidelityOrder := []
  rng := 3
  calls := []

def exCrashEnd : MFState ℚ ℚ ℕ ℕ :=
  { exCrashStart with
    sampleH := [0, 10, 3, 4], responseH := [9, 49, 0, 1], surrogate := 2, best := 1, bestX := 4, historyBest := [9, 1], historyBestX := [0, 4], fidelityOrder := [0], rng := 5,
    calls := [(true, [3]), (true, [4])] }

/-- **C78 is false of the multi-fidelity optimiser**: an optimiser whose surrogate fails to train right after the optimum 3 was evaluated keeps that observation among its responses, but
when the run is resumed and the next iteration completes, `best` is not the smallest high-fidelity response, and never will be made so by the later iterations, which compare new responses only. -/
theorem C78_mf_counterexample : ∃ s, MFCrashReachable exCrash 1 s ∧ s.historyBest.length = 2 ∧ s.best = 1 ∧ (0 : ℚ) ∈ s.responseH := by
  have h1 : exCrash.new 3 = .ok exCrashStart := by
    norm_num [MFProblem.new, exCrash, exMF, npMin, npArgmin, argminScan, npRow, bind, Except.bind, exCrashStart]
  refine ⟨exCrashEnd, ?_, rfl, rfl, by simp [exCrashEnd]⟩
  refine MFCrashReachable.step (MFCrashReachable.crash (MFCrashReachable.new 3 h1) (MFProblem.Crash.trainingH (x := 3) (y := [0]) (r := 4) (su := 1) (w := 4) (e := .linAlgError) rfl ?_ ?_)) ?_
  · norm_num [exCrash, exMF]
  · norm_num [exCrash, exCrashStart]
  · norm_num [MFProblem.iterate, exCrash, exMF, npRow, bind, Except.bind, mfUpdatePara, exCrashStart, exCrashEnd]

end Mfpml.Props
