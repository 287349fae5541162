import Verif.Lemmas.BayesOptHeap
import Verif.Props.BayesOpt

/-!
# Writing into the arrays a Bayesian optimiser hands out (C138)

The full statement: "a program may do what it likes with `best_x` and `history_best_x`; whatever it writes into these arrays, what the optimiser has recorded and all later runs are as if nothing had been written."
It holds for the constrained optimiser (`C138_cons`).  It is false for the other two (`C138_counterexample`); `C138_sf_partial` and `C138_mf_partial` say which writes are harmless and `C138_sf_write`, `C138_mf_write`
what the others do.
-/

namespace Mfpml.Props

open Mfpml.BO Mfpml.BOHeap Mfpml.Spec

variable {K : Type} [Field K] [LinearOrder K] {X S W : Type}

/-- As long as nothing is written, the object with memory shows what the model without memory computes: the theorems about the latter (C51-C59, C77) hold of the former. -/
theorem C138_sf_values (p : SFProblem K X S W) (rng : W) (l : List (ℕ × K)) :
    Agree SFShows (sfNew p rng >>= sfExec p (l.map fun r => .run r.1 r.2)) (p.new rng >>= sfRuns p l) := by
  refine Agree.bind (sfNew_shows p rng) ?_
  induction l with
  | nil => rintro s v ⟨_, h⟩; exact Agree.ok h
  | cons r l ih =>
    rintro s v ⟨hs, h⟩
    show Agree SFShows (sfLoop p r.2 r.1 s >>= _) ((p.loop r.2 r.1 v >>= _) >>= _)
    rcases sfLoop_shows p r.2 r.1 hs h with ⟨e, h1, h2⟩ | ⟨a, b, h1, h2, h3⟩
    · exact Or.inl ⟨e, by rw [h1]; rfl, by rw [h2]; rfl⟩
    · rw [h1, h2]
      exact ih a b h3

/-- C138 (single fidelity, partial): a program that writes only into entries of `history_best_x` other than the last, or into the entry of the initial design, gets the same runs as the program without its writes:
the same samples, responses, incumbents, surrogate, random state and evaluations, or the same exception. -/
theorem C138_sf_partial (p : SFProblem K X S W) {rng : W} {s : SFObj K X S W} (h : sfNew p rng = .ok s) (ops : List (SFOp K X)) (hsafe : SFSafe p ops s) :
    Agree (fun a b => sfRecord a = sfRecord b) (sfExec p ops s) (sfExec p (ops.filter sfIsRun) s) := by
  have key : ∀ (ops : List (SFOp K X)) (s t : SFObj K X S W), SFHeapInv s → sfRecord s = sfRecord t → SFSafe p ops s →
      Agree (fun a b => sfRecord a = sfRecord b) (sfExec p ops s) (sfExec p (ops.filter sfIsRun) t) := by
    intro ops
    induction ops with
    | nil => intro s t _ h _; exact Agree.ok h
    | cons o l ih =>
      intro s t hs h hsafe
      cases o with
      | run k stop =>
        show Agree _ (sfLoop p stop k s >>= _) (sfLoop p stop k t >>= _)
        rcases sfLoop_agree p stop k h with ⟨e, h1, h2⟩ | ⟨a, b, h1, h2, h3⟩
        · exact Or.inl ⟨e, by rw [h1]; rfl, by rw [h2]; rfl⟩
        · rw [h1, h2]
          exact ih a b (sfHeapInv_loop hs h1) h3 (hsafe a h1)
      | writeHistory k x =>
        obtain ⟨hk, hsafe⟩ := hsafe
        show Agree _ (sfStep p s (.writeHistory k x) >>= _) _
        simp only [sfStep] at hsafe ⊢
        rcases hr : s.historyBestX[k]? with _ | r
        · rw [hr] at hsafe
          exact ih s t hs h (hsafe s rfl)
        · rw [hr] at hsafe
          refine ih _ t (sfHeapInv_write hs r x) ?_ (hsafe _ rfl)
          rw [← h]
          have hb := hs.refs k r hr
          have hl := hs.pos
          have hne : r.block ≠ s.sample := by
            rw [hs.sample, hb]
            split <;> omega
          simp only [sfRecord, rows_write_ne _ _ _ hne]
      | writeBest x =>
        obtain ⟨hk, hsafe⟩ := hsafe
        refine ih _ t (sfHeapInv_write hs s.bestX x) ?_ (hsafe _ rfl)
        rw [← h]
        have hlast := hs.last
        rw [hk] at hlast
        have hb := hs.refs 0 _ hlast
        have hne : s.bestX.block ≠ s.sample := by
          rw [hs.sample, hb, hk]
          simp
        simp only [sfRecord, rows_write_ne _ _ _ hne]
  exact key ops s s (sfHeapInv_new h) rfl hsafe

/-- What the other writes do: once an iteration has been made, writing `x` into `best_x` replaces the sample of the smallest response by `x`; the response stays, and so does everything else. -/
theorem C138_sf_write (p : SFProblem K X S W) {rng : W} {s₀ s : SFObj K X S W} (h₀ : sfNew p rng = .ok s₀) (ops : List (SFOp K X)) (h : sfExec p ops s₀ = .ok s) (hit : 2 ≤ s.historyBest.length)
    (x : X) : ∃ i s', sfStep p s (.writeBest x) = .ok s' ∧ npArgmin s.response = .ok i ∧
      sfRecord s' = { sfRecord s with sample := (sfRecord s).sample.set i x } := by
  have harg : ∀ (ops : List (SFOp K X)) (s t : SFObj K X S W), (∃ i, s.bestX.row = i ∧ npArgmin s.response = .ok i) → sfExec p ops s = .ok t → ∃ i, t.bestX.row = i ∧ npArgmin t.response = .ok i := by
    intro ops
    induction ops with
    | nil => intro s t hs h; cases h; exact hs
    | cons o l ih =>
      intro s t hs h
      obtain ⟨u, h1, h2⟩ := Py.bind_ok.mp h
      refine ih u t ?_ h2
      cases o with
      | run k stop =>
        have hl : ∀ (k : ℕ) (s u : SFObj K X S W), (∃ i, s.bestX.row = i ∧ npArgmin s.response = .ok i) → sfLoop p stop k s = .ok u → ∃ i, u.bestX.row = i ∧ npArgmin u.response = .ok i := by
          intro k
          induction k with
          | zero => intro s u hs h; cases h; exact hs
          | succ k ihk =>
            intro s u hs h
            unfold sfLoop at h
            split at h
            · obtain ⟨v, h3, h4⟩ := Py.bind_ok.mp h
              obtain ⟨i, _, _, _, _, hb, _, _, ha⟩ := sfIterate_ok h3
              exact ihk v u ⟨i, by rw [hb], ha⟩ h4
            · cases h; exact hs
        exact hl k s u hs h1
      | writeHistory k x =>
        simp only [sfStep] at h1
        split at h1 <;> cases h1 <;> exact hs
      | writeBest x => cases h1; exact hs
  have hinv := sfHeapInv_exec (sfHeapInv_new h₀) h
  have h0 : ∃ i, s₀.bestX.row = i ∧ npArgmin s₀.response = .ok i := by
    obtain ⟨⟨sample, rng'⟩, h1, h₀⟩ := Py.bind_ok.mp h₀
    obtain ⟨response, h2, h₀⟩ := Py.bind_ok.mp h₀
    obtain ⟨⟨su, rng2⟩, h3, h₀⟩ := Py.bind_ok.mp h₀
    obtain ⟨best, h4, h₀⟩ := Py.bind_ok.mp h₀
    obtain ⟨i, h5, h₀⟩ := Py.bind_ok.mp h₀
    obtain ⟨_, h6, h₀⟩ := Py.bind_ok.mp h₀
    cases h₀
    exact ⟨i, rfl, h5⟩
  obtain ⟨i, hi, ha⟩ := harg ops s₀ s h0 h
  refine ⟨i, _, rfl, ha, ?_⟩
  have hb := hinv.refs _ _ hinv.last
  rw [if_neg (by omega)] at hb
  have hb : s.bestX.block = s.sample := by rw [hinv.sample, hb]; omega
  simp only [sfRecord, ← hb, rows_write_eq, hi]

/-- As `C138_sf_values`, multi-fidelity. -/
theorem C138_mf_values (p : MFProblem K X S W) (rng : W) (l : List (ℕ × K × K)) :
    Agree MFShows (mfNew p rng >>= mfExec p (l.map fun r => .run r.1 r.2.1 r.2.2)) (p.new rng >>= mfRuns p l) := by
  refine Agree.bind (mfNew_shows p rng) ?_
  induction l with
  | nil => rintro s v ⟨_, h⟩; exact Agree.ok h
  | cons r l ih =>
    rintro s v ⟨hs, h⟩
    show Agree MFShows (mfLoop p r.2.1 r.2.2 r.1 s >>= _) (p.loop r.2.1 r.2.2 r.1 v >>= _)
    rcases mfLoop_shows p r.2.1 r.2.2 r.1 hs h with ⟨e, h1, h2⟩ | ⟨a, b, h1, h2, h3⟩
    · exact Or.inl ⟨e, by rw [h1]; rfl, by rw [h2]; rfl⟩
    · rw [h1, h2]
      exact ih a b h3

/-- C138 (multi-fidelity, partial): a program that writes into `best_x` and `history_best_x` only when a high-fidelity evaluation has been made since construction gets the same runs as without its writes. -/
theorem C138_mf_partial (p : MFProblem K X S W) {rng : W} {s : MFObj K X S W} (h : mfNew p rng = .ok s) (ops : List (MFOp K X)) (hsafe : MFSafe p ops s) :
    Agree (fun a b => mfRecord a = mfRecord b) (mfExec p ops s) (mfExec p (ops.filter mfIsRun) s) := by
  have hw : ∀ (s : MFObj K X S W) (r : RowRef) (x : X), MFHeapInv s → 0 ∈ s.fidelityOrder → r ∈ s.historyBestX → mfRecord { s with blocks := s.blocks.write r x } = mfRecord s := by
    intro s r x hs ho hr
    have h1 := hs.refs r hr
    have h2 : r.block ≠ s.sampleH := fun he => hs.order.mp ho (h1.2.2 he)
    simp only [mfRecord, rows_write_ne _ _ _ h2, rows_write_ne _ _ _ h1.2.1]
  have key : ∀ (ops : List (MFOp K X)) (s t : MFObj K X S W), MFHeapInv s → MFHeapInv t → mfRecord s = mfRecord t → MFSafe p ops s →
      Agree (fun a b => mfRecord a = mfRecord b) (mfExec p ops s) (mfExec p (ops.filter mfIsRun) t) := by
    intro ops
    induction ops with
    | nil => intro s t _ _ h _; exact Agree.ok h
    | cons o l ih =>
      intro s t hs ht h hsafe
      obtain ⟨hk, hsafe⟩ := hsafe
      cases o with
      | run k cr stop =>
        show Agree _ (mfLoop p cr stop k s >>= _) (mfLoop p cr stop k t >>= _)
        rcases mfLoop_agree p cr stop k hs ht h with ⟨e, h1, h2⟩ | ⟨a, b, h1, h2, h3⟩
        · exact Or.inl ⟨e, by rw [h1]; rfl, by rw [h2]; rfl⟩
        · rw [h1, h2]
          exact ih a b (mfHeapInv_loop hs h1) (mfHeapInv_loop ht h2) h3 (hsafe a h1)
      | writeHistory k x =>
        have hk : 0 ∈ s.fidelityOrder := by simpa [mfIsRun] using hk
        show Agree _ (mfStep p s (.writeHistory k x) >>= _) _
        simp only [mfStep] at hsafe ⊢
        rcases hr : s.historyBestX[k]? with _ | r
        · rw [hr] at hsafe
          exact ih s t hs ht h (hsafe s rfl)
        · rw [hr] at hsafe
          exact ih _ t (mfHeapInv_write hs r x) ht ((hw s r x hs hk (List.mem_of_getElem? hr)).trans h) (hsafe _ rfl)
      | writeBest x =>
        have hk : 0 ∈ s.fidelityOrder := by simpa [mfIsRun] using hk
        exact ih _ t (mfHeapInv_write hs s.bestX x) ht ((hw s _ x hs hk hs.last).trans h) (hsafe _ rfl)
  exact key ops s s (mfHeapInv_new h) (mfHeapInv_new h) rfl hsafe

/-- What the other writes do: as long as no high-fidelity evaluation has been made since construction, writing `x` into `best_x` replaces a high-fidelity sample by `x`, the one `best_x` showed; its response stays, and
so does everything else. -/
theorem C138_mf_write (p : MFProblem K X S W) {rng : W} {s₀ s : MFObj K X S W} (h₀ : mfNew p rng = .ok s₀) (ops : List (MFOp K X)) (h : mfExec p ops s₀ = .ok s) (hit : 0 ∉ s.fidelityOrder)
    (x : X) : ∃ i s', mfStep p s (.writeBest x) = .ok s' ∧ s.blocks.read s.bestX = (mfRecord s).sampleH[i]? ∧
      mfRecord s' = { mfRecord s with sampleH := (mfRecord s).sampleH.set i x } := by
  have hinv := mfHeapInv_exec (mfHeapInv_new h₀) h
  have hzero : s.bestX.block = 0 := by
    have key : ∀ (ops : List (MFOp K X)) (s t : MFObj K X S W), (0 ∉ s.fidelityOrder → s.bestX.block = 0) → mfExec p ops s = .ok t → 0 ∉ t.fidelityOrder → t.bestX.block = 0 := by
      intro ops
      induction ops with
      | nil => intro s t hs h; cases h; exact hs
      | cons o l ih =>
        intro s t hs h
        obtain ⟨u, h1, h2⟩ := Py.bind_ok.mp h
        refine ih u t ?_ h2
        cases o with
        | run k cr stop =>
          have hl : ∀ (k : ℕ) (s u : MFObj K X S W), (0 ∉ s.fidelityOrder → s.bestX.block = 0) → mfLoop p cr stop k s = .ok u → 0 ∉ u.fidelityOrder → u.bestX.block = 0 := by
            intro k
            induction k with
            | zero => intro s u hs h; cases h; exact hs
            | succ k ihk =>
              intro s u hs h
              unfold mfLoop at h
              split at h
              · obtain ⟨v, h3, h4⟩ := Py.bind_ok.mp h
                refine ihk v u ?_ h4
                obtain ⟨⟨⟨x, fid⟩, rng'⟩, _, h3⟩ := Py.bind_ok.mp h3
                by_cases hf : fid = 0
                · subst hf
                  intro hn
                  exfalso
                  apply hn
                  obtain ⟨⟨_, _⟩, _, h3⟩ := Py.bind_ok.mp h3
                  obtain ⟨⟨_, _⟩, _, h3⟩ := Py.bind_ok.mp h3
                  obtain ⟨⟨_, _⟩, _, h3⟩ := Py.bind_ok.mp h3
                  cases h3
                  simp
                · simp only [if_neg hf] at h3
                  obtain ⟨⟨_, _⟩, h5, h3⟩ := Py.bind_ok.mp h3
                  obtain ⟨_, _, h5⟩ := Py.bind_ok.mp h5
                  cases h5
                  obtain ⟨⟨_, _⟩, _, h3⟩ := Py.bind_ok.mp h3
                  cases h3
                  intro hn
                  exact hs fun hm => hn (List.mem_append_left _ hm)
              · cases h; exact hs
          exact hl k s u hs h1
        | writeHistory k x =>
          simp only [mfStep] at h1
          split at h1 <;> cases h1 <;> exact hs
        | writeBest x => cases h1; exact hs
    refine key ops s₀ s ?_ h hit
    obtain ⟨⟨sample, rng'⟩, h1, h₀⟩ := Py.bind_ok.mp h₀
    obtain ⟨response, h2, h₀⟩ := Py.bind_ok.mp h₀
    obtain ⟨_, _, h₀⟩ := Py.bind_ok.mp h₀
    obtain ⟨⟨su, rng2⟩, h3, h₀⟩ := Py.bind_ok.mp h₀
    obtain ⟨best, h4, h₀⟩ := Py.bind_ok.mp h₀
    obtain ⟨i, h5, h₀⟩ := Py.bind_ok.mp h₀
    obtain ⟨_, h6, h₀⟩ := Py.bind_ok.mp h₀
    cases h₀
    exact fun _ => rfl
  have hH : s.sampleH = 0 := by
    by_contra hc
    exact hit (hinv.order.mpr hc)
  have hL := hinv.posL
  refine ⟨s.bestX.row, _, rfl, ?_, ?_⟩
  · simp only [mfRecord, hH, Blocks.read, hzero]
  · have h1 : s.bestX.block ≠ s.sampleL := by omega
    have h2 : s.bestX.block = s.sampleH := by omega
    simp only [mfRecord, rows_write_ne _ _ _ h1, ← h2, rows_write_eq]

/-- As `C138_sf_values`, constrained. -/
theorem C138_cons_values {c : ℕ} (p : ConsProblem K X S W c) (rng : W) (l : List (ℕ × K)) :
    Agree ConsShows (consNew p rng >>= consExec p (l.map fun r => .run r.1 r.2)) (p.new rng >>= consRuns p l) := by
  refine Agree.bind (consNew_shows p rng) ?_
  induction l with
  | nil => rintro s v ⟨_, h⟩; exact Agree.ok h
  | cons r l ih =>
    rintro s v ⟨hs, h⟩
    show Agree ConsShows (consLoop p r.2 r.1 s >>= _) ((p.loop r.2 r.1 v >>= _) >>= _)
    rcases consLoop_shows p r.2 r.1 hs h with ⟨e, h1, h2⟩ | ⟨a, b, h1, h2, h3⟩
    · exact Or.inl ⟨e, by rw [h1]; rfl, by rw [h2]; rfl⟩
    · rw [h1, h2]
      exact ih a b h3

/-- C138 (constrained): whatever a program writes into `best_x` and `history_best_x`, and when: the runs, and what is recorded (the initial design included), are as without the writes. -/
theorem C138_cons {c : ℕ} (p : ConsProblem K X S W c) {rng : W} {s : ConsObj K X S W c} (h : consNew p rng = .ok s) (ops : List (ConsOp K X)) :
    Agree (fun a b => consRecord a = consRecord b) (consExec p ops s) (consExec p (ops.filter consIsRun) s) := by
  have key : ∀ (ops : List (ConsOp K X)) (s t : ConsObj K X S W c), ConsHeapInv s → ConsHeapInv t → consRecord s = consRecord t →
      Agree (fun a b => consRecord a = consRecord b) (consExec p ops s) (consExec p (ops.filter consIsRun) t) := by
    intro ops
    induction ops with
    | nil => intro s t _ _ h; exact Agree.ok h
    | cons o l ih =>
      intro s t hs ht h
      cases o with
      | run k stop =>
        show Agree _ (consLoop p stop k s >>= _) (consLoop p stop k t >>= _)
        rcases consLoop_agree p stop k hs ht h with ⟨e, h1, h2⟩ | ⟨a, b, h1, h2, h3⟩
        · exact Or.inl ⟨e, by rw [h1]; rfl, by rw [h2]; rfl⟩
        · rw [h1, h2]
          exact ih a b (consHeapInv_loop hs h1) (consHeapInv_loop ht h2) h3
      | writeHistory k x =>
        show Agree _ (consStep p s (.writeHistory k x) >>= _) _
        simp only [consStep]
        rcases hr : s.historyBestX[k]? with _ | r
        · exact ih s t hs ht h
        · exact ih _ t (consHeapInv_write hs x r) ht ((consRecord_write hs x (List.mem_of_getElem? hr)).trans h)
      | writeBest x => exact ih _ t (consHeapInv_write hs x s.bestX) ht ((consRecord_write hs x hs.last).trans h)
  exact key ops s s (consHeapInv_new h) (consHeapInv_new h) rfl

/-- C138 is false for the unconstrained optimisers. Single fidelity (squared distance to 3): one iteration finds `best_x = 4` with value 1, the program writes 7 into it, and after one more iteration the optimiser
reports the value 1 at 7, where the objective is 16, and its samples say that 7 was evaluated.  Without the write it reports 4.  Multi-fidelity: the program writes into `best_x` before the first run, and the
high-fidelity samples the surrogate is trained on say 7 where the objective was evaluated at 0. -/
theorem C138_counterexample :
    ((sfNew exSF 4 >>= sfExec exSF [.run 1 (1 / 2), .writeBest 7, .run 1 (1 / 2)]).map fun s => (s.best, s.blocks.read s.bestX, (sfRecord s).sample, s.calls)) =
        .ok (1, some 7, [0, 10, 7, 5], [[0, 10], [4], [5]]) ∧
      ((sfNew exSF 4 >>= sfExec exSF [.run 1 (1 / 2), .run 1 (1 / 2)]).map fun s => (s.best, s.blocks.read s.bestX, (sfRecord s).sample)) = .ok (1, some 4, [0, 10, 4, 5]) ∧
      exSF.f [7] = .ok [16] ∧
      ((mfNew exMF 1 >>= mfExec exMF [.writeBest 7, .run 1 1 (1 / 2)]).map fun s => ((mfRecord s).sampleH, s.responseH)) = .ok ([7, 10], [9, 49]) ∧
      exMF.hf [7, 10] = .ok [16, 49] := by
  refine ⟨?_, ?_, ?_, ?_, ?_⟩ <;>
  norm_num [sfNew, sfExec, sfStep, sfLoop, sfIterate, mfNew, mfExec, mfStep, mfLoop, mfIterate, exSF, exMF, npMin, npArgmin, argminScan, npRow, updateError, npAbs, bind, Except.bind, Except.map, Blocks.read, Blocks.rows,
    Blocks.write, sfRecord, mfRecord, List.modify]

/-- The single-fidelity object of the examples after construction. -/
def exSFObj : SFObj ℚ ℚ ℕ ℕ :=
  { blocks := [[0, 10], [0, 10]], initSample := 0, initResponse := [9, 49], sample := 1, response := [9, 49], surrogate := 1, best := 9, bestX := ⟨0, 0⟩, historyBest := [9], historyBestX := [⟨0, 0⟩], rng := 4,
    calls := [[0, 10]] }

/-- The multi-fidelity object of the examples after construction. -/
def exMFObj : MFObj ℚ ℚ ℕ ℕ :=
  { blocks := [[0, 10], [0, 5, 10]], initSampleH := 0, initSampleL := 1, sampleH := 0, sampleL := 1, responseH := [9, 49], responseL := [4, -1, 44], surrogate := 1, best := 9, bestX := ⟨0, 0⟩, historyBest := [9],
    historyBestX := [⟨0, 0⟩], fidelityOrder := [], rng := 1, calls := [] }

/-- The hypotheses of `C138_sf_partial` are met by a program that runs, writes into the first entry of the history, runs again and writes into the second; the writes arrive in the arrays. -/
theorem C138_sf_example : ∃ s, s = exSFObj ∧ sfNew exSF 4 = .ok s ∧ SFSafe exSF [.writeBest 8, .run 2 (1 / 2), .writeHistory 1 7, .run 1 (1 / 2)] s ∧
    ((sfExec exSF [.writeBest 8, .run 2 (1 / 2), .writeHistory 1 7, .run 1 (1 / 2)] s).map fun s => (s.historyBestX.map s.blocks.read, (sfRecord s).sample)) =
      .ok ([some 8, some 7, some 4, some 4], [0, 10, 4, 5, 6]) := by
  refine ⟨_, rfl, ?_, ?_, ?_⟩
  · norm_num [sfNew, exSF, exSFObj, npMin, npArgmin, argminScan, npRow, bind, Except.bind]
  · refine ⟨rfl, fun s' h => ?_⟩
    cases h
    intro s' h
    have h2 : s'.historyBest.length = 3 := by
      have : (.ok s' : Py (SFObj ℚ ℚ ℕ ℕ)).map (fun s => s.historyBest.length) = .ok 3 := by
        rw [← h]
        norm_num [sfStep, sfLoop, sfIterate, exSF, exSFObj, npMin, npArgmin, argminScan, npRow, updateError, npAbs, bind, Except.bind, Except.map, Blocks.rows, Blocks.write, List.modify]
      exact Except.ok.inj this
    refine ⟨Or.inr (by omega), fun s'' _ => ?_⟩
    exact fun _ _ => trivial
  · norm_num [sfExec, sfStep, sfLoop, sfIterate, exSF, exSFObj, npMin, npArgmin, argminScan, npRow, updateError, npAbs, bind, Except.bind, Except.map, Blocks.read, Blocks.rows, Blocks.write, sfRecord, List.modify]

/-- The hypotheses of `C138_mf_partial` are met by a program that writes into `best_x` after a high-fidelity evaluation; the one of `C138_mf_write` by the counterexample's program. -/
theorem C138_mf_example : ∃ s, s = exMFObj ∧ mfNew exMF 1 = .ok s ∧ MFSafe exMF [.run 2 1 (1 / 2), .writeBest 7, .run 1 1 (1 / 2)] s ∧ 0 ∉ s.fidelityOrder ∧
    ((mfExec exMF [.run 2 1 (1 / 2), .writeBest 7, .run 1 1 (1 / 2)] s).map fun s => (s.blocks.read s.bestX, (mfRecord s).sampleH, (mfRecord s).sampleL)) =
      .ok (some 7, [0, 10, 2], [0, 5, 10, 1, 3]) := by
  refine ⟨_, rfl, ?_, ?_, by simp [exMFObj], ?_⟩
  · norm_num [mfNew, exMF, exMFObj, npMin, npArgmin, argminScan, npRow, bind, Except.bind]
  · refine ⟨Or.inl rfl, fun s' h => ⟨Or.inr ?_, fun s'' _ => ⟨Or.inl rfl, fun _ _ => trivial⟩⟩⟩
    have : (.ok s' : Py (MFObj ℚ ℚ ℕ ℕ)).map (fun s => s.fidelityOrder) = .ok [1, 0] := by
      rw [← h]
      norm_num [mfStep, mfLoop, mfIterate, exMF, exMFObj, npMin, npArgmin, argminScan, npRow, updateError, npAbs, bind, Except.bind, Except.map, Blocks.rows, Blocks.write, List.modify]
    have : s'.fidelityOrder = [1, 0] := Except.ok.inj this
    rw [this]
    simp
  · norm_num [mfExec, mfStep, mfLoop, mfIterate, exMF, exMFObj, npMin, npArgmin, argminScan, npRow, updateError, npAbs, bind, Except.bind, Except.map, Blocks.read, Blocks.rows, Blocks.write, mfRecord, List.modify]

/-- A constrained optimiser into whose `best_x` a program writes: the arrays change, the samples do not. -/
theorem C138_cons_example : ((consNew exCons 3 >>= consExec exCons [.run 1 1, .writeBest [7], .writeHistory 0 [8], .run 1 1]).map fun s => (s.historyBestX.map (fun r => r.map s.blocks.rows), (consRecord s).sample)) =
    .ok ([some [8], some [7], some [1, -1]], [1, -1, 3, 4]) := by
  norm_num [consNew, consExec, consStep, consLoop, consIterate, ownArray, writeOwn, exCons, consPara, consBest, feasibleIndex, positionsOf, List.range, List.range.loop, npMin, npRow, consError,
    bind, Except.bind, Except.map, pure, Except.pure, List.filter, List.mapM_cons, List.mapM_nil, Finset.filter, Blocks.rows, consRecord]

end Mfpml.Props
