import Mathlib.Data.List.Basic
import Mathlib.Tactic.Linarith
import Mathlib.Tactic.Push
import Mathlib.Algebra.Order.Field.Basic
import Verif.Spec.BayesOpt
import Verif.Lemmas.Py

/-! # Helper lemmas about the Bayesian optimisation loops -/

set_option linter.unusedSectionVars false

namespace Mfpml.BO

open Mfpml.Spec

variable {K : Type} [Zero K] [One K] [Neg K] [Sub K] [Div K] [LinearOrder K] {X S W : Type}

theorem foldl_min_isLeast (l : List K) : ∀ a : K, IsLeast {y | y ∈ a :: l} (l.foldl min a) := by
  induction l with
  | nil => intro a; simp
  | cons b l ih =>
    intro a
    obtain ⟨h1, h2⟩ := ih (min a b)
    simp only [List.foldl_cons]
    constructor
    · simp only [Set.mem_ofPred_eq, List.mem_cons] at h1 ⊢
      rcases h1 with h1 | h1
      · rcases min_choice a b with h | h
        · left; rw [h1, h]
        · right; left; rw [h1, h]
      · right; right; exact h1
    · intro y hy
      simp only [Set.mem_ofPred_eq, List.mem_cons] at hy
      have hm : List.foldl min (min a b) l ≤ min a b := h2 (by simp)
      rcases hy with rfl | rfl | hy
      · exact le_trans hm (min_le_left _ _)
      · exact le_trans hm (min_le_right _ _)
      · exact h2 (by simp [hy])

theorem npMin_isLeast {l : List K} {m : K} (h : npMin l = .ok m) : IsLeast {y | y ∈ l} m := by
  cases l with
  | nil => cases h
  | cons a l => cases h; exact foldl_min_isLeast l a

theorem npMin_succeeds {l : List K} (h : l ≠ []) : ∃ m, npMin l = .ok m := by
  cases l with
  | nil => exact absurd rfl h
  | cons a l => exact ⟨_, rfl⟩

theorem argminScan_spec (l : List K) : ∀ (pre : List K) (m : K) (b : ℕ), pre[b]? = some m → (∀ y ∈ pre, m ≤ y) →
    (pre ++ l)[argminScan m b pre.length l]? = some (l.foldl min m) := by
  induction l with
  | nil => intro pre m b hb _; simpa [argminScan] using hb
  | cons a l ih =>
    intro pre m b hb hm
    simp only [argminScan, List.foldl_cons]
    have hlt : b < pre.length := by
      by_contra hc
      rw [List.getElem?_eq_none (by omega)] at hb; cases hb
    by_cases h : a < m
    · rw [if_pos h, min_eq_right h.le]
      have := ih (pre ++ [a]) a pre.length (by simp) (by
        intro y hy; simp only [List.mem_append, List.mem_singleton] at hy
        rcases hy with hy | rfl
        · exact h.le.trans (hm y hy)
        · exact le_rfl)
      simpa using this
    · rw [if_neg h, min_eq_left (not_lt.mp h)]
      have := ih (pre ++ [a]) m b (by rw [List.getElem?_append_left hlt]; exact hb) (by
        intro y hy; simp only [List.mem_append, List.mem_singleton] at hy
        rcases hy with hy | rfl
        · exact hm y hy
        · exact not_lt.mp h)
      simpa using this

theorem npArgmin_at {l : List K} {m : K} {i : ℕ} (hm : npMin l = .ok m) (hi : npArgmin l = .ok i) : l[i]? = some m := by
  cases l with
  | nil => cases hm
  | cons a l =>
    cases hm; cases hi
    exact argminScan_spec l [a] a 0 rfl (by simp)

theorem npArgmin_succeeds {l : List K} (h : l ≠ []) : ∃ m, npArgmin l = .ok m := by
  cases l with
  | nil => exact absurd rfl h
  | cons a l => exact ⟨_, rfl⟩

theorem npRow_ok {α : Type} {l : List α} {i : ℕ} {x : α} : npRow l i = .ok x ↔ l[i]? = some x := by
  unfold npRow
  cases h : l[i]? with
  | none => simp
  | some y => simp

theorem length_one {y : List K} (h : y.length = 1) : ∃ a, y = [a] := List.length_eq_one_iff.mp h

theorem updateError_computed (best : K) (known : Option K) : updateError best known = computedError best known := by
  cases known with
  | none => rfl
  | some o =>
    simp only [updateError, computedError, npAbs]
    by_cases h : o = 0
    · rw [if_neg (not_not.mpr h), if_pos h]
    · rw [if_pos h, if_neg h]

theorem npAbs_eq {K : Type} [Field K] [LinearOrder K] (a : K) : npAbs a = |a| := rfl

theorem updateError_eq {K : Type} [Field K] [LinearOrder K] [IsStrictOrderedRing K] (best : K) (known : Option K) : updateError best known = optimumError best known := by
  cases known with
  | none => rfl
  | some o =>
    simp only [updateError, optimumError, npAbs_eq]
    by_cases h : o = 0
    · simp [h]
    · simp [h, abs_div]

/-! ## Single fidelity -/

/-- What one iteration does. -/
theorem sf_iterate_ok {p : SFProblem K X S W} {s s' : SFState K X S W} (h : p.iterate s = .ok s') :
    ∃ x y i, p.f [x] = .ok y ∧ s'.sample = s.sample ++ [x] ∧ s'.response = s.response ++ y ∧ s'.calls = s.calls ++ [[x]] ∧
      npMin (s.response ++ y) = .ok s'.best ∧ npArgmin (s.response ++ y) = .ok i ∧ (s.sample ++ [x])[i]? = some s'.bestX ∧
      s'.historyBest = s.historyBest ++ [s'.best] ∧ s'.historyBestX = s.historyBestX ++ [s'.bestX] ∧
      s'.initSample = s.initSample ∧ s'.initResponse = s.initResponse := by
  unfold SFProblem.iterate at h
  obtain ⟨⟨x, r⟩, _, h⟩ := Py.bind_ok.mp h
  obtain ⟨y, hy, h⟩ := Py.bind_ok.mp h
  obtain ⟨⟨su, r'⟩, _, h⟩ := Py.bind_ok.mp h
  obtain ⟨m, hm, h⟩ := Py.bind_ok.mp h
  obtain ⟨i, hi, h⟩ := Py.bind_ok.mp h
  obtain ⟨bx, hbx, h⟩ := Py.bind_ok.mp h
  cases h
  exact ⟨x, y, i, hy, rfl, rfl, rfl, hm, hi, npRow_ok.mp hbx, rfl, rfl, rfl, rfl⟩

/-- The bookkeeping invariant of the single-fidelity optimiser. -/
structure SFInv (s : SFState K X S W) : Prop where
  init : s.initSample.length ≤ s.sample.length
  align : s.response.length = s.sample.length
  count : s.sample.length + 1 = s.initSample.length + s.historyBest.length
  countX : s.historyBestX.length = s.historyBest.length
  countCalls : s.calls.length = s.historyBest.length
  calls : s.calls.flatten = s.sample
  hist : ∀ (i : ℕ) (b : K), s.historyBest[i]? = some b → IsLeast {y | y ∈ s.response.take (s.initSample.length + i)} b
  histX : ∀ (i : ℕ) (b : K) (x : X), s.historyBest[i]? = some b → s.historyBestX[i]? = some x →
    ∃ j < s.initSample.length + i, s.sample[j]? = some x ∧ s.response[j]? = some b
  last : s.historyBest.getLast? = some s.best
  lastX : s.historyBestX.getLast? = some s.bestX

theorem sfInv_new {p : SFProblem K X S W} (hp : OneRowEach p.f) {rng : W} {s : SFState K X S W} (h : p.new rng = .ok s) : SFInv s := by
  unfold SFProblem.new at h
  obtain ⟨⟨x, r⟩, _, h⟩ := Py.bind_ok.mp h
  obtain ⟨y, hy, h⟩ := Py.bind_ok.mp h
  obtain ⟨⟨su, r'⟩, _, h⟩ := Py.bind_ok.mp h
  obtain ⟨m, hm, h⟩ := Py.bind_ok.mp h
  obtain ⟨i, hi, h⟩ := Py.bind_ok.mp h
  obtain ⟨bx, hbx, h⟩ := Py.bind_ok.mp h
  have hl := hp _ _ hy
  have hat := npArgmin_at hm hi
  have hlt : i < y.length := by
    by_contra hc
    rw [List.getElem?_eq_none (by omega)] at hat; cases hat
  cases h
  refine ⟨le_rfl, hl, by simp, rfl, rfl, by simp, ?_, ?_, rfl, rfl⟩
  · intro k b hb
    have hk : k = 0 := by
      by_contra hc
      rw [List.getElem?_eq_none (by simp; omega)] at hb; cases hb
    subst hk
    simp only [List.getElem?_cons_zero, Option.some.injEq] at hb
    subst hb
    simpa [← hl] using npMin_isLeast hm
  · intro k b xx hb hx
    have hk : k = 0 := by
      by_contra hc
      rw [List.getElem?_eq_none (by simp; omega)] at hb; cases hb
    subst hk
    simp only [List.getElem?_cons_zero, Option.some.injEq] at hb hx
    subst hb; subst hx
    exact ⟨i, by simp; omega, npRow_ok.mp hbx, hat⟩

theorem sfInv_iterate {p : SFProblem K X S W} (hp : OneRowEach p.f) {s s' : SFState K X S W} (hs : SFInv s) (h : p.iterate s = .ok s') : SFInv s' := by
  obtain ⟨x, y, i, hy, h1, h2, h3, h4, h5, h6, h7, h8, h9, _⟩ := sf_iterate_ok h
  obtain ⟨a, rfl⟩ := length_one (hp _ _ hy)
  have hat := npArgmin_at h4 h5
  have hal := hs.align
  have hco := hs.count
  have hin := hs.init
  have hcx := hs.countX
  have hlt : i < s.response.length + 1 := by
    by_contra hc
    rw [List.getElem?_eq_none (by simp; omega)] at hat; cases hat
  refine ⟨by rw [h1, h9]; simp; omega, by rw [h1, h2]; simp [hal], by rw [h1, h7, h9]; simp; omega, by rw [h7, h8]; simp [hcx],
    by rw [h3, h7]; simp [hs.countCalls], by rw [h3, h1]; simp [hs.calls], ?_, ?_, by rw [h7]; simp, by rw [h8]; simp⟩
  · intro k b hb
    rw [h9, h2]
    rw [h7] at hb
    rcases lt_trichotomy k s.historyBest.length with hk | hk | hk
    · rw [List.getElem?_append_left hk] at hb
      rw [List.take_append_of_le_length (by omega)]
      exact hs.hist k b hb
    · subst hk
      simp only [List.getElem?_concat_length, Option.some.injEq] at hb
      subst hb
      rw [List.take_of_length_le (by simp; omega)]
      exact npMin_isLeast h4
    · rw [List.getElem?_eq_none (by simp; omega)] at hb; cases hb
  · intro k b xx hb hx
    rw [h9, h2, h1]
    rw [h7] at hb
    rw [h8] at hx
    rcases lt_trichotomy k s.historyBest.length with hk | hk | hk
    · rw [List.getElem?_append_left hk] at hb
      rw [List.getElem?_append_left (by omega)] at hx
      obtain ⟨j, hj, e1, e2⟩ := hs.histX k b xx hb hx
      exact ⟨j, hj, by rw [List.getElem?_append_left (by omega)]; exact e1, by rw [List.getElem?_append_left (by omega)]; exact e2⟩
    · have hk' : k = s.historyBestX.length := by omega
      rw [hk] at hb
      rw [hk'] at hx
      simp only [List.getElem?_concat_length, Option.some.injEq] at hb hx
      subst hb; subst hx
      exact ⟨i, by omega, h6, hat⟩
    · rw [List.getElem?_eq_none (by simp; omega)] at hb; cases hb

theorem sf_loop_inv {p : SFProblem K X S W} (P : SFState K X S W → Prop) (hstep : ∀ s s', P s → p.iterate s = .ok s' → P s') (stop : K) :
    ∀ (k : ℕ) (s s' : SFState K X S W), P s → p.loop stop k s = .ok s' → P s' := by
  intro k
  induction k with
  | zero => intro s s' hs h; cases h; exact hs
  | succ k ih =>
    intro s s' hs h
    simp only [SFProblem.loop] at h
    split_ifs at h
    · obtain ⟨t, ht, h⟩ := Py.bind_ok.mp h
      exact ih t s' (hstep s t hs ht) h
    · cases h; exact hs

theorem sf_run_ok {p : SFProblem K X S W} {k : ℕ} {stop : K} {s s' : SFState K X S W} {b : K} {x : X} (h : p.run k stop s = .ok (s', b, x)) :
    p.loop stop k s = .ok s' ∧ b = s'.best ∧ x = s'.bestX := by
  unfold SFProblem.run at h
  obtain ⟨t, ht, h⟩ := Py.bind_ok.mp h
  cases h
  exact ⟨ht, rfl, rfl⟩

theorem sfInv_reachable {p : SFProblem K X S W} (hp : OneRowEach p.f) {s : SFState K X S W} (h : SFReachable p s) : SFInv s := by
  induction h with
  | new rng h => exact sfInv_new hp h
  | run k stop _ h ih => exact sf_loop_inv SFInv (fun _ _ => sfInv_iterate hp) stop k _ _ ih (sf_run_ok h).1

/-! ## Multi-fidelity -/

/-- What one multi-fidelity iteration does. -/
theorem mf_iterate_ok {p : MFProblem K X S W} {cr : K} {s s' : MFState K X S W} (h : p.iterate cr s = .ok s') :
    ∃ x fid, s'.fidelityOrder = s.fidelityOrder ++ [fid] ∧ s'.historyBest = s.historyBest ++ [s'.best] ∧ s'.historyBestX = s.historyBestX ++ [s'.bestX] ∧
      s'.initSample = s.initSample ∧
      ((fid = 0 ∧ ∃ y, p.hf [x] = .ok y ∧ s'.sampleH = s.sampleH ++ [x] ∧ s'.responseH = s.responseH ++ y ∧ s'.sampleL = s.sampleL ∧ s'.responseL = s.responseL ∧
          s'.calls = s.calls ++ [(true, [x])] ∧ ∃ y0, y[0]? = some y0 ∧ ((y0 < s.best ∧ s'.best = y0 ∧ s'.bestX = x) ∨ (s.best ≤ y0 ∧ s'.best = s.best ∧ s'.bestX = s.bestX))) ∨
        (fid ≠ 0 ∧ ∃ y, p.lf [x] = .ok y ∧ s'.sampleL = s.sampleL ++ [x] ∧ s'.responseL = s.responseL ++ y ∧ s'.sampleH = s.sampleH ∧ s'.responseH = s.responseH ∧
          s'.calls = s.calls ++ [(false, [x])] ∧ s'.best = s.best ∧ s'.bestX = s.bestX)) := by
  unfold MFProblem.iterate at h
  obtain ⟨⟨⟨x, fid⟩, r⟩, _, h⟩ := Py.bind_ok.mp h
  obtain ⟨⟨t, y⟩, ht, h⟩ := Py.bind_ok.mp h
  obtain ⟨⟨su, r'⟩, _, h⟩ := Py.bind_ok.mp h
  unfold mfUpdatePara at h
  obtain ⟨⟨b, bx⟩, hb, h⟩ := Py.bind_ok.mp h
  cases h
  by_cases hf : fid = 0
  · simp only [if_pos hf] at ht hb
    obtain ⟨y', hy, ht⟩ := Py.bind_ok.mp ht
    cases ht
    obtain ⟨y0, hy0, hb⟩ := Py.bind_ok.mp hb
    refine ⟨x, fid, rfl, rfl, rfl, rfl, Or.inl ⟨hf, y, hy, rfl, rfl, rfl, rfl, rfl, y0, npRow_ok.mp hy0, ?_⟩⟩
    simp only at hb
    split_ifs at hb with hlt
    · cases hb; exact Or.inl ⟨hlt, rfl, rfl⟩
    · cases hb; exact Or.inr ⟨not_lt.mp hlt, rfl, rfl⟩
  · simp only [if_neg hf] at ht hb
    obtain ⟨y', hy, ht⟩ := Py.bind_ok.mp ht
    cases ht
    cases hb
    exact ⟨x, fid, rfl, rfl, rfl, rfl, Or.inr ⟨hf, y, hy, rfl, rfl, rfl, rfl, rfl, rfl, rfl⟩⟩

theorem mf_loop_inv {p : MFProblem K X S W} {cr : K} (P : MFState K X S W → Prop) (hstep : ∀ s s', P s → p.iterate cr s = .ok s' → P s') (stop : K) :
    ∀ (k : ℕ) (s s' : MFState K X S W), P s → p.loop cr stop k s = .ok s' → P s' := by
  intro k
  induction k with
  | zero => intro s s' hs h; cases h; exact hs
  | succ k ih =>
    intro s s' hs h
    simp only [MFProblem.loop] at h
    split_ifs at h
    · obtain ⟨t, ht, h⟩ := Py.bind_ok.mp h
      exact ih t s' (hstep s t hs ht) h
    · cases h; exact hs

/-- The bookkeeping invariant of the multi-fidelity optimiser. -/
structure MFInv (s : MFState K X S W) : Prop where
  alignH : s.responseH.length = s.sampleH.length
  alignL : s.responseL.length = s.sampleL.length
  best : IsLeast {y | y ∈ s.responseH} s.best
  bestX : ∃ j : ℕ, s.sampleH[j]? = some s.bestX ∧ s.responseH[j]? = some s.best
  countX : s.historyBestX.length = s.historyBest.length
  count : s.historyBest.length = s.fidelityOrder.length + 1
  countCalls : s.calls.length = s.fidelityOrder.length
  countH : s.sampleH.length = s.initSample.1.length + s.fidelityOrder.countP (· = 0)
  countL : s.sampleL.length = s.initSample.2.length + s.fidelityOrder.countP (· ≠ 0)
  anti : s.historyBest.Pairwise (· ≥ ·)
  above : ∀ b ∈ s.historyBest, s.best ≤ b
  last : s.historyBest.getLast? = some s.best
  lastX : s.historyBestX.getLast? = some s.bestX
  stay : ∀ (i : ℕ) (fid : ℤ), s.fidelityOrder[i]? = some fid → fid ≠ 0 →
    s.historyBest[i + 1]? = s.historyBest[i]? ∧ s.historyBestX[i + 1]? = s.historyBestX[i]?

theorem mfInv_new {p : MFProblem K X S W} (hp : ∀ xs ys, p.call xs = .ok ys → ys.1.length = xs.1.length ∧ ys.2.length = xs.2.length) {rng : W}
    {s : MFState K X S W} (h : p.new rng = .ok s) : MFInv s := by
  unfold MFProblem.new at h
  obtain ⟨⟨x, r⟩, _, h⟩ := Py.bind_ok.mp h
  obtain ⟨y, hy, h⟩ := Py.bind_ok.mp h
  obtain ⟨su0, _, h⟩ := Py.bind_ok.mp h
  obtain ⟨⟨su, r'⟩, _, h⟩ := Py.bind_ok.mp h
  obtain ⟨m, hm, h⟩ := Py.bind_ok.mp h
  obtain ⟨i, hi, h⟩ := Py.bind_ok.mp h
  obtain ⟨bx, hbx, h⟩ := Py.bind_ok.mp h
  obtain ⟨h1, h2⟩ := hp _ _ hy
  cases h
  exact ⟨h1, h2, npMin_isLeast hm, ⟨i, npRow_ok.mp hbx, npArgmin_at hm hi⟩, rfl, rfl, rfl, by simp, by simp, by simp, by simp, rfl, rfl, by simp⟩

theorem mfInv_iterate {p : MFProblem K X S W} (hh : OneRowEach p.hf) (hl : OneRowEach p.lf) {cr : K} {s s' : MFState K X S W} (hs : MFInv s)
    (h : p.iterate cr s = .ok s') : MFInv s' := by
  obtain ⟨x, fid, h1, h2, h3, h4, h⟩ := mf_iterate_ok h
  have hne : s.historyBest ≠ [] := by
    intro hc
    have := hs.count
    rw [hc] at this; simp at this
  -- everything about the histories follows from `s'.best ≤ s.best`
  have hist : s'.best ≤ s.best → (fid ≠ 0 → s'.best = s.best ∧ s'.bestX = s.bestX) →
      s'.historyBest.Pairwise (· ≥ ·) ∧ (∀ b ∈ s'.historyBest, s'.best ≤ b) ∧ (∀ (i : ℕ) (fid : ℤ), s'.fidelityOrder[i]? = some fid → fid ≠ 0 →
        s'.historyBest[i + 1]? = s'.historyBest[i]? ∧ s'.historyBestX[i + 1]? = s'.historyBestX[i]?) := by
    intro hle hstay
    refine ⟨?_, ?_, ?_⟩
    · rw [h2, List.pairwise_append]
      exact ⟨hs.anti, by simp, fun b hb c hc => by simp only [List.mem_singleton] at hc; rw [hc]; exact hle.trans (hs.above b hb)⟩
    · intro b hb
      rw [h2] at hb
      simp only [List.mem_append, List.mem_singleton] at hb
      rcases hb with hb | hb
      · exact hle.trans (hs.above b hb)
      · exact hb.ge
    · intro i g hg hg0
      rw [h1] at hg
      have hc := hs.count
      have hcx := hs.countX
      rcases lt_trichotomy i s.fidelityOrder.length with hi | hi | hi
      · rw [List.getElem?_append_left hi] at hg
        obtain ⟨e1, e2⟩ := hs.stay i g hg hg0
        rw [h2, h3]
        rw [List.getElem?_append_left (by omega), List.getElem?_append_left (by omega), List.getElem?_append_left (by omega), List.getElem?_append_left (by omega)]
        exact ⟨e1, e2⟩
      · subst hi
        simp only [List.getElem?_concat_length, Option.some.injEq] at hg
        obtain ⟨e1, e2⟩ := hstay (by rw [hg]; exact hg0)
        have hl1 := hs.last
        have hl2 := hs.lastX
        rw [List.getLast?_eq_getElem?, hc] at hl1
        rw [List.getLast?_eq_getElem?, hcx, hc] at hl2
        simp only [Nat.add_sub_cancel] at hl1 hl2
        have q1 : (s.historyBest ++ [s'.best])[s.fidelityOrder.length + 1]? = some s'.best := by rw [← hc]; simp
        have q2 : (s.historyBestX ++ [s'.bestX])[s.fidelityOrder.length + 1]? = some s'.bestX := by rw [← hc, ← hcx]; simp
        have q3 : (s.historyBest ++ [s'.best])[s.fidelityOrder.length]? = some s.best := by rw [List.getElem?_append_left (by omega), hl1]
        have q4 : (s.historyBestX ++ [s'.bestX])[s.fidelityOrder.length]? = some s.bestX := by rw [List.getElem?_append_left (by omega), hl2]
        rw [h2, h3, q1, q2, q3, q4, e1, e2]
        exact ⟨rfl, rfl⟩
      · rw [List.getElem?_eq_none (by simp; omega)] at hg; cases hg
  obtain ⟨j, hj1, hj2⟩ := hs.bestX
  have hjl : j < s.responseH.length := by
    by_contra hc
    rw [List.getElem?_eq_none (by omega)] at hj2; cases hj2
  have hjs : j < s.sampleH.length := by rw [← hs.alignH]; exact hjl
  rcases h with ⟨hf, y, hy, e1, e2, e3, e4, e5, y0, hy0, hb⟩ | ⟨hf, y, hy, e1, e2, e3, e4, e5, hb, hbx⟩
  · obtain ⟨a, rfl⟩ := length_one (hh _ _ hy)
    simp only [List.getElem?_cons_zero, Option.some.injEq] at hy0
    subst hy0
    have hle : s'.best ≤ s.best := by rcases hb with ⟨q, q', _⟩ | ⟨_, q, _⟩ <;> rw [‹s'.best = _›]; exact q.le
    obtain ⟨g1, g2, g3⟩ := hist hle (fun hc => absurd hf hc)
    refine ⟨by rw [e1, e2]; simp [hs.alignH], by rw [e3, e4]; exact hs.alignL, ?_, ?_, by rw [h2, h3]; simp [hs.countX], by rw [h2, h1]; simp [hs.count],
      by rw [e5, h1]; simp [hs.countCalls], by rw [e1, h1, h4]; simp [hf, hs.countH]; omega, by rw [e3, h1, h4]; simp [hf, hs.countL], g1, g2, by rw [h2]; simp, by rw [h3]; simp, g3⟩
    · rw [e2]
      constructor
      · rcases hb with ⟨_, q, _⟩ | ⟨_, q, _⟩
        · simp [q]
        · simp only [Set.mem_ofPred_eq, List.mem_append, q]; exact Or.inl hs.best.1
      · intro z hz
        simp only [Set.mem_ofPred_eq, List.mem_append, List.mem_singleton] at hz
        rcases hz with hz | rfl
        · exact hle.trans (hs.best.2 hz)
        · rcases hb with ⟨_, q, _⟩ | ⟨q', q, _⟩
          · exact q.le
          · rw [q]; exact q'
    · rw [e1, e2]
      rcases hb with ⟨_, q, q'⟩ | ⟨_, q, q'⟩
      · exact ⟨s.sampleH.length, by simp [q'], by rw [← hs.alignH]; simp [q]⟩
      · exact ⟨j, by rw [List.getElem?_append_left hjs, q']; exact hj1, by rw [List.getElem?_append_left hjl, q]; exact hj2⟩
  · obtain ⟨a, rfl⟩ := length_one (hl _ _ hy)
    obtain ⟨g1, g2, g3⟩ := hist hb.le (fun _ => ⟨hb, hbx⟩)
    exact ⟨by rw [e3, e4]; exact hs.alignH, by rw [e1, e2]; simp [hs.alignL], by rw [e4, hb]; exact hs.best, ⟨j, by rw [e3, hbx]; exact hj1, by rw [e4, hb]; exact hj2⟩,
      by rw [h2, h3]; simp [hs.countX], by rw [h2, h1]; simp [hs.count],
      by rw [e5, h1]; simp [hs.countCalls], by rw [e3, h1, h4]; simp [hf, hs.countH], by rw [e1, h1, h4]; simp [hf, hs.countL]; omega, g1, g2, by rw [h2]; simp, by rw [h3]; simp, g3⟩

/-! ## Constrained -/

theorem cons_iterate_ok {c : ℕ} {p : ConsProblem K X S W c} {s s' : ConsState K X S W c} (h : p.iterate s = .ok s') :
    ∃ x y g, p.f [x] = .ok y ∧ p.fCons [x] = .ok g ∧ s'.sample = s.sample ++ [x] ∧ s'.objResponse = s.objResponse ++ y ∧ s'.consResponse = s.consResponse ++ g ∧
      s'.calls = s.calls ++ [[x]] ∧ (s'.best, s'.bestX) = consPara p.numCons s'.sample s'.objResponse s'.consResponse ∧
      s'.historyBest = s.historyBest ++ [s'.best] ∧ s'.historyBestX = s.historyBestX ++ [s'.bestX] := by
  unfold ConsProblem.iterate at h
  obtain ⟨⟨x, r⟩, _, h⟩ := Py.bind_ok.mp h
  obtain ⟨y, hy, h⟩ := Py.bind_ok.mp h
  obtain ⟨g, hg, h⟩ := Py.bind_ok.mp h
  obtain ⟨⟨su, r'⟩, _, h⟩ := Py.bind_ok.mp h
  cases h
  exact ⟨x, y, g, hy, hg, rfl, rfl, rfl, rfl, rfl, rfl, rfl⟩

theorem cons_loop_inv {c : ℕ} {p : ConsProblem K X S W c} (P : ConsState K X S W c → Prop) (hstep : ∀ s s', P s → p.iterate s = .ok s' → P s') (stop : K) :
    ∀ (k : ℕ) (s s' : ConsState K X S W c), P s → p.loop stop k s = .ok s' → P s' := by
  intro k
  induction k with
  | zero => intro s s' hs h; cases h; exact hs
  | succ k ih =>
    intro s s' hs h
    simp only [ConsProblem.loop] at h
    split_ifs at h
    · obtain ⟨t, ht, h⟩ := Py.bind_ok.mp h
      exact ih t s' (hstep s t hs ht) h
    · cases h; exact hs

theorem cons_run_ok {c : ℕ} {p : ConsProblem K X S W c} {k : ℕ} {stop : K} {s s' : ConsState K X S W c} {b x} (h : p.run k stop s = .ok (s', b, x)) :
    p.loop stop k s = .ok s' ∧ b = s'.best ∧ x = s'.bestX := by
  unfold ConsProblem.run at h
  obtain ⟨t, ht, h⟩ := Py.bind_ok.mp h
  cases h
  exact ⟨ht, rfl, rfl⟩

theorem mapM_npRow_ok {α : Type} {l : List α} : ∀ (idx : List ℕ), (∀ i ∈ idx, i < l.length) → ∃ ys, idx.mapM (npRow l) = .ok ys ∧ ∀ y, y ∈ ys ↔ ∃ i ∈ idx, l[i]? = some y := by
  intro idx
  induction idx with
  | nil => intro _; exact ⟨[], rfl, by simp⟩
  | cons a idx ih =>
    intro h
    obtain ⟨ys, h1, h2⟩ := ih fun i hi => h i (by simp [hi])
    have ha : a < l.length := h a (by simp)
    refine ⟨l[a] :: ys, ?_, ?_⟩
    · rw [List.mapM_cons]
      exact Py.bind_ok.mpr ⟨l[a], npRow_ok.mpr (List.getElem?_eq_getElem ha), Py.bind_ok.mpr ⟨ys, h1, rfl⟩⟩
    · intro y
      simp only [List.mem_cons, h2, exists_eq_or_imp, List.getElem?_eq_getElem ha, Option.some.injEq]
      constructor
      · rintro (h | h)
        · exact Or.inl h.symm
        · exact Or.inr h
      · rintro (h | h)
        · exact Or.inl h.symm
        · exact Or.inr h

theorem mem_feasibleIndex {c : ℕ} {cons : List (Fin c → K)} {i : ℕ} : i ∈ feasibleIndex c cons ↔ ∃ g, cons[i]? = some g ∧ ∀ j, g j ≤ 0 := by
  unfold feasibleIndex
  simp only [List.mem_filter, List.mem_range]
  constructor
  · rintro ⟨h1, h2⟩
    rw [List.getElem?_eq_getElem h1] at h2 ⊢
    refine ⟨_, rfl, ?_⟩
    simp only [decide_eq_true_eq] at h2
    intro j
    have : (Finset.univ.filter fun j => cons[i] j ≤ 0) = Finset.univ := Finset.eq_univ_of_card _ (by simpa using h2)
    have hj := Finset.mem_univ j
    rw [← this] at hj
    exact (Finset.mem_filter.mp hj).2
  · rintro ⟨g, h1, h2⟩
    have hlt : i < cons.length := by
      by_contra hc
      rw [List.getElem?_eq_none (by omega)] at h1; cases h1
    refine ⟨hlt, ?_⟩
    rw [h1]
    simp only [decide_eq_true_eq]
    rw [Finset.filter_true_of_mem fun j _ => h2 j]
    simp

theorem mem_positionsOf {y : K} {obj : List K} {i : ℕ} : i ∈ positionsOf y obj ↔ obj[i]? = some y := by
  unfold positionsOf
  simp only [List.mem_filter, List.mem_range, decide_eq_true_eq]
  constructor
  · exact fun h => h.2
  · intro h
    refine ⟨?_, h⟩
    by_contra hc
    rw [List.getElem?_eq_none (by omega)] at h; cases h

/-- What the best-feasible computation gives on aligned arrays. -/
theorem consPara_spec {c : ℕ} (sample : List X) (obj : List K) (cons : List (Fin c → K)) (h1 : obj.length = sample.length) (h2 : cons.length = sample.length) :
    (∃ (b : K) (xs : List X), consPara c sample obj cons = ((b : WithTop K), some xs) ∧ IsLeast {y | ∃ i, FeasibleAt obj cons i y} b ∧
        ∀ x, x ∈ xs ↔ ∃ i : ℕ, sample[i]? = some x ∧ obj[i]? = some b) ∨
      (consPara c sample obj cons = (⊤, none) ∧ ¬∃ i y, FeasibleAt obj cons i y) := by
  have hidx : ∀ i ∈ feasibleIndex c cons, i < obj.length := by
    intro i hi
    obtain ⟨g, hg, _⟩ := mem_feasibleIndex.mp hi
    by_contra hc
    rw [List.getElem?_eq_none (by omega)] at hg; cases hg
  obtain ⟨feas, hf1, hf2⟩ := mapM_npRow_ok (l := obj) _ hidx
  by_cases hne : feas = []
  · right
    constructor
    · have : consBest c sample obj cons = .error .valueError := by
        unfold consBest
        exact Py.bind_error.mpr (Or.inr ⟨feas, hf1, Py.bind_error.mpr (Or.inl (by rw [hne]; rfl))⟩)
      unfold consPara
      rw [this]
    · rintro ⟨i, y, hy, hg⟩
      have : y ∈ feas := (hf2 y).mpr ⟨i, mem_feasibleIndex.mpr hg, hy⟩
      rw [hne] at this; cases this
  · left
    obtain ⟨m, hm⟩ := npMin_succeeds hne
    obtain ⟨xs, hx1, hx2⟩ := mapM_npRow_ok (l := sample) (positionsOf m obj) (by
      intro i hi
      have := mem_positionsOf.mp hi
      by_contra hc
      rw [List.getElem?_eq_none (by omega)] at this; cases this)
    refine ⟨m, xs, ?_, ?_, ?_⟩
    · have : consBest c sample obj cons = .ok (m, xs) := by
        unfold consBest
        exact Py.bind_ok.mpr ⟨feas, hf1, Py.bind_ok.mpr ⟨m, hm, Py.bind_ok.mpr ⟨xs, hx1, rfl⟩⟩⟩
      unfold consPara
      rw [this]
    · have hl := npMin_isLeast hm
      constructor
      · obtain ⟨i, hi, hy⟩ := (hf2 m).mp hl.1
        exact ⟨i, hy, mem_feasibleIndex.mp hi⟩
      · rintro y ⟨i, hy, hg⟩
        exact hl.2 ((hf2 y).mpr ⟨i, mem_feasibleIndex.mpr hg, hy⟩)
    · intro x
      rw [hx2]
      simp only [mem_positionsOf]
      constructor
      · rintro ⟨i, a, b⟩; exact ⟨i, b, a⟩
      · rintro ⟨i, a, b⟩; exact ⟨i, b, a⟩

/-- The bookkeeping invariant of the constrained optimiser. -/
structure ConsInv {c : ℕ} (s : ConsState K X S W c) : Prop where
  alignO : s.objResponse.length = s.sample.length
  alignC : s.consResponse.length = s.sample.length
  best : (s.best, s.bestX) = consPara c s.sample s.objResponse s.consResponse
  calls : s.calls.flatten = s.sample
  countCalls : s.calls.length = s.historyBest.length
  countX : s.historyBestX.length = s.historyBest.length
  anti : s.historyBest.Pairwise (· ≥ ·)
  above : ∀ b ∈ s.historyBest, s.best ≤ b
  last : s.historyBest.getLast? = some s.best
  lastX : s.historyBestX.getLast? = some s.bestX

theorem consInv_new {c : ℕ} {p : ConsProblem K X S W c} (hn : p.numCons = c) (hf : OneRowEach p.f) (hg : OneRowEach p.fCons) {rng : W} {s : ConsState K X S W c}
    (h : p.new rng = .ok s) : ConsInv s := by
  unfold ConsProblem.new at h
  obtain ⟨⟨x, r⟩, _, h⟩ := Py.bind_ok.mp h
  obtain ⟨y, hy, h⟩ := Py.bind_ok.mp h
  obtain ⟨g, hg', h⟩ := Py.bind_ok.mp h
  obtain ⟨⟨su, r'⟩, _, h⟩ := Py.bind_ok.mp h
  cases h
  exact ⟨hf _ _ hy, hg _ _ hg', Eq.trans (b := consPara p.numCons x y g) rfl (by rw [hn]), by simp, rfl, rfl, by simp, by simp, rfl, rfl⟩

theorem consInv_iterate {c : ℕ} {p : ConsProblem K X S W c} (hn : p.numCons = c) (hf : OneRowEach p.f) (hg : OneRowEach p.fCons) {s s' : ConsState K X S W c}
    (hs : ConsInv s) (h : p.iterate s = .ok s') : ConsInv s' := by
  obtain ⟨x, y, g, hy, hg', e1, e2, e3, e4, e5, e6, e7⟩ := cons_iterate_ok h
  have ly : y.length = 1 := hf _ _ hy
  have lg : g.length = 1 := hg _ _ hg'
  have a1 : s'.objResponse.length = s'.sample.length := by rw [e1, e2]; simp [hs.alignO, ly]
  have a2 : s'.consResponse.length = s'.sample.length := by rw [e1, e3]; simp [hs.alignC, lg]
  rw [hn] at e5
  have hle : s'.best ≤ s.best := by
    rcases consPara_spec s.sample s.objResponse s.consResponse hs.alignO hs.alignC with ⟨b, xs, hb, hl, _⟩ | ⟨hb, _⟩
    · rw [← hs.best] at hb
      have hb1 : s.best = b := congrArg Prod.fst hb
      have hmono : ∃ i, FeasibleAt s'.objResponse s'.consResponse i b := by
        obtain ⟨i, hi, q, hq, hq'⟩ := hl.1
        have l1 : i < s.objResponse.length := by
          by_contra hc
          rw [List.getElem?_eq_none (by omega)] at hi; cases hi
        refine ⟨i, ?_, q, ?_, hq'⟩
        · rw [e2, List.getElem?_append_left l1]; exact hi
        · rw [e3, List.getElem?_append_left (by rw [hs.alignC, ← hs.alignO]; exact l1)]; exact hq
      rcases consPara_spec s'.sample s'.objResponse s'.consResponse a1 a2 with ⟨b', xs', hb', hl', _⟩ | ⟨hb', hno⟩
      · rw [← e5] at hb'
        have : s'.best = b' := congrArg Prod.fst hb'
        rw [this, hb1]
        exact WithTop.coe_le_coe.mpr (hl'.2 hmono)
      · exact absurd (let ⟨i, hi⟩ := hmono; ⟨i, b, hi⟩) hno
    · rw [← hs.best] at hb
      have hb1 : s.best = ⊤ := congrArg Prod.fst hb
      rw [hb1]; exact le_top
  refine ⟨a1, a2, e5, by rw [e4, e1]; simp [hs.calls], by rw [e4, e6]; simp [hs.countCalls], by rw [e6, e7]; simp [hs.countX], ?_, ?_, by rw [e6]; simp, by rw [e7]; simp⟩
  · rw [e6, List.pairwise_append]
    exact ⟨hs.anti, by simp, fun b hb q hq => by simp only [List.mem_singleton] at hq; rw [hq]; exact hle.trans (hs.above b hb)⟩
  · intro b hb
    rw [e6] at hb
    simp only [List.mem_append, List.mem_singleton] at hb
    rcases hb with hb | hb
    · exact hle.trans (hs.above b hb)
    · exact hb.ge

theorem consInv_reachable {c : ℕ} {p : ConsProblem K X S W c} (hn : p.numCons = c) (hf : OneRowEach p.f) (hg : OneRowEach p.fCons) {s : ConsState K X S W c}
    (h : ConsReachable p s) : ConsInv s := by
  induction h with
  | new rng h => exact consInv_new hn hf hg h
  | run k stop _ h ih => exact cons_loop_inv ConsInv (fun _ _ => consInv_iterate hn hf hg) stop k _ _ ih (cons_run_ok h).1

theorem mfInv_reachable {p : MFProblem K X S W} (hh : OneRowEach p.hf) (hl : OneRowEach p.lf)
    (hp : ∀ xs ys, p.call xs = .ok ys → ys.1.length = xs.1.length ∧ ys.2.length = xs.2.length) {s : MFState K X S W} (h : MFReachable p s) : MFInv s := by
  induction h with
  | new rng h => exact mfInv_new hp h
  | run k cr stop _ h ih => exact mf_loop_inv MFInv (fun _ _ => mfInv_iterate hh hl) stop k _ _ ih h

end Mfpml.BO
