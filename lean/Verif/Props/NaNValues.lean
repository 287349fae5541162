import Verif.Model.EvolutionaryNaN
import Verif.Lemmas.Py
import Mathlib.Tactic.Linarith
import Mathlib.Tactic.FinCases
import Mathlib.Data.Fintype.Basic
import Mathlib.Data.Fin.VecNotation
import Mathlib.Data.Rat.Defs
import Mathlib.Algebra.Order.Ring.Rat

/-!
# Objectives that return nan (C148)
-/

set_option linter.unusedSectionVars false

namespace Mfpml.Props

open Mfpml.EANaN
open Mfpml.EA (Box Pop PSOCfg DECfg PSORand DERand locInit locCons velocityCons vMax deCheck)

section MinArgmin

variable {V : Type} [LinearOrder V]

theorem nan_min2 (a : Val V) : Val.min2 a .nan = .nan ∧ Val.min2 .nan a = .nan := by cases a <;> exact ⟨rfl, rfl⟩

private theorem min_fold_nan {p : ℕ} (v : Fin (p + 1) → Val V) (l : List (Fin p)) : l.foldl (fun (m : Val V) i => m.min2 (v i.succ)) (.nan : Val V) = .nan := by
  induction l with
  | nil => rfl
  | cons a l ih => simp only [List.foldl_cons, (nan_min2 _).2]; exact ih

private theorem min_fold {p : ℕ} (v : Fin (p + 1) → Val V) (l : List (Fin p)) (m : Val V) :
    (m = .nan ∨ (∃ i ∈ l, v i.succ = .nan) → l.foldl (fun m i => m.min2 (v i.succ)) m = .nan) ∧
    (∀ a, m = .num a → (∀ i ∈ l, v i.succ ≠ .nan) → ∃ y, l.foldl (fun m i => m.min2 (v i.succ)) m = .num y ∧ y ≤ a ∧ (∀ i ∈ l, ∀ w, v i.succ = .num w → y ≤ w) ∧ (y = a ∨ ∃ i ∈ l, v i.succ = .num y)) := by
  induction l generalizing m with
  | nil =>
    refine ⟨?_, ?_⟩
    · rintro (h | ⟨i, hi, _⟩)
      · exact h
      · cases hi
    · intro a h _; exact ⟨a, h, le_refl _, by simp, .inl rfl⟩
  | cons b l ih =>
    simp only [List.foldl_cons]
    refine ⟨?_, ?_⟩
    · rintro (h | ⟨i, hi, h⟩)
      · rw [h, (nan_min2 _).2]; exact min_fold_nan v l
      · rcases List.mem_cons.mp hi with rfl | hi
        · rw [h, (nan_min2 _).1]; exact min_fold_nan v l
        · exact (ih _).1 (.inr ⟨i, hi, h⟩)
    · intro a h hn
      subst h
      cases hb : v b.succ with
      | nan => exact absurd hb (hn b List.mem_cons_self)
      | num w =>
        obtain ⟨y, h1, h2, h3, h4⟩ := (ih (Val.min2 (.num a) (.num w))).2 (min a w) rfl (fun i hi => hn i (List.mem_cons_of_mem _ hi))
        refine ⟨y, h1, h2.trans (min_le_left _ _), ?_, ?_⟩
        · intro i hi w' hw'
          rcases List.mem_cons.mp hi with rfl | hi
          · rw [hb] at hw'; cases hw'; exact h2.trans (min_le_right _ _)
          · exact h3 i hi w' hw'
        · rcases h4 with h4 | ⟨i, hi, h4⟩
          · rcases min_choice a w with hm | hm
            · left; rw [h4, hm]
            · right; exact ⟨b, List.mem_cons_self, by rw [hb, h4, hm]⟩
          · right; exact ⟨i, List.mem_cons_of_mem _ hi, h4⟩

/-- `min` of a column with a nan is nan. -/
theorem nan_colMin {p : ℕ} {v : Fin (p + 1) → Val V} (h : ∃ i, v i = .nan) : colMin v = .nan := by
  obtain ⟨i, hi⟩ := h
  refine (min_fold v (List.finRange p) (v 0)).1 ?_
  revert hi
  refine Fin.cases (fun h => .inl h) (fun j h => .inr ⟨j, List.mem_finRange j, h⟩) i

/-- `min` of a column of numbers. -/
theorem num_colMin {p : ℕ} {v : Fin (p + 1) → Val V} (h : ∀ i, v i ≠ .nan) : ∃ y, colMin v = .num y ∧ (∀ i w, v i = .num w → y ≤ w) ∧ ∃ i, v i = .num y := by
  cases h0 : v 0 with
  | nan => exact absurd h0 (h 0)
  | num a =>
    obtain ⟨y, h1, h2, h3, h4⟩ := (min_fold v (List.finRange p) (v 0)).2 a h0 (fun i _ => h i.succ)
    refine ⟨y, h1, fun i => ?_, ?_⟩
    · refine Fin.cases (fun w hw => ?_) (fun j => h3 j (List.mem_finRange j)) i
      rw [h0] at hw; cases hw; exact h2
    · rcases h4 with h4 | ⟨i, _, h4⟩
      · exact ⟨0, by rw [h0, h4]⟩
      · exact ⟨i.succ, h4⟩

/-- Invariant of the search of `argmin` after the first `k` entries. -/
private theorem argmin_fold {p : ℕ} (v : Fin (p + 1) → Val V) : ∀ (l done : List (Fin p)) (best : Fin (p + 1)), done ++ l = List.finRange p →
    (∀ i ∈ done, ∀ a w, v best = .num a → v i.succ = .num w → a ≤ w) → (∀ a w, v best = .num a → v 0 = .num w → a ≤ w) →
    ((v best ≠ .nan ∧ v 0 ≠ .nan ∧ ∀ i ∈ done, v i.succ ≠ .nan) ∨ (v best = .nan ∧ ∀ j < best, v j ≠ .nan)) →
    let r := l.foldl (fun best i => better v best i.succ) best
    (∀ i a w, v r = .num a → v i = .num w → a ≤ w) ∧ ((∀ i, v i ≠ .nan) ∨ (v r = .nan ∧ ∀ j < r, v j ≠ .nan)) := by
  intro l
  induction l with
  | nil =>
    intro done best hd h1 h2 h3
    simp only [List.append_nil] at hd
    subst hd
    refine ⟨fun i => Fin.cases h2 (fun j => h1 j (List.mem_finRange j)) i, ?_⟩
    rcases h3 with ⟨_, h4, h5⟩ | h
    · exact .inl fun i => Fin.cases h4 (fun j => h5 j (List.mem_finRange j)) i
    · exact .inr h
  | cons b l ih =>
    intro done best hd h1 h2 h3
    have hd' : (done ++ [b]) ++ l = List.finRange p := by rw [List.append_assoc]; exact hd
    have hlt : ∀ j : Fin (p + 1), j < b.succ → j = 0 ∨ ∃ i ∈ done, j = i.succ := by
      intro j hj
      refine Fin.cases (fun _ => .inl rfl) (fun i hi => .inr ⟨i, ?_, rfl⟩) j hj
      have hm : i ∈ done ++ b :: l := by rw [hd]; exact List.mem_finRange i
      have hp : (done ++ b :: l).Pairwise (· < ·) := by rw [hd]; exact List.pairwise_lt_finRange p
      rcases List.mem_append.mp hm with h | h
      · exact h
      · have hb : ∀ x ∈ b :: l, b ≤ x := by
          intro x hx
          rcases List.mem_cons.mp hx with rfl | hx
          · exact le_refl _
          · exact (List.rel_of_pairwise_cons (List.pairwise_append.mp hp).2.1 hx).le
        exact absurd (Fin.succ_lt_succ_iff.mp hi) (not_lt.mpr (hb i h))
    have hbet : ∀ a, v (better v best b.succ) = .num a → ∃ vb vs, v best = .num vb ∧ v b.succ = .num vs ∧ ((vs < vb ∧ a = vs) ∨ (vb ≤ vs ∧ a = vb)) := by
      intro a ha
      unfold better at ha
      cases hb : v best with
      | nan => rw [hb] at ha; dsimp only at ha; rw [hb] at ha; cases ha
      | num vb =>
        cases hs : v b.succ with
        | nan => rw [hb, hs] at ha; dsimp only at ha; rw [hs] at ha; cases ha
        | num vs =>
          rw [hb, hs] at ha
          dsimp only at ha
          refine ⟨vb, vs, rfl, rfl, ?_⟩
          by_cases hc : vs < vb
          · rw [if_pos hc, hs] at ha; cases ha; exact .inl ⟨hc, rfl⟩
          · rw [if_neg hc, hb] at ha; cases ha; exact .inr ⟨not_lt.mp hc, rfl⟩
    refine ih (done ++ [b]) (better v best b.succ) hd' ?_ ?_ ?_
    · intro i hi a w ha hw
      obtain ⟨vb, vs, hb, hs, hc⟩ := hbet a ha
      rcases List.mem_append.mp hi with hi | hi
      · rcases hc with ⟨hc, rfl⟩ | ⟨hc, rfl⟩
        · exact hc.le.trans (h1 i hi vb w hb hw)
        · exact h1 i hi _ w hb hw
      · rw [List.mem_singleton] at hi
        subst hi
        rw [hs] at hw; cases hw
        rcases hc with ⟨hc, rfl⟩ | ⟨hc, rfl⟩
        · exact le_refl _
        · exact hc
    · intro a w ha hw
      obtain ⟨vb, vs, hb, hs, hc⟩ := hbet a ha
      rcases hc with ⟨hc, rfl⟩ | ⟨hc, rfl⟩
      · exact hc.le.trans (h2 vb w hb hw)
      · exact h2 _ w hb hw
    · rcases h3 with ⟨h4, h5, h6⟩ | ⟨h4, h5⟩
      · rcases hb : v best with _ | vb
        · exact absurd hb h4
        · rcases hs : v b.succ with _ | vs
          · right
            have : better v best b.succ = b.succ := by unfold better; rw [hb, hs]
            rw [this]
            refine ⟨hs, fun j hj => ?_⟩
            rcases hlt j hj with rfl | ⟨i, hi, rfl⟩
            · exact h5
            · exact h6 i hi
          · left
            refine ⟨?_, h5, fun i hi => ?_⟩
            · unfold better
              rw [hb, hs]
              dsimp only
              split
              · rw [hs]; simp
              · rw [hb]; simp
            · rcases List.mem_append.mp hi with hi | hi
              · exact h6 i hi
              · rw [List.mem_singleton] at hi; subst hi; rw [hs]; simp
      · right
        have : better v best b.succ = best := by unfold better; rw [h4]
        rw [this]
        exact ⟨h4, h5⟩

/-- `argmin` finds the first nan, if there is one. -/
theorem nan_argmin {p : ℕ} {v : Fin (p + 1) → Val V} (h : ∃ i, v i = .nan) : v (argmin v) = .nan ∧ ∀ j < argmin v, v j ≠ .nan := by
  have := (argmin_fold v (List.finRange p) [] 0 rfl (by simp) (fun a w ha hw => by rw [ha] at hw; cases hw; exact le_refl _)
    (by by_cases h0 : v 0 = .nan
        · exact .inr ⟨h0, fun j hj => absurd hj (Fin.not_lt_zero j)⟩
        · exact .inl ⟨h0, h0, by simp⟩)).2
  rcases this with h' | h'
  · obtain ⟨i, hi⟩ := h; exact absurd hi (h' i)
  · exact h'

/-- `argmin` of numbers attains the minimum. -/
theorem num_argmin {p : ℕ} {v : Fin (p + 1) → Val V} (h : ∀ i, v i ≠ .nan) : v (argmin v) = colMin v := by
  have h1 := (argmin_fold v (List.finRange p) [] 0 rfl (by simp) (fun a w ha hw => by rw [ha] at hw; cases hw; exact le_refl _)
    (.inl ⟨h 0, h 0, by simp⟩)).1
  obtain ⟨y, h2, h3, i, h4⟩ := num_colMin h
  cases ha : v (argmin v) with
  | nan => exact absurd ha (h _)
  | num a =>
    rw [h2]
    exact congrArg Val.num (le_antisymm (h1 i a y ha h4) (h3 _ a ha))

end MinArgmin

section Runs

variable {K : Type} [Add K] [Sub K] [Mul K] [Div K] [Neg K] [Zero K] [LinearOrder K] {V : Type} [Zero V] [LinearOrder V] {p P D : ℕ}

/-- A generation without nan. -/
def NoNaN (resp : Fin P → Val V) : Prop := ∀ i, resp i ≠ .nan

/-- Row `iter + 1` of the histories after `__update_gen_optimum`; the other rows are kept. -/
private theorem gen_row {iter : ℕ} {gb : ℕ → Val V} {gbx : ℕ → Fin D → K} {x : Pop K (p + 1) D} {obj : Fin (p + 1) → Val V} :
    (∀ k, k ≠ iter + 1 → (updateGenOptimum iter gb gbx x obj).1 k = gb k) ∧ (∀ k, k ≠ iter + 1 → (updateGenOptimum iter gb gbx x obj).2 k = gbx k) := by
  unfold updateGenOptimum
  split
  · exact ⟨fun k hk => by simp [hk], fun k hk => by simp [hk]⟩
  · exact ⟨fun k hk => by simp [hk], fun k hk => by simp [hk]⟩

private theorem gen_row_kept {iter : ℕ} {gb : ℕ → Val V} {gbx : ℕ → Fin D → K} {x : Pop K (p + 1) D} {obj : Fin (p + 1) → Val V} (h : gb iter = .nan ∨ ∃ i, obj i = .nan) :
    (updateGenOptimum iter gb gbx x obj).1 (iter + 1) = gb iter ∧ (updateGenOptimum iter gb gbx x obj).2 (iter + 1) = gbx iter := by
  have hc : Val.le (colMin obj) (gb iter) = false := by
    rcases h with h | h
    · rw [h]; cases colMin obj <;> rfl
    · rw [nan_colMin h]; rfl
  unfold updateGenOptimum
  rw [hc]
  simp

private theorem gen_row_num {iter : ℕ} {gb : ℕ → Val V} {gbx : ℕ → Fin D → K} {x : Pop K (p + 1) D} {obj : Fin (p + 1) → Val V} {y : V} (h : gb iter = .num y) (hn : NoNaN obj) :
    ∃ y', (updateGenOptimum iter gb gbx x obj).1 (iter + 1) = .num y' ∧ y' ≤ y ∧ (∀ i w, obj i = .num w → y' ≤ w) ∧
      ((y' = y ∧ (updateGenOptimum iter gb gbx x obj).2 (iter + 1) = gbx iter) ∨ ∃ i, obj i = .num y' ∧ (updateGenOptimum iter gb gbx x obj).2 (iter + 1) = x i) := by
  obtain ⟨m, h1, h2, _⟩ := num_colMin hn
  have h3 := num_argmin hn
  unfold updateGenOptimum
  rw [h, h1]
  by_cases hc : m ≤ y
  · have : Val.le (.num m) (.num y) = true := by simp [Val.le, hc]
    rw [this]
    exact ⟨m, by simp, hc, h2, .inr ⟨argmin obj, by rw [h3, h1], by simp⟩⟩
  · have : Val.le (.num m) (.num y) = false := by simp [Val.le, hc]
    rw [this]
    exact ⟨y, by simp, le_refl _, fun i w hw => (not_le.mp hc).le.trans (h2 i w hw), .inl ⟨rfl, by simp⟩⟩

/-- What a run of PSO returns satisfies every invariant of its steps. -/
private theorem pso_run {cfg : PSOCfg K} {b : Box K D} {func : Pop K (p + 1) D → Fin (p + 1) → Val V} {stop : Option V} {rnd : PSORand K (p + 1) D} {r : Result K V (p + 1) D} {pb : Fin (p + 1) → Val V}
    (h : psoRun cfg b func stop rnd = .ok (r, pb)) (Inv : ℕ → PSOState K V (p + 1) D → Prop)
    (h0 : Inv 0 (psoInit cfg b func rnd)) (hs : ∀ n s, Inv n s → Inv (n + 1) (psoStep cfg b func rnd n s)) :
    ∃ last s, Inv last s ∧ 1 ≤ last ∧ last ≤ cfg.numGen ∧ (last = cfg.numGen ∨ stopNow stop (s.genBest last) = true) ∧
      r = { bestXHist := s.genBestXs, bestYHist := s.genBest, allSamples := s.samples, allResponses := s.responses, retY := s.genBest last, retX := s.genBestXs last, calls := s.calls } ∧ pb = s.popBest := by
  simp only [psoRun] at h
  split at h
  · cases h
  split at h
  · split at h
    · cases h
    · rename_i g hg
      have key : ∀ (more iter : ℕ) (s : PSOState K V (p + 1) D), Inv iter s → ∃ m ≤ more, ∃ s', psoLoop cfg b func rnd stop more iter s = (s', iter + m) ∧ Inv (iter + m + 1) s' ∧
          (m = more ∨ stopNow stop (s'.genBest (iter + m + 1)) = true) := by
        intro more
        induction more with
        | zero => intro iter s hi; exact ⟨0, le_refl _, _, rfl, hs _ _ hi, .inl rfl⟩
        | succ more ih =>
          intro iter s hi
          unfold psoLoop
          dsimp only
          by_cases hst : stopNow stop ((psoStep cfg b func rnd iter s).genBest (iter + 1)) = true
          · rw [if_pos hst]
            exact ⟨0, Nat.zero_le _, _, rfl, hs _ _ hi, .inr hst⟩
          · rw [if_neg hst]
            obtain ⟨m, hm, s', h1, h2, h3⟩ := ih (iter + 1) _ (hs _ _ hi)
            have e : iter + 1 + m = iter + (m + 1) := by omega
            rw [e] at h1 h2 h3
            exact ⟨m + 1, by omega, s', h1, h2, by rcases h3 with h3 | h3; · left; omega
                                                   · exact .inr h3⟩
      obtain ⟨m, hm, s', h1, h2, h3⟩ := key g 0 _ h0
      rw [h1] at h
      simp only [Nat.zero_add, Except.ok.injEq, Prod.mk.injEq] at h h2 h3
      exact ⟨m + 1, s', h2, by omega, by omega, by rcases h3 with h3 | h3; · left; omega
                                                   · exact .inr h3, h.1.symm, h.2.symm⟩
  · cases h

/-- What a run of DE returns satisfies every invariant of its steps. -/
private theorem de_run {cfg : DECfg K} {b : Box K D} {func : Pop K (p + 1) D → Fin (p + 1) → Val V} {stop : Option V} {rnd : DERand K (p + 1) D} {r : Result K V (p + 1) D}
    (h : deRun cfg b func stop rnd = .ok r) (Inv : ℕ → DEState K V (p + 1) D → Prop)
    (h0 : Inv 0 (deInit b func rnd)) (hs : ∀ n s, Inv n s → Inv (n + 1) (deStep cfg b func rnd n s)) :
    ∃ last s, Inv last s ∧ 1 ≤ last ∧ last ≤ cfg.numGen ∧ (last = cfg.numGen ∨ stopNow stop (s.genBest last) = true) ∧
      r = { bestXHist := s.genBestXs, bestYHist := s.genBest, allSamples := s.samples, allResponses := s.responses, retY := s.genBest last, retX := s.genBestXs last, calls := s.calls } := by
  simp only [deRun] at h
  split at h
  · cases h
  split at h
  · cases h
  · rename_i g hg
    have key : ∀ (more iter : ℕ) (s : DEState K V (p + 1) D) (q), Inv iter s → deLoop cfg b func rnd stop more iter s = .ok q → ∃ m ≤ more, ∃ s', q = (s', iter + m) ∧ Inv (iter + m + 1) s' ∧
        (m = more ∨ stopNow stop (s'.genBest (iter + m + 1)) = true) := by
      intro more
      induction more with
      | zero =>
        intro iter s q hi hq
        unfold deLoop at hq
        obtain ⟨_, _, hq⟩ := Py.bind_ok.mp hq
        exact ⟨0, le_refl _, _, (Except.ok.inj hq).symm, hs _ _ hi, .inl rfl⟩
      | succ more ih =>
        intro iter s q hi hq
        unfold deLoop at hq
        obtain ⟨_, _, hq⟩ := Py.bind_ok.mp hq
        dsimp only at hq
        by_cases hst : stopNow stop ((deStep cfg b func rnd iter s).genBest (iter + 1)) = true
        · rw [if_pos hst] at hq
          exact ⟨0, Nat.zero_le _, _, (Except.ok.inj hq).symm, hs _ _ hi, .inr hst⟩
        · rw [if_neg hst] at hq
          obtain ⟨m, hm, s', h1, h2, h3⟩ := ih (iter + 1) _ q (hs _ _ hi) hq
          have e : iter + 1 + m = iter + (m + 1) := by omega
          rw [e] at h1 h2 h3
          refine ⟨m + 1, by omega, s', h1, h2, ?_⟩
          rcases h3 with h3 | h3
          · left; omega
          · exact .inr h3
    obtain ⟨q, hq, h⟩ := Py.bind_ok.mp h
    obtain ⟨m, hm, s', h1, h2, h3⟩ := key g 0 _ q h0 hq
    subst h1
    simp only [Nat.zero_add, Except.ok.injEq] at h h2 h3
    refine ⟨m + 1, s', h2, by omega, by omega, ?_, h.symm⟩
    rcases h3 with h3 | h3
    · left; omega
    · exact .inr h3

/-- C148 fails if one initial value is nan (PSO): the run returns nan, at the first initial point with this value, after using all generations, whatever is found later. -/
theorem C148_pso_initial_nan_counterexample {cfg : PSOCfg K} {b : Box K D} {func : Pop K P D → Fin P → Val V} {stop : Option V} {rnd : PSORand K P D} {r : Result K V P D} {pb : Fin P → Val V}
    (h : psoRun cfg b func stop rnd = .ok (r, pb)) (i : Fin P) (hi : func (r.allSamples 0) i = .nan) (hfirst : ∀ j < i, func (r.allSamples 0) j ≠ .nan) :
    r.retY = .nan ∧ r.retX = r.allSamples 0 i ∧ r.calls.length = cfg.numGen + 1 ∧ (∀ g ≤ cfg.numGen, r.bestYHist g = .nan ∧ r.bestXHist g = r.allSamples 0 i) := by
  cases P with
  | zero => exact i.elim0
  | succ p =>
    let Inv : ℕ → PSOState K V (p + 1) D → Prop := (fun n s => s.samples 0 = locInit b rnd.pos ∧ (func (locInit b rnd.pos) i = .nan → (∀ j < i, func (locInit b rnd.pos) j ≠ .nan) → ∀ g ≤ n, s.genBest g = .nan ∧ s.genBestXs g = locInit b rnd.pos i) ∧ s.calls.length = n + 1)
    have inv0 : Inv 0 (psoInit cfg b func rnd) := by
      refine ⟨by simp [psoInit], fun hn hf g hg => ?_, by simp [psoInit]⟩
      have hg0 : g = 0 := by omega
      subst hg0
      have ha := nan_argmin (v := func (locInit b rnd.pos)) ⟨i, hn⟩
      have hai : argmin (func (locInit b rnd.pos)) = i := by
        rcases lt_trichotomy (argmin (func (locInit b rnd.pos))) i with hlt | heq | hlt
        · exact absurd ha.1 (hf _ hlt)
        · exact heq
        · exact absurd hn (ha.2 _ hlt)
      refine ⟨?_, ?_⟩
      · simp only [psoInit, Function.update_self]; exact nan_colMin ⟨i, hn⟩
      · simp only [psoInit, Function.update_self]; rw [hai]
    have invS : ∀ n s, Inv n s → Inv (n + 1) (psoStep cfg b func rnd n s) := by
      rintro n s ⟨j1, j2, j3⟩
      refine ⟨?_, fun hn hf g hg => ?_, by simp [psoStep, j3]⟩
      · simp only [psoStep]
        rw [Function.update_of_ne (by omega)]
        exact j1
      · have j2 := j2 hn hf
        rcases Nat.lt_or_ge n g with hlt | hle
        · have : g = n + 1 := by omega
          subst this
          obtain ⟨k1, k2⟩ := gen_row_kept (x := (psoStep cfg b func rnd n s).x) (obj := (psoStep cfg b func rnd n s).obj) (gbx := s.genBestXs) (.inl (j2 n (le_refl _)).1)
          exact ⟨k1.trans (j2 n (le_refl _)).1, k2.trans (j2 n (le_refl _)).2⟩
        · obtain ⟨k1, k2⟩ := gen_row (iter := n) (gb := s.genBest) (gbx := s.genBestXs) (x := (psoStep cfg b func rnd n s).x) (obj := (psoStep cfg b func rnd n s).obj)
          exact ⟨(k1 g (by omega)).trans (j2 g hle).1, (k2 g (by omega)).trans (j2 g hle).2⟩
    obtain ⟨last, s, ⟨i1, i2, i3⟩, h1, h2, h3, rfl, rfl⟩ := pso_run h _ inv0 invS
    dsimp only at hi hfirst ⊢
    rw [i1] at hi hfirst ⊢
    have i2 := i2 hi hfirst
    have hl : last = cfg.numGen := by
      rcases h3 with h3 | h3
      · exact h3
      · rw [(i2 last (le_refl _)).1] at h3
        cases stop <;> simp [stopNow, Val.lt] at h3
    subst hl
    exact ⟨(i2 _ (le_refl _)).1, (i2 _ (le_refl _)).2, i3, i2⟩

/-- C148 fails if one initial value is nan (DE), as for PSO. -/
theorem C148_de_initial_nan_counterexample {cfg : DECfg K} {b : Box K D} {func : Pop K P D → Fin P → Val V} {stop : Option V} {rnd : DERand K P D} {r : Result K V P D}
    (h : deRun cfg b func stop rnd = .ok r) (i : Fin P) (hi : func (r.allSamples 0) i = .nan) (hfirst : ∀ j < i, func (r.allSamples 0) j ≠ .nan) :
    r.retY = .nan ∧ r.retX = r.allSamples 0 i ∧ r.calls.length = cfg.numGen + 1 ∧ (∀ g ≤ cfg.numGen, r.bestYHist g = .nan ∧ r.bestXHist g = r.allSamples 0 i) := by
  cases P with
  | zero => exact i.elim0
  | succ p =>
    let Inv : ℕ → DEState K V (p + 1) D → Prop := (fun n s => s.samples 0 = locInit b rnd.pos ∧ (func (locInit b rnd.pos) i = .nan → (∀ j < i, func (locInit b rnd.pos) j ≠ .nan) → ∀ g ≤ n, s.genBest g = .nan ∧ s.genBestXs g = locInit b rnd.pos i) ∧ s.calls.length = n + 1)
    have inv0 : Inv 0 (deInit b func rnd) := by
      refine ⟨by simp [deInit], fun hn hf g hg => ?_, by simp [deInit]⟩
      have hg0 : g = 0 := by omega
      subst hg0
      have ha := nan_argmin (v := func (locInit b rnd.pos)) ⟨i, hn⟩
      have hai : argmin (func (locInit b rnd.pos)) = i := by
        rcases lt_trichotomy (argmin (func (locInit b rnd.pos))) i with hlt | heq | hlt
        · exact absurd ha.1 (hf _ hlt)
        · exact heq
        · exact absurd hn (ha.2 _ hlt)
      refine ⟨?_, ?_⟩
      · simp only [deInit, Function.update_self]; exact nan_colMin ⟨i, hn⟩
      · simp only [deInit, Function.update_self]; rw [hai]
    have invS : ∀ n s, Inv n s → Inv (n + 1) (deStep cfg b func rnd n s) := by
      rintro n s ⟨j1, j2, j3⟩
      refine ⟨?_, fun hn hf g hg => ?_, by simp [deStep, j3]⟩
      · simp only [deStep]
        rw [Function.update_of_ne (by omega)]
        exact j1
      · have j2 := j2 hn hf
        rcases Nat.lt_or_ge n g with hlt | hle
        · have : g = n + 1 := by omega
          subst this
          obtain ⟨k1, k2⟩ := gen_row_kept (x := (deStep cfg b func rnd n s).x) (obj := (deStep cfg b func rnd n s).obj) (gbx := s.genBestXs) (.inl (j2 n (le_refl _)).1)
          exact ⟨k1.trans (j2 n (le_refl _)).1, k2.trans (j2 n (le_refl _)).2⟩
        · obtain ⟨k1, k2⟩ := gen_row (iter := n) (gb := s.genBest) (gbx := s.genBestXs) (x := (deStep cfg b func rnd n s).x) (obj := (deStep cfg b func rnd n s).obj)
          exact ⟨(k1 g (by omega)).trans (j2 g hle).1, (k2 g (by omega)).trans (j2 g hle).2⟩
    obtain ⟨last, s, ⟨i1, i2, i3⟩, h1, h2, h3, rfl⟩ := de_run h _ inv0 invS
    dsimp only at hi hfirst ⊢
    rw [i1] at hi hfirst ⊢
    have i2 := i2 hi hfirst
    have hl : last = cfg.numGen := by
      rcases h3 with h3 | h3
      · exact h3
      · rw [(i2 last (le_refl _)).1] at h3
        cases stop <;> simp [stopNow, Val.lt] at h3
    subst hl
    exact ⟨(i2 _ (le_refl _)).1, (i2 _ (le_refl _)).2, i3, i2⟩

/-- `y` at `x` is the best number among the generations `0 … g` without nan: no number of these generations is smaller, and one of their members is at `x` and has the value `y`. -/
def BestOfValid (samples : ℕ → Pop K P D) (resp : ℕ → Fin P → Val V) (g : ℕ) (x : Fin D → K) (y : Val V) : Prop :=
  ∃ v, y = .num v ∧ (∀ k ≤ g, NoNaN (resp k) → ∀ i w, resp k i = .num w → v ≤ w) ∧ ∃ k ≤ g, NoNaN (resp k) ∧ ∃ i, samples k i = x ∧ resp k i = .num v

/-- C148 (PSO), partial: if no initial value is nan, the reported best of every generation is the best number of all generations without nan.  If nan never occurs in a generation with numbers this is the complete claim.
Personal bests ignore nan: `pop_best` holds for every member the smallest number among its own values.
Missing: a generation with a nan is ignored altogether (`C148_skipped_generation_counterexample`), and a nan among the initial values is never overcome (`C148_pso_initial_nan_counterexample`). -/
theorem C148_pso_partial {cfg : PSOCfg K} {b : Box K D} {func : Pop K P D → Fin P → Val V} {stop : Option V} {rnd : PSORand K P D} {r : Result K V P D} {pb : Fin P → Val V}
    (h : psoRun cfg b func stop rnd = .ok (r, pb)) (h0 : NoNaN (func (r.allSamples 0))) :
    ∃ last, 1 ≤ last ∧ last ≤ cfg.numGen ∧ r.calls.length = last + 1 ∧ (∀ k ≤ last, r.calls[k]? = some (r.allSamples k) ∧ r.allResponses k = func (r.allSamples k)) ∧
      (∀ g ≤ last, BestOfValid r.allSamples r.allResponses g (r.bestXHist g) (r.bestYHist g)) ∧ r.retX = r.bestXHist last ∧ r.retY = r.bestYHist last ∧
      ∀ i, ∃ y, pb i = .num y ∧ (∀ k ≤ last, ∀ w, r.allResponses k i = .num w → y ≤ w) ∧ ∃ k ≤ last, r.allResponses k i = .num y := by
  cases P with
  | zero => simp [psoRun] at h
  | succ p =>
    let Inv : ℕ → PSOState K V (p + 1) D → Prop := fun n s => s.samples 0 = locInit b rnd.pos ∧ s.calls.length = n + 1 ∧ (∀ k ≤ n, s.calls[k]? = some (s.samples k) ∧ s.responses k = func (s.samples k)) ∧
      (NoNaN (func (locInit b rnd.pos)) → (∀ g ≤ n, BestOfValid s.samples s.responses g (s.genBestXs g) (s.genBest g)) ∧
        ∀ i, ∃ y, s.popBest i = .num y ∧ (∀ k ≤ n, ∀ w, s.responses k i = .num w → y ≤ w) ∧ ∃ k ≤ n, s.responses k i = .num y)
    have inv0 : Inv 0 (psoInit cfg b func rnd) := by
      refine ⟨by simp [psoInit], by simp [psoInit], fun k hk => ?_, fun hn => ⟨fun g hg => ?_, fun i => ?_⟩⟩
      · have : k = 0 := by omega
        subst this
        simp [psoInit]
      · have : g = 0 := by omega
        subst this
        obtain ⟨y, h1, h2, _⟩ := num_colMin hn
        refine ⟨y, by simp only [psoInit, Function.update_self]; exact h1, fun k hk _ i w hw => ?_, 0, le_refl _, ?_, argmin (func (locInit b rnd.pos)), by simp [psoInit], ?_⟩
        · have : k = 0 := by omega
          subst this
          simp only [psoInit, Function.update_self] at hw
          exact h2 i w hw
        · simp only [psoInit, Function.update_self]; exact hn
        · simp only [psoInit, Function.update_self]; rw [num_argmin hn, h1]
      · cases hv : func (locInit b rnd.pos) i with
        | nan => exact absurd hv (hn i)
        | num y =>
          refine ⟨y, hv, fun k hk w hw => ?_, 0, le_refl _, by simp only [psoInit, Function.update_self]; exact hv⟩
          have : k = 0 := by omega
          subst this
          simp only [psoInit, Function.update_self] at hw
          rw [hv] at hw; cases hw; exact le_refl _
    have invS : ∀ n s, Inv n s → Inv (n + 1) (psoStep cfg b func rnd n s) := by
      rintro n s ⟨j1, j2, j3, j4⟩
      have e1 : ∀ k ≤ n, (psoStep cfg b func rnd n s).samples k = s.samples k := fun k hk => by simp only [psoStep]; rw [Function.update_of_ne (by omega)]
      have e2 : ∀ k ≤ n, (psoStep cfg b func rnd n s).responses k = s.responses k := fun k hk => by simp only [psoStep]; rw [Function.update_of_ne (by omega)]
      have e3 : (psoStep cfg b func rnd n s).samples (n + 1) = (psoStep cfg b func rnd n s).x := by simp [psoStep]
      have e4 : (psoStep cfg b func rnd n s).responses (n + 1) = (psoStep cfg b func rnd n s).obj := by simp [psoStep]
      have e5 : (psoStep cfg b func rnd n s).obj = func (psoStep cfg b func rnd n s).x := rfl
      have e6 : (psoStep cfg b func rnd n s).calls = s.calls ++ [(psoStep cfg b func rnd n s).x] := rfl
      have e7 : ∀ i, (psoStep cfg b func rnd n s).popBest i = if ((psoStep cfg b func rnd n s).obj i).le (s.popBest i) then (psoStep cfg b func rnd n s).obj i else s.popBest i := fun _ => rfl
      have e8 : (psoStep cfg b func rnd n s).genBest = (updateGenOptimum n s.genBest s.genBestXs (psoStep cfg b func rnd n s).x (psoStep cfg b func rnd n s).obj).1 := rfl
      have e9 : (psoStep cfg b func rnd n s).genBestXs = (updateGenOptimum n s.genBest s.genBestXs (psoStep cfg b func rnd n s).x (psoStep cfg b func rnd n s).obj).2 := rfl
      generalize psoStep cfg b func rnd n s = t at *
      refine ⟨(e1 0 (Nat.zero_le _)).trans j1, by rw [e6]; simp [j2], fun k hk => ?_, fun hn => ⟨fun g hg => ?_, fun i => ?_⟩⟩
      · rcases Nat.lt_or_ge n k with hlt | hle
        · have : k = n + 1 := by omega
          subst this
          rw [e6, e3, e4, e5]
          exact ⟨by rw [List.getElem?_append_right (by omega)]; simp [j2], rfl⟩
        · rw [e6, e1 k hle, e2 k hle]
          exact ⟨by rw [List.getElem?_append_left (by omega)]; exact (j3 k hle).1, (j3 k hle).2⟩
      · obtain ⟨j5, _⟩ := j4 hn
        obtain ⟨k1, k2⟩ := gen_row (iter := n) (gb := s.genBest) (gbx := s.genBestXs) (x := t.x) (obj := t.obj)
        have old : ∀ g ≤ n, ∀ x y, BestOfValid s.samples s.responses g x y → BestOfValid t.samples t.responses g x y := by
          rintro g hg x y ⟨v, q1, q2, k, hk, q3, i, q4, q5⟩
          refine ⟨v, q1, fun k hk => ?_, k, hk, ?_, i, ?_, ?_⟩
          · rw [e2 k (by omega)]; exact q2 k hk
          · rw [e2 k (by omega)]; exact q3
          · rw [e1 k (by omega)]; exact q4
          · rw [e2 k (by omega)]; exact q5
        rcases Nat.lt_or_ge n g with hlt | hle
        · have : g = n + 1 := by omega
          subst this
          obtain ⟨v, q1, q2, k, hk, q3, i, q4, q5⟩ := old n (le_refl _) _ _ (j5 n (le_refl _))
          by_cases hv : NoNaN t.obj
          · obtain ⟨y', r1, r2, r3, r4⟩ := gen_row_num (gbx := s.genBestXs) (x := t.x) q1 hv
            refine ⟨y', by rw [e8]; exact r1, fun k' hk' hv' i' w hw => ?_, ?_⟩
            · rcases Nat.lt_or_ge n k' with hlt' | hle'
              · have : k' = n + 1 := by omega
                subst this
                rw [e4] at hw
                exact r3 i' w hw
              · exact r2.trans (q2 k' hle' hv' i' w hw)
            · rcases r4 with ⟨rfl, r4⟩ | ⟨i', r4, r5⟩
              · exact ⟨k, by omega, q3, i, by rw [q4, e9, r4], q5⟩
              · exact ⟨n + 1, le_refl _, by rw [e4]; exact hv, i', by rw [e3, e9, r5], by rw [e4]; exact r4⟩
          · have hv' : ∃ i, t.obj i = .nan := by
              unfold NoNaN at hv
              push Not at hv
              exact hv
            obtain ⟨r1, r2⟩ := gen_row_kept (gb := s.genBest) (iter := n) (gbx := s.genBestXs) (x := t.x) (.inr hv')
            refine ⟨v, by rw [e8, r1, q1], fun k' hk' hvk i' w hw => ?_, k, by omega, q3, i, by rw [q4, e9, r2], q5⟩
            rcases Nat.lt_or_ge n k' with hlt' | hle'
            · have : k' = n + 1 := by omega
              subst this
              rw [e4] at hvk
              exact absurd hvk hv
            · exact q2 k' hle' hvk i' w hw
        · rw [e8, e9, k1 g (by omega), k2 g (by omega)]
          exact old g hle _ _ (j5 g hle)
      · obtain ⟨_, j6⟩ := j4 hn
        obtain ⟨y, q1, q2, k, hk, q3⟩ := j6 i
        rw [e7 i]
        cases ho : t.obj i with
        | nan =>
          refine ⟨y, by simp [Val.le, q1], fun k' hk' w hw => ?_, k, by omega, by rw [e2 k hk]; exact q3⟩
          rcases Nat.lt_or_ge n k' with hlt' | hle'
          · have : k' = n + 1 := by omega
            subst this
            rw [e4, ho] at hw; cases hw
          · rw [e2 k' hle'] at hw; exact q2 k' hle' w hw
        | num o =>
          by_cases hc : o ≤ y
          · refine ⟨o, by simp [Val.le, q1, hc], fun k' hk' w hw => ?_, n + 1, le_refl _, by rw [e4]; exact ho⟩
            rcases Nat.lt_or_ge n k' with hlt' | hle'
            · have : k' = n + 1 := by omega
              subst this
              rw [e4, ho] at hw; cases hw; exact le_refl _
            · rw [e2 k' hle'] at hw; exact hc.trans (q2 k' hle' w hw)
          · refine ⟨y, by simp [Val.le, q1, hc], fun k' hk' w hw => ?_, k, by omega, by rw [e2 k hk]; exact q3⟩
            rcases Nat.lt_or_ge n k' with hlt' | hle'
            · have : k' = n + 1 := by omega
              subst this
              rw [e4, ho] at hw; cases hw; exact (not_le.mp hc).le
            · rw [e2 k' hle'] at hw; exact q2 k' hle' w hw
    obtain ⟨last, s, ⟨i1, i2, i3, i4⟩, h1, h2, h3, rfl, rfl⟩ := pso_run h _ inv0 invS
    dsimp only at h0 ⊢
    rw [i1] at h0
    exact ⟨last, h1, h2, i2, i3, (i4 h0).1, rfl, rfl, (i4 h0).2⟩

/-- C148 (DE), partial: if no initial value is nan, nan is treated as worse than every number.  The reported best of every generation is the smallest number of all evaluations so far, whatever else these returned, it was observed at
the reported point, and no recorded response is nan.  Missing: a nan among the initial values (`C148_de_initial_nan_counterexample`). -/
theorem C148_de_partial {cfg : DECfg K} {b : Box K D} {func : Pop K P D → Fin P → Val V} {stop : Option V} {rnd : DERand K P D} {r : Result K V P D}
    (h : deRun cfg b func stop rnd = .ok r) (h0 : NoNaN (func (r.allSamples 0))) :
    ∃ last, 1 ≤ last ∧ last ≤ cfg.numGen ∧ r.calls.length = last + 1 ∧ r.retX = r.bestXHist last ∧ r.retY = r.bestYHist last ∧ (∀ g ≤ last, NoNaN (r.allResponses g)) ∧
      ∀ g ≤ last, ∃ v, r.bestYHist g = .num v ∧ (∀ k ≤ g, ∀ q, r.calls[k]? = some q → ∀ i w, func q i = .num w → v ≤ w) ∧
        ∃ k ≤ g, ∃ q, r.calls[k]? = some q ∧ ∃ i, q i = r.bestXHist g ∧ func q i = .num v := by
  cases P with
  | zero => simp [deRun] at h
  | succ p =>
    let Inv : ℕ → DEState K V (p + 1) D → Prop := fun n s => s.samples 0 = locInit b rnd.pos ∧ s.calls.length = n + 1 ∧
      (NoNaN (func (locInit b rnd.pos)) → (∀ g ≤ n, NoNaN (s.responses g)) ∧
        (∀ i, ∃ v, s.obj i = .num v ∧ (∀ k ≤ n, ∀ q, s.calls[k]? = some q → ∀ w, func q i = .num w → v ≤ w) ∧ ∃ k ≤ n, ∃ q, s.calls[k]? = some q ∧ q i = s.x i ∧ func q i = .num v) ∧
        ∀ g ≤ n, ∃ v, s.genBest g = .num v ∧ (∀ k ≤ g, ∀ q, s.calls[k]? = some q → ∀ i w, func q i = .num w → v ≤ w) ∧
        ∃ k ≤ g, ∃ q, s.calls[k]? = some q ∧ ∃ i, q i = s.genBestXs g ∧ func q i = .num v)
    have inv0 : Inv 0 (deInit b func rnd) := by
      refine ⟨by simp [deInit], by simp [deInit], fun hn => ⟨fun g hg => ?_, fun i => ?_, fun g hg => ?_⟩⟩
      · have : g = 0 := by omega
        subst this
        simp only [deInit, Function.update_self]; exact hn
      · cases hv : func (locInit b rnd.pos) i with
        | nan => exact absurd hv (hn i)
        | num y =>
          refine ⟨y, hv, fun k hk q hq w hw => ?_, 0, le_refl _, locInit b rnd.pos, rfl, rfl, hv⟩
          have : k = 0 := by omega
          subst this
          have : q = locInit b rnd.pos := by simpa [deInit] using hq.symm
          subst this
          rw [hv] at hw; cases hw; exact le_refl _
      · have : g = 0 := by omega
        subst this
        obtain ⟨y, h1, h2, _⟩ := num_colMin hn
        refine ⟨y, by simp only [deInit, Function.update_self]; exact h1, fun k hk q hq i w hw => ?_, 0, le_refl _, locInit b rnd.pos, rfl, argmin (func (locInit b rnd.pos)), by simp [deInit], by rw [num_argmin hn, h1]⟩
        have : k = 0 := by omega
        subst this
        have : q = locInit b rnd.pos := by simpa [deInit] using hq.symm
        subst this
        exact h2 i w hw
    have invS : ∀ n s, Inv n s → Inv (n + 1) (deStep cfg b func rnd n s) := by
      rintro n s ⟨j1, j2, j4⟩
      obtain ⟨u, hu⟩ : ∃ u, u = deTrial cfg b rnd n s := ⟨_, rfl⟩
      have e1 : (deStep cfg b func rnd n s).samples 0 = s.samples 0 := by simp only [deStep]; rw [Function.update_of_ne (by omega)]
      have e2 : ∀ k ≤ n, (deStep cfg b func rnd n s).responses k = s.responses k := fun k hk => by simp only [deStep]; rw [Function.update_of_ne (by omega)]
      have e4 : (deStep cfg b func rnd n s).responses (n + 1) = (deStep cfg b func rnd n s).obj := by simp [deStep]
      have e5 : ∀ i, (deStep cfg b func rnd n s).obj i = if (func u i).lt (s.obj i) then func u i else s.obj i := fun i => by subst hu; rfl
      have e3 : ∀ i, (deStep cfg b func rnd n s).x i = if (func u i).lt (s.obj i) then u i else s.x i := fun i => by subst hu; rfl
      have e6 : (deStep cfg b func rnd n s).calls = s.calls ++ [u] := by subst hu; rfl
      have e8 : (deStep cfg b func rnd n s).genBest = (updateGenOptimum n s.genBest s.genBestXs (deStep cfg b func rnd n s).x (deStep cfg b func rnd n s).obj).1 := rfl
      have e9 : (deStep cfg b func rnd n s).genBestXs = (updateGenOptimum n s.genBest s.genBestXs (deStep cfg b func rnd n s).x (deStep cfg b func rnd n s).obj).2 := rfl
      generalize deStep cfg b func rnd n s = t at *
      have c1 : ∀ k ≤ n, t.calls[k]? = s.calls[k]? := fun k hk => by rw [e6, List.getElem?_append_left (by omega)]
      have c2 : t.calls[n + 1]? = some u := by rw [e6, List.getElem?_append_right (by omega)]; simp [j2]
      refine ⟨e1.trans j1, by rw [e6]; simp [j2], fun hn => ?_⟩
      obtain ⟨j5, j6, j7⟩ := j4 hn
      have hobj : ∀ i, ∃ v, t.obj i = .num v ∧ (∀ k ≤ n + 1, ∀ q, t.calls[k]? = some q → ∀ w, func q i = .num w → v ≤ w) ∧ ∃ k ≤ n + 1, ∃ q, t.calls[k]? = some q ∧ q i = t.x i ∧ func q i = .num v := by
        intro i
        obtain ⟨v, q1, q2, k, hk, q, q3, q4, q5⟩ := j6 i
        have hle : ∀ v', v' ≤ v → (∀ w, func u i = .num w → v' ≤ w) → ∀ k ≤ n + 1, ∀ q, t.calls[k]? = some q → ∀ w, func q i = .num w → v' ≤ w := by
          intro v' h1 h2 k hk q hq w hw
          rcases Nat.lt_or_ge n k with hlt | hle
          · have : k = n + 1 := by omega
            subst this
            rw [c2] at hq; cases hq
            exact h2 w hw
          · rw [c1 k hle] at hq
            exact h1.trans (q2 k hle q hq w hw)
        have hkeep : (func u i).lt (s.obj i) = false → (∀ w, func u i = .num w → v ≤ w) →
            ∃ v, t.obj i = .num v ∧ (∀ k ≤ n + 1, ∀ q, t.calls[k]? = some q → ∀ w, func q i = .num w → v ≤ w) ∧ ∃ k ≤ n + 1, ∃ q, t.calls[k]? = some q ∧ q i = t.x i ∧ func q i = .num v := by
          intro hc hw
          refine ⟨v, by rw [e5, hc]; exact q1, hle v (le_refl _) hw, k, by omega, q, by rw [c1 k hk]; exact q3, ?_, q5⟩
          rw [e3, hc]; exact q4
        cases hf : func u i with
        | nan => exact hkeep (by rw [hf]; rfl) (fun w hw => by rw [hf] at hw; cases hw)
        | num o =>
          by_cases hc : o < v
          · have hl : (func u i).lt (s.obj i) = true := by rw [hf, q1]; simp [Val.lt, hc]
            refine ⟨o, by rw [e5, hl]; exact hf, hle o hc.le (fun w hw => by rw [hf] at hw; cases hw; exact le_refl _), n + 1, le_refl _, u, c2, ?_, hf⟩
            rw [e3, hl]; rfl
          · exact hkeep (by rw [hf, q1]; simp [Val.lt, hc]) (fun w hw => by rw [hf] at hw; cases hw; exact not_lt.mp hc)
      have hno : NoNaN t.obj := fun i => by obtain ⟨v, hv, _⟩ := hobj i; rw [hv]; simp
      refine ⟨fun g hg => ?_, hobj, fun g hg => ?_⟩
      · rcases Nat.lt_or_ge n g with hlt | hle
        · have : g = n + 1 := by omega
          subst this
          rw [e4]; exact hno
        · rw [e2 g hle]; exact j5 g hle
      · obtain ⟨k1, k2⟩ := gen_row (iter := n) (gb := s.genBest) (gbx := s.genBestXs) (x := t.x) (obj := t.obj)
        rcases Nat.lt_or_ge n g with hlt | hle
        · have : g = n + 1 := by omega
          subst this
          obtain ⟨v, q1, q2, k, hk, q, q3, i, q4, q5⟩ := j7 n (le_refl _)
          obtain ⟨y', r1, r2, r3, r4⟩ := gen_row_num (gbx := s.genBestXs) (x := t.x) q1 hno
          refine ⟨y', by rw [e8]; exact r1, fun k' hk' q' hq' i' w hw => ?_, ?_⟩
          · obtain ⟨v', o1, o2, _⟩ := hobj i'
            exact (r3 i' v' o1).trans (o2 k' hk' q' hq' w hw)
          · rcases r4 with ⟨rfl, r4⟩ | ⟨i', r4, r5⟩
            · exact ⟨k, by omega, q, by rw [c1 k hk]; exact q3, i, by rw [q4, e9, r4], q5⟩
            · obtain ⟨v', o1, _, k', hk', q', o2, o3, o4⟩ := hobj i'
              rw [r4] at o1; cases o1
              exact ⟨k', hk', q', o2, i', by rw [o3, e9, r5], o4⟩
        · obtain ⟨v, q1, q2, k, hk, q, q3, i, q4, q5⟩ := j7 g hle
          refine ⟨v, by rw [e8, k1 g (by omega)]; exact q1, fun k' hk' q' hq' => ?_, k, hk, q, by rw [c1 k (by omega)]; exact q3, i, by rw [q4, e9, k2 g (by omega)], q5⟩
          rw [c1 k' (by omega)] at hq'
          exact q2 k' hk' q' hq'
    obtain ⟨last, s, ⟨i1, i2, i4⟩, h1, h2, h3, rfl⟩ := de_run h _ inv0 invS
    dsimp only at h0 ⊢
    rw [i1] at h0
    exact ⟨last, h1, h2, i2, rfl, rfl, (i4 h0).1, (i4 h0).2.2⟩

end Runs

section Agreement

variable {K : Type} [Add K] [Sub K] [Mul K] [Div K] [Neg K] [Zero K] [LinearOrder K] {p P D : ℕ}

theorem colMin_num (f : Fin (p + 1) → K) : colMin (fun i => Val.num (f i)) = .num (EA.colMin f) := by
  have : ∀ (l : List (Fin p)) (a : K), l.foldl (fun (m : Val K) i => m.min2 (.num (f i.succ))) (.num a) = .num (l.foldl (fun m i => min m (f i.succ)) a) := by
    intro l
    induction l with
    | nil => intro a; rfl
    | cons b l ih => intro a; exact ih (min a (f b.succ))
  exact this _ _

theorem argmin_num (f : Fin (p + 1) → K) : argmin (fun i => Val.num (f i)) = EA.argmin f := by
  have : ∀ (l : List (Fin p)) (a : Fin (p + 1)), l.foldl (fun best i => better (fun i => Val.num (f i)) best i.succ) a = l.foldl (fun best i => if f i.succ < f best then i.succ else best) a := by
    intro l
    induction l with
    | nil => intro a; rfl
    | cons b l ih => intro a; exact ih _
  exact this _ _

theorem updateGen_num (iter : ℕ) (gb : ℕ → K) (gbx : ℕ → Fin D → K) (x : Pop K (p + 1) D) (obj : Fin (p + 1) → K) :
    updateGenOptimum iter (fun k => Val.num (gb k)) gbx x (fun i => .num (obj i)) = ((fun k => .num ((EA.updateGenOptimum iter gb gbx x obj).1 k)), (EA.updateGenOptimum iter gb gbx x obj).2) := by
  have hup : ∀ (v : K), Function.update (fun k => Val.num (gb k)) (iter + 1) (.num v) = fun k => Val.num (Function.update gb (iter + 1) v k) := by
    intro v
    funext k
    by_cases hk : k = iter + 1
    · subst hk; simp
    · simp [hk]
  unfold updateGenOptimum EA.updateGenOptimum EA.genBestObj EA.genBestX
  rw [colMin_num, argmin_num]
  by_cases hc : EA.colMin obj ≤ gb iter
  · have h2 : gb iter ≥ EA.colMin obj := hc
    simp only [Val.le, decide_eq_true_eq, hc, h2, if_true, hup]
  · have h2 : ¬ gb iter ≥ EA.colMin obj := hc
    simp only [Val.le, decide_eq_true_eq, hc, h2, if_false, hup]

/-- A state of the model without nan as a state of the model with nan. -/
def ofPSO (s : EA.PSOState K P D) : PSOState K K P D :=
  { x := s.x, v := s.v, obj := fun i => .num (s.obj i), popBest := fun i => .num (s.popBest i), popBestX := s.popBestX, genBest := fun k => .num (s.genBest k), genBestXs := s.genBestXs, samples := s.samples,
    responses := fun k i => .num (s.responses k i), calls := s.calls }

/-- A state of the model without nan as a state of the model with nan. -/
def ofDE (s : EA.DEState K P D) : DEState K K P D :=
  { x := s.x, obj := fun i => .num (s.obj i), genBest := fun k => .num (s.genBest k), genBestXs := s.genBestXs, samples := s.samples, responses := fun k i => .num (s.responses k i), calls := s.calls }

/-- A result of the model without nan as a result of the model with nan. -/
def ofResult (r : EA.Result K P D) : Result K K P D :=
  { bestXHist := r.bestXHist, bestYHist := fun k => .num (r.bestYHist k), allSamples := r.allSamples, allResponses := fun k i => .num (r.allResponses k i), retY := .num r.retY, retX := r.retX, calls := r.calls }

private theorem update_num (f : ℕ → K) (k : ℕ) (v : K) : Function.update (fun k => Val.num (f k)) k (.num v) = fun j => .num (Function.update f k v j) := by
  funext j
  by_cases hj : j = k
  · subst hj; simp
  · simp [hj]

private theorem update_nums {q : ℕ} (f : ℕ → Fin q → K) (k : ℕ) (v : Fin q → K) : Function.update (fun k i => Val.num (f k i)) k (fun i => .num (v i)) = fun j i => .num (Function.update f k v j i) := by
  funext j
  by_cases hj : j = k
  · subst hj; simp
  · simp [hj]

private theorem psoInit_num (cfg : PSOCfg K) (b : Box K D) (func : Pop K (p + 1) D → Fin (p + 1) → K) (rnd : PSORand K (p + 1) D) :
    psoInit cfg b (fun q i => Val.num (func q i)) rnd = ofPSO (EA.psoInit cfg b func rnd) := by
  unfold psoInit EA.psoInit ofPSO EA.genBestObj EA.genBestX
  simp only [colMin_num, argmin_num]
  congr 1
  · exact update_num (fun _ => 0) 0 _
  · exact update_nums (fun _ _ => 0) 0 _

private theorem psoStep_num (cfg : PSOCfg K) (b : Box K D) (func : Pop K (p + 1) D → Fin (p + 1) → K) (rnd : PSORand K (p + 1) D) (n : ℕ) (s : EA.PSOState K (p + 1) D) :
    psoStep cfg b (fun q i => Val.num (func q i)) rnd n (ofPSO s) = ofPSO (EA.psoStep cfg b func rnd n s) := by
  unfold psoStep EA.psoStep EA.psoUpdateGenOptimum EA.psoUpdatePopOptimum EA.psoUpdateObj EA.psoUpdatePop ofPSO
  simp only [updateGen_num, Val.le, decide_eq_true_eq]
  congr 1
  · funext i
    split <;> rfl
  · exact update_nums _ _ _

/-- The model agrees with the one of the other properties when no value is nan (PSO). -/
theorem C148_agrees_pso (cfg : PSOCfg K) (b : Box K D) (func : Pop K P D → Fin P → K) (stop : Option K) (rnd : PSORand K P D) :
    psoRun cfg b (fun q i => Val.num (func q i)) stop rnd = (EA.psoRun cfg b func stop rnd).map fun r => (ofResult r.toResult, fun i => .num (r.popBest i)) := by
  cases P with
  | zero => rfl
  | succ p =>
    have hl : ∀ (more iter : ℕ) (s : EA.PSOState K (p + 1) D), psoLoop cfg b (fun q i => Val.num (func q i)) rnd stop more iter (ofPSO s) =
        (ofPSO (EA.psoLoop cfg b func rnd stop more iter s).1, (EA.psoLoop cfg b func rnd stop more iter s).2) := by
      intro more
      induction more with
      | zero => intro iter s; unfold psoLoop EA.psoLoop; rw [psoStep_num]
      | succ more ih =>
        intro iter s
        unfold psoLoop EA.psoLoop
        simp only [psoStep_num]
        have hst : stopNow stop ((ofPSO (EA.psoStep cfg b func rnd iter s)).genBest (iter + 1)) = EA.stopNow stop ((EA.psoStep cfg b func rnd iter s).genBest (iter + 1)) := by
          cases stop <;> rfl
        rw [hst]
        split
        · rfl
        · exact ih _ _
    unfold psoRun EA.psoRun
    by_cases hD : D = 0
    · simp only [hD, if_true]; rfl
    · by_cases hv : ∀ j, 0 ≤ vMax cfg b j
      · simp only [hD, if_false]
        rw [if_pos hv, if_pos hv]
        cases cfg.numGen with
        | zero => rfl
        | succ g =>
          simp only [psoInit_num, hl]
          rfl
      · simp only [hD, if_false, hv]; rfl

private theorem deInit_num (b : Box K D) (func : Pop K (p + 1) D → Fin (p + 1) → K) (rnd : DERand K (p + 1) D) :
    deInit b (fun q i => Val.num (func q i)) rnd = ofDE (EA.deInit b func rnd) := by
  unfold deInit EA.deInit ofDE EA.genBestObj EA.genBestX
  simp only [colMin_num, argmin_num]
  congr 1
  · exact update_num (fun _ => 0) 0 _
  · exact update_nums (fun _ _ => 0) 0 _

private theorem deStep_num (cfg : DECfg K) (b : Box K D) (func : Pop K (p + 1) D → Fin (p + 1) → K) (rnd : DERand K (p + 1) D) (n : ℕ) (s : EA.DEState K (p + 1) D) :
    deStep cfg b (fun q i => Val.num (func q i)) rnd n (ofDE s) = ofDE (EA.deStep cfg b func rnd n s) := by
  have ht : deTrial cfg b rnd n (ofDE s) = EA.deTrial cfg b rnd n s := rfl
  unfold deStep EA.deStep EA.deUpdateGenOptimum EA.deUpdateObj
  rw [ht]
  simp only [ofDE, Val.lt, decide_eq_true_eq, ← apply_ite Val.num, updateGen_num]
  congr 1
  exact update_nums _ _ _

/-- The model agrees with the one of the other properties when no value is nan (DE). -/
theorem C148_agrees_de (cfg : DECfg K) (b : Box K D) (func : Pop K P D → Fin P → K) (stop : Option K) (rnd : DERand K P D) :
    deRun cfg b (fun q i => Val.num (func q i)) stop rnd = (EA.deRun cfg b func stop rnd).map ofResult := by
  cases P with
  | zero => rfl
  | succ p =>
    have hl : ∀ (more iter : ℕ) (s : EA.DEState K (p + 1) D), deLoop cfg b (fun q i => Val.num (func q i)) rnd stop more iter (ofDE s) =
        (EA.deLoop cfg b func rnd stop more iter s).map fun r => (ofDE r.1, r.2) := by
      intro more
      induction more with
      | zero =>
        intro iter s
        unfold deLoop EA.deLoop
        cases deCheck cfg (p + 1) with
        | error e => rfl
        | ok u => simp only [deStep_num]; rfl
      | succ more ih =>
        intro iter s
        unfold deLoop EA.deLoop
        cases deCheck cfg (p + 1) with
        | error e => rfl
        | ok u =>
          simp only [deStep_num]
          have hst : stopNow stop ((ofDE (EA.deStep cfg b func rnd iter s)).genBest (iter + 1)) = EA.stopNow stop ((EA.deStep cfg b func rnd iter s).genBest (iter + 1)) := by
            cases stop <;> rfl
          show (if stopNow stop ((ofDE (EA.deStep cfg b func rnd iter s)).genBest (iter + 1)) = true then _ else _) = Except.map _ (if EA.stopNow stop ((EA.deStep cfg b func rnd iter s).genBest (iter + 1)) = true then _ else _)
          rw [hst]
          split
          · rfl
          · exact ih _ _
    unfold deRun EA.deRun
    by_cases hD : D = 0
    · simp only [hD, if_true]; rfl
    · simp only [hD, if_false]
      cases cfg.numGen with
      | zero => rfl
      | succ g =>
        simp only [deInit_num, hl]
        cases EA.deLoop cfg b func rnd stop g 0 (EA.deInit b func rnd) with
        | error e => rfl
        | ok q => rfl

end Agreement

/-! ## Examples -/

/-- An objective on `[0, 1]` that fails (nan) above 4/5. -/
def failing (x : Fin 1 → ℚ) : Val ℚ := if 4 / 5 < x 0 then .nan else .num (-(x 0))

/-- Two particles without attraction: they move by their initial velocity. -/
def exNaN (pos vel : Fin 2 → ℚ) : Py (Result ℚ ℚ 2 1 × (Fin 2 → Val ℚ)) :=
  psoRun { numGen := 1, cognition := 0, social := 0, weight := 1, maxVRate := 1 } { low := fun _ => 0, high := fun _ => 1 } (fun q i => failing (q i)) none
    { pos := fun i _ => pos i, vel := fun i _ => vel i, repl := fun _ _ _ _ => 0 }

/-- C148 is false for PSO also if no initial value is nan: a generation with one nan is ignored.  Here the value -7/10 at 7/10 is recorded as a response and PSO returns -6/10. -/
theorem C148_skipped_generation_counterexample : ∃ r pb, exNaN ![4 / 10, 6 / 10] ![1 / 2, 1 / 10] = .ok (r, pb) ∧ NoNaN (r.allResponses 0) ∧
    r.allResponses 1 1 = .num (-7 / 10) ∧ r.retY = .num (-6 / 10) := by
  have hp : ∀ j : Fin 1, (0 : ℚ) ≤ vMax (K := ℚ) { numGen := 1, cognition := 0, social := 0, weight := 1, maxVRate := 1 } { low := fun _ => 0, high := fun _ => 1 } j := by
    intro j; simp [vMax]
  unfold exNaN psoRun
  simp only [one_ne_zero, if_false]
  rw [if_pos hp]
  refine ⟨_, _, rfl, ?_, ?_, ?_⟩
  · intro i; fin_cases i <;> decide +kernel
  · decide +kernel
  · decide +kernel

/-- The hypotheses of `C148_pso_initial_nan_counterexample` are met: the second particle starts where the objective fails. -/
example : ∃ r pb, exNaN ![4 / 10, 9 / 10] ![1 / 10, 0] = .ok (r, pb) ∧ failing (r.allSamples 0 1) = .nan ∧ failing (r.allSamples 0 0) ≠ .nan ∧ r.retY = .nan := by
  have hp : ∀ j : Fin 1, (0 : ℚ) ≤ vMax (K := ℚ) { numGen := 1, cognition := 0, social := 0, weight := 1, maxVRate := 1 } { low := fun _ => 0, high := fun _ => 1 } j := by
    intro j; simp [vMax]
  unfold exNaN psoRun
  simp only [one_ne_zero, if_false]
  rw [if_pos hp]
  exact ⟨_, _, rfl, by decide +kernel, by decide +kernel, by decide +kernel⟩

/-- DE on the same objective: three individuals, two generations. -/
def exNaNDE (pos : Fin 3 → ℚ) : Py (Result ℚ ℚ 3 1) :=
  deRun { numGen := 2, stepSize := 1 / 2, crossoverRate := 1, strategy := "DE/rand/1/bin" } { low := fun _ => 0, high := fun _ => 1 } (fun q i => failing (q i)) none
    { pos := fun i _ => pos i, choice3 := fun _ _ k => k, choice2 := fun _ _ => ![0, 1], c := fun _ _ => 0, cr := fun _ _ _ => 0, repl := fun _ _ _ _ => 9 / 10 }

/-- The hypotheses of `C148_de_partial` are met in a run in which a trial point fails; the best number found is returned. -/
example : ∃ r, exNaNDE ![1 / 10, 7 / 10, 3 / 10] = .ok r ∧ NoNaN (fun i => failing (r.allSamples 0 i)) ∧ (∃ q ∈ r.calls, ∃ i, failing (q i) = .nan) ∧ ∃ v, r.retY = .num v ∧ v < -6 / 10 := by
  unfold exNaNDE deRun
  simp only [one_ne_zero, if_false]
  refine ⟨_, rfl, ?_, ?_, ?_⟩
  · intro i; fin_cases i <;> decide +kernel
  · decide +kernel
  · exact ⟨-7 / 10, by decide +kernel, by decide +kernel⟩

/-- The hypotheses of `C148_de_initial_nan_counterexample` are met. -/
example : ∃ r, exNaNDE ![1 / 10, 9 / 10, 3 / 10] = .ok r ∧ failing (r.allSamples 0 1) = .nan ∧ failing (r.allSamples 0 0) ≠ .nan ∧ r.retY = .nan := by
  unfold exNaNDE deRun
  simp only [one_ne_zero, if_false]
  exact ⟨_, rfl, by decide +kernel, by decide +kernel, by decide +kernel⟩

end Mfpml.Props
