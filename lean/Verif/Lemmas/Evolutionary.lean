import Verif.Model.Evolutionary
import Verif.Spec.Evolutionary
import Mathlib.Tactic.Linarith
import Mathlib.Tactic.Ring
import Mathlib.Tactic.FieldSimp
import Mathlib.Tactic.Positivity

set_option linter.unusedSectionVars false

namespace Mfpml.EA

open Mfpml.Spec

variable {K : Type} [Add K] [Sub K] [Mul K] [Div K] [Neg K] [Zero K] [LinearOrder K]

/-! ### argmin / min -/

theorem argmin_aux {p : ℕ} (v : Fin (p + 1) → K) (l : List (Fin p)) (b : Fin (p + 1)) :
    let r := l.foldl (fun best i => if v i.succ < v best then i.succ else best) b
    v r ≤ v b ∧ (∀ i ∈ l, v r ≤ v i.succ) := by
  induction l generalizing b with
  | nil => simp
  | cons a l ih =>
    simp only [List.foldl_cons]
    have h := ih (if v a.succ < v b then a.succ else b)
    simp only at h
    obtain ⟨h1, h2⟩ := h
    have h3 : v (if v a.succ < v b then a.succ else b) ≤ v b ∧
        v (if v a.succ < v b then a.succ else b) ≤ v a.succ := by
      split
      · rename_i hc; exact ⟨hc.le, le_refl _⟩
      · rename_i hc; exact ⟨le_refl _, not_lt.mp hc⟩
    refine ⟨h1.trans h3.1, ?_⟩
    intro i hi
    rcases List.mem_cons.mp hi with rfl | hi
    · exact h1.trans h3.2
    · exact h2 i hi

theorem argmin_le {p : ℕ} (v : Fin (p + 1) → K) (i : Fin (p + 1)) : v (argmin v) ≤ v i := by
  have h := argmin_aux v (List.finRange p) 0
  simp only at h
  refine Fin.cases ?_ ?_ i
  · exact h.1
  · intro j; exact h.2 j (List.mem_finRange j)

theorem colMin_aux {p : ℕ} (v : Fin (p + 1) → K) (l : List (Fin p)) (b : K) :
    let r := l.foldl (fun m i => min m (v i.succ)) b
    r ≤ b ∧ (∀ i ∈ l, r ≤ v i.succ) ∧ (r = b ∨ ∃ i ∈ l, r = v i.succ) := by
  induction l generalizing b with
  | nil => simp
  | cons a l ih =>
    simp only [List.foldl_cons]
    have h := ih (min b (v a.succ))
    simp only at h
    obtain ⟨h1, h2, h3⟩ := h
    refine ⟨h1.trans (min_le_left _ _), ?_, ?_⟩
    · intro i hi
      rcases List.mem_cons.mp hi with rfl | hi
      · exact h1.trans (min_le_right _ _)
      · exact h2 i hi
    · rcases h3 with h3 | ⟨i, hi, h3⟩
      · rcases min_choice b (v a.succ) with hm | hm
        · left; rw [h3, hm]
        · right; exact ⟨a, by simp, by rw [h3, hm]⟩
      · right; exact ⟨i, by simp [hi], h3⟩

theorem colMin_le {p : ℕ} (v : Fin (p + 1) → K) (i : Fin (p + 1)) : colMin v ≤ v i := by
  have h := colMin_aux v (List.finRange p) (v 0)
  simp only at h
  refine Fin.cases ?_ ?_ i
  · exact h.1
  · intro j; exact h.2.1 j (List.mem_finRange j)

theorem colMin_eq_argmin {p : ℕ} (v : Fin (p + 1) → K) : colMin v = v (argmin v) := by
  apply le_antisymm (colMin_le v _)
  have h := colMin_aux v (List.finRange p) (v 0)
  simp only at h
  rcases h.2.2 with h | ⟨i, _, h⟩
  · change _ ≤ List.foldl _ _ _; rw [h]; exact argmin_le v 0
  · change _ ≤ List.foldl _ _ _; rw [h]; exact argmin_le v _

/-! ### positions -/

theorem locCons_inBox {P D : ℕ} (b : Box K D) (u : Fin D → Pop K P D) (x : Pop K P D)
    (hu : ∀ k i, ScalesIntoBox b.low b.high (u k i)) (i : Fin P) :
    InBox b.low b.high (locCons b u x i) := by
  intro j
  unfold locCons
  split
  · exact hu j i j
  · rename_i h
    push Not at h
    exact h

/-! ### histories -/

theorem updateGenOptimum_spec {p D : ℕ} (iter : ℕ) (gb : ℕ → K) (gbx : ℕ → Fin D → K)
    (x : Pop K (p + 1) D) (obj : Fin (p + 1) → K) :
    (∀ k, k ≠ iter + 1 → (updateGenOptimum iter gb gbx x obj).1 k = gb k) ∧
    (∀ k, k ≠ iter + 1 → (updateGenOptimum iter gb gbx x obj).2 k = gbx k) ∧
    ((∃ i, (∀ i', obj i ≤ obj i') ∧ obj i ≤ gb iter ∧
        (updateGenOptimum iter gb gbx x obj).1 (iter + 1) = obj i ∧
        (updateGenOptimum iter gb gbx x obj).2 (iter + 1) = x i) ∨
      ((∀ i', gb iter < obj i') ∧
        (updateGenOptimum iter gb gbx x obj).1 (iter + 1) = gb iter ∧
        (updateGenOptimum iter gb gbx x obj).2 (iter + 1) = gbx iter)) := by
  unfold updateGenOptimum
  split
  · rename_i h
    refine ⟨fun k hk => by simp [hk], fun k hk => by simp [hk], Or.inl ⟨argmin obj, argmin_le obj, ?_, ?_, ?_⟩⟩
    · rw [← colMin_eq_argmin obj]; exact h
    · simp [genBestObj, colMin_eq_argmin]
    · simp [genBestX]
  · rename_i h
    refine ⟨fun k hk => by simp [hk], fun k hk => by simp [hk], Or.inr ⟨?_, by simp, by simp⟩⟩
    intro i
    exact lt_of_lt_of_le (not_le.mp h) (colMin_le obj i)

theorem stopNow_iff (stop : Option K) (y : K) : stopNow stop y = true ↔ Below stop y := by
  cases stop <;> simp [stopNow, Below]

/-! ### PSO: the sequence of states -/

/-- State after `n` generations, ignoring the stopping rule. -/
def psoSeq {p D : ℕ} (cfg : PSOCfg K) (b : Box K D) (func : Pop K (p + 1) D → Fin (p + 1) → K)
    (rnd : PSORand K (p + 1) D) : ℕ → PSOState K (p + 1) D
  | 0 => psoInit cfg b func rnd
  | n + 1 => psoStep cfg b func rnd n (psoSeq cfg b func rnd n)

section pso
variable {p D : ℕ} (cfg : PSOCfg K) (b : Box K D) (func : Pop K (p + 1) D → Fin (p + 1) → K)
  (rnd : PSORand K (p + 1) D)

theorem psoLoop_eq (stop : Option K) (more iter : ℕ) :
    ∃ m, m ≤ more ∧ psoLoop cfg b func rnd stop more iter (psoSeq cfg b func rnd iter) =
        (psoSeq cfg b func rnd (iter + m + 1), iter + m) ∧
      (∀ k < m, ¬ Below stop ((psoSeq cfg b func rnd (iter + k + 1)).genBest (iter + k + 1))) ∧
      (m = more ∨ Below stop ((psoSeq cfg b func rnd (iter + m + 1)).genBest (iter + m + 1))) := by
  induction more generalizing iter with
  | zero => exact ⟨0, le_refl _, rfl, by simp, Or.inl rfl⟩
  | succ more ih =>
    simp only [psoLoop]
    by_cases h : stopNow stop ((psoSeq cfg b func rnd (iter + 1)).genBest (iter + 1)) = true
    · refine ⟨0, by omega, ?_, by simp, Or.inr ((stopNow_iff _ _).mp h)⟩
      change (if stopNow stop ((psoSeq cfg b func rnd (iter + 1)).genBest (iter + 1)) = true then _ else _) = _
      rw [if_pos h]; rfl
    · obtain ⟨m, hm, he, hn, hw⟩ := ih (iter + 1)
      refine ⟨m + 1, by omega, ?_, ?_, ?_⟩
      · change (if stopNow stop ((psoSeq cfg b func rnd (iter + 1)).genBest (iter + 1)) = true then _ else _) = _
        rw [if_neg h]
        have : iter + (m + 1) = iter + 1 + m := by omega
        rw [this]; exact he
      · intro k hk
        rcases k with _ | k
        · exact fun hb => h ((stopNow_iff _ _).mpr hb)
        · have := hn k (by omega)
          have e : iter + (k + 1) + 1 = iter + 1 + k + 1 := by omega
          rw [e]; exact this
      · rcases hw with hw | hw
        · left; omega
        · right
          have e : iter + (m + 1) + 1 = iter + 1 + m + 1 := by omega
          rw [e]; exact hw

theorem psoSeq_rows_stable (n k : ℕ) (hk : k ≤ n) :
    (psoSeq cfg b func rnd n).samples k = (psoSeq cfg b func rnd k).samples k ∧
    (psoSeq cfg b func rnd n).responses k = (psoSeq cfg b func rnd k).responses k ∧
    (psoSeq cfg b func rnd n).genBest k = (psoSeq cfg b func rnd k).genBest k ∧
    (psoSeq cfg b func rnd n).genBestXs k = (psoSeq cfg b func rnd k).genBestXs k := by
  induction n with
  | zero =>
    obtain rfl : k = 0 := by omega
    simp
  | succ n ih =>
    rcases Nat.lt_or_ge n k with h | h
    · obtain rfl : k = n + 1 := by omega
      simp
    · obtain ⟨h1, h2, h3, h4⟩ := ih h
      have hne : k ≠ n + 1 := by omega
      have hs := updateGenOptimum_spec n (psoSeq cfg b func rnd n).genBest (psoSeq cfg b func rnd n).genBestXs
        (psoSeq cfg b func rnd (n+1)).x (psoSeq cfg b func rnd (n+1)).obj
      refine ⟨?_, ?_, ?_, ?_⟩
      · rw [← h1]; simp [psoSeq, psoStep, psoUpdateGenOptimum, psoUpdatePopOptimum, psoUpdateObj, psoUpdatePop, hne]
      · rw [← h2]; simp [psoSeq, psoStep, psoUpdateGenOptimum, psoUpdatePopOptimum, psoUpdateObj, psoUpdatePop, hne]
      · rw [← h3]; exact hs.1 k hne
      · rw [← h4]; exact hs.2.1 k hne

theorem psoSeq_rows_zero (n k : ℕ) (hk : n < k) :
    (psoSeq cfg b func rnd n).samples k = (fun _ _ => 0) ∧
    (psoSeq cfg b func rnd n).responses k = (fun _ => 0) ∧
    (psoSeq cfg b func rnd n).genBest k = 0 ∧
    (psoSeq cfg b func rnd n).genBestXs k = (fun _ => 0) := by
  induction n with
  | zero =>
    have hne : k ≠ 0 := by omega
    simp [psoSeq, psoInit, hne]
  | succ n ih =>
    obtain ⟨h1, h2, h3, h4⟩ := ih (by omega)
    have hne : k ≠ n + 1 := by omega
    have hs := updateGenOptimum_spec n (psoSeq cfg b func rnd n).genBest (psoSeq cfg b func rnd n).genBestXs
      (psoSeq cfg b func rnd (n+1)).x (psoSeq cfg b func rnd (n+1)).obj
    refine ⟨?_, ?_, ?_, ?_⟩
    · rw [← h1]; simp [psoSeq, psoStep, psoUpdateGenOptimum, psoUpdatePopOptimum, psoUpdateObj, psoUpdatePop, hne]
    · rw [← h2]; simp [psoSeq, psoStep, psoUpdateGenOptimum, psoUpdatePopOptimum, psoUpdateObj, psoUpdatePop, hne]
    · rw [← h3]; exact hs.1 k hne
    · rw [← h4]; exact hs.2.1 k hne

theorem psoSeq_current (n : ℕ) :
    (psoSeq cfg b func rnd n).samples n = (psoSeq cfg b func rnd n).x ∧
    (psoSeq cfg b func rnd n).responses n = func (psoSeq cfg b func rnd n).x ∧
    (psoSeq cfg b func rnd n).obj = func (psoSeq cfg b func rnd n).x := by
  cases n with
  | zero => simp [psoSeq, psoInit]
  | succ n => simp [psoSeq, psoStep, psoUpdateGenOptimum, psoUpdatePopOptimum, psoUpdateObj, psoUpdatePop]

theorem psoSeq_calls (n : ℕ) :
    (psoSeq cfg b func rnd n).calls = (List.range (n + 1)).map (psoSeq cfg b func rnd n).samples := by
  induction n with
  | zero => simp [psoSeq, psoInit, List.range_succ]
  | succ n ih =>
    have h1 : (psoSeq cfg b func rnd (n+1)).calls =
        (psoSeq cfg b func rnd n).calls ++ [(psoSeq cfg b func rnd (n+1)).x] := rfl
    rw [h1, ih, List.range_succ (n := n + 1), List.map_append]
    congr 1
    · apply List.map_congr_left
      intro k hk
      have hk := List.mem_range.mp hk
      rw [(psoSeq_rows_stable cfg b func rnd n k (by omega)).1,
        (psoSeq_rows_stable cfg b func rnd (n+1) k (by omega)).1]
    · simp [(psoSeq_current cfg b func rnd (n+1)).1]

/-- Rows recorded by the final state. -/
theorem psoSeq_row (n k : ℕ) (hk : k ≤ n) :
    (psoSeq cfg b func rnd n).samples k = (psoSeq cfg b func rnd k).x ∧
    (psoSeq cfg b func rnd n).responses k = func (psoSeq cfg b func rnd k).x := by
  obtain ⟨h1, h2, _, _⟩ := psoSeq_rows_stable cfg b func rnd n k hk
  obtain ⟨h3, h4, _⟩ := psoSeq_current cfg b func rnd k
  exact ⟨h1.trans h3, h2.trans h4⟩

theorem psoSeq_best (n : ℕ) :
    (∀ k ≤ n, ∀ i, (psoSeq cfg b func rnd n).genBest n ≤ func (psoSeq cfg b func rnd k).x i) ∧
    ∃ k ≤ n, ∃ i, (psoSeq cfg b func rnd k).x i = (psoSeq cfg b func rnd n).genBestXs n ∧
      func (psoSeq cfg b func rnd k).x i = (psoSeq cfg b func rnd n).genBest n := by
  induction n with
  | zero =>
    refine ⟨?_, 0, le_refl _, argmin (func (psoInit cfg b func rnd).x), ?_, ?_⟩
    · intro k hk i
      obtain rfl : k = 0 := by omega
      simp only [psoSeq, psoInit, Function.update_self, genBestObj]
      exact colMin_le _ i
    · simp [psoSeq, psoInit, genBestX]
    · simp [psoSeq, psoInit, genBestObj, colMin_eq_argmin]
  | succ n ih =>
    obtain ⟨h1, k0, hk0, i0, hx0, hy0⟩ := ih
    have hs := (updateGenOptimum_spec n (psoSeq cfg b func rnd n).genBest (psoSeq cfg b func rnd n).genBestXs
      (psoSeq cfg b func rnd (n+1)).x (psoSeq cfg b func rnd (n+1)).obj).2.2
    have e1 : (updateGenOptimum n (psoSeq cfg b func rnd n).genBest (psoSeq cfg b func rnd n).genBestXs
      (psoSeq cfg b func rnd (n+1)).x (psoSeq cfg b func rnd (n+1)).obj).1 = (psoSeq cfg b func rnd (n+1)).genBest := rfl
    have e2 : (updateGenOptimum n (psoSeq cfg b func rnd n).genBest (psoSeq cfg b func rnd n).genBestXs
      (psoSeq cfg b func rnd (n+1)).x (psoSeq cfg b func rnd (n+1)).obj).2 = (psoSeq cfg b func rnd (n+1)).genBestXs := rfl
    rw [e1, e2, (psoSeq_current cfg b func rnd (n+1)).2.2] at hs
    rcases hs with ⟨i, hi, hle, hy, hx⟩ | ⟨hlt, hy, hx⟩
    · refine ⟨?_, n+1, le_refl _, i, hx.symm, hy.symm⟩
      intro k hk i'
      rw [hy]
      rcases Nat.lt_or_ge n k with h | h
      · obtain rfl : k = n + 1 := by omega
        exact hi i'
      · exact hle.trans (h1 k h i')
    · refine ⟨?_, k0, by omega, i0, by rw [hx0, hx], by rw [hy0, hy]⟩
      intro k hk i'
      rw [hy]
      rcases Nat.lt_or_ge n k with h | h
      · obtain rfl : k = n + 1 := by omega
        exact (hlt i').le
      · exact h1 k h i'

theorem psoSeq_own (n : ℕ) (i : Fin (p+1)) :
    (∀ k ≤ n, (psoSeq cfg b func rnd n).popBest i ≤ func (psoSeq cfg b func rnd k).x i) ∧
    ∃ k ≤ n, (psoSeq cfg b func rnd k).x i = (psoSeq cfg b func rnd n).popBestX i ∧
      func (psoSeq cfg b func rnd k).x i = (psoSeq cfg b func rnd n).popBest i := by
  induction n with
  | zero =>
    refine ⟨?_, 0, le_refl _, rfl, rfl⟩
    intro k hk
    obtain rfl : k = 0 := by omega
    exact le_refl _
  | succ n ih =>
    obtain ⟨h1, k0, hk0, hx0, hy0⟩ := ih
    have e1 : (psoSeq cfg b func rnd (n+1)).popBest i =
      if func (psoSeq cfg b func rnd (n+1)).x i ≤ (psoSeq cfg b func rnd n).popBest i
      then func (psoSeq cfg b func rnd (n+1)).x i else (psoSeq cfg b func rnd n).popBest i := rfl
    have e2 : (psoSeq cfg b func rnd (n+1)).popBestX i =
      if func (psoSeq cfg b func rnd (n+1)).x i ≤ (psoSeq cfg b func rnd n).popBest i
      then (psoSeq cfg b func rnd (n+1)).x i else (psoSeq cfg b func rnd n).popBestX i := rfl
    rw [e1, e2]
    split
    · rename_i hle
      refine ⟨?_, n+1, le_refl _, rfl, rfl⟩
      intro k hk
      rcases Nat.lt_or_ge n k with h | h
      · obtain rfl : k = n + 1 := by omega
        exact le_refl _
      · exact hle.trans (h1 k h)
    · rename_i hle
      refine ⟨?_, k0, by omega, hx0, hy0⟩
      intro k hk
      rcases Nat.lt_or_ge n k with h | h
      · obtain rfl : k = n + 1 := by omega
        exact (not_le.mp hle).le
      · exact h1 k h

theorem psoSeq_inBox (hpos : ∀ i, ScalesIntoBox b.low b.high (rnd.pos i))
    (hrepl : ∀ t k i, ScalesIntoBox b.low b.high (rnd.repl t k i)) (n : ℕ) (i : Fin (p+1)) :
    InBox b.low b.high ((psoSeq cfg b func rnd n).x i) := by
  cases n with
  | zero => exact hpos i
  | succ n =>
    simp only [psoSeq, psoStep, psoUpdateGenOptimum, psoUpdatePopOptimum, psoUpdateObj, psoUpdatePop]
    exact locCons_inBox b _ _ (hrepl n) i

/-- `psoRun` returns exactly when the settings are non-degenerate, and then in terms of `psoSeq`. -/
theorem psoRun_ok {stop : Option K} {r : PSOResult K (p+1) D} (h : psoRun cfg b func stop rnd = .ok r) :
    ∃ last, LastGen cfg.numGen stop r.bestYHist last ∧ (∀ j, 0 ≤ vMax cfg b j) ∧
      r.bestX = (psoSeq cfg b func rnd last).genBestXs cfg.numGen ∧
      r.bestY = (psoSeq cfg b func rnd last).genBest cfg.numGen ∧
      r.bestXHist = (psoSeq cfg b func rnd last).genBestXs ∧
      r.bestYHist = (psoSeq cfg b func rnd last).genBest ∧
      r.allSamples = (psoSeq cfg b func rnd last).samples ∧
      r.allResponses = (psoSeq cfg b func rnd last).responses ∧
      r.retY = (psoSeq cfg b func rnd last).genBest last ∧
      r.retX = (psoSeq cfg b func rnd last).genBestXs last ∧
      r.calls = (psoSeq cfg b func rnd last).calls ∧
      r.popBest = (psoSeq cfg b func rnd last).popBest ∧
      r.popBestX = (psoSeq cfg b func rnd last).popBestX := by
  simp only [psoRun] at h
  split at h
  · cases h
  split at h
  · rename_i hv
    split at h
    · cases h
    · rename_i g hg
      obtain ⟨m, hm, he, hn, hw⟩ := psoLoop_eq cfg b func rnd stop g 0
      change psoLoop cfg b func rnd stop g 0 (psoInit cfg b func rnd) = _ at he
      rw [he] at h
      simp only [Nat.zero_add, Except.ok.injEq] at h hn hw
      subst h
      refine ⟨m + 1, ⟨by omega, by omega, ?_, ?_⟩, hv, rfl, rfl, rfl, rfl, rfl, rfl, rfl, rfl, rfl, rfl, rfl⟩
      · intro k hk1 hk2
        have := hn (k - 1) (by omega)
        have e : k - 1 + 1 = k := by omega
        rw [e] at this
        simp only
        rw [(psoSeq_rows_stable cfg b func rnd (m+1) k (by omega)).2.2.1]
        exact this
      · rcases hw with hw | hw
        · left; omega
        · right; exact hw
  · cases h

end pso

/-! ### DE -/

/-- State after `n` generations, ignoring the stopping rule and exceptions. -/
def deSeq {p D : ℕ} (cfg : DECfg K) (b : Box K D) (func : Pop K (p + 1) D → Fin (p + 1) → K)
    (rnd : DERand K (p + 1) D) : ℕ → DEState K (p + 1) D
  | 0 => deInit b func rnd
  | n + 1 => deStep cfg b func rnd n (deSeq cfg b func rnd n)

section de
variable {p D : ℕ} (cfg : DECfg K) (b : Box K D) (func : Pop K (p + 1) D → Fin (p + 1) → K)
  (rnd : DERand K (p + 1) D)

theorem deLoop_eq (stop : Option K) (hck : deCheck cfg (p + 1) = .ok ()) (more iter : ℕ) :
    ∃ m, m ≤ more ∧ deLoop cfg b func rnd stop more iter (deSeq cfg b func rnd iter) =
        .ok (deSeq cfg b func rnd (iter + m + 1), iter + m) ∧
      (∀ k < m, ¬ Below stop ((deSeq cfg b func rnd (iter + k + 1)).genBest (iter + k + 1))) ∧
      (m = more ∨ Below stop ((deSeq cfg b func rnd (iter + m + 1)).genBest (iter + m + 1))) := by
  induction more generalizing iter with
  | zero => 
    refine ⟨0, le_refl _, ?_, by simp, Or.inl rfl⟩
    simp only [deLoop, hck]; rfl
  | succ more ih =>
    simp only [deLoop, hck]
    by_cases h : stopNow stop ((deSeq cfg b func rnd (iter + 1)).genBest (iter + 1)) = true
    · refine ⟨0, by omega, ?_, by simp, Or.inr ((stopNow_iff _ _).mp h)⟩
      change (if stopNow stop ((deSeq cfg b func rnd (iter + 1)).genBest (iter + 1)) = true then _ else _) = _
      rw [if_pos h]; rfl
    · obtain ⟨m, hm, he, hn, hw⟩ := ih (iter + 1)
      refine ⟨m + 1, by omega, ?_, ?_, ?_⟩
      · change (if stopNow stop ((deSeq cfg b func rnd (iter + 1)).genBest (iter + 1)) = true then _ else _) = _
        rw [if_neg h]
        have : iter + (m + 1) = iter + 1 + m := by omega
        rw [this]; exact he
      · intro k hk
        rcases k with _ | k
        · exact fun hb => h ((stopNow_iff _ _).mpr hb)
        · have := hn k (by omega)
          have e : iter + (k + 1) + 1 = iter + 1 + k + 1 := by omega
          rw [e]; exact this
      · rcases hw with hw | hw
        · left; omega
        · right
          have e : iter + (m + 1) + 1 = iter + 1 + m + 1 := by omega
          rw [e]; exact hw

theorem deSeq_rows_stable (n k : ℕ) (hk : k ≤ n) :
    (deSeq cfg b func rnd n).samples k = (deSeq cfg b func rnd k).samples k ∧
    (deSeq cfg b func rnd n).responses k = (deSeq cfg b func rnd k).responses k ∧
    (deSeq cfg b func rnd n).genBest k = (deSeq cfg b func rnd k).genBest k ∧
    (deSeq cfg b func rnd n).genBestXs k = (deSeq cfg b func rnd k).genBestXs k := by
  induction n with
  | zero =>
    obtain rfl : k = 0 := by omega
    simp
  | succ n ih =>
    rcases Nat.lt_or_ge n k with h | h
    · obtain rfl : k = n + 1 := by omega
      simp
    · obtain ⟨h1, h2, h3, h4⟩ := ih h
      have hne : k ≠ n + 1 := by omega
      have hs := updateGenOptimum_spec n (deSeq cfg b func rnd n).genBest (deSeq cfg b func rnd n).genBestXs
        (deSeq cfg b func rnd (n+1)).x (deSeq cfg b func rnd (n+1)).obj
      refine ⟨?_, ?_, ?_, ?_⟩
      · rw [← h1]; simp [deSeq, deStep, deUpdateGenOptimum, deUpdateObj, hne]
      · rw [← h2]; simp [deSeq, deStep, deUpdateGenOptimum, deUpdateObj, hne]
      · rw [← h3]; exact hs.1 k hne
      · rw [← h4]; exact hs.2.1 k hne

theorem deSeq_rows_zero (n k : ℕ) (hk : n < k) :
    (deSeq cfg b func rnd n).samples k = (fun _ _ => 0) ∧
    (deSeq cfg b func rnd n).responses k = (fun _ => 0) ∧
    (deSeq cfg b func rnd n).genBest k = 0 ∧
    (deSeq cfg b func rnd n).genBestXs k = (fun _ => 0) := by
  induction n with
  | zero =>
    have hne : k ≠ 0 := by omega
    simp [deSeq, deInit, hne]
  | succ n ih =>
    obtain ⟨h1, h2, h3, h4⟩ := ih (by omega)
    have hne : k ≠ n + 1 := by omega
    have hs := updateGenOptimum_spec n (deSeq cfg b func rnd n).genBest (deSeq cfg b func rnd n).genBestXs
      (deSeq cfg b func rnd (n+1)).x (deSeq cfg b func rnd (n+1)).obj
    refine ⟨?_, ?_, ?_, ?_⟩
    · rw [← h1]; simp [deSeq, deStep, deUpdateGenOptimum, deUpdateObj, hne]
    · rw [← h2]; simp [deSeq, deStep, deUpdateGenOptimum, deUpdateObj, hne]
    · rw [← h3]; exact hs.1 k hne
    · rw [← h4]; exact hs.2.1 k hne

theorem deSeq_current (n : ℕ) :
    (deSeq cfg b func rnd n).samples n = (deSeq cfg b func rnd n).x ∧
    (deSeq cfg b func rnd n).responses n = (deSeq cfg b func rnd n).obj := by
  cases n with
  | zero => simp [deSeq, deInit]
  | succ n => simp [deSeq, deStep, deUpdateGenOptimum, deUpdateObj]

theorem deSeq_row (n k : ℕ) (hk : k ≤ n) :
    (deSeq cfg b func rnd n).samples k = (deSeq cfg b func rnd k).x ∧
    (deSeq cfg b func rnd n).responses k = (deSeq cfg b func rnd k).obj := by
  obtain ⟨h1, h2, _, _⟩ := deSeq_rows_stable cfg b func rnd n k hk
  obtain ⟨h3, h4⟩ := deSeq_current cfg b func rnd k
  exact ⟨h1.trans h3, h2.trans h4⟩

/-- The trial population evaluated in generation `n + 1`. -/
def deTrialSeq (n : ℕ) : Pop K (p + 1) D := deTrial cfg b rnd n (deSeq cfg b func rnd n)

theorem deSeq_succ (n : ℕ) (i : Fin (p + 1)) :
    (func (deTrialSeq cfg b func rnd n) i < (deSeq cfg b func rnd n).obj i ∧
      (deSeq cfg b func rnd (n+1)).x i = deTrialSeq cfg b func rnd n i ∧
      (deSeq cfg b func rnd (n+1)).obj i = func (deTrialSeq cfg b func rnd n) i) ∨
    ((deSeq cfg b func rnd n).obj i ≤ func (deTrialSeq cfg b func rnd n) i ∧
      (deSeq cfg b func rnd (n+1)).x i = (deSeq cfg b func rnd n).x i ∧
      (deSeq cfg b func rnd (n+1)).obj i = (deSeq cfg b func rnd n).obj i) := by
  have e1 : (deSeq cfg b func rnd (n+1)).x i =
    if func (deTrialSeq cfg b func rnd n) i < (deSeq cfg b func rnd n).obj i
    then deTrialSeq cfg b func rnd n i else (deSeq cfg b func rnd n).x i := rfl
  have e2 : (deSeq cfg b func rnd (n+1)).obj i =
    if func (deTrialSeq cfg b func rnd n) i < (deSeq cfg b func rnd n).obj i
    then func (deTrialSeq cfg b func rnd n) i else (deSeq cfg b func rnd n).obj i := rfl
  rw [e1, e2]
  split
  · rename_i h; exact Or.inl ⟨h, rfl, rfl⟩
  · rename_i h; exact Or.inr ⟨not_lt.mp h, rfl, rfl⟩

theorem deSeq_calls (n : ℕ) :
    (deSeq cfg b func rnd n).calls =
      (deSeq cfg b func rnd 0).x :: (List.range n).map (deTrialSeq cfg b func rnd) := by
  induction n with
  | zero => simp [deSeq, deInit]
  | succ n ih =>
    have h1 : (deSeq cfg b func rnd (n+1)).calls =
        (deSeq cfg b func rnd n).calls ++ [deTrialSeq cfg b func rnd n] := rfl
    rw [h1, ih, List.range_succ, List.map_append]
    simp

theorem deSeq_obj_mono (n k : ℕ) (hk : k ≤ n) (i : Fin (p+1)) :
    (deSeq cfg b func rnd n).obj i ≤ (deSeq cfg b func rnd k).obj i := by
  induction n with
  | zero => obtain rfl : k = 0 := by omega
            exact le_refl _
  | succ n ih =>
    rcases Nat.lt_or_ge n k with h | h
    · obtain rfl : k = n + 1 := by omega
      exact le_refl _
    · rcases deSeq_succ cfg b func rnd n i with ⟨h1, _, h3⟩ | ⟨_, _, h3⟩
      · rw [h3]; exact h1.le.trans (ih h)
      · rw [h3]; exact ih h

/-- Each slot's response is the objective's value for that slot in some evaluated population, and its position is that
slot's row there. -/
theorem deSeq_origin (n : ℕ) (i : Fin (p+1)) :
    ∃ q ∈ (deSeq cfg b func rnd n).calls, (deSeq cfg b func rnd n).x i = q i ∧
      (deSeq cfg b func rnd n).obj i = func q i := by
  induction n with
  | zero => exact ⟨(deInit b func rnd).x, by simp [deSeq, deInit], rfl, rfl⟩
  | succ n ih =>
    obtain ⟨q, hq, hx, hy⟩ := ih
    have h1 : (deSeq cfg b func rnd (n+1)).calls =
        (deSeq cfg b func rnd n).calls ++ [deTrialSeq cfg b func rnd n] := rfl
    rcases deSeq_succ cfg b func rnd n i with ⟨_, h2, h3⟩ | ⟨_, h2, h3⟩
    · exact ⟨_, by rw [h1]; simp, h2, h3⟩
    · exact ⟨q, by rw [h1]; simp [hq], by rw [h2, hx], by rw [h3, hy]⟩

theorem deSeq_best (n : ℕ) :
    (∀ i, (deSeq cfg b func rnd n).genBest n ≤ (deSeq cfg b func rnd n).obj i) ∧
    ∃ i, (deSeq cfg b func rnd n).x i = (deSeq cfg b func rnd n).genBestXs n ∧
      (deSeq cfg b func rnd n).obj i = (deSeq cfg b func rnd n).genBest n := by
  induction n with
  | zero =>
    refine ⟨?_, argmin (func (deInit b func rnd).x), ?_, ?_⟩
    · intro i
      simp only [deSeq, deInit, Function.update_self, genBestObj]
      exact colMin_le _ i
    · simp [deSeq, deInit, genBestX]
    · simp [deSeq, deInit, genBestObj, colMin_eq_argmin]
  | succ n ih =>
    obtain ⟨h1, i0, hx0, hy0⟩ := ih
    have hs := (updateGenOptimum_spec n (deSeq cfg b func rnd n).genBest (deSeq cfg b func rnd n).genBestXs
      (deSeq cfg b func rnd (n+1)).x (deSeq cfg b func rnd (n+1)).obj).2.2
    have e1 : (updateGenOptimum n (deSeq cfg b func rnd n).genBest (deSeq cfg b func rnd n).genBestXs
      (deSeq cfg b func rnd (n+1)).x (deSeq cfg b func rnd (n+1)).obj).1 = (deSeq cfg b func rnd (n+1)).genBest := rfl
    have e2 : (updateGenOptimum n (deSeq cfg b func rnd n).genBest (deSeq cfg b func rnd n).genBestXs
      (deSeq cfg b func rnd (n+1)).x (deSeq cfg b func rnd (n+1)).obj).2 = (deSeq cfg b func rnd (n+1)).genBestXs := rfl
    rw [e1, e2] at hs
    rcases hs with ⟨i, hi, hle, hy, hx⟩ | ⟨hlt, hy, hx⟩
    · exact ⟨fun i' => by rw [hy]; exact hi i', i, hx.symm, hy.symm⟩
    · exfalso
      have h2 := hlt i0
      have h3 := deSeq_obj_mono cfg b func rnd (n+1) n (by omega) i0
      rw [hy0] at h3
      exact absurd h2 (not_lt.mpr h3)

theorem deTrialSeq_inBox (hrepl : ∀ t k i, ScalesIntoBox b.low b.high (rnd.repl t k i)) (n : ℕ) (i : Fin (p+1)) :
    InBox b.low b.high (deTrialSeq cfg b func rnd n i) := by
  simp only [deTrialSeq, deTrial]
  exact locCons_inBox b _ _ (hrepl n) i

theorem deSeq_inBox (hpos : ∀ i, ScalesIntoBox b.low b.high (rnd.pos i))
    (hrepl : ∀ t k i, ScalesIntoBox b.low b.high (rnd.repl t k i)) (n : ℕ) (i : Fin (p+1)) :
    InBox b.low b.high ((deSeq cfg b func rnd n).x i) := by
  induction n with
  | zero => exact hpos i
  | succ n ih =>
    rcases deSeq_succ cfg b func rnd n i with ⟨_, h, _⟩ | ⟨_, h, _⟩
    · rw [h]; exact deTrialSeq_inBox cfg b func rnd hrepl n i
    · rw [h]; exact ih

theorem deLoop_error (stop : Option K) (e : PyErr) (hck : deCheck cfg (p + 1) = .error e) (more iter : ℕ)
    (s : DEState K (p+1) D) : deLoop cfg b func rnd stop more iter s = .error e := by
  cases more <;> simp only [deLoop, hck] <;> rfl

theorem deRun_ok {stop : Option K} {r : Result K (p+1) D} (h : deRun cfg b func stop rnd = .ok r) :
    ∃ last, LastGen cfg.numGen stop r.bestYHist last ∧ deCheck cfg (p+1) = .ok () ∧ D ≠ 0 ∧
      r.bestX = (deSeq cfg b func rnd last).genBestXs cfg.numGen ∧
      r.bestY = (deSeq cfg b func rnd last).genBest cfg.numGen ∧
      r.bestXHist = (deSeq cfg b func rnd last).genBestXs ∧
      r.bestYHist = (deSeq cfg b func rnd last).genBest ∧
      r.allSamples = (deSeq cfg b func rnd last).samples ∧
      r.allResponses = (deSeq cfg b func rnd last).responses ∧
      r.retY = (deSeq cfg b func rnd last).genBest last ∧
      r.retX = (deSeq cfg b func rnd last).genBestXs last ∧
      r.calls = (deSeq cfg b func rnd last).calls := by
  simp only [deRun] at h
  split at h
  · cases h
  rename_i hD
  split at h
  · cases h
  · rename_i g hg
    cases hck : deCheck cfg (p+1) with
    | error e =>
      rw [deLoop_error cfg b func rnd stop e hck] at h
      cases h
    | ok _ =>
      obtain ⟨m, hm, he, hn, hw⟩ := deLoop_eq cfg b func rnd stop hck g 0
      change deLoop cfg b func rnd stop g 0 (deInit b func rnd) = _ at he
      rw [he] at h
      change Except.ok _ = Except.ok r at h
      simp only [Nat.zero_add, Except.ok.injEq] at h hn hw
      subst h
      refine ⟨m + 1, ⟨by omega, by omega, ?_, ?_⟩, rfl, hD, rfl, rfl, rfl, rfl, rfl, rfl, rfl, rfl, rfl⟩
      · intro k hk1 hk2
        have := hn (k - 1) (by omega)
        have e : k - 1 + 1 = k := by omega
        rw [e] at this
        simp only
        rw [(deSeq_rows_stable cfg b func rnd (m+1) k (by omega)).2.2.1]
        exact this
      · rcases hw with hw | hw
        · left; omega
        · right; exact hw

end de

/-! ### what needs the laws of exact arithmetic -/

section exact
variable {F : Type} [Field F] [LinearOrder F] [IsStrictOrderedRing F]

/-- Exact arithmetic scales the unit cube into every box. -/
theorem scalesIntoBox_exact {D : ℕ} {low high u : Fin D → F} (hb : ∀ j, low j ≤ high j)
    (hu : ∀ j, 0 ≤ u j ∧ u j ≤ 1) : ScalesIntoBox low high u := by
  intro j
  have h1 := hu j
  have h2 := hb j
  constructor
  · have := mul_nonneg h1.1 (sub_nonneg.mpr h2); linarith
  · have := mul_le_mul_of_nonneg_right h1.2 (sub_nonneg.mpr h2); linarith

theorem velocityCons_clip {P D : ℕ} (vmax : Fin D → F) (v : Pop F P D) (h : ∀ j, 0 ≤ vmax j) (i : Fin P) (j : Fin D) :
    velocityCons vmax v i j = clip (vmax j) (v i j) := by
  have hab : ∀ a : F, npAbs a = |a| := fun _ => rfl
  unfold velocityCons clip
  rw [hab]
  have h0 := h j
  split
  · rename_i hc
    have hpos : 0 < |v i j| := lt_of_le_of_lt h0 hc
    rcases lt_trichotomy (v i j) 0 with hv | hv | hv
    · have ha : |v i j| = - v i j := abs_of_neg hv
      rw [ha] at hc hpos ⊢
      have : v i j * vmax j / -v i j = - vmax j := by
        have : v i j ≠ 0 := hv.ne
        field_simp
      rw [this, min_eq_right (by linarith), max_eq_left (by linarith)]
    · simp [hv] at hpos
    · have ha : |v i j| = v i j := abs_of_pos hv
      rw [ha] at hc hpos ⊢
      have : v i j * vmax j / v i j = vmax j := by
        have : v i j ≠ 0 := hv.ne'
        field_simp
      rw [this, min_eq_left (by linarith), max_eq_right (by linarith)]
  · rename_i hc
    have hc := abs_le.mp (not_lt.mp hc)
    rw [min_eq_right hc.2, max_eq_right hc.1]

end exact

end Mfpml.EA
