import Verif.Props.PSO
import Verif.Props.DE

/-!
# How runs of PSO and DE with different settings are related (C120, C121, C122)
-/

set_option linter.unusedSectionVars false

namespace Mfpml.Props

open Mfpml.EA Mfpml.Spec

section AnyArithmetic
variable {K : Type} [Add K] [Sub K] [Mul K] [Div K] [Neg K] [Zero K] [LinearOrder K]
variable {P p D : ℕ}

/-! ## C120: longer runs extend shorter ones -/

theorem psoSeq_numGen (cfg : PSOCfg K) (g : ℕ) (b : Box K D) (func : Pop K (p + 1) D → Fin (p + 1) → K) (rnd : PSORand K (p + 1) D) (n : ℕ) :
    psoSeq { cfg with numGen := g } b func rnd n = psoSeq cfg b func rnd n := by
  induction n with
  | zero => rfl
  | succ n ih => simp only [psoSeq]; rw [ih]; rfl

theorem deSeq_numGen (cfg : DECfg K) (g : ℕ) (b : Box K D) (func : Pop K (p + 1) D → Fin (p + 1) → K) (rnd : DERand K (p + 1) D) (n : ℕ) :
    deSeq { cfg with numGen := g } b func rnd n = deSeq cfg b func rnd n := by
  induction n with
  | zero => rfl
  | succ n ih => simp only [deSeq]; rw [ih]; rfl

/-- What `psoRun_ok` says, with the number of calls of the objective instead of the last generation. -/
theorem psoRun_seq {cfg : PSOCfg K} {b : Box K D} {func : Pop K (p + 1) D → Fin (p + 1) → K} {rnd : PSORand K (p + 1) D} {stop : Option K} {r : PSOResult K (p + 1) D} (h : psoRun cfg b func stop rnd = .ok r) :
    ∃ last, LastGen cfg.numGen stop (psoSeq cfg b func rnd last).genBest last ∧ r.calls.length = last + 1 := by
  obtain ⟨last, hl, _, _, _, _, h4, _, _, _, _, h9, _, _⟩ := psoRun_ok cfg b func rnd h
  exact ⟨last, h4 ▸ hl, by rw [h9, psoSeq_calls]; simp⟩

theorem psoSeq_calls_prefix (cfg : PSOCfg K) (b : Box K D) (func : Pop K (p + 1) D → Fin (p + 1) → K) (rnd : PSORand K (p + 1) D) {m n : ℕ} (h : m ≤ n) : (psoSeq cfg b func rnd m).calls <+: (psoSeq cfg b func rnd n).calls := by
  induction n with
  | zero => obtain rfl : m = 0 := by omega
            exact List.prefix_rfl
  | succ n ih =>
    rcases Nat.lt_or_ge n m with h' | h'
    · obtain rfl : m = n + 1 := by omega
      exact List.prefix_rfl
    · exact (ih h').trans (List.prefix_append _ _)

theorem deSeq_calls_prefix (cfg : DECfg K) (b : Box K D) (func : Pop K (p + 1) D → Fin (p + 1) → K) (rnd : DERand K (p + 1) D) {m n : ℕ} (h : m ≤ n) : (deSeq cfg b func rnd m).calls <+: (deSeq cfg b func rnd n).calls := by
  induction n with
  | zero => obtain rfl : m = 0 := by omega
            exact List.prefix_rfl
  | succ n ih =>
    rcases Nat.lt_or_ge n m with h' | h'
    · obtain rfl : m = n + 1 := by omega
      exact List.prefix_rfl
    · exact (ih h').trans (List.prefix_append _ _)

/-- A run that is allowed at least as many generations and stops only where the other one stops is not shorter. -/
theorem lastGen_le {G₁ G₂ : ℕ} {s₁ s₂ : Option K} {best₁ best₂ : ℕ → K} {l₁ l₂ : ℕ} (h₁ : LastGen G₁ s₁ best₁ l₁) (h₂ : LastGen G₂ s₂ best₂ l₂) (hG : G₁ ≤ G₂)
    (hs : ∀ k, k ≤ l₁ → k ≤ l₂ → Below s₂ (best₂ k) → Below s₁ (best₁ k)) : l₁ ≤ l₂ := by
  by_contra hlt
  push Not at hlt
  rcases h₂.why with h | h
  · have := h₁.le; omega
  · exact h₁.notBefore l₂ h₂.pos hlt (hs l₂ hlt.le le_rfl h)

/-- **C120 (PSO).** Two runs that differ only in the number of generations and the stopping threshold: the one that calls the objective less often is a prefix of the other.  The calls, the recorded samples, responses and best values
of its generations are the same, and the longer run does not return a worse value. -/
theorem C120_pso_prefix (cfg : PSOCfg K) (g₁ g₂ : ℕ) (b : Box K D) (func : Pop K P D → Fin P → K) (stop₁ stop₂ : Option K) (rnd : PSORand K P D) (r₁ r₂ : PSOResult K P D)
    (h₁ : psoRun { cfg with numGen := g₁ } b func stop₁ rnd = .ok r₁) (h₂ : psoRun { cfg with numGen := g₂ } b func stop₂ rnd = .ok r₂) (hlen : r₁.calls.length ≤ r₂.calls.length) :
    r₁.calls <+: r₂.calls ∧ r₂.retY ≤ r₁.retY ∧
    ∀ k < r₁.calls.length, r₂.allSamples k = r₁.allSamples k ∧ r₂.allResponses k = r₁.allResponses k ∧ r₂.bestXHist k = r₁.bestXHist k ∧ r₂.bestYHist k = r₁.bestYHist k := by
  cases P with
  | zero => simp [psoRun] at h₁
  | succ p =>
    obtain ⟨l₁, _, _, _, _, a3, a4, a5, a6, a7, a8, a9, _, _⟩ := psoRun_ok _ b func rnd h₁
    obtain ⟨l₂, _, _, _, _, b3, b4, b5, b6, b7, b8, b9, _, _⟩ := psoRun_ok _ b func rnd h₂
    simp only [psoSeq_numGen] at a3 a4 a5 a6 a7 a8 a9 b3 b4 b5 b6 b7 b8 b9
    have hl : l₁ ≤ l₂ := by
      rw [a9, b9, psoSeq_calls, psoSeq_calls] at hlen
      simpa using hlen
    refine ⟨?_, ?_, fun k hk => ?_⟩
    · rw [a9, b9]; exact psoSeq_calls_prefix cfg b func rnd hl
    · rw [a7, b7]
      obtain ⟨k, hk, i, _, hy⟩ := (psoSeq_best cfg b func rnd l₁).2
      rw [← hy]
      exact (psoSeq_best cfg b func rnd l₂).1 k (hk.trans hl) i
    · rw [a9, psoSeq_calls, List.length_map, List.length_range] at hk
      have hk1 : k ≤ l₁ := by omega
      obtain ⟨c1, c2, c3, c4⟩ := psoSeq_rows_stable cfg b func rnd l₁ k hk1
      obtain ⟨d1, d2, d3, d4⟩ := psoSeq_rows_stable cfg b func rnd l₂ k (hk1.trans hl)
      rw [a3, a4, a5, a6, b3, b4, b5, b6]
      exact ⟨d1.trans c1.symm, d2.trans c2.symm, d4.trans c4.symm, d3.trans c3.symm⟩

/-- **C120 (PSO).** More generations or a lower (or no) threshold never make a run shorter. -/
theorem C120_pso_longer (cfg : PSOCfg K) (g₁ g₂ : ℕ) (b : Box K D) (func : Pop K P D → Fin P → K) (stop₁ stop₂ : Option K) (rnd : PSORand K P D) (r₁ r₂ : PSOResult K P D)
    (h₁ : psoRun { cfg with numGen := g₁ } b func stop₁ rnd = .ok r₁) (h₂ : psoRun { cfg with numGen := g₂ } b func stop₂ rnd = .ok r₂) (hg : g₁ ≤ g₂) (hs : ∀ y, Below stop₂ y → Below stop₁ y) :
    r₁.calls.length ≤ r₂.calls.length := by
  cases P with
  | zero => simp [psoRun] at h₁
  | succ p =>
    obtain ⟨l₁, e₁, c₁⟩ := psoRun_seq h₁
    obtain ⟨l₂, e₂, c₂⟩ := psoRun_seq h₂
    simp only [psoSeq_numGen] at e₁ e₂
    have := lastGen_le e₁ e₂ hg (fun k k1 k2 hb => by
      rw [(psoSeq_rows_stable cfg b func rnd l₁ k k1).2.2.1]
      rw [(psoSeq_rows_stable cfg b func rnd l₂ k k2).2.2.1] at hb
      exact hs _ hb)
    omega

/-- **C120 (DE).** Two runs that differ only in the number of generations and the stopping threshold: the shorter one is a prefix of the other, and the longer one does not return a worse value. -/
theorem C120_de_prefix (cfg : DECfg K) (g₁ g₂ : ℕ) (b : Box K D) (func : Pop K P D → Fin P → K) (stop₁ stop₂ : Option K) (rnd : DERand K P D) (r₁ r₂ : Result K P D)
    (h₁ : deRun { cfg with numGen := g₁ } b func stop₁ rnd = .ok r₁) (h₂ : deRun { cfg with numGen := g₂ } b func stop₂ rnd = .ok r₂) (hlen : r₁.calls.length ≤ r₂.calls.length) :
    r₁.calls <+: r₂.calls ∧ r₂.retY ≤ r₁.retY ∧
    ∀ k < r₁.calls.length, r₂.allSamples k = r₁.allSamples k ∧ r₂.allResponses k = r₁.allResponses k ∧ r₂.bestXHist k = r₁.bestXHist k ∧ r₂.bestYHist k = r₁.bestYHist k := by
  cases P with
  | zero => simp [deRun] at h₁
  | succ p =>
    obtain ⟨l₁, _, _, _, _, _, a3, a4, a5, a6, a7, a8, a9⟩ := deRun_ok _ b func rnd h₁
    obtain ⟨l₂, _, _, _, _, _, b3, b4, b5, b6, b7, b8, b9⟩ := deRun_ok _ b func rnd h₂
    simp only [deSeq_numGen] at a3 a4 a5 a6 a7 a8 a9 b3 b4 b5 b6 b7 b8 b9
    have hlc : ∀ n, (deSeq cfg b func rnd n).calls.length = n + 1 := fun n => by rw [deSeq_calls]; simp
    have hl : l₁ ≤ l₂ := by
      rw [a9, b9, hlc, hlc] at hlen
      omega
    refine ⟨?_, ?_, fun k hk => ?_⟩
    · rw [a9, b9]; exact deSeq_calls_prefix cfg b func rnd hl
    · rw [a7, b7]
      obtain ⟨i, _, hy⟩ := (deSeq_best cfg b func rnd l₁).2
      rw [← hy]
      exact ((deSeq_best cfg b func rnd l₂).1 i).trans (deSeq_obj_mono cfg b func rnd l₂ l₁ hl i)
    · rw [a9, hlc] at hk
      have hk1 : k ≤ l₁ := by omega
      obtain ⟨c1, c2, c3, c4⟩ := deSeq_rows_stable cfg b func rnd l₁ k hk1
      obtain ⟨d1, d2, d3, d4⟩ := deSeq_rows_stable cfg b func rnd l₂ k (hk1.trans hl)
      rw [a3, a4, a5, a6, b3, b4, b5, b6]
      exact ⟨d1.trans c1.symm, d2.trans c2.symm, d4.trans c4.symm, d3.trans c3.symm⟩

theorem deRun_seq {cfg : DECfg K} {b : Box K D} {func : Pop K (p + 1) D → Fin (p + 1) → K} {rnd : DERand K (p + 1) D} {stop : Option K} {r : Result K (p + 1) D} (h : deRun cfg b func stop rnd = .ok r) :
    ∃ last, LastGen cfg.numGen stop (deSeq cfg b func rnd last).genBest last ∧ r.calls.length = last + 1 := by
  obtain ⟨last, hl, _, _, _, _, _, h4, _, _, _, _, h9⟩ := deRun_ok cfg b func rnd h
  exact ⟨last, h4 ▸ hl, by rw [h9, deSeq_calls]; simp⟩

/-- **C120 (DE).** More generations or a lower (or no) threshold never make a run shorter. -/
theorem C120_de_longer (cfg : DECfg K) (g₁ g₂ : ℕ) (b : Box K D) (func : Pop K P D → Fin P → K) (stop₁ stop₂ : Option K) (rnd : DERand K P D) (r₁ r₂ : Result K P D)
    (h₁ : deRun { cfg with numGen := g₁ } b func stop₁ rnd = .ok r₁) (h₂ : deRun { cfg with numGen := g₂ } b func stop₂ rnd = .ok r₂) (hg : g₁ ≤ g₂) (hs : ∀ y, Below stop₂ y → Below stop₁ y) :
    r₁.calls.length ≤ r₂.calls.length := by
  cases P with
  | zero => simp [deRun] at h₁
  | succ p =>
    obtain ⟨l₁, e₁, c₁⟩ := deRun_seq h₁
    obtain ⟨l₂, e₂, c₂⟩ := deRun_seq h₂
    simp only [deSeq_numGen] at e₁ e₂
    have := lastGen_le e₁ e₂ hg (fun k k1 k2 hb => by
      rw [(deSeq_rows_stable cfg b func rnd l₁ k k1).2.2.1]
      rw [(deSeq_rows_stable cfg b func rnd l₂ k k2).2.2.1] at hb
      exact hs _ hb)
    omega

/-! ## C121: only the order of the responses matters -/

theorem argmin_comp {φ : K → K} (hφ : StrictMono φ) (v : Fin (p + 1) → K) : argmin (fun i => φ (v i)) = argmin v := by
  unfold argmin
  simp only [hφ.lt_iff_lt]

theorem colMin_comp {φ : K → K} (hφ : StrictMono φ) (v : Fin (p + 1) → K) : colMin (fun i => φ (v i)) = φ (colMin v) := by
  rw [colMin_eq_argmin, colMin_eq_argmin, argmin_comp hφ]

theorem updateGenOptimum_comp {φ : K → K} (hφ : StrictMono φ) {iter : ℕ} {gb gb' : ℕ → K} (hgb : ∀ k ≤ iter, gb' k = φ (gb k)) (gbx : ℕ → Fin D → K) (x : Pop K (p + 1) D) (obj : Fin (p + 1) → K) :
    (∀ k ≤ iter + 1, (updateGenOptimum iter gb' gbx x fun i => φ (obj i)).1 k = φ ((updateGenOptimum iter gb gbx x obj).1 k)) ∧
    (updateGenOptimum iter gb' gbx x fun i => φ (obj i)).2 = (updateGenOptimum iter gb gbx x obj).2 := by
  unfold updateGenOptimum genBestObj genBestX
  rw [hgb iter le_rfl, colMin_comp hφ, argmin_comp hφ]
  simp only [ge_iff_le, hφ.le_iff_le]
  split
  · refine ⟨fun k hk => ?_, rfl⟩
    by_cases hk' : k = iter + 1
    · subst hk'; simp
    · simp [hk', hgb k (by omega)]
  · refine ⟨fun k hk => ?_, rfl⟩
    by_cases hk' : k = iter + 1
    · subst hk'; simp
    · simp [hk', hgb k (by omega)]

theorem below_map {φ : K → K} (hφ : StrictMono φ) (stop : Option K) (y : K) : Below (stop.map φ) (φ y) ↔ Below stop y := by
  cases stop with
  | none => exact Iff.rfl
  | some e => exact hφ.lt_iff_lt

theorem psoSeq_comp {φ : K → K} (hφ : StrictMono φ) (cfg : PSOCfg K) (b : Box K D) (func : Pop K (p + 1) D → Fin (p + 1) → K) (rnd : PSORand K (p + 1) D) (n : ℕ) :
    let s := psoSeq cfg b func rnd n
    let s' := psoSeq cfg b (fun q i => φ (func q i)) rnd n
    s'.x = s.x ∧ s'.v = s.v ∧ (s'.popBest = fun i => φ (s.popBest i)) ∧ s'.popBestX = s.popBestX ∧ s'.genBestXs = s.genBestXs ∧ s'.samples = s.samples ∧ s'.calls = s.calls ∧
      ∀ k ≤ n, s'.genBest k = φ (s.genBest k) := by
  induction n with
  | zero =>
    refine ⟨rfl, rfl, rfl, rfl, ?_, rfl, rfl, ?_⟩
    · simp only [psoSeq, psoInit, genBestX, argmin_comp hφ]
    · intro k hk
      obtain rfl : k = 0 := by omega
      simp only [psoSeq, psoInit, genBestObj, colMin_comp hφ, Function.update_self]
  | succ n ih =>
    obtain ⟨h1, h2, h3, h4, h5, h6, h7, h8⟩ := ih
    have hx : (psoSeq cfg b (fun q i => φ (func q i)) rnd (n + 1)).x = (psoSeq cfg b func rnd (n + 1)).x := by
      simp only [psoSeq, psoStep, psoUpdateGenOptimum, psoUpdatePopOptimum, psoUpdateObj, psoUpdatePop, h1, h2, h4, h5]
    have hv : (psoSeq cfg b (fun q i => φ (func q i)) rnd (n + 1)).v = (psoSeq cfg b func rnd (n + 1)).v := by
      simp only [psoSeq, psoStep, psoUpdateGenOptimum, psoUpdatePopOptimum, psoUpdateObj, psoUpdatePop, h1, h2, h4, h5]
    have hg := updateGenOptimum_comp hφ h8 (psoSeq cfg b func rnd n).genBestXs (psoSeq cfg b func rnd (n + 1)).x (func (psoSeq cfg b func rnd (n + 1)).x)
    have e1 : (psoSeq cfg b (fun q i => φ (func q i)) rnd (n + 1)).genBest = (updateGenOptimum n (psoSeq cfg b (fun q i => φ (func q i)) rnd n).genBest (psoSeq cfg b func rnd n).genBestXs
        (psoSeq cfg b func rnd (n + 1)).x fun i => φ (func (psoSeq cfg b func rnd (n + 1)).x i)).1 := by
      rw [← hx, ← h5]; rfl
    have e2 : (psoSeq cfg b (fun q i => φ (func q i)) rnd (n + 1)).genBestXs = (updateGenOptimum n (psoSeq cfg b (fun q i => φ (func q i)) rnd n).genBest (psoSeq cfg b func rnd n).genBestXs
        (psoSeq cfg b func rnd (n + 1)).x fun i => φ (func (psoSeq cfg b func rnd (n + 1)).x i)).2 := by
      rw [← hx, ← h5]; rfl
    have o1 : (psoSeq cfg b (fun q i => φ (func q i)) rnd (n + 1)).popBest = fun i => if φ (func (psoSeq cfg b (fun q i => φ (func q i)) rnd (n + 1)).x i) ≤ (psoSeq cfg b (fun q i => φ (func q i)) rnd n).popBest i
        then φ (func (psoSeq cfg b (fun q i => φ (func q i)) rnd (n + 1)).x i) else (psoSeq cfg b (fun q i => φ (func q i)) rnd n).popBest i := rfl
    have o2 : (psoSeq cfg b (fun q i => φ (func q i)) rnd (n + 1)).popBestX = fun i => if φ (func (psoSeq cfg b (fun q i => φ (func q i)) rnd (n + 1)).x i) ≤ (psoSeq cfg b (fun q i => φ (func q i)) rnd n).popBest i
        then (psoSeq cfg b (fun q i => φ (func q i)) rnd (n + 1)).x i else (psoSeq cfg b (fun q i => φ (func q i)) rnd n).popBestX i := rfl
    have o3 : (psoSeq cfg b func rnd (n + 1)).popBest = fun i => if func (psoSeq cfg b func rnd (n + 1)).x i ≤ (psoSeq cfg b func rnd n).popBest i
        then func (psoSeq cfg b func rnd (n + 1)).x i else (psoSeq cfg b func rnd n).popBest i := rfl
    have o4 : (psoSeq cfg b func rnd (n + 1)).popBestX = fun i => if func (psoSeq cfg b func rnd (n + 1)).x i ≤ (psoSeq cfg b func rnd n).popBest i
        then (psoSeq cfg b func rnd (n + 1)).x i else (psoSeq cfg b func rnd n).popBestX i := rfl
    refine ⟨hx, hv, ?_, ?_, ?_, ?_, ?_, ?_⟩
    · rw [o1, o3]
      funext i
      simp only [hx, h3, hφ.le_iff_le]
      split <;> rfl
    · rw [o2, o4]
      funext i
      simp only [hx, h3, h4, hφ.le_iff_le]
    · rw [e2]; exact hg.2
    · have a1 : (psoSeq cfg b (fun q i => φ (func q i)) rnd (n + 1)).samples = Function.update (psoSeq cfg b (fun q i => φ (func q i)) rnd n).samples (n + 1) (psoSeq cfg b (fun q i => φ (func q i)) rnd (n + 1)).x := rfl
      have a2 : (psoSeq cfg b func rnd (n + 1)).samples = Function.update (psoSeq cfg b func rnd n).samples (n + 1) (psoSeq cfg b func rnd (n + 1)).x := rfl
      rw [a1, a2, hx, h6]
    · have a1 : (psoSeq cfg b (fun q i => φ (func q i)) rnd (n + 1)).calls = (psoSeq cfg b (fun q i => φ (func q i)) rnd n).calls ++ [(psoSeq cfg b (fun q i => φ (func q i)) rnd (n + 1)).x] := rfl
      have a2 : (psoSeq cfg b func rnd (n + 1)).calls = (psoSeq cfg b func rnd n).calls ++ [(psoSeq cfg b func rnd (n + 1)).x] := rfl
      rw [a1, a2, hx, h7]
    · intro k hk
      rw [e1]; exact hg.1 k hk

/-- **C121 (PSO).** Replacing the objective by a strictly increasing function of it (and the threshold likewise) changes none of the positions: the same calls, the same recorded samples and the same best points; the best values are transformed. -/
theorem C121_pso {φ : K → K} (hφ : StrictMono φ) (cfg : PSOCfg K) (b : Box K D) (func : Pop K P D → Fin P → K) (stop : Option K) (rnd : PSORand K P D) (r : PSOResult K P D) (h : psoRun cfg b func stop rnd = .ok r) :
    ∃ r', psoRun cfg b (fun q i => φ (func q i)) (stop.map φ) rnd = .ok r' ∧ r'.calls = r.calls ∧ r'.retX = r.retX ∧ r'.retY = φ r.retY ∧ r'.bestX = r.bestX ∧ r'.popBestX = r.popBestX ∧
      r'.allSamples = r.allSamples ∧ r'.bestXHist = r.bestXHist ∧ ∀ k < r.calls.length, r'.bestYHist k = φ (r.bestYHist k) := by
  cases P with
  | zero => simp [psoRun] at h
  | succ p =>
    obtain ⟨l, hl, hv, a1, a2, a3, a4, a5, a6, a7, a8, a9, a10, a11⟩ := psoRun_ok cfg b func rnd h
    obtain ⟨r', h'⟩ : ∃ r', psoRun cfg b (fun q i => φ (func q i)) (stop.map φ) rnd = .ok r' :=
      (C14_pso_returns_iff cfg b _ (stop.map φ) rnd hv).1.mpr ((C14_pso_returns_iff cfg b func stop rnd hv).1.mp ⟨r, h⟩)
    obtain ⟨l', hl', _, b1, b2, b3, b4, b5, b6, b7, b8, b9, b10, b11⟩ := psoRun_ok cfg b _ rnd h'
    rw [a4] at hl
    rw [b4] at hl'
    have hrow : ∀ k, k ≤ l → k ≤ l' → (psoSeq cfg b (fun q i => φ (func q i)) rnd l').genBest k = φ ((psoSeq cfg b func rnd l).genBest k) := fun k k1 k2 => by
      rw [(psoSeq_rows_stable cfg b func rnd l k k1).2.2.1, (psoSeq_rows_stable cfg b _ rnd l' k k2).2.2.1]
      exact (psoSeq_comp hφ cfg b func rnd k).2.2.2.2.2.2.2 k le_rfl
    obtain rfl : l = l' := by
      refine le_antisymm (lastGen_le hl hl' le_rfl fun k k1 k2 hb => ?_) (lastGen_le hl' hl le_rfl fun k k1 k2 hb => ?_)
      · rw [hrow k k1 k2, below_map hφ] at hb; exact hb
      · rw [hrow k k2 k1, below_map hφ]; exact hb
    obtain ⟨c1, c2, c3, c4, c5, c6, c7, c8⟩ := psoSeq_comp hφ cfg b func rnd l
    refine ⟨r', h', by rw [a9, b9, c7], by rw [a8, b8, c5], by rw [a7, b7, c8 l le_rfl], by rw [a1, b1, c5], by rw [a11, b11, c4], by rw [a5, b5, c6], by rw [a3, b3, c5], fun k hk => ?_⟩
    rw [a9, psoSeq_calls, List.length_map, List.length_range] at hk
    rw [a4, b4, c8 k (by omega)]

theorem deTrial_congr (cfg : DECfg K) (b : Box K D) (rnd : DERand K (p + 1) D) (n : ℕ) {s s' : DEState K (p + 1) D} (hx : s'.x = s.x) (hg : s'.genBestXs = s.genBestXs) : deTrial cfg b rnd n s' = deTrial cfg b rnd n s := by
  unfold deTrial
  rw [hx, hg]

theorem deSeq_comp {φ : K → K} (hφ : StrictMono φ) (cfg : DECfg K) (b : Box K D) (func : Pop K (p + 1) D → Fin (p + 1) → K) (rnd : DERand K (p + 1) D) (n : ℕ) :
    let s := deSeq cfg b func rnd n
    let s' := deSeq cfg b (fun q i => φ (func q i)) rnd n
    s'.x = s.x ∧ (s'.obj = fun i => φ (s.obj i)) ∧ s'.genBestXs = s.genBestXs ∧ s'.samples = s.samples ∧ s'.calls = s.calls ∧ ∀ k ≤ n, s'.genBest k = φ (s.genBest k) := by
  induction n with
  | zero =>
    refine ⟨rfl, rfl, ?_, rfl, rfl, ?_⟩
    · simp only [deSeq, deInit, genBestX, argmin_comp hφ]
    · intro k hk
      obtain rfl : k = 0 := by omega
      simp only [deSeq, deInit, genBestObj, colMin_comp hφ, Function.update_self]
  | succ n ih =>
    obtain ⟨h1, h2, h3, h4, h5, h6⟩ := ih
    have ht := deTrial_congr cfg b rnd n h1 h3
    set T := deTrial cfg b rnd n (deSeq cfg b func rnd n) with hT
    have x1 : (deSeq cfg b (fun q i => φ (func q i)) rnd (n + 1)).x = fun ii => if φ (func (deTrial cfg b rnd n (deSeq cfg b (fun q i => φ (func q i)) rnd n)) ii) < (deSeq cfg b (fun q i => φ (func q i)) rnd n).obj ii
        then deTrial cfg b rnd n (deSeq cfg b (fun q i => φ (func q i)) rnd n) ii else (deSeq cfg b (fun q i => φ (func q i)) rnd n).x ii := rfl
    have x2 : (deSeq cfg b func rnd (n + 1)).x = fun ii => if func T ii < (deSeq cfg b func rnd n).obj ii then T ii else (deSeq cfg b func rnd n).x ii := rfl
    have y1 : (deSeq cfg b (fun q i => φ (func q i)) rnd (n + 1)).obj = fun ii => if φ (func (deTrial cfg b rnd n (deSeq cfg b (fun q i => φ (func q i)) rnd n)) ii) < (deSeq cfg b (fun q i => φ (func q i)) rnd n).obj ii
        then φ (func (deTrial cfg b rnd n (deSeq cfg b (fun q i => φ (func q i)) rnd n)) ii) else (deSeq cfg b (fun q i => φ (func q i)) rnd n).obj ii := rfl
    have y2 : (deSeq cfg b func rnd (n + 1)).obj = fun ii => if func T ii < (deSeq cfg b func rnd n).obj ii then func T ii else (deSeq cfg b func rnd n).obj ii := rfl
    rw [ht, h2] at x1 y1
    rw [h1] at x1
    simp only [hφ.lt_iff_lt] at x1 y1
    have hx : (deSeq cfg b (fun q i => φ (func q i)) rnd (n + 1)).x = (deSeq cfg b func rnd (n + 1)).x := by rw [x1, x2]
    have hy : (deSeq cfg b (fun q i => φ (func q i)) rnd (n + 1)).obj = fun i => φ ((deSeq cfg b func rnd (n + 1)).obj i) := by
      rw [y1, y2]
      funext i
      dsimp only
      split <;> rfl
    have hg := updateGenOptimum_comp hφ h6 (deSeq cfg b func rnd n).genBestXs (deSeq cfg b func rnd (n + 1)).x (deSeq cfg b func rnd (n + 1)).obj
    have e1 : (deSeq cfg b (fun q i => φ (func q i)) rnd (n + 1)).genBest = (updateGenOptimum n (deSeq cfg b (fun q i => φ (func q i)) rnd n).genBest (deSeq cfg b func rnd n).genBestXs
        (deSeq cfg b func rnd (n + 1)).x fun i => φ ((deSeq cfg b func rnd (n + 1)).obj i)).1 := by
      rw [← hx, ← h3, ← hy]; rfl
    have e2 : (deSeq cfg b (fun q i => φ (func q i)) rnd (n + 1)).genBestXs = (updateGenOptimum n (deSeq cfg b (fun q i => φ (func q i)) rnd n).genBest (deSeq cfg b func rnd n).genBestXs
        (deSeq cfg b func rnd (n + 1)).x fun i => φ ((deSeq cfg b func rnd (n + 1)).obj i)).2 := by
      rw [← hx, ← h3, ← hy]; rfl
    refine ⟨hx, hy, ?_, ?_, ?_, ?_⟩
    · rw [e2]; exact hg.2
    · have a1 : (deSeq cfg b (fun q i => φ (func q i)) rnd (n + 1)).samples = Function.update (deSeq cfg b (fun q i => φ (func q i)) rnd n).samples (n + 1) (deSeq cfg b (fun q i => φ (func q i)) rnd (n + 1)).x := rfl
      have a2 : (deSeq cfg b func rnd (n + 1)).samples = Function.update (deSeq cfg b func rnd n).samples (n + 1) (deSeq cfg b func rnd (n + 1)).x := rfl
      rw [a1, a2, hx, h4]
    · have a1 : (deSeq cfg b (fun q i => φ (func q i)) rnd (n + 1)).calls = (deSeq cfg b (fun q i => φ (func q i)) rnd n).calls ++ [deTrial cfg b rnd n (deSeq cfg b (fun q i => φ (func q i)) rnd n)] := rfl
      have a2 : (deSeq cfg b func rnd (n + 1)).calls = (deSeq cfg b func rnd n).calls ++ [T] := rfl
      rw [a1, a2, ht, h5]
    · intro k hk
      rw [e1]; exact hg.1 k hk

/-- **C121 (DE).** Replacing the objective by a strictly increasing function of it (and the threshold likewise) changes none of the positions. -/
theorem C121_de {φ : K → K} (hφ : StrictMono φ) (cfg : DECfg K) (b : Box K D) (func : Pop K P D → Fin P → K) (stop : Option K) (rnd : DERand K P D) (r : Result K P D) (h : deRun cfg b func stop rnd = .ok r) :
    ∃ r', deRun cfg b (fun q i => φ (func q i)) (stop.map φ) rnd = .ok r' ∧ r'.calls = r.calls ∧ r'.retX = r.retX ∧ r'.retY = φ r.retY ∧ r'.bestX = r.bestX ∧
      r'.allSamples = r.allSamples ∧ r'.bestXHist = r.bestXHist ∧ ∀ k < r.calls.length, r'.bestYHist k = φ (r.bestYHist k) := by
  cases P with
  | zero => simp [deRun] at h
  | succ p =>
    obtain ⟨l, hl, _, _, a1, a2, a3, a4, a5, a6, a7, a8, a9⟩ := deRun_ok cfg b func rnd h
    obtain ⟨r', h'⟩ : ∃ r', deRun cfg b (fun q i => φ (func q i)) (stop.map φ) rnd = .ok r' :=
      (C14_de_returns_iff cfg b _ (stop.map φ) rnd).1.mpr ((C14_de_returns_iff cfg b func stop rnd).1.mp ⟨r, h⟩)
    obtain ⟨l', hl', _, _, b1, b2, b3, b4, b5, b6, b7, b8, b9⟩ := deRun_ok cfg b _ rnd h'
    rw [a4] at hl
    rw [b4] at hl'
    have hrow : ∀ k, k ≤ l → k ≤ l' → (deSeq cfg b (fun q i => φ (func q i)) rnd l').genBest k = φ ((deSeq cfg b func rnd l).genBest k) := fun k k1 k2 => by
      rw [(deSeq_rows_stable cfg b func rnd l k k1).2.2.1, (deSeq_rows_stable cfg b _ rnd l' k k2).2.2.1]
      exact (deSeq_comp hφ cfg b func rnd k).2.2.2.2.2 k le_rfl
    obtain rfl : l = l' := by
      refine le_antisymm (lastGen_le hl hl' le_rfl fun k k1 k2 hb => ?_) (lastGen_le hl' hl le_rfl fun k k1 k2 hb => ?_)
      · rw [hrow k k1 k2, below_map hφ] at hb; exact hb
      · rw [hrow k k2 k1, below_map hφ]; exact hb
    obtain ⟨c1, c2, c5, c6, c7, c8⟩ := deSeq_comp hφ cfg b func rnd l
    refine ⟨r', h', by rw [a9, b9, c7], by rw [a8, b8, c5], by rw [a7, b7, c8 l le_rfl], by rw [a1, b1, c5], by rw [a5, b5, c6], by rw [a3, b3, c5], fun k hk => ?_⟩
    rw [a9, deSeq_calls] at hk
    simp only [List.length_cons, List.length_map, List.length_range] at hk
    rw [a4, b4, c8 k (by omega)]

end AnyArithmetic

/-! ## C122: the units of the design variables do not matter -/

section Field
variable {K : Type} [Field K] [LinearOrder K] [IsStrictOrderedRing K]
variable {P p D : ℕ}

/-- A point in other units: coordinate `j` is multiplied by `a j` and shifted by `c j`. -/
def pointInUnits (a c : Fin D → K) (x : Fin D → K) : Fin D → K := fun j => a j * x j + c j

/-- A design space in other units. -/
def boxInUnits (a c : Fin D → K) (b : Box K D) : Box K D := { low := pointInUnits a c b.low, high := pointInUnits a c b.high }

theorem locInit_units (a c : Fin D → K) (b : Box K D) (u : Pop K P D) : locInit (boxInUnits a c b) u = fun i => pointInUnits a c (locInit b u i) := by
  funext i j
  simp only [locInit, boxInUnits, pointInUnits]
  ring

theorem locCons_units {a : Fin D → K} (ha : ∀ j, 0 < a j) (c : Fin D → K) (b : Box K D) (u : Fin D → Pop K P D) (x : Pop K P D) :
    locCons (boxInUnits a c b) u (fun i => pointInUnits a c (x i)) = fun i => pointInUnits a c (locCons b u x i) := by
  funext i j
  unfold locCons
  rw [locInit_units]
  have h1 : pointInUnits a c (x i) j < (boxInUnits a c b).low j ↔ x i j < b.low j := by simp [pointInUnits, boxInUnits, ha j]
  have h2 : pointInUnits a c (x i) j > (boxInUnits a c b).high j ↔ x i j > b.high j := by simp [pointInUnits, boxInUnits, ha j]
  simp only [h1, h2]
  split <;> simp [pointInUnits, *]

theorem vMax_units (a c : Fin D → K) (cfg : PSOCfg K) (b : Box K D) (j : Fin D) : vMax cfg (boxInUnits a c b) j = a j * vMax cfg b j := by
  simp only [vMax, boxInUnits, pointInUnits]
  ring

theorem velocityCons_units {a : Fin D → K} (ha : ∀ j, 0 < a j) (m m' : Fin D → K) (hm : ∀ j, m' j = a j * m j) (v v' : Pop K P D) (hv : ∀ i j, v' i j = a j * v i j) (i : Fin P) (j : Fin D) :
    velocityCons m' v' i j = a j * velocityCons m v i j := by
  have habs : npAbs (a j * v i j) = a j * npAbs (v i j) := by
    unfold npAbs
    rw [mul_max_of_nonneg _ _ (ha j).le, mul_neg]
  unfold velocityCons
  rw [hv, hm, habs]
  simp only [gt_iff_lt, mul_lt_mul_iff_right₀ (ha j)]
  split
  · rw [show a j * v i j * (a j * m j) = a j * (a j * (v i j * m j)) by ring, mul_div_mul_left _ _ (ha j).ne', mul_div_assoc]
  · rfl

theorem updateGenOptimum_units (a c : Fin D → K) (iter : ℕ) (gb : ℕ → K) (gbx gbx' : ℕ → Fin D → K) (hg : ∀ k ≤ iter, gbx' k = pointInUnits a c (gbx k)) (x : Pop K (p + 1) D) (obj : Fin (p + 1) → K) :
    (updateGenOptimum iter gb gbx' (fun i => pointInUnits a c (x i)) obj).1 = (updateGenOptimum iter gb gbx x obj).1 ∧
    ∀ k ≤ iter + 1, (updateGenOptimum iter gb gbx' (fun i => pointInUnits a c (x i)) obj).2 k = pointInUnits a c ((updateGenOptimum iter gb gbx x obj).2 k) := by
  unfold updateGenOptimum genBestX
  split
  · refine ⟨rfl, fun k hk => ?_⟩
    by_cases h : k = iter + 1
    · subst h; simp
    · simp [h, hg k (by omega)]
  · refine ⟨rfl, fun k hk => ?_⟩
    by_cases h : k = iter + 1
    · subst h; simp [hg]
    · simp [h, hg k (by omega)]

theorem psoSeq_units {a : Fin D → K} (ha : ∀ j, 0 < a j) (c : Fin D → K) (cfg : PSOCfg K) (b : Box K D) (func func' : Pop K (p + 1) D → Fin (p + 1) → K) (hf : ∀ q, func' (fun i => pointInUnits a c (q i)) = func q)
    (rnd : PSORand K (p + 1) D) (n : ℕ) :
    let s := psoSeq cfg b func rnd n
    let s' := psoSeq cfg (boxInUnits a c b) func' rnd n
    (s'.x = fun i => pointInUnits a c (s.x i)) ∧ (∀ i j, s'.v i j = a j * s.v i j) ∧ s'.popBest = s.popBest ∧ (s'.popBestX = fun i => pointInUnits a c (s.popBestX i)) ∧ s'.genBest = s.genBest ∧
      (∀ k ≤ n, s'.genBestXs k = pointInUnits a c (s.genBestXs k)) ∧ s'.calls = s.calls.map (fun q i => pointInUnits a c (q i)) := by
  induction n with
  | zero =>
    have hx := locInit_units a c b rnd.pos
    refine ⟨hx, ?_, ?_, hx, ?_, ?_, ?_⟩
    · intro i j
      simp only [psoSeq, psoInit, vMax_units]
      ring
    · simp only [psoSeq, psoInit, hx, hf]
    · simp only [psoSeq, psoInit, hx, hf]
    · intro k hk
      obtain rfl : k = 0 := by omega
      simp only [psoSeq, psoInit, hx, hf, genBestX, Function.update_self]
    · simp only [psoSeq, psoInit, hx, List.map_cons, List.map_nil]
  | succ n ih =>
    obtain ⟨h1, h2, h3, h4, h5, h6, h7⟩ := ih
    set s := psoSeq cfg b func rnd n with hs
    set s' := psoSeq cfg (boxInUnits a c b) func' rnd n with hs'
    have hv : ∀ i j, (psoSeq cfg (boxInUnits a c b) func' rnd (n + 1)).v i j = a j * (psoSeq cfg b func rnd (n + 1)).v i j := by
      intro i j
      refine velocityCons_units ha (vMax cfg b) (vMax cfg (boxInUnits a c b)) (vMax_units a c cfg b)
        (fun i j => cfg.weight * s.v i j + cfg.cognition * (s.popBestX i j - s.x i j) + cfg.social * (s.genBestXs n j - s.x i j))
        (fun i j => cfg.weight * s'.v i j + cfg.cognition * (s'.popBestX i j - s'.x i j) + cfg.social * (s'.genBestXs n j - s'.x i j)) (fun i j => ?_) i j
      simp only [h1, h2, h4, h6 n le_rfl, pointInUnits]
      ring
    have hx : (psoSeq cfg (boxInUnits a c b) func' rnd (n + 1)).x = fun i => pointInUnits a c ((psoSeq cfg b func rnd (n + 1)).x i) := by
      have e1 : (psoSeq cfg (boxInUnits a c b) func' rnd (n + 1)).x = locCons (boxInUnits a c b) (rnd.repl n) (fun i j => s'.x i j + (psoSeq cfg (boxInUnits a c b) func' rnd (n + 1)).v i j) := rfl
      have e2 : (psoSeq cfg b func rnd (n + 1)).x = locCons b (rnd.repl n) (fun i j => s.x i j + (psoSeq cfg b func rnd (n + 1)).v i j) := rfl
      rw [e1, e2, ← locCons_units ha]
      congr 1
      funext i j
      rw [hv, h1]
      simp only [pointInUnits]
      ring
    have hfx : func' (psoSeq cfg (boxInUnits a c b) func' rnd (n + 1)).x = func (psoSeq cfg b func rnd (n + 1)).x := by rw [hx, hf]
    have hg := updateGenOptimum_units a c n s.genBest s.genBestXs s'.genBestXs h6 (psoSeq cfg b func rnd (n + 1)).x (func (psoSeq cfg b func rnd (n + 1)).x)
    have e1 : (psoSeq cfg (boxInUnits a c b) func' rnd (n + 1)).genBest = (updateGenOptimum n s.genBest s'.genBestXs (fun i => pointInUnits a c ((psoSeq cfg b func rnd (n + 1)).x i)) (func (psoSeq cfg b func rnd (n + 1)).x)).1 := by
      rw [← hx, ← h5, ← hfx]; rfl
    have e2 : (psoSeq cfg (boxInUnits a c b) func' rnd (n + 1)).genBestXs = (updateGenOptimum n s.genBest s'.genBestXs (fun i => pointInUnits a c ((psoSeq cfg b func rnd (n + 1)).x i)) (func (psoSeq cfg b func rnd (n + 1)).x)).2 := by
      rw [← hx, ← h5, ← hfx]; rfl
    have o1 : (psoSeq cfg (boxInUnits a c b) func' rnd (n + 1)).popBest = fun i => if func' (psoSeq cfg (boxInUnits a c b) func' rnd (n + 1)).x i ≤ s'.popBest i
        then func' (psoSeq cfg (boxInUnits a c b) func' rnd (n + 1)).x i else s'.popBest i := rfl
    have o2 : (psoSeq cfg (boxInUnits a c b) func' rnd (n + 1)).popBestX = fun i => if func' (psoSeq cfg (boxInUnits a c b) func' rnd (n + 1)).x i ≤ s'.popBest i
        then (psoSeq cfg (boxInUnits a c b) func' rnd (n + 1)).x i else s'.popBestX i := rfl
    have o3 : (psoSeq cfg b func rnd (n + 1)).popBest = fun i => if func (psoSeq cfg b func rnd (n + 1)).x i ≤ s.popBest i then func (psoSeq cfg b func rnd (n + 1)).x i else s.popBest i := rfl
    have o4 : (psoSeq cfg b func rnd (n + 1)).popBestX = fun i => if func (psoSeq cfg b func rnd (n + 1)).x i ≤ s.popBest i then (psoSeq cfg b func rnd (n + 1)).x i else s.popBestX i := rfl
    refine ⟨hx, hv, ?_, ?_, ?_, ?_, ?_⟩
    · rw [o1, o3, hfx, h3]
    · rw [o2, o4, hfx, h3, h4, hx]
      funext i
      dsimp only
      split <;> rfl
    · rw [e1]; exact hg.1
    · intro k hk
      rw [e2]; exact hg.2 k hk
    · have a1 : (psoSeq cfg (boxInUnits a c b) func' rnd (n + 1)).calls = s'.calls ++ [(psoSeq cfg (boxInUnits a c b) func' rnd (n + 1)).x] := rfl
      have a2 : (psoSeq cfg b func rnd (n + 1)).calls = s.calls ++ [(psoSeq cfg b func rnd (n + 1)).x] := rfl
      rw [a1, a2, hx, h7, List.map_append]
      rfl

theorem crossover_units (a c : Fin D → K) (rate : K) (k : ℕ) (cr : Fin D → K) (d d' q q' : Fin D → K) (hd : d' = pointInUnits a c d) (hq : q' = pointInUnits a c q) : crossover rate k cr d' q' = pointInUnits a c (crossover rate k cr d q) := by
  subst hd hq
  funext j
  simp only [crossover, pointInUnits]
  split <;> rfl

theorem deTrial_units {a : Fin D → K} (ha : ∀ j, 0 < a j) (c : Fin D → K) (cfg : DECfg K) (b : Box K D) (rnd : DERand K (p + 1) D) (n : ℕ) {s s' : DEState K (p + 1) D} (hx : s'.x = fun i => pointInUnits a c (s.x i))
    (hg : s'.genBestXs n = pointInUnits a c (s.genBestXs n)) : deTrial cfg (boxInUnits a c b) rnd n s' = fun i => pointInUnits a c (deTrial cfg b rnd n s i) := by
  unfold deTrial
  simp only
  rw [← locCons_units ha]
  congr 1
  funext i
  refine crossover_units a c _ _ _ _ _ _ _ ?_ (by rw [hx])
  split
  · funext j
    simp only [donorRand, hx, pointInUnits]
    ring
  · funext j
    simp only [donorBest, hx, hg, pointInUnits]
    ring

theorem deSeq_units {a : Fin D → K} (ha : ∀ j, 0 < a j) (c : Fin D → K) (cfg : DECfg K) (b : Box K D) (func func' : Pop K (p + 1) D → Fin (p + 1) → K) (hf : ∀ q, func' (fun i => pointInUnits a c (q i)) = func q)
    (rnd : DERand K (p + 1) D) (n : ℕ) :
    let s := deSeq cfg b func rnd n
    let s' := deSeq cfg (boxInUnits a c b) func' rnd n
    (s'.x = fun i => pointInUnits a c (s.x i)) ∧ s'.obj = s.obj ∧ s'.genBest = s.genBest ∧ (∀ k ≤ n, s'.genBestXs k = pointInUnits a c (s.genBestXs k)) ∧ s'.calls = s.calls.map (fun q i => pointInUnits a c (q i)) := by
  induction n with
  | zero =>
    have hx := locInit_units a c b rnd.pos
    refine ⟨hx, ?_, ?_, ?_, ?_⟩
    · simp only [deSeq, deInit, hx, hf]
    · simp only [deSeq, deInit, hx, hf]
    · intro k hk
      obtain rfl : k = 0 := by omega
      simp only [deSeq, deInit, hx, hf, genBestX, Function.update_self]
    · simp only [deSeq, deInit, hx, List.map_cons, List.map_nil]
  | succ n ih =>
    obtain ⟨h1, h2, h3, h4, h5⟩ := ih
    have ht := deTrial_units ha c cfg b rnd n h1 (h4 n le_rfl)
    set s := deSeq cfg b func rnd n with hs
    set s' := deSeq cfg (boxInUnits a c b) func' rnd n with hs'
    have hft : func' (deTrial cfg (boxInUnits a c b) rnd n s') = func (deTrial cfg b rnd n s) := by rw [ht, hf]
    have x1 : (deSeq cfg (boxInUnits a c b) func' rnd (n + 1)).x = fun ii => if func' (deTrial cfg (boxInUnits a c b) rnd n s') ii < s'.obj ii then deTrial cfg (boxInUnits a c b) rnd n s' ii else s'.x ii := rfl
    have x2 : (deSeq cfg b func rnd (n + 1)).x = fun ii => if func (deTrial cfg b rnd n s) ii < s.obj ii then deTrial cfg b rnd n s ii else s.x ii := rfl
    have y1 : (deSeq cfg (boxInUnits a c b) func' rnd (n + 1)).obj = fun ii => if func' (deTrial cfg (boxInUnits a c b) rnd n s') ii < s'.obj ii then func' (deTrial cfg (boxInUnits a c b) rnd n s') ii else s'.obj ii := rfl
    have y2 : (deSeq cfg b func rnd (n + 1)).obj = fun ii => if func (deTrial cfg b rnd n s) ii < s.obj ii then func (deTrial cfg b rnd n s) ii else s.obj ii := rfl
    have hx : (deSeq cfg (boxInUnits a c b) func' rnd (n + 1)).x = fun i => pointInUnits a c ((deSeq cfg b func rnd (n + 1)).x i) := by
      rw [x1, x2, hft, ht, h1, h2]
      funext i
      dsimp only
      split <;> rfl
    have hy : (deSeq cfg (boxInUnits a c b) func' rnd (n + 1)).obj = (deSeq cfg b func rnd (n + 1)).obj := by rw [y1, y2, hft, h2]
    have hg := updateGenOptimum_units a c n s.genBest s.genBestXs s'.genBestXs h4 (deSeq cfg b func rnd (n + 1)).x (deSeq cfg b func rnd (n + 1)).obj
    have e1 : (deSeq cfg (boxInUnits a c b) func' rnd (n + 1)).genBest = (updateGenOptimum n s.genBest s'.genBestXs (fun i => pointInUnits a c ((deSeq cfg b func rnd (n + 1)).x i)) (deSeq cfg b func rnd (n + 1)).obj).1 := by
      rw [← hx, ← h3, ← hy]; rfl
    have e2 : (deSeq cfg (boxInUnits a c b) func' rnd (n + 1)).genBestXs = (updateGenOptimum n s.genBest s'.genBestXs (fun i => pointInUnits a c ((deSeq cfg b func rnd (n + 1)).x i)) (deSeq cfg b func rnd (n + 1)).obj).2 := by
      rw [← hx, ← h3, ← hy]; rfl
    refine ⟨hx, hy, ?_, ?_, ?_⟩
    · rw [e1]; exact hg.1
    · intro k hk
      rw [e2]; exact hg.2 k hk
    · have a1 : (deSeq cfg (boxInUnits a c b) func' rnd (n + 1)).calls = s'.calls ++ [deTrial cfg (boxInUnits a c b) rnd n s'] := rfl
      have a2 : (deSeq cfg b func rnd (n + 1)).calls = s.calls ++ [deTrial cfg b rnd n s] := rfl
      rw [a1, a2, ht, h5, List.map_append]
      rfl

/-- **C122 (PSO).** The same problem with its design variables in other units (each coordinate multiplied by a positive factor and shifted; `func'` is the objective in the new units) is solved by the same run:
with the same draws every population is the old one in the new units, every best value is the same and every best point is the old one in the new units. -/
theorem C122_pso {a : Fin D → K} (ha : ∀ j, 0 < a j) (c : Fin D → K) (cfg : PSOCfg K) (b : Box K D) (func func' : Pop K P D → Fin P → K) (hf : ∀ q, func' (fun i => pointInUnits a c (q i)) = func q) (stop : Option K)
    (rnd : PSORand K P D) (r : PSOResult K P D) (h : psoRun cfg b func stop rnd = .ok r) :
    ∃ r', psoRun cfg (boxInUnits a c b) func' stop rnd = .ok r' ∧ r'.calls = r.calls.map (fun q i => pointInUnits a c (q i)) ∧ r'.retX = pointInUnits a c r.retX ∧ r'.retY = r.retY ∧ r'.bestYHist = r.bestYHist ∧
      (r'.popBestX = fun i => pointInUnits a c (r.popBestX i)) ∧ ∀ k < r.calls.length, r'.bestXHist k = pointInUnits a c (r.bestXHist k) := by
  cases P with
  | zero => simp [psoRun] at h
  | succ p =>
    obtain ⟨l, hl, hv, a1, a2, a3, a4, a5, a6, a7, a8, a9, a10, a11⟩ := psoRun_ok cfg b func rnd h
    have hv' : ∀ j, 0 ≤ vMax cfg (boxInUnits a c b) j := fun j => by rw [vMax_units]; exact mul_nonneg (ha j).le (hv j)
    obtain ⟨r', h'⟩ : ∃ r', psoRun cfg (boxInUnits a c b) func' stop rnd = .ok r' :=
      (C14_pso_returns_iff cfg (boxInUnits a c b) func' stop rnd hv').1.mpr ((C14_pso_returns_iff cfg b func stop rnd hv).1.mp ⟨r, h⟩)
    obtain ⟨l', hl', _, b1, b2, b3, b4, b5, b6, b7, b8, b9, b10, b11⟩ := psoRun_ok cfg (boxInUnits a c b) func' rnd h'
    rw [a4] at hl
    rw [b4] at hl'
    have hrow : ∀ k, k ≤ l → k ≤ l' → (psoSeq cfg (boxInUnits a c b) func' rnd l').genBest k = (psoSeq cfg b func rnd l).genBest k := fun k k1 k2 => by
      rw [(psoSeq_rows_stable cfg b func rnd l k k1).2.2.1, (psoSeq_rows_stable cfg (boxInUnits a c b) func' rnd l' k k2).2.2.1]
      rw [(psoSeq_units ha c cfg b func func' hf rnd k).2.2.2.2.1]
    obtain rfl : l = l' := by
      refine le_antisymm (lastGen_le hl hl' le_rfl fun k k1 k2 hb => ?_) (lastGen_le hl' hl le_rfl fun k k1 k2 hb => ?_)
      · rw [hrow k k1 k2] at hb; exact hb
      · rw [hrow k k2 k1]; exact hb
    obtain ⟨c1, c2, c3, c4, c5, c6, c7⟩ := psoSeq_units ha c cfg b func func' hf rnd l
    refine ⟨r', h', by rw [a9, b9, c7], by rw [a8, b8, c6 l le_rfl], by rw [a7, b7, c5], by rw [a4, b4, c5], by rw [a11, b11, c4], fun k hk => ?_⟩
    rw [a9, psoSeq_calls, List.length_map, List.length_range] at hk
    rw [a3, b3, c6 k (by omega)]

/-- **C122 (DE).** The same for differential evolution. -/
theorem C122_de {a : Fin D → K} (ha : ∀ j, 0 < a j) (c : Fin D → K) (cfg : DECfg K) (b : Box K D) (func func' : Pop K P D → Fin P → K) (hf : ∀ q, func' (fun i => pointInUnits a c (q i)) = func q) (stop : Option K)
    (rnd : DERand K P D) (r : Result K P D) (h : deRun cfg b func stop rnd = .ok r) :
    ∃ r', deRun cfg (boxInUnits a c b) func' stop rnd = .ok r' ∧ r'.calls = r.calls.map (fun q i => pointInUnits a c (q i)) ∧ r'.retX = pointInUnits a c r.retX ∧ r'.retY = r.retY ∧ r'.bestYHist = r.bestYHist ∧
      ∀ k < r.calls.length, r'.bestXHist k = pointInUnits a c (r.bestXHist k) := by
  cases P with
  | zero => simp [deRun] at h
  | succ p =>
    obtain ⟨l, hl, _, _, a1, a2, a3, a4, a5, a6, a7, a8, a9⟩ := deRun_ok cfg b func rnd h
    obtain ⟨r', h'⟩ : ∃ r', deRun cfg (boxInUnits a c b) func' stop rnd = .ok r' :=
      (C14_de_returns_iff cfg (boxInUnits a c b) func' stop rnd).1.mpr ((C14_de_returns_iff cfg b func stop rnd).1.mp ⟨r, h⟩)
    obtain ⟨l', hl', _, _, b1, b2, b3, b4, b5, b6, b7, b8, b9⟩ := deRun_ok cfg (boxInUnits a c b) func' rnd h'
    rw [a4] at hl
    rw [b4] at hl'
    have hrow : ∀ k, k ≤ l → k ≤ l' → (deSeq cfg (boxInUnits a c b) func' rnd l').genBest k = (deSeq cfg b func rnd l).genBest k := fun k k1 k2 => by
      rw [(deSeq_rows_stable cfg b func rnd l k k1).2.2.1, (deSeq_rows_stable cfg (boxInUnits a c b) func' rnd l' k k2).2.2.1]
      rw [(deSeq_units ha c cfg b func func' hf rnd k).2.2.1]
    obtain rfl : l = l' := by
      refine le_antisymm (lastGen_le hl hl' le_rfl fun k k1 k2 hb => ?_) (lastGen_le hl' hl le_rfl fun k k1 k2 hb => ?_)
      · rw [hrow k k1 k2] at hb; exact hb
      · rw [hrow k k2 k1]; exact hb
    obtain ⟨c1, c2, c5, c6, c7⟩ := deSeq_units ha c cfg b func func' hf rnd l
    refine ⟨r', h', by rw [a9, b9, c7], by rw [a8, b8, c6 l le_rfl], by rw [a7, b7, c5], by rw [a4, b4, c5], fun k hk => ?_⟩
    rw [a9, deSeq_calls] at hk
    simp only [List.length_cons, List.length_map, List.length_range] at hk
    rw [a3, b3, c6 k (by omega)]

end Field

/-! ## Non-vacuity -/

/-- C120, C121 and C122 apply to the example run of `Props/PSO.lean`: more generations, the objective doubled and shifted (a strictly increasing change), and the interval `[0, 1]` written in percent. -/
example : ∃ r, psoRun exCfg exBox exFunc (some 0) exRnd = .ok r ∧ (∃ r₂, psoRun { exCfg with numGen := 7 } exBox exFunc none exRnd = .ok r₂ ∧ r.calls <+: r₂.calls) ∧
    (∃ r', psoRun exCfg exBox (fun q i => 2 * exFunc q i + 3) (some 3) exRnd = .ok r' ∧ r'.retX = r.retX ∧ r'.retY = 2 * r.retY + 3) ∧
    ∃ r', psoRun exCfg { low := fun _ => 0, high := fun _ => 100 } (fun q i => q i 0 / 100 - 5) (some 0) exRnd = .ok r' ∧ (∀ j, r'.retX j = 100 * r.retX j) ∧ r'.retY = r.retY := by
  obtain ⟨r, hr⟩ := ((C14_pso_returns_iff exCfg exBox exFunc (some 0) exRnd (by intro j; norm_num [exBox, exCfg])).1).mpr (by norm_num [exCfg])
  obtain ⟨r₂, hr₂⟩ := ((C14_pso_returns_iff { exCfg with numGen := 7 } exBox exFunc none exRnd (by intro j; norm_num [exBox, exCfg])).1).mpr (by norm_num)
  refine ⟨r, hr, ⟨r₂, hr₂, ?_⟩, ?_, ?_⟩
  · exact (C120_pso_prefix exCfg 2 7 exBox exFunc (some 0) none exRnd r r₂ hr hr₂ (C120_pso_longer exCfg 2 7 exBox exFunc (some 0) none exRnd r r₂ hr hr₂ (by norm_num) (fun y h => by cases h))).1
  · have hφ : StrictMono (fun y : ℚ => 2 * y + 3) := fun x y h => by dsimp only; linarith
    obtain ⟨r', h1, _, h3, h4, _⟩ := C121_pso hφ exCfg exBox exFunc (some 0) exRnd r hr
    refine ⟨r', ?_, h3, h4⟩
    simpa using h1
  · obtain ⟨r', h1, _, h3, h4, _⟩ := C122_pso (a := fun _ => (100 : ℚ)) (fun _ => by norm_num) (fun _ => 0) exCfg exBox exFunc (fun q i => q i 0 / 100 - 5)
      (fun q => by funext i; simp only [pointInUnits, exFunc]; ring) (some 0) exRnd r hr
    refine ⟨r', ?_, fun j => by rw [h3]; simp [pointInUnits], h4⟩
    have hb : ({ low := fun _ => 0, high := fun _ => 100 } : Box ℚ 1) = boxInUnits (fun _ => 100) (fun _ => 0) exBox := by
      simp only [boxInUnits, exBox]
      congr 1 <;> funext j <;> simp [pointInUnits]
    rw [hb]
    exact h1

end Mfpml.Props
