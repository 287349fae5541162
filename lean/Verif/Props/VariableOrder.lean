import Verif.Props.RunRelations
import Verif.Model.EvolutionaryRaise

/-!
# The order of the design variables (C141): the optimisers

`σ` says which old variable each new variable is: variable `j` of the renumbered problem is variable `σ j` of the old one.
-/

set_option linter.unusedSectionVars false
set_option linter.unusedDecidableInType false

namespace Mfpml.Props

open Mfpml.EA Mfpml.Spec

section AnyArithmetic
variable {K : Type} [Add K] [Sub K] [Mul K] [Div K] [Neg K] [Zero K] [LinearOrder K]
variable {P p D : ℕ}

/-- A point with its variables renumbered. -/
def reorderPt (σ : Equiv.Perm (Fin D)) (x : Fin D → K) : Fin D → K := fun j => x (σ j)

/-- A design space with its variables renumbered. -/
def reorderBox (σ : Equiv.Perm (Fin D)) (b : Box K D) : Box K D := { low := reorderPt σ b.low, high := reorderPt σ b.high }

/-- A population with its variables renumbered. -/
def reorderPop (σ : Equiv.Perm (Fin D)) (x : Pop K P D) : Pop K P D := fun i => reorderPt σ (x i)

/-- The draws of a PSO run, each used for the same variable as before. -/
def reorderPSORand (σ : Equiv.Perm (Fin D)) (rnd : PSORand K P D) : PSORand K P D :=
  { pos := reorderPop σ rnd.pos, vel := reorderPop σ rnd.vel, repl := fun n j => reorderPop σ (rnd.repl n (σ j)) }

/-- The draws of a DE run, each used for the same variable as before; the forced crossover variable `c` gets its new number. -/
def reorderDERand (σ : Equiv.Perm (Fin D)) (rnd : DERand K P D) : DERand K P D :=
  { rnd with pos := reorderPop σ rnd.pos, cr := fun n => reorderPop σ (rnd.cr n), repl := fun n j => reorderPop σ (rnd.repl n (σ j))
             c := fun n i => if h : rnd.c n i < D then (σ.symm ⟨rnd.c n i, h⟩).val else rnd.c n i }

/-- What a run returns, with the variables renumbered: points are reordered, values are as they were. -/
def reorderResult (σ : Equiv.Perm (Fin D)) (r : Result K P D) : Result K P D :=
  { r with bestX := reorderPt σ r.bestX, bestXHist := fun k => reorderPt σ (r.bestXHist k), allSamples := fun k => reorderPop σ (r.allSamples k), retX := reorderPt σ r.retX,
           calls := r.calls.map (reorderPop σ) }

/-- The same for PSO. -/
def reorderPSOResult (σ : Equiv.Perm (Fin D)) (r : PSOResult K P D) : PSOResult K P D :=
  { toResult := reorderResult σ r.toResult, popBest := r.popBest, popBestX := reorderPop σ r.popBestX }

def reorderPSOState (σ : Equiv.Perm (Fin D)) (s : PSOState K P D) : PSOState K P D :=
  { s with x := reorderPop σ s.x, v := reorderPop σ s.v, popBestX := reorderPop σ s.popBestX, genBestXs := fun k => reorderPt σ (s.genBestXs k), samples := fun k => reorderPop σ (s.samples k),
           calls := s.calls.map (reorderPop σ) }

def reorderDEState (σ : Equiv.Perm (Fin D)) (s : DEState K P D) : DEState K P D :=
  { s with x := reorderPop σ s.x, genBestXs := fun k => reorderPt σ (s.genBestXs k), samples := fun k => reorderPop σ (s.samples k), calls := s.calls.map (reorderPop σ) }

theorem reorder_update {α β : Type} (g : α → β) (f : ℕ → α) (k : ℕ) (v : α) : (fun i => g (Function.update f k v i)) = Function.update (fun i => g (f i)) k (g v) := by
  funext i
  by_cases h : i = k
  · subst h; simp
  · simp [h]

theorem updateGenOptimum_reorder (σ : Equiv.Perm (Fin D)) (iter : ℕ) (gb : ℕ → K) (gbx : ℕ → Fin D → K) (x : Pop K (p + 1) D) (obj : Fin (p + 1) → K) :
    updateGenOptimum iter gb (fun k => reorderPt σ (gbx k)) (reorderPop σ x) obj =
      ((updateGenOptimum iter gb gbx x obj).1, fun k => reorderPt σ ((updateGenOptimum iter gb gbx x obj).2 k)) := by
  unfold updateGenOptimum
  split
  · simp only [reorder_update (reorderPt σ)]; rfl
  · simp only [reorder_update (reorderPt σ)]

theorem locCons_reorder (σ : Equiv.Perm (Fin D)) (b : Box K D) (u : Fin D → Pop K P D) (x : Pop K P D) :
    locCons (reorderBox σ b) (fun j => reorderPop σ (u (σ j))) (reorderPop σ x) = reorderPop σ (locCons b u x) := rfl

theorem psoInit_reorder (σ : Equiv.Perm (Fin D)) (cfg : PSOCfg K) (b : Box K D) (func func' : Pop K (p + 1) D → Fin (p + 1) → K) (hf : ∀ q, func' (reorderPop σ q) = func q)
    (rnd : PSORand K (p + 1) D) : psoInit cfg (reorderBox σ b) func' (reorderPSORand σ rnd) = reorderPSOState σ (psoInit cfg b func rnd) := by
  have hx : locInit (reorderBox σ b) (reorderPSORand σ rnd).pos = reorderPop σ (locInit b rnd.pos) := rfl
  simp only [psoInit, reorderPSOState, hx, hf, reorder_update (reorderPt σ), reorder_update (reorderPop σ)]
  rfl

theorem psoUpdatePop_reorder (σ : Equiv.Perm (Fin D)) (cfg : PSOCfg K) (b : Box K D) (rnd : PSORand K P D) (n : ℕ) (s : PSOState K P D) :
    psoUpdatePop cfg (reorderBox σ b) (reorderPSORand σ rnd) n (reorderPSOState σ s) = reorderPSOState σ (psoUpdatePop cfg b rnd n s) := by
  simp only [psoUpdatePop, reorderPSOState, reorder_update (reorderPop σ)]
  rfl

theorem psoUpdateObj_reorder (σ : Equiv.Perm (Fin D)) (func func' : Pop K P D → Fin P → K) (hf : ∀ q, func' (reorderPop σ q) = func q) (n : ℕ) (s : PSOState K P D) :
    psoUpdateObj func' n (reorderPSOState σ s) = reorderPSOState σ (psoUpdateObj func n s) := by
  simp only [psoUpdateObj, reorderPSOState, hf, List.map_append, List.map_cons, List.map_nil]

theorem psoUpdatePopOptimum_reorder (σ : Equiv.Perm (Fin D)) (s : PSOState K P D) : psoUpdatePopOptimum (reorderPSOState σ s) = reorderPSOState σ (psoUpdatePopOptimum s) := by
  simp only [psoUpdatePopOptimum, reorderPSOState, PSOState.mk.injEq, true_and, and_true]
  refine ⟨rfl, ?_⟩
  funext i
  by_cases h : s.obj i ≤ s.popBest i <;> simp only [reorderPop, h, if_true, if_false]

theorem psoUpdateGenOptimum_reorder (σ : Equiv.Perm (Fin D)) (n : ℕ) (s : PSOState K (p + 1) D) : psoUpdateGenOptimum n (reorderPSOState σ s) = reorderPSOState σ (psoUpdateGenOptimum n s) := by
  simp only [psoUpdateGenOptimum, reorderPSOState, updateGenOptimum_reorder]

theorem psoStep_reorder (σ : Equiv.Perm (Fin D)) (cfg : PSOCfg K) (b : Box K D) (func func' : Pop K (p + 1) D → Fin (p + 1) → K) (hf : ∀ q, func' (reorderPop σ q) = func q)
    (rnd : PSORand K (p + 1) D) (n : ℕ) (s : PSOState K (p + 1) D) :
    psoStep cfg (reorderBox σ b) func' (reorderPSORand σ rnd) n (reorderPSOState σ s) = reorderPSOState σ (psoStep cfg b func rnd n s) := by
  simp only [psoStep, psoUpdatePop_reorder, psoUpdateObj_reorder σ func func' hf, psoUpdatePopOptimum_reorder, psoUpdateGenOptimum_reorder]

theorem psoLoop_reorder (σ : Equiv.Perm (Fin D)) (cfg : PSOCfg K) (b : Box K D) (func func' : Pop K (p + 1) D → Fin (p + 1) → K) (hf : ∀ q, func' (reorderPop σ q) = func q)
    (rnd : PSORand K (p + 1) D) (stop : Option K) (more n : ℕ) (s : PSOState K (p + 1) D) :
    psoLoop cfg (reorderBox σ b) func' (reorderPSORand σ rnd) stop more n (reorderPSOState σ s) =
      (reorderPSOState σ (psoLoop cfg b func rnd stop more n s).1, (psoLoop cfg b func rnd stop more n s).2) := by
  induction more generalizing n s with
  | zero => simp only [psoLoop, psoStep_reorder σ cfg b func func' hf]
  | succ more ih =>
    simp only [psoLoop, psoStep_reorder σ cfg b func func' hf, ih]
    have : (reorderPSOState σ (psoStep cfg b func rnd n s)).genBest = (psoStep cfg b func rnd n s).genBest := rfl
    rw [this]
    split <;> rfl

/-- **C141 (PSO).** Renumber the design variables: the design space and the objective take them in another order, and each random number goes to the variable it went to before.  Then the run is the same run with
the points' coordinates in the new order: it raises the same exception, or makes the same calls and returns the same values and the same points. -/
theorem C141_pso (σ : Equiv.Perm (Fin D)) (cfg : PSOCfg K) (b : Box K D) (func func' : Pop K P D → Fin P → K) (hf : ∀ q, func' (reorderPop σ q) = func q) (stop : Option K) (rnd : PSORand K P D) :
    psoRun cfg (reorderBox σ b) func' stop (reorderPSORand σ rnd) = (psoRun cfg b func stop rnd).map (reorderPSOResult σ) := by
  cases P with
  | zero => rfl
  | succ p =>
    have hv : (∀ j, 0 ≤ vMax cfg (reorderBox σ b) j) ↔ ∀ j, 0 ≤ vMax cfg b j :=
      ⟨fun h j => by have := h (σ.symm j); simpa only [vMax, reorderBox, reorderPt, Equiv.apply_symm_apply] using this, fun h j => h (σ j)⟩
    unfold psoRun
    by_cases hD : D = 0
    · simp only [if_pos hD]; rfl
    by_cases hV : ∀ j, 0 ≤ vMax cfg b j
    · simp only [if_neg hD, if_pos hV, if_pos (hv.mpr hV)]
      cases hg : cfg.numGen with
      | zero => rfl
      | succ g =>
        simp only [psoInit_reorder σ cfg b func func' hf, psoLoop_reorder σ cfg b func func' hf]
        rfl
    · simp only [if_neg hD, if_neg hV, if_neg (fun h => hV (hv.mp h))]; rfl

theorem deInit_reorder (σ : Equiv.Perm (Fin D)) (b : Box K D) (func func' : Pop K (p + 1) D → Fin (p + 1) → K) (hf : ∀ q, func' (reorderPop σ q) = func q)
    (rnd : DERand K (p + 1) D) : deInit (reorderBox σ b) func' (reorderDERand σ rnd) = reorderDEState σ (deInit b func rnd) := by
  have hx : locInit (reorderBox σ b) (reorderDERand σ rnd).pos = reorderPop σ (locInit b rnd.pos) := rfl
  simp only [deInit, reorderDEState, hx, hf, reorder_update (reorderPt σ), reorder_update (reorderPop σ)]
  rfl

theorem crossover_reorder (σ : Equiv.Perm (Fin D)) (rate : K) (c : ℕ) (cr donor parent : Fin D → K) :
    crossover rate (if h : c < D then (σ.symm ⟨c, h⟩).val else c) (reorderPt σ cr) (reorderPt σ donor) (reorderPt σ parent) = reorderPt σ (crossover rate c cr donor parent) := by
  funext j
  have : (if h : c < D then (σ.symm ⟨c, h⟩).val else c) = j.val ↔ c = (σ j).val := by
    split
    · rename_i h
      rw [← Fin.ext_iff, Equiv.symm_apply_eq, Fin.ext_iff]
    · rename_i h
      have := j.isLt
      have := (σ j).isLt
      constructor <;> intro <;> omega
  simp only [crossover, reorderPt, this]

theorem deTrial_reorder (σ : Equiv.Perm (Fin D)) (cfg : DECfg K) (b : Box K D) (rnd : DERand K (p + 1) D) (n : ℕ) (s : DEState K (p + 1) D) :
    deTrial cfg (reorderBox σ b) (reorderDERand σ rnd) n (reorderDEState σ s) = reorderPop σ (deTrial cfg b rnd n s) := by
  unfold deTrial
  rw [← locCons_reorder]
  simp only
  congr 1
  funext i
  refine Eq.trans ?_ (crossover_reorder σ _ _ _ _ _)
  congr 1
  by_cases h : cfg.strategy = "DE/rand/1/bin"
  · simp only [if_pos h]; rfl
  · simp only [if_neg h]; rfl

theorem deUpdateObj_reorder (σ : Equiv.Perm (Fin D)) (func func' : Pop K P D → Fin P → K) (hf : ∀ q, func' (reorderPop σ q) = func q) (n : ℕ) (u : Pop K P D) (s : DEState K P D) :
    deUpdateObj func' n (reorderPop σ u) (reorderDEState σ s) = reorderDEState σ (deUpdateObj func n u s) := by
  have hx : (fun ii => if func u ii < s.obj ii then reorderPop σ u ii else reorderPop σ s.x ii) = reorderPop σ (fun ii => if func u ii < s.obj ii then u ii else s.x ii) := by
    funext i
    by_cases h : func u i < s.obj i <;> simp only [reorderPop, h, if_true, if_false]
  simp only [deUpdateObj, reorderDEState, hf, List.map_append, List.map_cons, List.map_nil, reorder_update (reorderPop σ), hx]

theorem deUpdateGenOptimum_reorder (σ : Equiv.Perm (Fin D)) (n : ℕ) (s : DEState K (p + 1) D) : deUpdateGenOptimum n (reorderDEState σ s) = reorderDEState σ (deUpdateGenOptimum n s) := by
  simp only [deUpdateGenOptimum, reorderDEState, updateGenOptimum_reorder]

theorem deStep_reorder (σ : Equiv.Perm (Fin D)) (cfg : DECfg K) (b : Box K D) (func func' : Pop K (p + 1) D → Fin (p + 1) → K) (hf : ∀ q, func' (reorderPop σ q) = func q)
    (rnd : DERand K (p + 1) D) (n : ℕ) (s : DEState K (p + 1) D) :
    deStep cfg (reorderBox σ b) func' (reorderDERand σ rnd) n (reorderDEState σ s) = reorderDEState σ (deStep cfg b func rnd n s) := by
  simp only [deStep, deTrial_reorder, deUpdateObj_reorder σ func func' hf, deUpdateGenOptimum_reorder]

theorem deLoop_reorder (σ : Equiv.Perm (Fin D)) (cfg : DECfg K) (b : Box K D) (func func' : Pop K (p + 1) D → Fin (p + 1) → K) (hf : ∀ q, func' (reorderPop σ q) = func q)
    (rnd : DERand K (p + 1) D) (stop : Option K) (more n : ℕ) (s : DEState K (p + 1) D) :
    deLoop cfg (reorderBox σ b) func' (reorderDERand σ rnd) stop more n (reorderDEState σ s) = (deLoop cfg b func rnd stop more n s).map (fun r => (reorderDEState σ r.1, r.2)) := by
  induction more generalizing n s with
  | zero =>
    simp only [deLoop, deStep_reorder σ cfg b func func' hf]
    cases deCheck cfg (p + 1) <;> rfl
  | succ more ih =>
    simp only [deLoop, deStep_reorder σ cfg b func func' hf, ih]
    have : (reorderDEState σ (deStep cfg b func rnd n s)).genBest = (deStep cfg b func rnd n s).genBest := rfl
    rw [this]
    cases deCheck cfg (p + 1) with
    | error e => rfl
    | ok u =>
      simp only [bind, Except.bind]
      split <;> rfl

/-- **C141 (DE).** The same for differential evolution, with either strategy. -/
theorem C141_de (σ : Equiv.Perm (Fin D)) (cfg : DECfg K) (b : Box K D) (func func' : Pop K P D → Fin P → K) (hf : ∀ q, func' (reorderPop σ q) = func q) (stop : Option K) (rnd : DERand K P D) :
    deRun cfg (reorderBox σ b) func' stop (reorderDERand σ rnd) = (deRun cfg b func stop rnd).map (reorderResult σ) := by
  cases P with
  | zero => rfl
  | succ p =>
    unfold deRun
    by_cases hD : D = 0
    · simp only [if_pos hD]; rfl
    · simp only [if_neg hD]
      cases hg : cfg.numGen with
      | zero => rfl
      | succ g =>
        simp only [deInit_reorder σ b func func' hf, deLoop_reorder σ cfg b func func' hf]
        cases deLoop cfg b func rnd stop g 0 (deInit b func rnd) <;> rfl

/-! ### Objectives that may raise -/

theorem psoStepM_reorder (σ : Equiv.Perm (Fin D)) (cfg : PSOCfg K) (b : Box K D) (func func' : Pop K (p + 1) D → Py (Fin (p + 1) → K)) (hf : ∀ q, func' (reorderPop σ q) = func q)
    (rnd : PSORand K (p + 1) D) (n : ℕ) (s : PSOState K (p + 1) D) :
    psoStepM cfg (reorderBox σ b) func' (reorderPSORand σ rnd) n (reorderPSOState σ s) = (psoStepM cfg b func rnd n s).map (reorderPSOState σ) := by
  have hx : func' (reorderPSOState σ (psoUpdatePop cfg b rnd n s)).x = func (psoUpdatePop cfg b rnd n s).x := hf (psoUpdatePop cfg b rnd n s).x
  simp only [psoStepM, psoUpdatePop_reorder, hx]
  cases func (psoUpdatePop cfg b rnd n s).x with
  | error e => rfl
  | ok obj => simp only [bind, Except.bind, Except.map, psoUpdateObj_reorder σ (fun _ => obj) (fun _ => obj) (fun _ => rfl), psoUpdatePopOptimum_reorder, psoUpdateGenOptimum_reorder]

theorem psoLoopM_reorder (σ : Equiv.Perm (Fin D)) (cfg : PSOCfg K) (b : Box K D) (func func' : Pop K (p + 1) D → Py (Fin (p + 1) → K)) (hf : ∀ q, func' (reorderPop σ q) = func q)
    (rnd : PSORand K (p + 1) D) (stop : Option K) (more n : ℕ) (s : PSOState K (p + 1) D) :
    psoLoopM cfg (reorderBox σ b) func' (reorderPSORand σ rnd) stop more n (reorderPSOState σ s) = (psoLoopM cfg b func rnd stop more n s).map (fun r => (reorderPSOState σ r.1, r.2)) := by
  induction more generalizing n s with
  | zero =>
    simp only [psoLoopM, psoStepM_reorder σ cfg b func func' hf]
    cases psoStepM cfg b func rnd n s <;> rfl
  | succ more ih =>
    simp only [psoLoopM, psoStepM_reorder σ cfg b func func' hf]
    cases psoStepM cfg b func rnd n s with
    | error e => rfl
    | ok s' =>
      simp only [bind, Except.bind, Except.map]
      have : (reorderPSOState σ s').genBest = s'.genBest := rfl
      rw [this]
      split
      · rfl
      · rw [ih]; rfl

/-- C141 (PSO) with an objective that may raise. -/
theorem C141_pso_raising (σ : Equiv.Perm (Fin D)) (cfg : PSOCfg K) (b : Box K D) (func func' : Pop K P D → Py (Fin P → K)) (hf : ∀ q, func' (reorderPop σ q) = func q) (stop : Option K) (rnd : PSORand K P D) :
    psoRunM cfg (reorderBox σ b) func' stop (reorderPSORand σ rnd) = (psoRunM cfg b func stop rnd).map (reorderPSOResult σ) := by
  have hx : func' (locInit (reorderBox σ b) (reorderPSORand σ rnd).pos) = func (locInit b rnd.pos) := hf (locInit b rnd.pos)
  cases P with
  | zero =>
    simp only [psoRunM, hx]
    cases func (locInit b rnd.pos) <;> rfl
  | succ p =>
    have hv : (∀ j, 0 ≤ vMax cfg (reorderBox σ b) j) ↔ ∀ j, 0 ≤ vMax cfg b j :=
      ⟨fun h j => by have := h (σ.symm j); simpa only [vMax, reorderBox, reorderPt, Equiv.apply_symm_apply] using this, fun h j => h (σ j)⟩
    simp only [psoRunM, hx]
    cases func (locInit b rnd.pos) with
    | error e => rfl
    | ok obj =>
      simp only [bind, Except.bind]
      by_cases hD : D = 0
      · simp only [if_pos hD]; rfl
      by_cases hV : ∀ j, 0 ≤ vMax cfg b j
      · simp only [if_neg hD, if_pos hV, if_pos (hv.mpr hV)]
        cases hg : cfg.numGen with
        | zero => rfl
        | succ g =>
          simp only [psoInit_reorder σ cfg b (fun _ => obj) (fun _ => obj) (fun _ => rfl), psoLoopM_reorder σ cfg b func func' hf]
          cases psoLoopM cfg b func rnd stop g 0 (psoInit cfg b (fun _ => obj) rnd) <;> rfl
      · simp only [if_neg hD, if_neg hV, if_neg (fun h => hV (hv.mp h))]; rfl

theorem deStepM_reorder (σ : Equiv.Perm (Fin D)) (cfg : DECfg K) (b : Box K D) (func func' : Pop K (p + 1) D → Py (Fin (p + 1) → K)) (hf : ∀ q, func' (reorderPop σ q) = func q)
    (rnd : DERand K (p + 1) D) (n : ℕ) (s : DEState K (p + 1) D) :
    deStepM cfg (reorderBox σ b) func' (reorderDERand σ rnd) n (reorderDEState σ s) = (deStepM cfg b func rnd n s).map (reorderDEState σ) := by
  simp only [deStepM, deTrial_reorder, hf]
  cases deCheck cfg (p + 1) with
  | error e => rfl
  | ok u =>
    simp only [bind, Except.bind]
    cases func (deTrial cfg b rnd n s) with
    | error e => rfl
    | ok obj => simp only [Except.map, deUpdateObj_reorder σ (fun _ => obj) (fun _ => obj) (fun _ => rfl), deUpdateGenOptimum_reorder]

theorem deLoopM_reorder (σ : Equiv.Perm (Fin D)) (cfg : DECfg K) (b : Box K D) (func func' : Pop K (p + 1) D → Py (Fin (p + 1) → K)) (hf : ∀ q, func' (reorderPop σ q) = func q)
    (rnd : DERand K (p + 1) D) (stop : Option K) (more n : ℕ) (s : DEState K (p + 1) D) :
    deLoopM cfg (reorderBox σ b) func' (reorderDERand σ rnd) stop more n (reorderDEState σ s) = (deLoopM cfg b func rnd stop more n s).map (fun r => (reorderDEState σ r.1, r.2)) := by
  induction more generalizing n s with
  | zero =>
    simp only [deLoopM, deStepM_reorder σ cfg b func func' hf]
    cases deStepM cfg b func rnd n s <;> rfl
  | succ more ih =>
    simp only [deLoopM, deStepM_reorder σ cfg b func func' hf]
    cases deStepM cfg b func rnd n s with
    | error e => rfl
    | ok s' =>
      simp only [bind, Except.bind, Except.map]
      have : (reorderDEState σ s').genBest = s'.genBest := rfl
      rw [this]
      split
      · rfl
      · rw [ih]; rfl

/-- C141 (DE) with an objective that may raise. -/
theorem C141_de_raising (σ : Equiv.Perm (Fin D)) (cfg : DECfg K) (b : Box K D) (func func' : Pop K P D → Py (Fin P → K)) (hf : ∀ q, func' (reorderPop σ q) = func q) (stop : Option K) (rnd : DERand K P D) :
    deRunM cfg (reorderBox σ b) func' stop (reorderDERand σ rnd) = (deRunM cfg b func stop rnd).map (reorderResult σ) := by
  have hx : func' (locInit (reorderBox σ b) (reorderDERand σ rnd).pos) = func (locInit b rnd.pos) := hf (locInit b rnd.pos)
  cases P with
  | zero =>
    simp only [deRunM, hx]
    cases func (locInit b rnd.pos) <;> rfl
  | succ p =>
    simp only [deRunM, hx]
    cases func (locInit b rnd.pos) with
    | error e => rfl
    | ok obj =>
      simp only [bind, Except.bind]
      by_cases hD : D = 0
      · simp only [if_pos hD]; rfl
      · simp only [if_neg hD]
        cases hg : cfg.numGen with
        | zero => rfl
        | succ g =>
          simp only [deInit_reorder σ b (fun _ => obj) (fun _ => obj) (fun _ => rfl), deLoopM_reorder σ cfg b func func' hf]
          cases deLoopM cfg b func rnd stop g 0 (deInit b (fun _ => obj) rnd) <;> rfl

end AnyArithmetic

/-! ### A concrete case -/

/-- A run over two variables with different bounds, with the two exchanged: it returns, and its second coordinate is the first one of the run before. -/
example (stop : Option ℚ) (b : Box ℚ 2) (hb : b = { low := ![0, -1], high := ![1, 5] }) (f f' : Pop ℚ 1 2 → Fin 1 → ℚ) (hf : f = fun q i => q i 0 + 2 * q i 1) (hf' : f' = fun q i => q i 1 + 2 * q i 0)
    (rnd : PSORand ℚ 1 2) (hr : rnd = { pos := fun _ => ![1/3, 1/2], vel := fun _ _ => 1/2, repl := fun _ _ _ _ => 1/2 }) :
    ∃ r r', psoRun exCfg b f stop rnd = .ok r ∧ psoRun exCfg (reorderBox (Equiv.swap 0 1) b) f' stop (reorderPSORand (Equiv.swap 0 1) rnd) = .ok r' ∧ r'.bestX 1 = r.bestX 0 ∧ r'.bestX 0 = r.bestX 1 ∧
      r'.bestY = r.bestY := by
  obtain ⟨r, h⟩ := ((C14_pso_returns_iff exCfg b f stop rnd (by intro j; subst hb; fin_cases j <;> norm_num [exCfg])).1).mpr (by norm_num [exCfg])
  have h' := C141_pso (Equiv.swap 0 1) exCfg b f f' (fun q => by subst hf hf'; funext i; simp [reorderPop, reorderPt]) stop rnd
  rw [h] at h'
  exact ⟨r, _, h, h', by simp [reorderPSOResult, reorderResult, reorderPt], by simp [reorderPSOResult, reorderResult, reorderPt], rfl⟩

end Mfpml.Props
