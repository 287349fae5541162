import Verif.Lemmas.EvolutionaryRaise
import Verif.Model.Acquisitions
import Verif.Spec.Acquisitions
import Mathlib.Tactic.NormNum

/-!
# C83: objectives that raise

`psoRunM`, `deRunM` are the optimisers for an objective that may raise.  `f` ranges over the total functions that agree with the objective where it does not raise (`Extends`); the theorems of
`Verif/Props/PSO.lean` and `Verif/Props/DE.lean`, about runs with total objectives, thereby apply to every run that returns.
-/

set_option linter.unusedSectionVars false

namespace Mfpml.Props

open Mfpml Mfpml.EA Mfpml.Spec

variable {K : Type} [Add K] [Sub K] [Mul K] [Div K] [Neg K] [Zero K] [LinearOrder K] {P D : ℕ} {b : Box K D} {fM : Pop K P D → Py (Fin P → K)} {stop : Option K}

/-- PSO: a run that returns has evaluated the objective without exception at every array it was called with, and returns what the run with any total extension returns; a run that raises either raises
the exception of the first evaluation that raised, with all evaluations before it having succeeded, or raises what the run with a total extension raises. -/
theorem C83_pso_raise (cfg : PSOCfg K) (rnd : PSORand K P D) {f : Pop K P D → Fin P → K} (hf : Extends f fM) :
    (∀ r, psoRunM cfg b fM stop rnd = .ok r → (∀ X ∈ r.calls, ∃ y, fM X = .ok y) ∧ psoRun cfg b f stop rnd = .ok r) ∧
    ∀ e, psoRunM cfg b fM stop rnd = .error e → psoRun cfg b f stop rnd = .error e ∨ fM (locInit b rnd.pos) = .error e ∨
      ∃ r, psoRun cfg b f stop rnd = .ok r ∧ FirstRaises fM r.calls e := by
  cases P with
  | zero =>
    constructor
    · intro r h
      simp only [psoRunM] at h
      obtain ⟨_, _, h⟩ := Py.bind_ok.mp h
      cases h
    · intro e h
      simp only [psoRunM] at h
      rcases Py.bind_error.mp h with h | ⟨_, _, h⟩
      · exact Or.inr (Or.inl h)
      · cases h; exact Or.inl rfl
  | succ p =>
    have hinit : ∀ obj, fM (locInit b rnd.pos) = .ok obj → psoInit cfg b (fun _ => obj) rnd = psoInit cfg b f rnd ∧ AllOk fM (psoInit cfg b f rnd).calls := by
      intro obj ho
      constructor
      · simp only [psoInit]; rw [hf _ _ ho]
      · intro Y hY
        rw [List.mem_singleton.mp hY]
        exact ⟨obj, ho⟩
    constructor
    · intro r h
      simp only [psoRunM] at h
      obtain ⟨obj, ho, h⟩ := Py.bind_ok.mp h
      obtain ⟨hi, hall⟩ := hinit obj ho
      rw [hi] at h
      simp only [psoRun]
      split_ifs at h ⊢ with h0 hv
      cases hg : cfg.numGen with
      | zero => simp only [hg] at h; cases h
      | succ g =>
        simp only [hg] at h ⊢
        obtain ⟨⟨s, iter⟩, hl, h⟩ := Py.bind_ok.mp h
        obtain ⟨h1, h2⟩ := psoLoopM_ok cfg b rnd stop hf g hall hl
        cases h
        rw [h1]
        exact ⟨h2, rfl⟩
    · intro e h
      simp only [psoRunM] at h
      rcases Py.bind_error.mp h with h | ⟨obj, ho, h⟩
      · exact Or.inr (Or.inl h)
      obtain ⟨hi, hall⟩ := hinit obj ho
      rw [hi] at h
      simp only [psoRun]
      split_ifs at h ⊢ with h0 hv
      · exact Or.inl (by cases h; rfl)
      · cases hg : cfg.numGen with
        | zero => simp only [hg] at h ⊢; exact Or.inl (by cases h; rfl)
        | succ g =>
          simp only [hg] at h ⊢
          rcases Py.bind_error.mp h with h | ⟨r, _, h⟩
          · exact Or.inr (Or.inr ⟨_, rfl, psoLoopM_error cfg b rnd stop hf g hall h⟩)
          · cases h
      · exact Or.inl (by cases h; rfl)

/-- DE: the same. -/
theorem C83_de_raise (cfg : DECfg K) (rnd : DERand K P D) {f : Pop K P D → Fin P → K} (hf : Extends f fM) :
    (∀ r, deRunM cfg b fM stop rnd = .ok r → (∀ X ∈ r.calls, ∃ y, fM X = .ok y) ∧ deRun cfg b f stop rnd = .ok r) ∧
    ∀ e, deRunM cfg b fM stop rnd = .error e → deRun cfg b f stop rnd = .error e ∨ fM (locInit b rnd.pos) = .error e ∨
      ∃ r, deRun cfg b f stop rnd = .ok r ∧ FirstRaises fM r.calls e := by
  cases P with
  | zero =>
    constructor
    · intro r h
      simp only [deRunM] at h
      obtain ⟨_, _, h⟩ := Py.bind_ok.mp h
      cases h
    · intro e h
      simp only [deRunM] at h
      rcases Py.bind_error.mp h with h | ⟨_, _, h⟩
      · exact Or.inr (Or.inl h)
      · cases h; exact Or.inl rfl
  | succ p =>
    have hinit : ∀ obj, fM (locInit b rnd.pos) = .ok obj → deInit b (fun _ => obj) rnd = deInit b f rnd ∧ AllOk fM (deInit b f rnd).calls := by
      intro obj ho
      constructor
      · simp only [deInit]; rw [hf _ _ ho]
      · intro Y hY
        rw [List.mem_singleton.mp hY]
        exact ⟨obj, ho⟩
    constructor
    · intro r h
      simp only [deRunM] at h
      obtain ⟨obj, ho, h⟩ := Py.bind_ok.mp h
      obtain ⟨hi, hall⟩ := hinit obj ho
      rw [hi] at h
      simp only [deRun]
      split_ifs at h ⊢ with h0
      cases hg : cfg.numGen with
      | zero => simp only [hg] at h; cases h
      | succ g =>
        simp only [hg] at h ⊢
        obtain ⟨⟨s, iter⟩, hl, h⟩ := Py.bind_ok.mp h
        obtain ⟨h1, h2⟩ := deLoopM_ok cfg b rnd stop hf g hall hl
        cases h
        rw [h1]
        exact ⟨h2, rfl⟩
    · intro e h
      simp only [deRunM] at h
      rcases Py.bind_error.mp h with h | ⟨obj, ho, h⟩
      · exact Or.inr (Or.inl h)
      obtain ⟨hi, hall⟩ := hinit obj ho
      rw [hi] at h
      simp only [deRun]
      split_ifs at h ⊢ with h0
      · exact Or.inl (by cases h; rfl)
      · cases hg : cfg.numGen with
        | zero => simp only [hg] at h ⊢; exact Or.inl (by cases h; rfl)
        | succ g =>
          simp only [hg] at h ⊢
          rcases Py.bind_error.mp h with h | ⟨r, _, h⟩
          · rcases deLoopM_error cfg b rnd stop hf g hall h with h | ⟨r, h1, h2⟩
            · left; rw [h]; rfl
            · right; right; rw [h1]; exact ⟨_, rfl, h2⟩
          · cases h

/-- With an objective that never raises, nothing changes. -/
theorem C83_total (cfg : PSOCfg K) (rnd : PSORand K P D) (cfgD : DECfg K) (rndD : DERand K P D) (f : Pop K P D → Fin P → K) :
    psoRunM cfg b (fun X => .ok (f X)) stop rnd = psoRun cfg b f stop rnd ∧ deRunM cfgD b (fun X => .ok (f X)) stop rndD = deRun cfgD b f stop rndD := by
  have hf : Extends f fun X => (.ok (f X) : Py _) := fun X y h => by cases h; rfl
  have hno : ∀ l e, ¬FirstRaises (fun X => (.ok (f X) : Py _)) l e := by
    rintro l e ⟨_, _, _, _, _, h⟩; cases h
  constructor
  · cases h : psoRunM cfg b (fun X => .ok (f X)) stop rnd with
    | ok r => rw [((C83_pso_raise cfg rnd hf).1 r h).2]
    | error e =>
      rcases (C83_pso_raise cfg rnd hf).2 e h with h | h | ⟨r, _, h⟩
      · rw [h]
      · cases h
      · exact absurd h (hno _ _)
  · cases h : deRunM cfgD b (fun X => .ok (f X)) stop rndD with
    | ok r => rw [((C83_de_raise cfgD rndD hf).1 r h).2]
    | error e =>
      rcases (C83_de_raise cfgD rndD hf).2 e h with h | h | ⟨r, _, h⟩
      · rw [h]
      · cases h
      · exact absurd h (hno _ _)

/-- The converse direction: if the run with a total extension would call the objective on an array where it raises, the run raises. -/
theorem C83_raise_reaches_caller (cfg : PSOCfg K) (rnd : PSORand K P D) (cfgD : DECfg K) (rndD : DERand K P D) {f : Pop K P D → Fin P → K} (hf : Extends f fM) {X : Pop K P D} {e : PyErr}
    (hX : fM X = .error e) :
    (∀ r, psoRun cfg b f stop rnd = .ok r → X ∈ r.calls → ∃ e', psoRunM cfg b fM stop rnd = .error e') ∧
    ∀ r, deRun cfgD b f stop rndD = .ok r → X ∈ r.calls → ∃ e', deRunM cfgD b fM stop rndD = .error e' := by
  constructor
  · intro r hr hm
    cases h : psoRunM cfg b fM stop rnd with
    | error e' => exact ⟨e', rfl⟩
    | ok r' =>
      obtain ⟨h1, h2⟩ := (C83_pso_raise cfg rnd hf).1 r' h
      rw [hr] at h2
      cases h2
      obtain ⟨y, hy⟩ := h1 X hm
      rw [hX] at hy
      cases hy
  · intro r hr hm
    cases h : deRunM cfgD b fM stop rndD with
    | error e' => exact ⟨e', rfl⟩
    | ok r' =>
      obtain ⟨h1, h2⟩ := (C83_de_raise cfgD rndD hf).1 r' h
      rw [hr] at h2
      cases h2
      obtain ⟨y, hy⟩ := h1 X hm
      rw [hX] at hy
      cases hy

/-- The hypotheses are met: an objective that raises exactly on populations with a negative coordinate, and a total extension of it. -/
example : Extends (fun (X : Pop ℚ 2 1) i => X i 0) (fun X => if X 0 0 < 0 then .error .typeError else .ok fun i => X i 0) ∧
    (∃ X : Pop ℚ 2 1, (if X 0 0 < 0 then .error .typeError else .ok fun i => X i 0 : Py (Fin 2 → ℚ)) = .error .typeError) := by
  refine ⟨fun X y h => ?_, fun _ _ => -1, by norm_num⟩
  simp only at h
  split_ifs at h
  cases h
  rfl

/-! ## The library's optimisers as optimiser objects of the acquisitions (C61) -/

open Mfpml.Acq (PopOpt)

/-- A `PSO` object; `draw` supplies numpy's random numbers. -/
noncomputable def psoOptimizer {W : Type} {d : ℕ} (P : ℕ) (cfg : PSOCfg ℝ) (stop : Option ℝ) (draw : W → PSORand ℝ P d × W) : PopOpt W d := fun f b w => do
  let r ← psoRunM cfg b (f P) stop (draw w).1
  .ok (r.retX, (draw w).2)

/-- A `DE` object. -/
noncomputable def deOptimizer {W : Type} {d : ℕ} (P : ℕ) (cfg : DECfg ℝ) (stop : Option ℝ) (draw : W → DERand ℝ P d × W) : PopOpt W d := fun f b w => do
  let r ← deRunM cfg b (f P) stop (draw w).1
  .ok (r.retX, (draw w).2)

/-- Both let exceptions through, for every setting: `C61_counterexample` applies to them. -/
theorem C61_library_optimizers {W : Type} {d P : ℕ} (cfg : PSOCfg ℝ) (cfgD : DECfg ℝ) (stop : Option ℝ) (draw : W → PSORand ℝ P d × W) (drawD : W → DERand ℝ P d × W) :
    PropagatesErrors (psoOptimizer P cfg stop draw) ∧ PropagatesErrors (deOptimizer P cfgD stop drawD) := by
  constructor <;> intro f b w e hf
  · unfold psoOptimizer
    cases P <;> simp only [psoRunM, hf, bind, Except.bind]
  · unfold deOptimizer
    cases P <;> simp only [deRunM, hf, bind, Except.bind]

end Mfpml.Props
