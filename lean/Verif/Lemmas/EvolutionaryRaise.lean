import Verif.Model.EvolutionaryRaise
import Verif.Lemmas.Py
import Verif.Spec.EvolutionaryRaise

/-! # Helper lemmas: runs with raising objectives -/

set_option linter.unusedSectionVars false

namespace Mfpml.EA

open Mfpml.Spec (Extends FirstRaises)

variable {K : Type} [Add K] [Sub K] [Mul K] [Div K] [Neg K] [Zero K] [LinearOrder K]

def AllOk {P D : ℕ} (fM : Pop K P D → Py (Fin P → K)) (l : List (Pop K P D)) : Prop := ∀ Y ∈ l, ∃ y, fM Y = .ok y

theorem AllOk.snoc {P D : ℕ} {fM : Pop K P D → Py (Fin P → K)} {l : List (Pop K P D)} (h : AllOk fM l) {X : Pop K P D} {y : Fin P → K} (hx : fM X = .ok y) : AllOk fM (l ++ [X]) := by
  intro Y hY
  rcases List.mem_append.mp hY with hY | hY
  · exact h Y hY
  · rw [List.mem_singleton.mp hY]; exact ⟨y, hx⟩

section pso
variable {p D : ℕ} (cfg : PSOCfg K) (b : Box K D) {fM : Pop K (p + 1) D → Py (Fin (p + 1) → K)} {f : Pop K (p + 1) D → Fin (p + 1) → K} (rnd : PSORand K (p + 1) D) (stop : Option K)

theorem psoStep_calls (iter : ℕ) (s : PSOState K (p + 1) D) : (psoStep cfg b f rnd iter s).calls = s.calls ++ [(psoUpdatePop cfg b rnd iter s).x] := rfl

theorem psoStepM_ok (hf : Extends f fM) {iter : ℕ} {s s' : PSOState K (p + 1) D} (h : psoStepM cfg b fM rnd iter s = .ok s') :
    psoStep cfg b f rnd iter s = s' ∧ ∃ y, fM (psoUpdatePop cfg b rnd iter s).x = .ok y := by
  unfold psoStepM at h
  obtain ⟨obj, ho, h⟩ := Py.bind_ok.mp h
  cases h
  refine ⟨?_, obj, ho⟩
  unfold psoStep psoUpdateObj
  rw [hf _ _ ho]

theorem psoStepM_error {iter : ℕ} {s : PSOState K (p + 1) D} {e : PyErr} (h : psoStepM cfg b fM rnd iter s = .error e) : fM (psoUpdatePop cfg b rnd iter s).x = .error e := by
  unfold psoStepM at h
  cases ho : fM (psoUpdatePop cfg b rnd iter s).x with
  | error e' => simp only [ho, bind, Except.bind] at h; cases h; rfl
  | ok y => simp only [ho, bind, Except.bind] at h; cases h

theorem psoLoop_calls (more : ℕ) : ∀ iter (s : PSOState K (p + 1) D), ∃ ext, (psoLoop cfg b f rnd stop more iter s).1.calls = s.calls ++ (psoUpdatePop cfg b rnd iter s).x :: ext := by
  induction more with
  | zero => intro iter s; exact ⟨[], rfl⟩
  | succ m ih =>
    intro iter s
    simp only [psoLoop]
    split_ifs
    · exact ⟨[], rfl⟩
    · obtain ⟨ext, h⟩ := ih (iter + 1) (psoStep cfg b f rnd iter s)
      rw [h, psoStep_calls]
      exact ⟨_, List.append_assoc _ _ _⟩

theorem psoLoopM_ok (hf : Extends f fM) (more : ℕ) : ∀ {iter : ℕ} {s : PSOState K (p + 1) D} {r : PSOState K (p + 1) D × ℕ}, AllOk fM s.calls → psoLoopM cfg b fM rnd stop more iter s = .ok r →
    psoLoop cfg b f rnd stop more iter s = r ∧ AllOk fM r.1.calls := by
  induction more with
  | zero =>
    intro iter s r hs h
    simp only [psoLoopM] at h
    obtain ⟨s', h1, h⟩ := Py.bind_ok.mp h
    cases h
    obtain ⟨h2, y, hy⟩ := psoStepM_ok cfg b rnd hf h1
    subst h2
    exact ⟨rfl, hs.snoc hy⟩
  | succ m ih =>
    intro iter s r hs h
    simp only [psoLoopM] at h
    obtain ⟨s', h1, h⟩ := Py.bind_ok.mp h
    obtain ⟨h2, y, hy⟩ := psoStepM_ok cfg b rnd hf h1
    have hs' : AllOk fM s'.calls := by rw [← h2]; exact hs.snoc hy
    simp only [psoLoop, h2]
    split_ifs at h ⊢ with hc
    · cases h; exact ⟨rfl, hs'⟩
    · exact ih hs' h

theorem psoLoopM_error (hf : Extends f fM) {e : PyErr} (more : ℕ) : ∀ {iter : ℕ} {s : PSOState K (p + 1) D}, AllOk fM s.calls → psoLoopM cfg b fM rnd stop more iter s = .error e →
    FirstRaises fM (psoLoop cfg b f rnd stop more iter s).1.calls e := by
  induction more with
  | zero =>
    intro iter s hs h
    simp only [psoLoopM] at h
    rcases Py.bind_error.mp h with h | ⟨s', _, h⟩
    · exact ⟨s.calls, _, [], rfl, hs, psoStepM_error cfg b rnd h⟩
    · cases h
  | succ m ih =>
    intro iter s hs h
    simp only [psoLoopM] at h
    rcases Py.bind_error.mp h with h | ⟨s', h1, h⟩
    · obtain ⟨ext, he⟩ := psoLoop_calls cfg b (f := f) rnd stop (m + 1) iter s
      exact ⟨s.calls, _, ext, he, hs, psoStepM_error cfg b rnd h⟩
    · obtain ⟨h2, y, hy⟩ := psoStepM_ok cfg b rnd hf h1
      have hs' : AllOk fM s'.calls := by rw [← h2]; exact hs.snoc hy
      simp only [psoLoop, h2]
      split_ifs at h ⊢ with hc
      exact ih hs' h

end pso

section de
variable {p D : ℕ} (cfg : DECfg K) (b : Box K D) {fM : Pop K (p + 1) D → Py (Fin (p + 1) → K)} {f : Pop K (p + 1) D → Fin (p + 1) → K} (rnd : DERand K (p + 1) D) (stop : Option K)

theorem deStepM_ok (hf : Extends f fM) {iter : ℕ} {s s' : DEState K (p + 1) D} (h : deStepM cfg b fM rnd iter s = .ok s') :
    deCheck cfg (p + 1) = .ok () ∧ deStep cfg b f rnd iter s = s' ∧ ∃ y, fM (deTrial cfg b rnd iter s) = .ok y := by
  unfold deStepM at h
  obtain ⟨u, hc, h⟩ := Py.bind_ok.mp h
  obtain ⟨obj, ho, h⟩ := Py.bind_ok.mp h
  cases h
  refine ⟨hc, ?_, obj, ho⟩
  unfold deStep deUpdateObj
  rw [hf _ _ ho]

theorem deStepM_error {iter : ℕ} {s : DEState K (p + 1) D} {e : PyErr} (h : deStepM cfg b fM rnd iter s = .error e) :
    deCheck cfg (p + 1) = .error e ∨ deCheck cfg (p + 1) = .ok () ∧ fM (deTrial cfg b rnd iter s) = .error e := by
  unfold deStepM at h
  rcases Py.bind_error.mp h with h | ⟨u, hc, h⟩
  · exact Or.inl h
  rcases Py.bind_error.mp h with h | ⟨y, hy, h⟩
  · exact Or.inr ⟨hc, h⟩
  · cases h

theorem deLoop_calls (hc : deCheck cfg (p + 1) = .ok ()) (more : ℕ) :
    ∀ iter (s : DEState K (p + 1) D), ∃ r ext, deLoop cfg b f rnd stop more iter s = .ok r ∧ r.1.calls = s.calls ++ deTrial cfg b rnd iter s :: ext := by
  induction more with
  | zero =>
    intro iter s
    simp only [deLoop, hc]
    exact ⟨_, [], rfl, rfl⟩
  | succ m ih =>
    intro iter s
    simp only [deLoop, hc, bind, Except.bind]
    split_ifs
    · exact ⟨_, [], rfl, rfl⟩
    · obtain ⟨r, ext, h, h'⟩ := ih (iter + 1) (deStep cfg b f rnd iter s)
      refine ⟨r, deTrial cfg b rnd (iter + 1) (deStep cfg b f rnd iter s) :: ext, h, ?_⟩
      rw [h']
      exact List.append_assoc _ _ _

theorem deLoopM_ok (hf : Extends f fM) (more : ℕ) : ∀ {iter : ℕ} {s : DEState K (p + 1) D} {r : DEState K (p + 1) D × ℕ}, AllOk fM s.calls → deLoopM cfg b fM rnd stop more iter s = .ok r →
    deLoop cfg b f rnd stop more iter s = .ok r ∧ AllOk fM r.1.calls := by
  induction more with
  | zero =>
    intro iter s r hs h
    simp only [deLoopM] at h
    obtain ⟨s', h1, h⟩ := Py.bind_ok.mp h
    cases h
    obtain ⟨hc, h2, y, hy⟩ := deStepM_ok cfg b rnd hf h1
    subst h2
    simp only [deLoop, hc]
    exact ⟨rfl, hs.snoc hy⟩
  | succ m ih =>
    intro iter s r hs h
    simp only [deLoopM] at h
    obtain ⟨s', h1, h⟩ := Py.bind_ok.mp h
    obtain ⟨hc, h2, y, hy⟩ := deStepM_ok cfg b rnd hf h1
    have hs' : AllOk fM s'.calls := by rw [← h2]; exact hs.snoc hy
    simp only [deLoop, h2, hc, bind, Except.bind]
    split_ifs at h ⊢ with hcond
    · cases h; exact ⟨rfl, hs'⟩
    · exact ih hs' h

theorem deLoopM_error (hf : Extends f fM) {e : PyErr} (more : ℕ) : ∀ {iter : ℕ} {s : DEState K (p + 1) D}, AllOk fM s.calls → deLoopM cfg b fM rnd stop more iter s = .error e →
    deLoop cfg b f rnd stop more iter s = .error e ∨ ∃ r, deLoop cfg b f rnd stop more iter s = .ok r ∧ FirstRaises fM r.1.calls e := by
  induction more with
  | zero =>
    intro iter s hs h
    simp only [deLoopM] at h
    rcases Py.bind_error.mp h with h | ⟨s', _, h⟩
    · rcases deStepM_error cfg b rnd h with h | ⟨hc, h⟩
      · left; simp only [deLoop, h, bind, Except.bind]
      · right
        obtain ⟨r, ext, h1, h2⟩ := deLoop_calls cfg b (f := f) rnd stop hc 0 iter s
        exact ⟨r, h1, s.calls, _, ext, h2, hs, h⟩
    · cases h
  | succ m ih =>
    intro iter s hs h
    simp only [deLoopM] at h
    rcases Py.bind_error.mp h with h | ⟨s', h1, h⟩
    · rcases deStepM_error cfg b rnd h with h | ⟨hc, h⟩
      · left; simp only [deLoop, h, bind, Except.bind]
      · right
        obtain ⟨r, ext, h1, h2⟩ := deLoop_calls cfg b (f := f) rnd stop hc (m + 1) iter s
        exact ⟨r, h1, s.calls, _, ext, h2, hs, h⟩
    · obtain ⟨hc, h2, y, hy⟩ := deStepM_ok cfg b rnd hf h1
      have hs' : AllOk fM s'.calls := by rw [← h2]; exact hs.snoc hy
      simp only [deLoop, h2, hc, bind, Except.bind]
      split_ifs at h ⊢ with hcond
      exact ih hs' h

end de

end Mfpml.EA
