import Verif.Model.EvolutionaryHeap
import Verif.Spec.EvolutionaryHeap
import Verif.Lemmas.Evolutionary
import Mathlib.Tactic.Set

/-!
# Lemmas on optimisers with shared arrays
-/

set_option linter.unusedSectionVars false

namespace Mfpml.EAHeap

open Mfpml.EA

variable {K : Type} [Add K] [Sub K] [Mul K] [Div K] [Neg K] [Zero K] [LinearOrder K]

section Basic
variable {P D : ℕ} (m : Mem K P D)

@[simp] theorem setHist_pops (r h) : (m.setHist r h).pops = m.pops := rfl
@[simp] theorem setHist_bufs (r h) : (m.setHist r h).bufs = m.bufs := rfl
@[simp] theorem setHist_nextPop (r h) : (m.setHist r h).nextPop = m.nextPop := rfl
@[simp] theorem setHist_nextHist (r h) : (m.setHist r h).nextHist = m.nextHist := rfl
@[simp] theorem setHist_self (r h) : (m.setHist r h).hists r = h := by simp [Mem.setHist]
theorem setHist_ne {r r' : ℕ} (h) (hr : r' ≠ r) : (m.setHist r h).hists r' = m.hists r' := by simp [Mem.setHist, hr]
@[simp] theorem setHist_col (r h) (c : ColRef D) : (m.setHist r h).col c = m.col c := by cases c <;> rfl

@[simp] theorem setPop_hists (r x) : (m.setPop r x).hists = m.hists := rfl
@[simp] theorem setPop_bufs (r x) : (m.setPop r x).bufs = m.bufs := rfl
@[simp] theorem setPop_nextPop (r x) : (m.setPop r x).nextPop = m.nextPop := rfl
@[simp] theorem setPop_nextHist (r x) : (m.setPop r x).nextHist = m.nextHist := rfl
@[simp] theorem setPop_self (r x) : (m.setPop r x).pops r = x := by simp [Mem.setPop]
theorem setPop_ne {r r' : ℕ} (x) (hr : r' ≠ r) : (m.setPop r x).pops r' = m.pops r' := by simp [Mem.setPop, hr]

@[simp] theorem newPop_hists (x) : (m.newPop x).hists = m.hists := rfl
@[simp] theorem newPop_bufs (x) : (m.newPop x).bufs = m.bufs := rfl
@[simp] theorem newPop_nextPop (x) : (m.newPop x).nextPop = m.nextPop + 1 := rfl
@[simp] theorem newPop_nextHist (x) : (m.newPop x).nextHist = m.nextHist := rfl
@[simp] theorem newPop_self (x) : (m.newPop x).pops m.nextPop = x := by simp [Mem.newPop]
theorem newPop_ne {r' : ℕ} (x) (hr : r' ≠ m.nextPop) : (m.newPop x).pops r' = m.pops r' := by simp [Mem.newPop, hr]

@[simp] theorem setCol_hists (c v) : (m.setCol c v).hists = m.hists := by cases c <;> rfl
@[simp] theorem setCol_nextPop (c v) : (m.setCol c v).nextPop = m.nextPop := by cases c <;> rfl
@[simp] theorem setCol_nextHist (c v) : (m.setCol c v).nextHist = m.nextHist := by cases c <;> rfl
@[simp] theorem setCol_self (c v) : (m.setCol c v).col c = v := by cases c <;> simp [Mem.setCol, Mem.col]

@[simp] theorem newHist_pops : m.newHist.pops = m.pops := rfl
@[simp] theorem newHist_bufs : m.newHist.bufs = m.bufs := rfl
@[simp] theorem newHist_nextPop : m.newHist.nextPop = m.nextPop := rfl
@[simp] theorem newHist_nextHist : m.newHist.nextHist = m.nextHist + 1 := rfl
@[simp] theorem newHist_self : m.newHist.hists m.nextHist = ⟨fun _ => 0, fun _ _ => 0, fun _ _ _ => 0, fun _ _ => 0⟩ := by
  simp [Mem.newHist]
theorem newHist_ne {r : ℕ} (hr : r ≠ m.nextHist) : m.newHist.hists r = m.hists r := by simp [Mem.newHist, hr]

/-- Writing a column touches no position array other than the one it is a view of. -/
theorem setCol_pops_ne {c : ColRef D} {r : ℕ} (v) (h : ∀ j, c ≠ .view r j) : (m.setCol c v).pops r = m.pops r := by
  cases c with
  | buf k => rfl
  | view r' j =>
    have : r ≠ r' := fun e => h j (by rw [e])
    simp [Mem.setCol, this]

/-- Writing a column does not change the content of a column that is read from elsewhere. -/
theorem setCol_col_buf {k : ℕ} {c : ColRef D} (v) (h : c ≠ .buf k) : (m.setCol c v).col (.buf k) = m.col (.buf k) := by
  cases c with
  | buf k' =>
    have : k ≠ k' := fun e => h (by rw [e])
    simp [Mem.setCol, Mem.col, this]
  | view r j => rfl

variable (o : Objective K P D) (n : ℕ) (r : ℕ)

@[simp] theorem call_pops : (o.call n m r).1.pops = m.pops := by unfold Objective.call; cases o.reply n <;> rfl
@[simp] theorem call_hists : (o.call n m r).1.hists = m.hists := by unfold Objective.call; cases o.reply n <;> rfl
@[simp] theorem call_nextPop : (o.call n m r).1.nextPop = m.nextPop := by unfold Objective.call; cases o.reply n <;> rfl
@[simp] theorem call_nextHist : (o.call n m r).1.nextHist = m.nextHist := by unfold Objective.call; cases o.reply n <;> rfl
/-- The returned array holds the objective's values. -/
@[simp] theorem call_col : (o.call n m r).1.col (o.call n m r).2 = o.value (m.pops r) := by
  unfold Objective.call
  cases h : o.reply n with
  | array k => simp [Mem.col]
  | column j => funext i; simp [Mem.col, o.column_ok n j h]

theorem call_view {r' : ℕ} {j : Fin D} (h : (o.call n m r).2 = .view r' j) : r' = r ∧ o.reply n = .column j := by
  unfold Objective.call at h
  cases e : o.reply n with
  | array k => rw [e] at h; simp at h
  | column j' => rw [e] at h; simp at h; exact ⟨h.1.symm, by rw [h.2]⟩

theorem call_buf {k : ℕ} (h : (o.call n m r).2 = .buf k) : o.reply n = .array k := by
  unfold Objective.call at h
  cases e : o.reply n with
  | array k' => rw [e] at h; simp at h; rw [h]
  | column j' => rw [e] at h; simp at h

/-- A call leaves every column alone that it does not return. -/
theorem call_col_ne {c : ColRef D} (h : c ≠ (o.call n m r).2) : (o.call n m r).1.col c = m.col c := by
  cases c with
  | view r' j => simp [Mem.col]
  | buf k =>
    unfold Objective.call at h ⊢
    cases e : o.reply n with
    | array k' =>
      rw [e] at h
      have : k ≠ k' := fun e => h (by rw [e])
      simp [Mem.col, this]
    | column j => rfl

end Basic

/-! ## Histories for arbitrary positions and responses -/

section Histories
variable {p D : ℕ} (X : ℕ → Pop K (p + 1) D) (Y : ℕ → Fin (p + 1) → K)

/-- The history arrays after `n` generations whose populations and responses were `X` and `Y`. -/
def histSeq : ℕ → Hist K (p + 1) D
  | 0 => histInit ⟨fun _ => 0, fun _ _ => 0, fun _ _ _ => 0, fun _ _ => 0⟩ (X 0) (Y 0)
  | n + 1 => histOptimum n { histSeq n with
      samples := Function.update (histSeq n).samples (n + 1) (X (n + 1))
      responses := Function.update (histSeq n).responses (n + 1) (Y (n + 1)) } (X (n + 1)) (Y (n + 1))

theorem histSeq_rows (n k : ℕ) (hk : k ≤ n) :
    (histSeq X Y n).samples k = X k ∧ (histSeq X Y n).responses k = Y k ∧
    (histSeq X Y n).genBest k = (histSeq X Y k).genBest k ∧ (histSeq X Y n).genBestXs k = (histSeq X Y k).genBestXs k := by
  induction n with
  | zero =>
    obtain rfl : k = 0 := by omega
    simp [histSeq, histInit]
  | succ n ih =>
    rcases Nat.lt_or_ge n k with h | h
    · obtain rfl : k = n + 1 := by omega
      refine ⟨?_, ?_, rfl, rfl⟩ <;> simp [histSeq, histOptimum]
    · obtain ⟨h1, h2, h3, h4⟩ := ih h
      have hne : k ≠ n + 1 := by omega
      have hs := updateGenOptimum_spec n (histSeq X Y n).genBest (histSeq X Y n).genBestXs (X (n + 1)) (Y (n + 1))
      refine ⟨?_, ?_, ?_, ?_⟩
      · rw [← h1]; simp [histSeq, histOptimum, hne]
      · rw [← h2]; simp [histSeq, histOptimum, hne]
      · rw [← h3]; exact hs.1 k hne
      · rw [← h4]; exact hs.2.1 k hne

theorem histSeq_zero_rows (n k : ℕ) (hk : n < k) :
    (histSeq X Y n).genBest k = 0 ∧ (histSeq X Y n).genBestXs k = fun _ => 0 := by
  induction n with
  | zero =>
    have : k ≠ 0 := by omega
    simp [histSeq, histInit, this]
  | succ n ih =>
    have hne : k ≠ n + 1 := by omega
    have hs := updateGenOptimum_spec n (histSeq X Y n).genBest (histSeq X Y n).genBestXs (X (n + 1)) (Y (n + 1))
    obtain ⟨h1, h2⟩ := ih (by omega)
    exact ⟨(hs.1 k hne).trans h1, (hs.2.1 k hne).trans h2⟩

/-- The best value is the running minimum, with a recorded place. -/
theorem histSeq_best (n : ℕ) :
    Spec.RunningMin Y n ((histSeq X Y n).genBest n) ∧
    Spec.RecordedAt X Y n ((histSeq X Y n).genBestXs n) ((histSeq X Y n).genBest n) := by
  induction n with
  | zero =>
    have hg : (histSeq X Y 0).genBest 0 = Y 0 (argmin (Y 0)) := by
      simp [histSeq, histInit, genBestObj, colMin_eq_argmin]
    have hx : (histSeq X Y 0).genBestXs 0 = X 0 (argmin (Y 0)) := by
      simp [histSeq, histInit, genBestX]
    refine ⟨⟨?_, 0, le_refl _, argmin (Y 0), hg.symm⟩, 0, le_refl _, argmin (Y 0), hx.symm, hg.symm⟩
    intro k hk i
    obtain rfl : k = 0 := by omega
    rw [hg]; exact argmin_le _ _
  | succ n ih =>
    obtain ⟨⟨hmin, kk, hkk, ii, hii⟩, k', hk', i', hx', hy'⟩ := ih
    have hs := updateGenOptimum_spec n (histSeq X Y n).genBest (histSeq X Y n).genBestXs (X (n + 1)) (Y (n + 1))
    have eg : (histSeq X Y (n + 1)).genBest (n + 1) =
      (updateGenOptimum n (histSeq X Y n).genBest (histSeq X Y n).genBestXs (X (n + 1)) (Y (n + 1))).1 (n + 1) := rfl
    have ex : (histSeq X Y (n + 1)).genBestXs (n + 1) =
      (updateGenOptimum n (histSeq X Y n).genBest (histSeq X Y n).genBestXs (X (n + 1)) (Y (n + 1))).2 (n + 1) := rfl
    rcases hs.2.2 with ⟨i, a1, a2, a3, a4⟩ | ⟨a1, a2, a3⟩
    · rw [eg, ex, a3, a4]
      refine ⟨⟨?_, n + 1, le_refl _, i, rfl⟩, n + 1, le_refl _, i, rfl, rfl⟩
      intro k hk i2
      rcases Nat.lt_or_ge n k with h | h
      · obtain rfl : k = n + 1 := by omega
        exact a1 i2
      · exact a2.trans (hmin k h i2)
    · rw [eg, ex, a2, a3]
      refine ⟨⟨?_, kk, by omega, ii, hii⟩, k', by omega, i', hx', hy'⟩
      intro k hk i2
      rcases Nat.lt_or_ge n k with h | h
      · obtain rfl : k = n + 1 := by omega
        exact (a1 i2).le
      · exact hmin k h i2

end Histories

/-! ## PSO -/

section PSO
variable {p D : ℕ} (cfg : PSOCfg K) (b : Box K D) (o : Objective K (p + 1) D) (rnd : PSORand K (p + 1) D)

/-- What is known of the shape of memory during a run: the addresses in use, and where the personal-best responses live. -/
structure PSOShape (a : PSOAttrs K (p + 1) D) (m : Mem K (p + 1) D) : Prop where
  x_lt : a.x < m.nextPop
  pbx_lt : a.popBestX < m.nextPop
  pb : ∀ r j, a.popBest = .view r j → r = a.popBestX ∧ o.reply 0 = .column j
  pb' : ∀ k, a.popBest = .buf k → o.reply 0 = .array k

/-- One generation, spelled out. -/
theorem psoStepM_spec (iter : ℕ) (self : PSOAttrs K (p + 1) D) (m : Mem K (p + 1) D) (hs : PSOShape o self m) :
    let s' := psoStepM cfg b o rnd iter (self, m)
    let v := velocityCons (vMax cfg b) fun i j =>
      cfg.weight * self.v i j + cfg.cognition * (m.pops self.popBestX i j - m.pops self.x i j)
        + cfg.social * ((m.hists self.hist).genBestXs iter j - m.pops self.x i j)
    let x := locCons b (rnd.repl iter) fun i j => m.pops self.x i j + v i j
    PSOShape o s'.1 s'.2 ∧ s'.1.v = v ∧ s'.1.x = m.nextPop ∧ s'.2.pops s'.1.x = x ∧ s'.2.col s'.1.obj = o.value x ∧
    s'.1.popBest = self.popBest ∧ s'.1.popBestX = self.popBestX ∧ s'.1.hist = self.hist ∧
    s'.2.hists self.hist = histOptimum iter
      { m.hists self.hist with
        samples := Function.update (m.hists self.hist).samples (iter + 1) x
        responses := Function.update (m.hists self.hist).responses (iter + 1) (o.value x) } x (o.value x) ∧
    (∀ r, r ≠ self.hist → s'.2.hists r = m.hists r) ∧ s'.2.nextHist = m.nextHist ∧ s'.2.nextPop = m.nextPop + 1 ∧
    (∀ r, r < m.nextPop → r ≠ self.popBestX → s'.2.pops r = m.pops r) ∧
    s'.1.calls = self.calls ++ [x] ∧ s'.1.argRefs = self.argRefs ++ [m.nextPop] ∧
    s'.1.retRefs = self.retRefs ++ [s'.1.obj] ∧
    (∀ k, s'.1.obj = .buf k → o.reply (iter + 1) = .array k) ∧
    (∀ r j, s'.1.obj = .view r j → r = m.nextPop ∧ o.reply (iter + 1) = .column j) ∧
    (∀ k, s'.1.obj ≠ .buf k → self.popBest ≠ .buf k → s'.2.bufs k = m.bufs k) ∧
    (s'.1.obj ≠ self.popBest →
      s'.2.col self.popBest = (fun i => if o.value x i ≤ m.col self.popBest i then o.value x i else m.col self.popBest i) ∧
      s'.2.pops self.popBestX = fun i => if o.value x i ≤ m.col self.popBest i then x i else m.pops self.popBestX i) ∧
    (s'.1.obj = self.popBest → s'.2.pops self.popBestX = x) := by
  set v := velocityCons (vMax cfg b) fun i j =>
      cfg.weight * self.v i j + cfg.cognition * (m.pops self.popBestX i j - m.pops self.x i j)
        + cfg.social * ((m.hists self.hist).genBestXs iter j - m.pops self.x i j) with hv
  set x := locCons b (rnd.repl iter) fun i j => m.pops self.x i j + v i j with hx
  -- after `__update_pop`
  obtain ⟨a1, e1⟩ : ∃ a, a = psoUpdatePopM cfg b rnd iter self m := ⟨_, rfl⟩
  have u_v : a1.1.v = v := by rw [e1]; rfl
  have u_x : a1.1.x = m.nextPop := by rw [e1]; rfl
  have u_hist : a1.1.hist = self.hist := by rw [e1]; rfl
  have u_pb : a1.1.popBest = self.popBest := by rw [e1]; rfl
  have u_pbx : a1.1.popBestX = self.popBestX := by rw [e1]; rfl
  have u_logs : a1.1.calls = self.calls ∧ a1.1.argRefs = self.argRefs ∧ a1.1.retRefs = self.retRefs := by
    rw [e1]; exact ⟨rfl, rfl, rfl⟩
  have u_px : a1.2.pops m.nextPop = x := by rw [e1]; simp [psoUpdatePopM, hx, hv]
  have u_pop : ∀ r, r ≠ m.nextPop → a1.2.pops r = m.pops r := by
    intro r hr; rw [e1]; simp [psoUpdatePopM, setPop_ne, newPop_ne, hr]
  have u_bufs : a1.2.bufs = m.bufs := by rw [e1]; rfl
  have u_next : a1.2.nextPop = m.nextPop + 1 ∧ a1.2.nextHist = m.nextHist := by rw [e1]; exact ⟨rfl, rfl⟩
  have u_h : a1.2.hists self.hist = { m.hists self.hist with
      samples := Function.update (m.hists self.hist).samples (iter + 1) x } := by
    rw [e1]; simp [psoUpdatePopM, hx, hv]
  have u_h' : ∀ r, r ≠ self.hist → a1.2.hists r = m.hists r := by
    intro r hr; rw [e1]; simp [psoUpdatePopM, setHist_ne, hr]
  have u_col : ∀ c : ColRef D, (∀ j, c ≠ .view m.nextPop j) → a1.2.col c = m.col c := by
    intro c hc
    cases c with
    | buf k => simp [Mem.col, u_bufs]
    | view r j =>
      have : r ≠ m.nextPop := fun e => hc j (by rw [e])
      simp [Mem.col, u_pop r this]
  -- after `__update_obj`
  obtain ⟨a2, e2⟩ : ∃ a, a = psoUpdateObjM o iter a1.1 a1.2 := ⟨_, rfl⟩
  have w_obj : a2.1.obj = (o.call (iter + 1) a1.2 m.nextPop).2 := by rw [e2, ← u_x]; rfl
  have w_v : a2.1.v = v := by rw [e2, ← u_v]; rfl
  have w_x : a2.1.x = m.nextPop := by rw [e2, ← u_x]; rfl
  have w_hist : a2.1.hist = self.hist := by rw [e2, ← u_hist]; rfl
  have w_pb : a2.1.popBest = self.popBest := by rw [e2, ← u_pb]; rfl
  have w_pbx : a2.1.popBestX = self.popBestX := by rw [e2, ← u_pbx]; rfl
  have w_logs : a2.1.calls = self.calls ++ [x] ∧ a2.1.argRefs = self.argRefs ++ [m.nextPop] ∧
      a2.1.retRefs = self.retRefs ++ [a2.1.obj] := by
    rw [e2]; simp [psoUpdateObjM, u_logs, u_x, u_px]
  have w_pops : a2.2.pops = a1.2.pops := by rw [e2]; simp [psoUpdateObjM]
  have w_next : a2.2.nextPop = m.nextPop + 1 ∧ a2.2.nextHist = m.nextHist := by
    rw [e2]; simp [psoUpdateObjM, u_next]
  have w_objcol : a2.2.col a2.1.obj = o.value x := by
    rw [e2]; simp [psoUpdateObjM, u_x, u_px]
  have w_h : a2.2.hists self.hist = { m.hists self.hist with
      samples := Function.update (m.hists self.hist).samples (iter + 1) x
      responses := Function.update (m.hists self.hist).responses (iter + 1) (o.value x) } := by
    rw [e2]; simp [psoUpdateObjM, u_x, u_px, u_hist, u_h]
  have w_h' : ∀ r, r ≠ self.hist → a2.2.hists r = m.hists r := by
    intro r hr; rw [e2, ← u_h' r hr]; simp [psoUpdateObjM, u_hist, setHist_ne, hr]
  have w_col : ∀ c : ColRef D, c ≠ a2.1.obj → a2.2.col c = a1.2.col c := by
    intro c hc
    rw [w_obj] at hc
    rw [e2]
    simp only [psoUpdateObjM, setHist_col, u_x]
    exact call_col_ne _ _ _ _ hc
  have w_buf : ∀ k, a2.1.obj = .buf k → o.reply (iter + 1) = .array k := by
    intro k hk; rw [w_obj] at hk; exact call_buf _ _ _ _ hk
  have w_view : ∀ r j, a2.1.obj = .view r j → r = m.nextPop ∧ o.reply (iter + 1) = .column j := by
    intro r j hk; rw [w_obj] at hk; exact call_view _ _ _ _ hk
  -- after `__update_pop_optimum`
  have pb_ne : ∀ j, self.popBest ≠ .view m.nextPop j := by
    intro j h
    have := (hs.pb _ _ h).1
    have := hs.pbx_lt
    omega
  have pbx_ne : self.popBestX ≠ m.nextPop := by have := hs.pbx_lt; omega
  obtain ⟨m3, e3⟩ : ∃ a, a = psoUpdatePopOptimumM a2.1 a2.2 := ⟨_, rfl⟩
  have z_hists : m3.hists = a2.2.hists := by rw [e3]; simp [psoUpdatePopOptimumM]
  have z_next : m3.nextPop = m.nextPop + 1 ∧ m3.nextHist = m.nextHist := by
    rw [e3]; simp [psoUpdatePopOptimumM, w_next]
  have z_pop : ∀ r, r ≠ self.popBestX → m3.pops r = a2.2.pops r := by
    intro r hr
    rw [e3]
    simp only [psoUpdatePopOptimumM, w_pbx, w_pb]
    rw [setPop_ne _ _ hr, setCol_pops_ne]
    intro j h
    exact hr (hs.pb _ _ h).1
  have z_x : m3.pops m.nextPop = x := by rw [z_pop _ pbx_ne.symm, w_pops, u_px]
  have same : a2.1.obj = self.popBest → ∀ k, self.popBest ≠ .view self.popBestX k := by
    intro h k hk
    rw [hk] at h
    exact pbx_ne (w_view _ _ h).1
  have z_obj : m3.col a2.1.obj = o.value x := by
    cases ho : a2.1.obj with
    | view r j =>
      obtain ⟨rfl, _⟩ := w_view r j ho
      rw [← w_objcol, ho]
      funext i
      simp only [Mem.col, z_x, w_pops, u_px]
    | buf k =>
      rw [e3]
      simp only [psoUpdatePopOptimumM, w_pbx, w_pb]
      have : ∀ (m : Mem K (p + 1) D) (r : ℕ) y, (m.setPop r y).col (.buf k) = m.col (.buf k) := fun _ _ _ => rfl
      rw [this]
      by_cases hk : self.popBest = .buf k
      · rw [hk, setCol_self, ← w_objcol, ho]
        funext i
        simp
      · rw [setCol_col_buf _ _ hk, ← w_objcol, ho]
  have z_bufs : ∀ k, a2.1.obj ≠ .buf k → self.popBest ≠ .buf k → m3.bufs k = m.bufs k := by
    intro k h1 h2
    have : m3.col (.buf k) = m.col (.buf k) := by
      rw [e3]
      simp only [psoUpdatePopOptimumM, w_pbx, w_pb]
      have : ∀ (m : Mem K (p + 1) D) (r : ℕ) y, (m.setPop r y).col (.buf k) = m.col (.buf k) := fun _ _ _ => rfl
      rw [this, setCol_col_buf _ _ h2, w_col _ (Ne.symm h1), u_col _ (by simp)]
    exact this
  have z_pbx : m3.pops self.popBestX = fun i => if o.value x i ≤ a2.2.col self.popBest i then x i
      else (a2.2.setCol self.popBest fun i => if o.value x i ≤ a2.2.col self.popBest i then o.value x i else a2.2.col self.popBest i).pops
        self.popBestX i := by
    rw [e3]
    simp only [psoUpdatePopOptimumM, w_pbx, w_pb, setPop_self, w_objcol, w_x, decide_eq_true_eq]
    funext i
    rw [setCol_pops_ne _ _ pb_ne, w_pops, u_px]
  have z_same : a2.1.obj = self.popBest → m3.pops self.popBestX = x := by
    intro h
    rw [z_pbx]
    funext i
    rw [← h, w_objcol]
    simp
  have z_diff : a2.1.obj ≠ self.popBest →
      m3.col self.popBest = (fun i => if o.value x i ≤ m.col self.popBest i then o.value x i else m.col self.popBest i) ∧
      m3.pops self.popBestX = fun i => if o.value x i ≤ m.col self.popBest i then x i else m.pops self.popBestX i := by
    intro h
    have hc : a2.2.col self.popBest = m.col self.popBest := by
      rw [w_col _ (Ne.symm h), u_col _ pb_ne]
    have hp : a2.2.pops self.popBestX = m.pops self.popBestX := by rw [w_pops, u_pop _ pbx_ne]
    rw [hc] at z_pbx
    have hval : ∀ j, self.popBest = .view self.popBestX j → ∀ i, o.value x i = x i j := by
      intro j hj i
      exact o.column_ok 0 j (hs.pb _ _ hj).2 x i
    have hpb : m3.pops self.popBestX = fun i => if o.value x i ≤ m.col self.popBest i then x i else m.pops self.popBestX i := by
      rw [z_pbx]
      funext i
      split
      · rfl
      · rename_i hn
        cases hb : self.popBest with
        | buf k => rw [setCol_pops_ne _ _ (by simp), hp]
        | view r j =>
          obtain rfl := (hs.pb _ _ hb).1
          rw [hb] at hn
          simp only [Mem.setCol, Function.update_self, hn, if_false, hp]
          simp [Mem.col]
    refine ⟨?_, hpb⟩
    cases hb : self.popBest with
    | buf k =>
      rw [e3]
      simp only [psoUpdatePopOptimumM, w_pbx, w_pb, hb, w_objcol]
      have : ∀ (m : Mem K (p + 1) D) (r : ℕ) y, (m.setPop r y).col (.buf k) = m.col (.buf k) := fun _ _ _ => rfl
      rw [this, setCol_self, ← hb, hc]
      simp
    | view r j =>
      obtain rfl := (hs.pb _ _ hb).1
      funext i
      change m3.pops self.popBestX i j = _
      rw [hpb, hb]
      by_cases hle : o.value x i ≤ m.col (.view self.popBestX j) i
      · simp only [if_pos hle]; exact (hval j hb i).symm
      · simp only [if_neg hle]; rfl
  have fin1 : (psoStepM cfg b o rnd iter (self, m)).1 = a2.1 := by rw [e2, e1]; rfl
  have fin2 : (psoStepM cfg b o rnd iter (self, m)).2 = m3.setHist self.hist
      (histOptimum iter (m3.hists self.hist) x (o.value x)) := by
    have e : (psoStepM cfg b o rnd iter (self, m)).2 = m3.setHist a2.1.hist
        (histOptimum iter (m3.hists a2.1.hist) (m3.pops a2.1.x) (m3.col a2.1.obj)) := by rw [e3, e2, e1]; rfl
    rw [e, w_hist, z_obj, w_x, z_x]
  simp only [fin1, fin2, setHist_pops, setHist_col, setHist_nextPop, setHist_nextHist, setHist_bufs, setHist_self]
  refine ⟨⟨?_, ?_, ?_, ?_⟩, w_v, w_x, ?_, z_obj, w_pb, w_pbx, w_hist, ?_, ?_, z_next.2, z_next.1, ?_, w_logs.1, w_logs.2.1,
    w_logs.2.2, w_buf, w_view, z_bufs, z_diff, z_same⟩
  · rw [w_x, setHist_nextPop, z_next.1]; omega
  · rw [w_pbx, setHist_nextPop, z_next.1]; have := hs.pbx_lt; omega
  · rw [w_pb, w_pbx]; exact hs.pb
  · rw [w_pb]; exact hs.pb'
  · rw [w_x, z_x]
  · rw [z_hists, w_h]
  · intro r hr; rw [setHist_ne _ _ hr, z_hists, w_h' r hr]
  · intro r hr hr'
    rw [z_pop r hr', w_pops, u_pop r (by omega)]

/-- The initialiser, spelled out. -/
theorem psoInitM_spec (self : PSOAttrs K (p + 1) D) (m : Mem K (p + 1) D) :
    let s' := psoInitM cfg b o rnd self m
    let x := locInit b rnd.pos
    PSOShape o s'.1 s'.2 ∧ s'.1.v = (fun i j => rnd.vel i j * vMax cfg b j) ∧ s'.1.x = m.nextPop ∧ s'.2.pops m.nextPop = x ∧
    s'.2.col s'.1.obj = o.value x ∧ s'.1.popBest = s'.1.obj ∧ s'.1.popBestX = m.nextPop ∧ s'.1.hist = m.nextHist ∧
    s'.2.hists m.nextHist = histInit ⟨fun _ => 0, fun _ _ => 0, fun _ _ _ => 0, fun _ _ => 0⟩ x (o.value x) ∧
    (∀ r, r ≠ m.nextHist → s'.2.hists r = m.hists r) ∧ s'.2.nextHist = m.nextHist + 1 ∧ s'.2.nextPop = m.nextPop + 1 ∧
    (∀ r, r ≠ m.nextPop → s'.2.pops r = m.pops r) ∧
    s'.1.calls = [x] ∧ s'.1.argRefs = [m.nextPop] ∧ s'.1.retRefs = [s'.1.obj] ∧
    (∀ k, s'.1.obj = .buf k → o.reply 0 = .array k) ∧
    (∀ r j, s'.1.obj = .view r j → r = m.nextPop ∧ o.reply 0 = .column j) ∧
    (∀ k, s'.1.obj ≠ .buf k → s'.2.bufs k = m.bufs k) := by
  obtain ⟨m2, e2⟩ : ∃ a, a = m.newHist.newPop (locInit b rnd.pos) := ⟨_, rfl⟩
  have q_pop : m2.pops m.nextPop = locInit b rnd.pos := by
    rw [e2]; exact newPop_self m.newHist _
  have q_pop' : ∀ r, r ≠ m.nextPop → m2.pops r = m.pops r := by
    intro r hr; rw [e2]; exact newPop_ne m.newHist _ hr
  have q_h : m2.hists m.nextHist = ⟨fun _ => 0, fun _ _ => 0, fun _ _ _ => 0, fun _ _ => 0⟩ := by
    rw [e2]; exact newHist_self m
  have q_h' : ∀ r, r ≠ m.nextHist → m2.hists r = m.hists r := by
    intro r hr; rw [e2]; exact newHist_ne m hr
  have q_next : m2.nextPop = m.nextPop + 1 ∧ m2.nextHist = m.nextHist + 1 := by rw [e2]; exact ⟨rfl, rfl⟩
  have q_bufs : m2.bufs = m.bufs := by rw [e2]; rfl
  obtain ⟨c, ec⟩ : ∃ c, c = o.call 0 m2 m.nextPop := ⟨_, rfl⟩
  have f1 : (psoInitM cfg b o rnd self m).1 = { self with
      hist := m.nextHist, x := m.nextPop, v := fun i j => rnd.vel i j * vMax cfg b j, obj := c.2, popBest := c.2
      popBestX := m.nextPop, calls := [m2.pops m.nextPop], argRefs := [m.nextPop], retRefs := [c.2] } := by
    rw [ec, e2]; rfl
  have f2 : (psoInitM cfg b o rnd self m).2 = c.1.setHist m.nextHist
      (histInit (c.1.hists m.nextHist) (c.1.pops m.nextPop) (c.1.col c.2)) := by
    rw [ec, e2]; rfl
  have c_pops : c.1.pops = m2.pops := by rw [ec]; simp
  have c_hists : c.1.hists = m2.hists := by rw [ec]; simp
  have c_col : c.1.col c.2 = o.value (locInit b rnd.pos) := by rw [ec, call_col, q_pop]
  have c_buf : ∀ k, c.2 = .buf k → o.reply 0 = .array k := by
    intro k hk; rw [ec] at hk; exact call_buf _ _ _ _ hk
  have c_view : ∀ r j, c.2 = .view r j → r = m.nextPop ∧ o.reply 0 = .column j := by
    intro r j hk; rw [ec] at hk; exact call_view _ _ _ _ hk
  have c_next : c.1.nextPop = m.nextPop + 1 ∧ c.1.nextHist = m.nextHist + 1 := by rw [ec]; simpa using q_next
  have c_bufs : ∀ k, c.2 ≠ .buf k → c.1.bufs k = m.bufs k := by
    intro k hk
    have : c.1.col (.buf k) = m2.col (.buf k) := by
      rw [ec] at hk ⊢; exact call_col_ne _ _ _ _ (Ne.symm hk)
    rw [← q_bufs]; exact this
  simp only [f1, f2, setHist_pops, setHist_col, setHist_nextPop, setHist_nextHist, setHist_bufs, setHist_self, c_pops, c_hists, q_pop, c_col, q_h]
  refine ⟨⟨?_, ?_, c_view, c_buf⟩, trivial, trivial, trivial, trivial, trivial, trivial, trivial, trivial, ?_, c_next.2, c_next.1, q_pop', trivial, trivial, trivial, c_buf, c_view, c_bufs⟩
  · simp [c_next.1]
  · simp [c_next.1]
  · intro r hr
    rw [setHist_ne _ _ hr, c_hists, q_h' r hr]

/-- Objects and memory after `n` generations, ignoring the stopping rule. -/
def psoSeqM (self : PSOAttrs K (p + 1) D) (m : Mem K (p + 1) D) : ℕ → PSOAttrs K (p + 1) D × Mem K (p + 1) D
  | 0 => psoInitM cfg b o rnd self m
  | n + 1 => psoStepM cfg b o rnd n (psoSeqM self m n)

theorem psoLoopM_eq (self : PSOAttrs K (p + 1) D) (m : Mem K (p + 1) D) (stop : Option K) (more iter : ℕ) :
    ∃ k, k ≤ more ∧ psoLoopM cfg b o rnd stop more iter (psoSeqM cfg b o rnd self m iter) =
        (psoSeqM cfg b o rnd self m (iter + k + 1), iter + k) ∧
      (∀ k' < k, ¬ Spec.Below stop (((psoSeqM cfg b o rnd self m (iter + k' + 1)).2.hists
        (psoSeqM cfg b o rnd self m (iter + k' + 1)).1.hist).genBest (iter + k' + 1))) ∧
      (k = more ∨ Spec.Below stop (((psoSeqM cfg b o rnd self m (iter + k + 1)).2.hists
        (psoSeqM cfg b o rnd self m (iter + k + 1)).1.hist).genBest (iter + k + 1))) := by
  induction more generalizing iter with
  | zero => exact ⟨0, le_refl _, rfl, by simp, Or.inl rfl⟩
  | succ more ih =>
    simp only [psoLoopM]
    split
    · rename_i h
      exact ⟨0, by omega, rfl, by simp, Or.inr ((stopNow_iff _ _).mp h)⟩
    · rename_i h
      obtain ⟨k, hk, he, hn, hw⟩ := ih (iter + 1)
      have e : iter + (k + 1) = iter + 1 + k := by omega
      refine ⟨k + 1, by omega, by rw [e]; exact he, ?_, ?_⟩
      · intro k' hk'
        rcases k' with _ | k'
        · exact fun hb => h ((stopNow_iff _ _).mpr hb)
        · rw [show iter + (k' + 1) + 1 = iter + 1 + k' + 1 by omega]
          exact hn k' (by omega)
      · rw [show iter + (k + 1) + 1 = iter + 1 + k + 1 by omega]
        rcases hw with hw | hw
        · left; omega
        · right; exact hw

/-- Facts on the state after `n` generations that hold for every objective, however it reuses its arrays. -/
structure PSOInv (m0 : Mem K (p + 1) D) (n : ℕ) (a : PSOAttrs K (p + 1) D) (m : Mem K (p + 1) D) : Prop where
  shape : PSOShape o a m
  x : a.x = m0.nextPop + n
  pbx : a.popBestX = m0.nextPop
  obj : m.col a.obj = o.value (m.pops a.x)
  hist : a.hist = m0.nextHist
  hists : ∀ r, r ≠ m0.nextHist → m.hists r = m0.hists r
  nextHist : m.nextHist = m0.nextHist + 1
  nextPop : m.nextPop = m0.nextPop + n + 1
  old : ∀ r, r < m0.nextPop → m.pops r = m0.pops r
  argRefs : a.argRefs = (List.range (n + 1)).map (m0.nextPop + ·)
  calls : a.calls = (List.range (n + 1)).map (m.hists a.hist).samples
  cur : (m.hists a.hist).samples n = m.pops a.x
  later : ∀ k, 1 ≤ k → k ≤ n → m.pops (m0.nextPop + k) = (m.hists a.hist).samples k
  rets : a.retRefs.length = n + 1
  ret0 : a.retRefs[0]? = some a.popBest
  retn : a.retRefs[n]? = some a.obj

theorem histOptimum_samples (iter : ℕ) (h : Hist K (p + 1) D) (x y) :
    (histOptimum iter h x y).samples = h.samples ∧ (histOptimum iter h x y).responses = h.responses := ⟨rfl, rfl⟩

theorem psoSeqM_inv (self : PSOAttrs K (p + 1) D) (m : Mem K (p + 1) D) (n : ℕ) :
    PSOInv o m n (psoSeqM cfg b o rnd self m n).1 (psoSeqM cfg b o rnd self m n).2 := by
  induction n with
  | zero =>
    obtain ⟨h1, h2, h3, h4, h5, h6, h7, h8, h9, h10, h11, h12, h13, h14, h15, h16, h17, h18, h19⟩ :=
      psoInitM_spec cfg b o rnd self m
    have hs : ((psoInitM cfg b o rnd self m).2.hists (psoInitM cfg b o rnd self m).1.hist).samples 0 = locInit b rnd.pos := by
      rw [h8, h9]; simp [histInit]
    refine ⟨h1, ?_, h7, ?_, h8, h10, h11, ?_, ?_, ?_, ?_, ?_, ?_, ?_, ?_, ?_⟩
    · exact h3
    · simp only [psoSeqM]; rw [h5, h3, h4]
    · exact h12
    · intro r hr; exact h13 r (by omega)
    · simp only [psoSeqM]; rw [h15]; simp
    · simp only [psoSeqM]; rw [h14]; simp [hs]
    · simp only [psoSeqM]; rw [hs, h3, h4]
    · intro k h1 h2; omega
    · simp only [psoSeqM]; rw [h16]; rfl
    · simp only [psoSeqM]; rw [h16, h6]; rfl
    · simp only [psoSeqM]; rw [h16]; rfl
  | succ n ih =>
    generalize hsn : psoSeqM cfg b o rnd self m n = s at ih
    obtain ⟨a, m'⟩ := s
    simp only at ih
    have e : psoSeqM cfg b o rnd self m (n + 1) = psoStepM cfg b o rnd n (a, m') := by rw [psoSeqM, hsn]
    rw [e]
    obtain ⟨h1, h2, h3, h4, h5, h6, h7, h8, h9, h10, h11, h12, h13, h14, h15, h16, h17, h18, h19, h20, h21⟩ :=
      psoStepM_spec cfg b o rnd n a m' ih.shape
    generalize psoStepM cfg b o rnd n (a, m') = s' at *
    have hold : ∀ k ≤ n, (s'.2.hists s'.1.hist).samples k = (m'.hists a.hist).samples k := by
      intro k hk
      rw [h8, h9, (histOptimum_samples _ _ _ _).1]
      simp [show k ≠ n + 1 by omega]
    have hnew : (s'.2.hists s'.1.hist).samples (n + 1) = s'.2.pops s'.1.x := by
      rw [h8, h9, (histOptimum_samples _ _ _ _).1, h4]
      simp
    refine ⟨h1, ?_, ?_, ?_, ?_, ?_, ?_, ?_, ?_, ?_, ?_, hnew, ?_, ?_, ?_, ?_⟩
    · rw [h3, ih.nextPop]; omega
    · rw [h7, ih.pbx]
    · rw [h5, h4]
    · rw [h8, ih.hist]
    · intro r hr; rw [h10 r (by rw [ih.hist]; exact hr), ih.hists r hr]
    · rw [h11, ih.nextHist]
    · rw [h12, ih.nextPop]; omega
    · intro r hr
      rw [h13 r (by rw [ih.nextPop]; omega) (by rw [ih.pbx]; omega), ih.old r hr]
    · rw [h15, ih.argRefs, ih.nextPop, List.range_succ (n := n + 1), List.map_append]; simp [Nat.add_assoc]
    · rw [h14, ih.calls, List.range_succ (n := n + 1), List.map_append]
      congr 1
      · apply List.map_congr_left
        intro k hk
        have := List.mem_range.mp hk
        rw [hold k (by omega)]
      · simp [hnew, h4]
    · intro k hk1 hk2
      rcases Nat.lt_or_ge n k with hlt | hge
      · obtain rfl : k = n + 1 := by omega
        rw [hnew, h3, ih.nextPop]; congr 1
      · rw [hold k hge, ← ih.later k hk1 hge]
        exact h13 _ (by rw [ih.nextPop]; omega) (by rw [ih.pbx]; omega)
    · rw [h16, List.length_append, ih.rets]; rfl
    · rw [h16, List.getElem?_append_left (by rw [ih.rets]; omega), ih.ret0, h6]
    · rw [h16, List.getElem?_append_right (by rw [ih.rets])]; simp [ih.rets]

/-- The state with shared arrays represents the state of the value model. -/
structure PSORel (a : PSOAttrs K (p + 1) D) (m : Mem K (p + 1) D) (t : PSOState K (p + 1) D) : Prop where
  x : m.pops a.x = t.x
  v : a.v = t.v
  obj : m.col a.obj = t.obj
  pb : m.col a.popBest = t.popBest
  pbx : m.pops a.popBestX = t.popBestX
  hist : m.hists a.hist = ⟨t.genBest, t.genBestXs, t.samples, t.responses⟩
  calls : a.calls = t.calls

theorem psoSeqM_rel (ho : Spec.FirstArrayNotReturnedAgain o) (self : PSOAttrs K (p + 1) D) (m : Mem K (p + 1) D) (n : ℕ) :
    PSORel (psoSeqM cfg b o rnd self m n).1 (psoSeqM cfg b o rnd self m n).2 (psoSeq cfg b o.value rnd n) := by
  induction n with
  | zero =>
    obtain ⟨h1, h2, h3, h4, h5, h6, h7, h8, h9, h10, h11, h12, h13, h14, h15, h16, h17, h18, h19⟩ :=
      psoInitM_spec cfg b o rnd self m
    simp only [psoSeqM, psoSeq]
    refine ⟨?_, h2, ?_, ?_, ?_, ?_, ?_⟩
    · rw [h3, h4]; rfl
    · rw [h5]; rfl
    · rw [h6, h5]; rfl
    · rw [h7, h4]; rfl
    · rw [h8, h9]; rfl
    · rw [h14]; rfl
  | succ n ih =>
    have hinv := psoSeqM_inv cfg b o rnd self m n
    generalize hsn : psoSeqM cfg b o rnd self m n = s at ih hinv
    obtain ⟨a, m'⟩ := s
    simp only at ih hinv
    have e : psoSeqM cfg b o rnd self m (n + 1) = psoStepM cfg b o rnd n (a, m') := by rw [psoSeqM, hsn]
    rw [e]
    obtain ⟨h1, h2, h3, h4, h5, h6, h7, h8, h9, h10, h11, h12, h13, h14, h15, h16, h17, h18, h19, h20, h21⟩ :=
      psoStepM_spec cfg b o rnd n a m' hinv.shape
    generalize psoStepM cfg b o rnd n (a, m') = s' at *
    have hne : s'.1.obj ≠ a.popBest := by
      intro he
      cases hb : a.popBest with
      | buf k =>
        exact ho k (hinv.shape.pb' k hb) n (h17 k (he.trans hb))
      | view r j =>
        have e1 := (hinv.shape.pb r j hb).1
        have e2 := (h18 r j (he.trans hb)).1
        have := hinv.shape.pbx_lt
        omega
    obtain ⟨g1, g2⟩ := h20 hne
    rw [ih.x, ih.pbx, ih.v, ih.hist] at h2
    have hv : s'.1.v = (psoSeq cfg b o.value rnd (n + 1)).v := h2
    rw [ih.x, ih.pbx, ih.v, ih.hist] at h4 h5 h9 h14
    rw [ih.x, ih.pbx, ih.v, ih.hist, ih.pb] at g1 g2
    refine ⟨h4, hv, h5, ?_, ?_, ?_, ?_⟩
    · rw [h6, g1]; rfl
    · rw [h7, g2]; rfl
    · rw [h8, h9]; rfl
    · rw [h14, ih.calls]; rfl

theorem psoLoopM_sync (ho : Spec.FirstArrayNotReturnedAgain o) (self : PSOAttrs K (p + 1) D) (m : Mem K (p + 1) D)
    (stop : Option K) (more iter : ℕ) :
    ∃ k, psoLoopM cfg b o rnd stop more iter (psoSeqM cfg b o rnd self m iter) =
        (psoSeqM cfg b o rnd self m (iter + k + 1), iter + k) ∧
      psoLoop cfg b o.value rnd stop more iter (psoSeq cfg b o.value rnd iter) =
        (psoSeq cfg b o.value rnd (iter + k + 1), iter + k) := by
  induction more generalizing iter with
  | zero => exact ⟨0, rfl, rfl⟩
  | succ more ih =>
    have hr := (psoSeqM_rel cfg b o rnd ho self m (iter + 1)).hist
    simp only [psoSeqM, psoSeq] at hr
    simp only [psoLoopM, psoLoop]
    rw [hr]
    split
    · exact ⟨0, rfl, rfl⟩
    · obtain ⟨k, h1, h2⟩ := ih (iter + 1)
      refine ⟨k + 1, ?_, ?_⟩
      · rw [show iter + (k + 1) = iter + 1 + k by omega]; exact h1
      · rw [show iter + (k + 1) = iter + 1 + k by omega]; exact h2

end PSO

/-- A run of `PSO` on shared arrays gives what the value model gives, if the objective does not return its first array again. -/
theorem psoRunM_eq {P D : ℕ} (cfg : PSOCfg K) (b : Box K D) (o : Objective K P D) (stop : Option K) (rnd : PSORand K P D)
    (ho : Spec.FirstArrayNotReturnedAgain o) (self : PSOAttrs K P D) (m : Mem K P D) :
    (psoRunM cfg b o stop rnd self m).1.map (fun h => h.read (psoRunM cfg b o stop rnd self m).2.2) =
      (psoRun cfg b o.value stop rnd).map (·.toResult) := by
  cases P with
  | zero => rfl
  | succ p =>
    simp only [psoRunM, psoRun]
    split
    · rfl
    split
    · cases hg : cfg.numGen with
      | zero => rfl
      | succ g =>
        simp only []
        obtain ⟨k, h1, h2⟩ := psoLoopM_sync cfg b o rnd ho self m stop g 0
        change psoLoopM cfg b o rnd stop g 0 (psoInitM cfg b o rnd self m) = _ at h1
        change psoLoop cfg b o.value rnd stop g 0 (psoInit cfg b o.value rnd) = _ at h2
        rw [h1, h2]
        have hr := psoSeqM_rel cfg b o rnd ho self m (0 + k + 1)
        simp only [Except.map, Handle.read, hr.hist, hr.calls]
    · rfl

/-- Results of a run live in history arrays that were unused before, and no other history array is written. -/
theorem psoRunM_frame {P D : ℕ} (cfg : PSOCfg K) (b : Box K D) (o : Objective K P D) (stop : Option K) (rnd : PSORand K P D)
    (self : PSOAttrs K P D) (m : Mem K P D) :
    (∀ r, r ≠ m.nextHist → (psoRunM cfg b o stop rnd self m).2.2.hists r = m.hists r) ∧
    (psoRunM cfg b o stop rnd self m).2.2.nextHist = m.nextHist + 1 ∧
    ∀ h, (psoRunM cfg b o stop rnd self m).1 = .ok h → h.hist = m.nextHist := by
  have hnew : (∀ r, r ≠ m.nextHist → m.newHist.hists r = m.hists r) ∧ m.newHist.nextHist = m.nextHist + 1 :=
    ⟨fun r hr => newHist_ne m hr, rfl⟩
  cases P with
  | zero => exact ⟨hnew.1, hnew.2, fun h hh => by simp [psoRunM] at hh⟩
  | succ p =>
    simp only [psoRunM]
    split
    · exact ⟨hnew.1, hnew.2, fun h hh => by simp at hh⟩
    split
    · split
      · have := psoSeqM_inv cfg b o rnd self m 0
        exact ⟨this.hists, this.nextHist, fun h hh => by simp at hh⟩
      · rename_i g hg
        obtain ⟨k, _, h1, _, _⟩ := psoLoopM_eq cfg b o rnd self m stop g 0
        change psoLoopM cfg b o rnd stop g 0 (psoInitM cfg b o rnd self m) = _ at h1
        rw [h1]
        have hr := psoSeqM_inv cfg b o rnd self m (0 + k + 1)
        refine ⟨hr.hists, hr.nextHist, fun h hh => ?_⟩
        simp only [Except.ok.injEq] at hh
        rw [← hh]; exact hr.hist
    · exact ⟨hnew.1, hnew.2, fun h hh => by simp at hh⟩

/-! ## DE -/

section DE
variable {P D : ℕ}

/-- What the selection loop needs to know of the arrays: `x` and `u` are different, the current and the trial responses are different arrays,
each of them an array of the objective or a view of the right position array. -/
structure DESel (a : DEAttrs K P D) (m : Mem K P D) : Prop where
  xu : a.x ≠ a.u
  ne : a.objU ≠ a.obj
  objView : ∀ r j, a.obj = .view r j → r = a.x ∧ ∀ i, m.col a.objU i = m.pops a.u i j
  objUView : ∀ r j, a.objU = .view r j → r = a.u

theorem setPop_col_objU {a : DEAttrs K P D} {m : Mem K P D} (h : DESel a m) (y : Pop K P D) :
    (m.setPop a.x y).col a.objU = m.col a.objU := by
  cases ho : a.objU with
  | buf k => rfl
  | view r j =>
    obtain rfl := h.objUView r j ho
    funext i
    simp only [Mem.col]
    rw [setPop_ne _ _ h.xu.symm]

theorem setCol_col_objU {a : DEAttrs K P D} {m : Mem K P D} (h : DESel a m) (y : Fin P → K) :
    (m.setCol a.obj y).col a.objU = m.col a.objU := by
  cases ho : a.objU with
  | buf k => exact setCol_col_buf m y (fun e => h.ne (ho.trans e.symm))
  | view r j =>
    obtain rfl := h.objUView r j ho
    funext i
    simp only [Mem.col]
    rw [setCol_pops_ne]
    intro j' e
    exact h.xu (h.objView _ _ e).1.symm

theorem deSelect_spec {a : DEAttrs K P D} {m : Mem K P D} (h : DESel a m) (ii : Fin P) :
    (deSelect a m ii).pops a.x = (fun i => if i = ii ∧ m.col a.objU i < m.col a.obj i then m.pops a.u i else m.pops a.x i) ∧
    (deSelect a m ii).col a.obj = (fun i => if i = ii ∧ m.col a.objU i < m.col a.obj i then m.col a.objU i else m.col a.obj i) ∧
    (deSelect a m ii).col a.objU = m.col a.objU ∧
    (∀ r, r ≠ a.x → (deSelect a m ii).pops r = m.pops r) ∧ (deSelect a m ii).hists = m.hists ∧
    (deSelect a m ii).nextPop = m.nextPop ∧ (deSelect a m ii).nextHist = m.nextHist ∧
    (∀ k, a.obj ≠ .buf k → (deSelect a m ii).bufs k = m.bufs k) := by
  unfold deSelect
  split
  · rename_i hlt
    generalize e1 : m.setPop a.x (Function.update (m.pops a.x) ii (m.pops a.u ii)) = m1
    have g1 : m1.pops a.x = Function.update (m.pops a.x) ii (m.pops a.u ii) := by rw [← e1]; simp
    have g2 : ∀ r, r ≠ a.x → m1.pops r = m.pops r := by intro r hr; rw [← e1]; exact setPop_ne _ _ hr
    have g3 : m1.col a.objU = m.col a.objU := by rw [← e1]; exact setPop_col_objU h _
    have hsel1 : DESel a m1 := by
      refine ⟨h.xu, h.ne, fun r j hr => ⟨(h.objView r j hr).1, fun i => ?_⟩, h.objUView⟩
      rw [g3, g2 _ h.xu.symm]; exact (h.objView r j hr).2 i
    have g4 : m1.col a.obj = fun i => if i = ii then
        (match a.obj with | .buf _ => m.col a.obj i | .view _ _ => m.col a.objU i) else m.col a.obj i := by
      cases ho : a.obj with
      | buf k => funext i; rw [← e1]; simp [Mem.col]
      | view r j =>
        obtain ⟨rfl, hv⟩ := h.objView r j ho
        funext i
        simp only [Mem.col, g1]
        by_cases hi : i = ii
        · subst hi; simp; exact (hv i).symm
        · simp [hi]
    have hP : (m1.setCol a.obj (Function.update (m1.col a.obj) ii (m1.col a.objU ii))).pops a.x = m1.pops a.x := by
      cases ho : a.obj with
      | buf k => rfl
      | view r j =>
        obtain ⟨rfl, hv⟩ := hsel1.objView r j ho
        simp only [Mem.setCol, Function.update_self]
        funext i j'
        by_cases hi : i = ii
        · subst hi
          by_cases hj : j' = j
          · subst hj
            rw [Function.update_self, Function.update_self, hv, g1, Function.update_self, g2 _ h.xu.symm]
          · rw [Function.update_of_ne hj]
        · by_cases hj : j' = j
          · subst hj
            rw [Function.update_self, Function.update_of_ne hi]; rfl
          · rw [Function.update_of_ne hj]
    refine ⟨?_, ?_, ?_, ?_, ?_, ?_, ?_, ?_⟩
    · rw [hP, g1]
      funext i
      by_cases hi : i = ii
      · subst hi; simp [hlt]
      · simp [hi]
    · rw [setCol_self, g3, g4]
      funext i
      by_cases hi : i = ii
      · subst hi; simp [hlt]
      · simp [hi]
    · rw [setCol_col_objU hsel1, g3]
    · intro r hr
      rw [setCol_pops_ne, g2 r hr]
      intro j e
      exact hr (h.objView _ _ e).1
    · rw [setCol_hists, ← e1]; rfl
    · rw [setCol_nextPop, ← e1]; rfl
    · rw [setCol_nextHist, ← e1]; rfl
    · intro k hk
      have : (m1.setCol a.obj (Function.update (m1.col a.obj) ii (m1.col a.objU ii))).col (.buf k) = m1.col (.buf k) :=
        setCol_col_buf _ _ hk
      have e : m1.bufs = m.bufs := by rw [← e1]; rfl
      rw [← e]; exact this
  · rename_i hlt
    refine ⟨?_, ?_, rfl, fun _ _ => rfl, rfl, rfl, rfl, fun _ _ => rfl⟩
    · funext i
      by_cases hi : i = ii
      · subst hi; simp [hlt]
      · simp [hi]
    · funext i
      by_cases hi : i = ii
      · subst hi; simp [hlt]
      · simp [hi]

theorem deSelect_fold {a : DEAttrs K P D} (l : List (Fin P)) (hl : l.Nodup) {m : Mem K P D} (h : DESel a m) :
    (l.foldl (deSelect a) m).pops a.x = (fun i => if i ∈ l ∧ m.col a.objU i < m.col a.obj i then m.pops a.u i else m.pops a.x i) ∧
    (l.foldl (deSelect a) m).col a.obj = (fun i => if i ∈ l ∧ m.col a.objU i < m.col a.obj i then m.col a.objU i else m.col a.obj i) ∧
    (∀ r, r ≠ a.x → (l.foldl (deSelect a) m).pops r = m.pops r) ∧ (l.foldl (deSelect a) m).hists = m.hists ∧
    (l.foldl (deSelect a) m).nextPop = m.nextPop ∧ (l.foldl (deSelect a) m).nextHist = m.nextHist ∧
    (∀ k, a.obj ≠ .buf k → (l.foldl (deSelect a) m).bufs k = m.bufs k) := by
  induction l generalizing m with
  | nil => exact ⟨by simp, by simp, fun _ _ => rfl, rfl, rfl, rfl, fun _ _ => rfl⟩
  | cons ii l ih =>
    obtain ⟨h1, h2, h3, h4, h5, h6, h7, h8⟩ := deSelect_spec h ii
    have hu := h4 _ h.xu.symm
    have hsel : DESel a (deSelect a m ii) := by
      refine ⟨h.xu, h.ne, fun r j hr => ⟨(h.objView r j hr).1, fun i => ?_⟩, h.objUView⟩
      rw [h3, hu]; exact (h.objView r j hr).2 i
    have hl' := List.nodup_cons.mp hl
    obtain ⟨g1, g2, g3, g4, g5, g6, g7⟩ := ih hl'.2 hsel
    rw [List.foldl_cons]
    refine ⟨?_, ?_, ?_, by rw [g4, h5], by rw [g5, h6], by rw [g6, h7], ?_⟩
    · rw [g1]
      funext i
      rw [h1, h2, h3, hu]
      by_cases hi : i = ii
      · subst hi; simp [hl'.1]
      · simp [hi]
    · rw [g2]
      funext i
      rw [h2, h3]
      by_cases hi : i = ii
      · subst hi; simp [hl'.1]
      · simp [hi]
    · intro r hr; rw [g3 r hr, h4 r hr]
    · intro k hk; rw [g7 k hk, h8 k hk]

/-- If the objective returned the array that holds the current responses, nothing is ever accepted. -/
theorem deSelect_fold_same {a : DEAttrs K P D} (l : List (Fin P)) (h : a.objU = a.obj) (m : Mem K P D) :
    l.foldl (deSelect a) m = m := by
  induction l with
  | nil => rfl
  | cons ii l ih =>
    rw [List.foldl_cons]
    have : deSelect a m ii = m := by
      unfold deSelect
      rw [h, if_neg (lt_irrefl _)]
    rw [this, ih]

end DE

section DERuns
variable {p D : ℕ} (cfg : DECfg K) (b : Box K D) (o : Objective K (p + 1) D) (rnd : DERand K (p + 1) D)

/-- The state of the value model that objects and memory represent. -/
def deView (a : DEAttrs K (p + 1) D) (m : Mem K (p + 1) D) : DEState K (p + 1) D :=
  { x := m.pops a.x
    obj := m.col a.obj
    genBest := (m.hists a.hist).genBest
    genBestXs := (m.hists a.hist).genBestXs
    samples := (m.hists a.hist).samples
    responses := (m.hists a.hist).responses
    calls := a.calls }

/-- The shape of memory during a run of `DE`. -/
structure DEShape (a : DEAttrs K (p + 1) D) (m : Mem K (p + 1) D) : Prop where
  xu : a.x < a.u
  u_lt : a.u < m.nextPop
  ob : ∀ r j, a.obj = .view r j → r = a.x ∧ o.reply 0 = .column j
  ob' : ∀ k, a.obj = .buf k → o.reply 0 = .array k

theorem deInitM_spec (self : DEAttrs K (p + 1) D) (m : Mem K (p + 1) D) :
    let s' := deInitM b o rnd self m
    DEShape o s'.1 s'.2 ∧ deView s'.1 s'.2 = deInit b o.value rnd ∧ s'.1.x = m.nextPop ∧ s'.1.u = m.nextPop + 1 ∧
    s'.1.hist = m.nextHist ∧ (∀ r, r ≠ m.nextHist → s'.2.hists r = m.hists r) ∧ s'.2.nextHist = m.nextHist + 1 ∧
    s'.2.nextPop = m.nextPop + 2 ∧ (∀ r, r < m.nextPop → s'.2.pops r = m.pops r) ∧ s'.1.argRefs = [m.nextPop] ∧
    s'.1.retRefs = [s'.1.obj] ∧ (∀ k, s'.1.obj ≠ .buf k → s'.2.bufs k = m.bufs k) := by
  obtain ⟨m3, e3⟩ : ∃ a, a = (m.newHist.newPop (locInit b rnd.pos)).newPop (fun _ _ => 0) := ⟨_, rfl⟩
  have q_pop : m3.pops m.nextPop = locInit b rnd.pos := by
    rw [e3, newPop_ne _ _ (by simp)]; exact newPop_self m.newHist _
  have q_pop' : ∀ r, r < m.nextPop → m3.pops r = m.pops r := by
    intro r hr
    rw [e3, newPop_ne _ _ (by simp; omega), newPop_ne _ _ (by simp; omega)]; rfl
  have q_h : m3.hists m.nextHist = ⟨fun _ => 0, fun _ _ => 0, fun _ _ _ => 0, fun _ _ => 0⟩ := by
    rw [e3]; exact newHist_self m
  have q_h' : ∀ r, r ≠ m.nextHist → m3.hists r = m.hists r := by
    intro r hr; rw [e3]; exact newHist_ne m hr
  have q_next : m3.nextPop = m.nextPop + 2 ∧ m3.nextHist = m.nextHist + 1 := by rw [e3]; exact ⟨rfl, rfl⟩
  have q_bufs : m3.bufs = m.bufs := by rw [e3]; rfl
  obtain ⟨c, ec⟩ : ∃ c, c = o.call 0 m3 m.nextPop := ⟨_, rfl⟩
  have f1 : (deInitM b o rnd self m).1 = { self with
      hist := m.nextHist, x := m.nextPop, u := m.nextPop + 1, obj := c.2
      calls := [m3.pops m.nextPop], argRefs := [m.nextPop], retRefs := [c.2] } := by
    rw [ec, e3]; rfl
  have f2 : (deInitM b o rnd self m).2 = c.1.setHist m.nextHist
      (histInit (c.1.hists m.nextHist) (c.1.pops m.nextPop) (c.1.col c.2)) := by
    rw [ec, e3]; rfl
  have c_pops : c.1.pops = m3.pops := by rw [ec]; simp
  have c_hists : c.1.hists = m3.hists := by rw [ec]; simp
  have c_col : c.1.col c.2 = o.value (locInit b rnd.pos) := by rw [ec, call_col, q_pop]
  have c_buf : ∀ k, c.2 = .buf k → o.reply 0 = .array k := by
    intro k hk; rw [ec] at hk; exact call_buf _ _ _ _ hk
  have c_view : ∀ r j, c.2 = .view r j → r = m.nextPop ∧ o.reply 0 = .column j := by
    intro r j hk; rw [ec] at hk; exact call_view _ _ _ _ hk
  have c_next : c.1.nextPop = m.nextPop + 2 ∧ c.1.nextHist = m.nextHist + 1 := by rw [ec]; simpa using q_next
  have c_bufs : ∀ k, c.2 ≠ .buf k → c.1.bufs k = m.bufs k := by
    intro k hk
    have : c.1.col (.buf k) = m3.col (.buf k) := by
      rw [ec] at hk ⊢; exact call_col_ne _ _ _ _ (Ne.symm hk)
    rw [← q_bufs]; exact this
  simp only [f1, f2, setHist_pops, setHist_nextPop, setHist_nextHist, setHist_bufs, deView, setHist_col, setHist_self, c_pops, c_hists, q_pop, c_col, q_h]
  refine ⟨⟨?_, ?_, c_view, c_buf⟩, rfl, trivial, trivial, trivial, ?_, c_next.2, c_next.1, q_pop', trivial, trivial, c_bufs⟩
  · simp
  · simp [c_next.1]
  · intro r hr
    rw [setHist_ne _ _ hr, c_hists, q_h' r hr]

/-- One generation, spelled out. -/
theorem deStepM_spec (iter : ℕ) (a : DEAttrs K (p + 1) D) (m : Mem K (p + 1) D) (hs : DEShape o a m) :
    let s' := deStepM cfg b o rnd iter (a, m)
    let u := deTrial cfg b rnd iter (deView a m)
    DEShape o s'.1 s'.2 ∧ s'.1.x = a.x ∧ s'.1.u = a.u ∧ s'.1.obj = a.obj ∧ s'.1.hist = a.hist ∧ s'.2.pops a.u = u ∧
    s'.2.hists a.hist = histOptimum iter
      { m.hists a.hist with
        samples := Function.update (m.hists a.hist).samples (iter + 1) (s'.2.pops a.x)
        responses := Function.update (m.hists a.hist).responses (iter + 1) (s'.2.col a.obj) } (s'.2.pops a.x) (s'.2.col a.obj) ∧
    (∀ r, r ≠ a.hist → s'.2.hists r = m.hists r) ∧ s'.2.nextHist = m.nextHist ∧ s'.2.nextPop = m.nextPop ∧
    (∀ r, r ≠ a.x → r ≠ a.u → s'.2.pops r = m.pops r) ∧
    s'.1.calls = a.calls ++ [u] ∧ s'.1.argRefs = a.argRefs ++ [a.u] ∧ s'.1.retRefs = a.retRefs ++ [s'.1.objU] ∧
    (∀ k, s'.1.objU = .buf k → o.reply (iter + 1) = .array k) ∧
    (∀ r j, s'.1.objU = .view r j → r = a.u ∧ o.reply (iter + 1) = .column j) ∧
    (∀ k, s'.1.objU ≠ .buf k → a.obj ≠ .buf k → s'.2.bufs k = m.bufs k) ∧
    (∀ k, s'.1.objU = .buf k → s'.2.bufs k = o.value u) ∧
    (s'.1.objU ≠ a.obj →
      s'.2.pops a.x = (fun i => if o.value u i < m.col a.obj i then u i else m.pops a.x i) ∧
      s'.2.col a.obj = fun i => if o.value u i < m.col a.obj i then o.value u i else m.col a.obj i) ∧
    (s'.1.objU = a.obj → s'.2.pops a.x = m.pops a.x ∧ s'.2.col a.obj = o.value u) := by
  have hxu : a.x ≠ a.u := by have := hs.xu; omega
  set u := deTrial cfg b rnd iter (deView a m) with hu
  obtain ⟨m1, e1⟩ : ∃ x, x = deUpdatePopM cfg b rnd iter a m := ⟨_, rfl⟩
  have p_u : m1.pops a.u = u := by
    rw [e1]; simp only [deUpdatePopM, setPop_self]; rfl
  have p_ne : ∀ r, r ≠ a.u → m1.pops r = m.pops r := by
    intro r hr; rw [e1]; simp only [deUpdatePopM]; rw [setPop_ne _ _ hr, setPop_ne _ _ hr]
  have p_rest : m1.bufs = m.bufs ∧ m1.hists = m.hists ∧ m1.nextPop = m.nextPop ∧ m1.nextHist = m.nextHist := by
    rw [e1]; exact ⟨rfl, rfl, rfl, rfl⟩
  have p_col : m1.col a.obj = m.col a.obj := by
    cases ho : a.obj with
    | buf k => simp only [Mem.col, p_rest.1]
    | view r j =>
      obtain ⟨rfl, _⟩ := hs.ob r j ho
      funext i; simp only [Mem.col]; rw [p_ne _ hxu]
  obtain ⟨c, ec⟩ : ∃ c, c = o.call (iter + 1) m1 a.u := ⟨_, rfl⟩
  have c_pops : c.1.pops = m1.pops := by rw [ec]; simp
  have c_hists : c.1.hists = m.hists := by rw [ec]; simp [p_rest]
  have c_next : c.1.nextPop = m.nextPop ∧ c.1.nextHist = m.nextHist := by rw [ec]; simp [p_rest]
  have c_col : c.1.col c.2 = o.value u := by rw [ec, call_col, p_u]
  have c_buf : ∀ k, c.2 = .buf k → o.reply (iter + 1) = .array k := by
    intro k hk; rw [ec] at hk; exact call_buf _ _ _ _ hk
  have c_view : ∀ r j, c.2 = .view r j → r = a.u ∧ o.reply (iter + 1) = .column j := by
    intro r j hk; rw [ec] at hk; exact call_view _ _ _ _ hk
  have c_ne : ∀ c', c' ≠ c.2 → c.1.col c' = m1.col c' := by
    intro c' hc; rw [ec] at hc ⊢; exact call_col_ne _ _ _ _ hc
  obtain ⟨a1, ea⟩ : ∃ x : DEAttrs K (p + 1) D, x = { a with
      objU := c.2, calls := a.calls ++ [m1.pops a.u], argRefs := a.argRefs ++ [a.u], retRefs := a.retRefs ++ [c.2] } := ⟨_, rfl⟩
  have a_x : a1.x = a.x := by rw [ea]
  have a_u : a1.u = a.u := by rw [ea]
  have a_obj : a1.obj = a.obj := by rw [ea]
  have a_objU : a1.objU = c.2 := by rw [ea]
  have a_hist : a1.hist = a.hist := by rw [ea]
  obtain ⟨m2, e2⟩ : ∃ x, x = (List.finRange (p + 1)).foldl (deSelect a1) c.1 := ⟨_, rfl⟩
  have sel : a1.objU ≠ a1.obj → DESel a1 c.1 := by
    intro hne
    refine ⟨by rw [a_x, a_u]; exact hxu, hne, ?_, ?_⟩
    · intro r j hr
      rw [a_obj] at hr
      obtain ⟨h1, h2⟩ := hs.ob r j hr
      refine ⟨by rw [a_x]; exact h1, fun i => ?_⟩
      rw [a_objU, c_col, a_u, c_pops, p_u]
      exact o.column_ok 0 j h2 u i
    · intro r j hr
      rw [a_objU] at hr
      rw [a_u]; exact (c_view r j hr).1
  have fold : m2.hists = m.hists ∧ m2.nextPop = m.nextPop ∧ m2.nextHist = m.nextHist ∧
      (∀ r, r ≠ a.x → m2.pops r = m1.pops r) ∧
      (∀ k, a.obj ≠ .buf k → m2.bufs k = c.1.bufs k) ∧
      (∀ k, c.2 = .buf k → m2.bufs k = o.value u) ∧
      (c.2 ≠ a.obj →
        m2.pops a.x = (fun i => if o.value u i < m.col a.obj i then u i else m.pops a.x i) ∧
        m2.col a.obj = fun i => if o.value u i < m.col a.obj i then o.value u i else m.col a.obj i) ∧
      (c.2 = a.obj → m2.pops a.x = m.pops a.x ∧ m2.col a.obj = o.value u) := by
    by_cases hc : c.2 = a.obj
    · have : m2 = c.1 := by rw [e2]; exact deSelect_fold_same _ (by rw [a_objU, a_obj]; exact hc) _
      rw [this]
      refine ⟨c_hists, c_next.1, c_next.2, fun r _ => by rw [c_pops], fun _ _ => rfl, ?_, fun h => absurd hc h, fun _ => ⟨?_, ?_⟩⟩
      · intro k hk
        have := c_col
        rw [hk] at this
        exact this
      · rw [c_pops, p_ne _ hxu]
      · rw [← hc, c_col]
    · obtain ⟨g1, g2, g3, g4, g5, g6, g7⟩ := deSelect_fold (List.finRange (p + 1)) (List.nodup_finRange _)
        (sel (by rw [a_objU, a_obj]; exact hc))
      rw [← e2] at g1 g2 g3 g4 g5 g6 g7
      rw [a_x, a_u, a_obj, a_objU] at g1
      rw [a_obj, a_objU] at g2
      rw [a_x] at g3
      rw [a_obj] at g7
      rw [c_col, c_pops, p_u, p_ne _ hxu, c_ne _ (Ne.symm hc), p_col] at g1
      rw [c_col, c_ne _ (Ne.symm hc), p_col] at g2
      simp only [List.mem_finRange, true_and] at g1 g2
      refine ⟨by rw [g4, c_hists], by rw [g5, c_next.1], by rw [g6, c_next.2], fun r hr => by rw [g3 r hr, c_pops], g7, ?_,
        fun _ => ⟨g1, g2⟩, fun h => absurd h hc⟩
      intro k hk
      rw [g7 k (fun h => hc (hk.trans h.symm))]
      have := c_col
      rw [hk] at this
      exact this
  obtain ⟨f1, f2, f3, f4, f5, f6, f7, f8⟩ := fold
  have fin1 : (deStepM cfg b o rnd iter (a, m)).1 = a1 := by rw [ea, ec, e1]; rfl
  have fin2 : (deStepM cfg b o rnd iter (a, m)).2 = (m2.setHist a.hist { m2.hists a.hist with
      samples := Function.update (m2.hists a.hist).samples (iter + 1) (m2.pops a.x)
      responses := Function.update (m2.hists a.hist).responses (iter + 1) (m2.col a.obj) }).setHist a.hist
      (histOptimum iter { m2.hists a.hist with
      samples := Function.update (m2.hists a.hist).samples (iter + 1) (m2.pops a.x)
      responses := Function.update (m2.hists a.hist).responses (iter + 1) (m2.col a.obj) } (m2.pops a.x) (m2.col a.obj)) := by
    have e : (deStepM cfg b o rnd iter (a, m)).2 = deUpdateGenOptimumM iter a1 (m2.setHist a1.hist { m2.hists a1.hist with
      samples := Function.update (m2.hists a1.hist).samples (iter + 1) (m2.pops a1.x)
      responses := Function.update (m2.hists a1.hist).responses (iter + 1) (m2.col a1.obj) }) := by
      rw [e2, ea, ec, e1]; rfl
    rw [e]
    simp only [deUpdateGenOptimumM, a_x, a_obj, a_hist, setHist_self, setHist_pops, setHist_col]
  simp only [fin1, fin2, setHist_pops, setHist_col, setHist_nextPop, setHist_nextHist, setHist_bufs, setHist_self]
  refine ⟨⟨?_, ?_, ?_, ?_⟩, a_x, a_u, a_obj, a_hist, ?_, ?_, ?_, f3, f2, ?_, ?_, ?_, ?_, ?_, ?_, ?_, ?_, ?_, ?_⟩
  · rw [a_x, a_u]; exact hs.xu
  · rw [a_u, setHist_nextPop, setHist_nextPop, f2]; exact hs.u_lt
  · rw [a_obj, a_x]; exact hs.ob
  · rw [a_obj]; exact hs.ob'
  · rw [f4 _ hxu.symm, p_u]
  · rw [f1]
  · intro r hr; rw [setHist_ne _ _ hr, setHist_ne _ _ hr, f1]
  · intro r hr hr'; rw [f4 r hr, p_ne r hr']
  · rw [ea, p_u]
  · rw [ea]
  · rw [ea]
  · rw [a_objU]; exact c_buf
  · rw [a_objU]; exact c_view
  · rw [a_objU]
    intro k h1 h2
    rw [f5 k h2]
    have := c_ne (.buf k) (Ne.symm h1)
    rw [← p_rest.1]; exact this
  · rw [a_objU]; exact f6
  · rw [a_objU]; exact f7
  · rw [a_objU]; exact f8

/-- Objects and memory after `n` generations, ignoring the stopping rule and exceptions. -/
def deSeqM (self : DEAttrs K (p + 1) D) (m : Mem K (p + 1) D) : ℕ → DEAttrs K (p + 1) D × Mem K (p + 1) D
  | 0 => deInitM b o rnd self m
  | n + 1 => deStepM cfg b o rnd n (deSeqM self m n)

theorem deLoopM_eq (self : DEAttrs K (p + 1) D) (m : Mem K (p + 1) D) (stop : Option K) (more iter : ℕ) :
    ∃ k, k ≤ more ∧ deLoopM cfg b o rnd stop more iter (deSeqM cfg b o rnd self m iter) =
        (deSeqM cfg b o rnd self m (iter + k + 1), iter + k) ∧
      (∀ k' < k, ¬ Spec.Below stop (((deSeqM cfg b o rnd self m (iter + k' + 1)).2.hists
        (deSeqM cfg b o rnd self m (iter + k' + 1)).1.hist).genBest (iter + k' + 1))) ∧
      (k = more ∨ Spec.Below stop (((deSeqM cfg b o rnd self m (iter + k + 1)).2.hists
        (deSeqM cfg b o rnd self m (iter + k + 1)).1.hist).genBest (iter + k + 1))) := by
  induction more generalizing iter with
  | zero => exact ⟨0, le_refl _, rfl, by simp, Or.inl rfl⟩
  | succ more ih =>
    simp only [deLoopM]
    split
    · rename_i h
      exact ⟨0, by omega, rfl, by simp, Or.inr ((stopNow_iff _ _).mp h)⟩
    · rename_i h
      obtain ⟨k, hk, he, hn, hw⟩ := ih (iter + 1)
      have e : iter + (k + 1) = iter + 1 + k := by omega
      refine ⟨k + 1, by omega, by rw [e]; exact he, ?_, ?_⟩
      · intro k' hk'
        rcases k' with _ | k'
        · exact fun hb => h ((stopNow_iff _ _).mpr hb)
        · rw [show iter + (k' + 1) + 1 = iter + 1 + k' + 1 by omega]
          exact hn k' (by omega)
      · rw [show iter + (k + 1) + 1 = iter + 1 + k + 1 by omega]
        rcases hw with hw | hw
        · left; omega
        · right; exact hw

/-- Facts on the state after `n` generations that hold for every objective. -/
structure DEInv (m0 : Mem K (p + 1) D) (n : ℕ) (a : DEAttrs K (p + 1) D) (m : Mem K (p + 1) D) : Prop where
  shape : DEShape o a m
  x : a.x = m0.nextPop
  u : a.u = m0.nextPop + 1
  hist : a.hist = m0.nextHist
  hists : ∀ r, r ≠ m0.nextHist → m.hists r = m0.hists r
  nextHist : m.nextHist = m0.nextHist + 1
  nextPop : m.nextPop = m0.nextPop + 2
  old : ∀ r, r < m0.nextPop → m.pops r = m0.pops r
  argRefs : a.argRefs = m0.nextPop :: List.replicate n (m0.nextPop + 1)
  len : a.calls.length = n + 1
  curX : (m.hists a.hist).samples n = m.pops a.x
  curY : (m.hists a.hist).responses n = m.col a.obj
  curU : 1 ≤ n → a.calls[n]? = some (m.pops a.u)
  rets : a.retRefs.length = n + 1
  ret0 : a.retRefs[0]? = some a.obj
  retn : ∀ k, k < n → ∀ l, a.retRefs[k + 1]? = some (.buf l) → o.reply (k + 1) = .array l
  first : (m.hists a.hist).samples 0 = locInit b rnd.pos ∧ a.calls[0]? = some (locInit b rnd.pos)

theorem deSeqM_inv (self : DEAttrs K (p + 1) D) (m : Mem K (p + 1) D) (n : ℕ) :
    DEInv b o rnd m n (deSeqM cfg b o rnd self m n).1 (deSeqM cfg b o rnd self m n).2 := by
  induction n with
  | zero =>
    obtain ⟨h1, h2, h3, h4, h5, h6, h7, h8, h9, h10, h11, h12⟩ := deInitM_spec b o rnd self m
    simp only [deSeqM]
    generalize deInitM b o rnd self m = s' at *
    have e1 : (deView s'.1 s'.2).samples 0 = (deView s'.1 s'.2).x := by rw [h2]; simp [deInit]
    have e2 : (deView s'.1 s'.2).responses 0 = (deView s'.1 s'.2).obj := by rw [h2]; simp [deInit]
    have e3 : (deView s'.1 s'.2).calls = [locInit b rnd.pos] := by rw [h2]; simp [deInit]
    have e4 : (deView s'.1 s'.2).samples 0 = locInit b rnd.pos := by rw [h2]; simp [deInit]
    simp only [deView] at e1 e2 e3 e4
    refine ⟨h1, h3, h4, h5, h6, h7, h8, h9, by rw [h10]; simp, by rw [e3]; rfl, e1, e2, by omega, by rw [h11]; rfl, by rw [h11]; rfl,
      by intro k hk; omega, e4, by rw [e3]; rfl⟩
  | succ n ih =>
    generalize hsn : deSeqM cfg b o rnd self m n = s at ih
    obtain ⟨a, m'⟩ := s
    simp only at ih
    have e : deSeqM cfg b o rnd self m (n + 1) = deStepM cfg b o rnd n (a, m') := by rw [deSeqM, hsn]
    rw [e]
    obtain ⟨h1, h2, h3, h4, h5, h6, h7, h8, h9, h10, h11, h12, h13, h14, h15, h16, h17, h18, h19, h20⟩ :=
      deStepM_spec cfg b o rnd n a m' ih.shape
    generalize deStepM cfg b o rnd n (a, m') = s' at *
    refine ⟨h1, by rw [h2, ih.x], by rw [h3, ih.u], by rw [h5, ih.hist], ?_, by rw [h9, ih.nextHist], by rw [h10, ih.nextPop], ?_, ?_,
      by rw [h12, List.length_append, ih.len]; rfl, ?_, ?_, ?_, by rw [h14, List.length_append, ih.rets]; rfl, ?_, ?_, ?_, ?_⟩
    · intro r hr; rw [h8 r (by rw [ih.hist]; exact hr), ih.hists r hr]
    · intro r hr
      rw [h11 r (by rw [ih.x]; omega) (by rw [ih.u]; omega), ih.old r hr]
    · rw [h13, ih.argRefs, ih.u, List.cons_append, List.replicate_succ']
    · rw [h5, h7, h2]; simp [histOptimum]
    · rw [h5, h7, h4]; simp [histOptimum]
    · intro _
      rw [h12, List.getElem?_append_right (by rw [ih.len]), h3, h6]; simp [ih.len]
    · rw [h14, List.getElem?_append_left (by rw [ih.rets]; omega), ih.ret0, h4]
    · intro k hk l hl
      rw [h14] at hl
      rcases Nat.lt_or_ge k n with hlt | hge
      · rw [List.getElem?_append_left (by rw [ih.rets]; omega)] at hl
        exact ih.retn k hlt l hl
      · obtain rfl : k = n := by omega
        rw [List.getElem?_append_right (by rw [ih.rets])] at hl
        simp [ih.rets] at hl
        exact h15 l hl
    · rw [h5, h7, (histOptimum_samples _ _ _ _).1]
      simp [ih.first.1]
    · rw [h12, List.getElem?_append_left (by rw [ih.len]; omega)]; exact ih.first.2

theorem deSeqM_view (ho : Spec.FirstArrayNotReturnedAgain o) (self : DEAttrs K (p + 1) D) (m : Mem K (p + 1) D) (n : ℕ) :
    deView (deSeqM cfg b o rnd self m n).1 (deSeqM cfg b o rnd self m n).2 = deSeq cfg b o.value rnd n := by
  induction n with
  | zero => exact (deInitM_spec b o rnd self m).2.1
  | succ n ih =>
    have hinv := deSeqM_inv cfg b o rnd self m n
    generalize hsn : deSeqM cfg b o rnd self m n = s at ih hinv
    obtain ⟨a, m'⟩ := s
    simp only at ih hinv
    have e : deSeqM cfg b o rnd self m (n + 1) = deStepM cfg b o rnd n (a, m') := by rw [deSeqM, hsn]
    rw [e]
    obtain ⟨h1, h2, h3, h4, h5, h6, h7, h8, h9, h10, h11, h12, h13, h14, h15, h16, h17, h18, h19, h20⟩ :=
      deStepM_spec cfg b o rnd n a m' hinv.shape
    generalize deStepM cfg b o rnd n (a, m') = s' at *
    have hne : s'.1.objU ≠ a.obj := by
      intro he
      cases hb : a.obj with
      | buf k => exact ho k (hinv.shape.ob' k hb) n (h15 k (he.trans hb))
      | view r j =>
        have e1 := (hinv.shape.ob r j hb).1
        have e2 := (h16 r j (he.trans hb)).1
        have := hinv.shape.xu
        omega
    obtain ⟨g1, g2⟩ := h19 hne
    have key : deView s'.1 s'.2 = deStep cfg b o.value rnd n (deView a m') := by
      simp only [deView, h2, h4, h5, h7, h12, g1, g2]
      rfl
    rw [key, ih]; rfl

theorem deLoopM_sync (ho : Spec.FirstArrayNotReturnedAgain o) (hck : deCheck cfg (p + 1) = .ok ()) (self : DEAttrs K (p + 1) D)
    (m : Mem K (p + 1) D) (stop : Option K) (more iter : ℕ) :
    ∃ k, deLoopM cfg b o rnd stop more iter (deSeqM cfg b o rnd self m iter) =
        (deSeqM cfg b o rnd self m (iter + k + 1), iter + k) ∧
      deLoop cfg b o.value rnd stop more iter (deSeq cfg b o.value rnd iter) =
        .ok (deSeq cfg b o.value rnd (iter + k + 1), iter + k) := by
  induction more generalizing iter with
  | zero => exact ⟨0, rfl, by simp only [deLoop, hck]; rfl⟩
  | succ more ih =>
    have hr : ((deSeqM cfg b o rnd self m (iter + 1)).2.hists (deSeqM cfg b o rnd self m (iter + 1)).1.hist).genBest =
        (deSeq cfg b o.value rnd (iter + 1)).genBest := by
      rw [← deSeqM_view cfg b o rnd ho self m (iter + 1)]; rfl
    simp only [deSeqM, deSeq] at hr
    simp only [deLoopM, deLoop, hck]
    rw [hr]
    split
    · exact ⟨0, rfl, rfl⟩
    · obtain ⟨k, h1, h2⟩ := ih (iter + 1)
      refine ⟨k + 1, ?_, ?_⟩
      · rw [show iter + (k + 1) = iter + 1 + k by omega]; exact h1
      · rw [show iter + (k + 1) = iter + 1 + k by omega]; exact h2

end DERuns

/-- A run of `DE` on shared arrays gives what the value model gives, if the objective does not return its first array again. -/
theorem deRunM_eq {P D : ℕ} (cfg : DECfg K) (b : Box K D) (o : Objective K P D) (stop : Option K) (rnd : DERand K P D)
    (ho : Spec.FirstArrayNotReturnedAgain o) (self : DEAttrs K P D) (m : Mem K P D) :
    (deRunM cfg b o stop rnd self m).1.map (fun h => h.read (deRunM cfg b o stop rnd self m).2.2) =
      deRun cfg b o.value stop rnd := by
  cases P with
  | zero => rfl
  | succ p =>
    simp only [deRunM, deRun]
    split
    · rfl
    cases hg : cfg.numGen with
    | zero => rfl
    | succ g =>
      simp only []
      cases hck : deCheck cfg (p + 1) with
      | error e =>
        rw [deLoop_error cfg b o.value rnd stop e hck]; rfl
      | ok _ =>
        obtain ⟨k, h1, h2⟩ := deLoopM_sync cfg b o rnd ho hck self m stop g 0
        change deLoopM cfg b o rnd stop g 0 (deInitM b o rnd self m) = _ at h1
        change deLoop cfg b o.value rnd stop g 0 (deInit b o.value rnd) = _ at h2
        rw [h1, h2]
        have hr := deSeqM_view cfg b o rnd ho self m (0 + k + 1)
        rw [← hr]
        rfl

/-- Results of a run live in history arrays that were unused before, and no other history array is written. -/
theorem deRunM_frame {P D : ℕ} (cfg : DECfg K) (b : Box K D) (o : Objective K P D) (stop : Option K) (rnd : DERand K P D)
    (self : DEAttrs K P D) (m : Mem K P D) :
    (∀ r, r ≠ m.nextHist → (deRunM cfg b o stop rnd self m).2.2.hists r = m.hists r) ∧
    (deRunM cfg b o stop rnd self m).2.2.nextHist = m.nextHist + 1 ∧
    ∀ h, (deRunM cfg b o stop rnd self m).1 = .ok h → h.hist = m.nextHist := by
  have hnew : (∀ r, r ≠ m.nextHist → m.newHist.hists r = m.hists r) ∧ m.newHist.nextHist = m.nextHist + 1 :=
    ⟨fun r hr => newHist_ne m hr, rfl⟩
  cases P with
  | zero => exact ⟨hnew.1, hnew.2, fun h hh => by simp [deRunM] at hh⟩
  | succ p =>
    have h0 := deSeqM_inv cfg b o rnd self m 0
    simp only [deRunM]
    split
    · exact ⟨hnew.1, hnew.2, fun h hh => by simp at hh⟩
    split
    · exact ⟨h0.hists, h0.nextHist, fun h hh => by simp at hh⟩
    · split
      · exact ⟨h0.hists, h0.nextHist, fun h hh => by simp at hh⟩
      · rename_i g hg _ _ _
        obtain ⟨k, _, h1, _, _⟩ := deLoopM_eq cfg b o rnd self m stop g 0
        change deLoopM cfg b o rnd stop g 0 (deInitM b o rnd self m) = _ at h1
        rw [h1]
        have hr := deSeqM_inv cfg b o rnd self m (0 + k + 1)
        refine ⟨hr.hists, hr.nextHist, fun h hh => ?_⟩
        simp only [Except.ok.injEq] at hh
        rw [← hh]; exact hr.hist


/-! ## What every run does to arrays and histories -/

section PSOMore
variable {p D : ℕ} (cfg : PSOCfg K) (b : Box K D) (o : Objective K (p + 1) D) (rnd : PSORand K (p + 1) D)
  (self : PSOAttrs K (p + 1) D) (m : Mem K (p + 1) D)

/-- The population of generation `k`. -/
def psoX (k : ℕ) : Pop K (p + 1) D :=
  (psoSeqM cfg b o rnd self m k).2.pops (psoSeqM cfg b o rnd self m k).1.x

/-- The histories are those of the populations and of the objective's values there, for every objective. -/
theorem psoSeqM_hist (n : ℕ) : (psoSeqM cfg b o rnd self m n).2.hists (psoSeqM cfg b o rnd self m n).1.hist =
    histSeq (psoX cfg b o rnd self m) (fun k => o.value (psoX cfg b o rnd self m k)) n := by
  induction n with
  | zero =>
    obtain ⟨h1, h2, h3, h4, h5, h6, h7, h8, h9, h10, h11, h12, h13, h14, h15, h16, h17, h18, h19⟩ :=
      psoInitM_spec cfg b o rnd self m
    have hx : psoX cfg b o rnd self m 0 = locInit b rnd.pos := by
      unfold psoX; simp only [psoSeqM]; rw [h3, h4]
    simp only [histSeq, hx]
    simp only [psoSeqM]
    rw [h8, h9]
  | succ n ih =>
    have hinv := psoSeqM_inv cfg b o rnd self m n
    obtain ⟨h1, h2, h3, h4, h5, h6, h7, h8, h9, h10, h11, h12, h13, h14, h15, h16, h17, h18, h19, h20, h21⟩ :=
      psoStepM_spec cfg b o rnd n (psoSeqM cfg b o rnd self m n).1 (psoSeqM cfg b o rnd self m n).2 hinv.shape
    have hx : psoX cfg b o rnd self m (n + 1) = (psoSeqM cfg b o rnd self m (n + 1)).2.pops (psoSeqM cfg b o rnd self m (n + 1)).1.x := rfl
    have e : psoSeqM cfg b o rnd self m (n + 1) =
        psoStepM cfg b o rnd n ((psoSeqM cfg b o rnd self m n).1, (psoSeqM cfg b o rnd self m n).2) := rfl
    rw [histSeq, hx, e, h8, h9, h4, ih]

/-- With an objective that returns the same array every time, the personal bests are the current values. -/
theorem psoSeqM_same (hsame : Spec.ReturnsSameArray o) (n : ℕ) :
    (psoSeqM cfg b o rnd self m n).1.obj = (psoSeqM cfg b o rnd self m n).1.popBest ∧
    (psoSeqM cfg b o rnd self m n).2.pops (psoSeqM cfg b o rnd self m n).1.popBestX = psoX cfg b o rnd self m n ∧
    (psoSeqM cfg b o rnd self m n).2.col (psoSeqM cfg b o rnd self m n).1.popBest = o.value (psoX cfg b o rnd self m n) := by
  obtain ⟨k, hk⟩ := hsame
  have hinv := psoSeqM_inv cfg b o rnd self m n
  cases n with
  | zero =>
    obtain ⟨h1, h2, h3, h4, h5, h6, h7, h8, h9, h10, h11, h12, h13, h14, h15, h16, h17, h18, h19⟩ :=
      psoInitM_spec cfg b o rnd self m
    have hob := hinv.obj
    unfold psoX
    simp only [psoSeqM] at hob ⊢
    refine ⟨h6.symm, by rw [h7, h3], by rw [h6, hob]⟩
  | succ n =>
    have hinv' := psoSeqM_inv cfg b o rnd self m n
    obtain ⟨h1, h2, h3, h4, h5, h6, h7, h8, h9, h10, h11, h12, h13, h14, h15, h16, h17, h18, h19, h20, h21⟩ :=
      psoStepM_spec cfg b o rnd n (psoSeqM cfg b o rnd self m n).1 (psoSeqM cfg b o rnd self m n).2 hinv'.shape
    have e : psoSeqM cfg b o rnd self m (n + 1) =
        psoStepM cfg b o rnd n ((psoSeqM cfg b o rnd self m n).1, (psoSeqM cfg b o rnd self m n).2) := rfl
    unfold psoX
    rw [e] at hinv ⊢
    generalize psoStepM cfg b o rnd n ((psoSeqM cfg b o rnd self m n).1, (psoSeqM cfg b o rnd self m n).2) = s' at *
    have hpb : s'.1.popBest = .buf k := by
      cases hc : s'.1.popBest with
      | buf k' => have := h1.pb' k' hc; rw [hk] at this; injection this with this; rw [this]
      | view r j => have := (h1.pb r j hc).2; rw [hk] at this; cases this
    have hob : s'.1.obj = .buf k := by
      cases hc : s'.1.obj with
      | buf k' => have := h17 k' hc; rw [hk] at this; injection this with this; rw [this]
      | view r j => have := (h18 r j hc).2; rw [hk] at this; cases this
    refine ⟨by rw [hob, hpb], ?_, ?_⟩
    · rw [h7, h21 (by rw [hob, ← h6, hpb]), h4]
    · rw [hpb, ← hob, h5, h4]

/-- The arrays returned by an objective that makes a new one every time. -/
theorem psoSeqM_bufs (kk : ℕ → ℕ) (hinj : Function.Injective kk) (hk : ∀ n, o.reply n = .array (kk n)) (n : ℕ) :
    (psoSeqM cfg b o rnd self m n).1.retRefs = (List.range (n + 1)).map (fun i => .buf (kk i)) ∧
    (∀ i, 1 ≤ i → i ≤ n → (psoSeqM cfg b o rnd self m n).2.bufs (kk i) = o.value (psoX cfg b o rnd self m i)) := by
  induction n with
  | zero =>
    obtain ⟨h1, h2, h3, h4, h5, h6, h7, h8, h9, h10, h11, h12, h13, h14, h15, h16, h17, h18, h19⟩ :=
      psoInitM_spec cfg b o rnd self m
    refine ⟨?_, fun i h1 h2 => by omega⟩
    simp only [psoSeqM]
    rw [h16]
    cases hc : (psoInitM cfg b o rnd self m).1.obj with
    | buf k' => have := h17 k' hc; rw [hk] at this; injection this with this; simp [this]
    | view r j => have := (h18 r j hc).2; rw [hk] at this; cases this
  | succ n ih =>
    have hinv' := psoSeqM_inv cfg b o rnd self m n
    obtain ⟨h1, h2, h3, h4, h5, h6, h7, h8, h9, h10, h11, h12, h13, h14, h15, h16, h17, h18, h19, h20, h21⟩ :=
      psoStepM_spec cfg b o rnd n (psoSeqM cfg b o rnd self m n).1 (psoSeqM cfg b o rnd self m n).2 hinv'.shape
    have e : psoSeqM cfg b o rnd self m (n + 1) =
        psoStepM cfg b o rnd n ((psoSeqM cfg b o rnd self m n).1, (psoSeqM cfg b o rnd self m n).2) := rfl
    have hX : psoX cfg b o rnd self m (n + 1) =
        (psoSeqM cfg b o rnd self m (n + 1)).2.pops (psoSeqM cfg b o rnd self m (n + 1)).1.x := rfl
    rw [e] at hX ⊢
    generalize psoStepM cfg b o rnd n ((psoSeqM cfg b o rnd self m n).1, (psoSeqM cfg b o rnd self m n).2) = s' at *
    have hpb : (psoSeqM cfg b o rnd self m n).1.popBest = .buf (kk 0) := by
      cases hc : (psoSeqM cfg b o rnd self m n).1.popBest with
      | buf k' => have := hinv'.shape.pb' k' hc; rw [hk] at this; injection this with this; rw [this]
      | view r j => have := (hinv'.shape.pb r j hc).2; rw [hk] at this; cases this
    have hob : s'.1.obj = .buf (kk (n + 1)) := by
      cases hc : s'.1.obj with
      | buf k' => have := h17 k' hc; rw [hk] at this; injection this with this; rw [this]
      | view r j => have := (h18 r j hc).2; rw [hk] at this; cases this
    refine ⟨?_, ?_⟩
    · rw [h16, ih.1, hob, List.range_succ (n := n + 1), List.map_append]; rfl
    · intro i hi1 hi2
      rcases Nat.lt_or_ge n i with hlt | hge
      · obtain rfl : i = n + 1 := by omega
        rw [hX, h4, ← h5, hob]; rfl
      · rw [h19, ih.2 i hi1 hge]
        · rw [hob]; intro hc; injection hc with hc; have := hinj hc; omega
        · rw [hpb]; intro hc; injection hc with hc; have := hinj hc; omega

end PSOMore

section DEMore
variable {p D : ℕ} (cfg : DECfg K) (b : Box K D) (o : Objective K (p + 1) D) (rnd : DERand K (p + 1) D)
  (self : DEAttrs K (p + 1) D) (m : Mem K (p + 1) D)

/-- With an objective that returns the same array every time, `DE` never changes its population, and the recorded responses are those of the trial
populations. -/
theorem deSeqM_same (hsame : Spec.ReturnsSameArray o) (n : ℕ) :
    (deSeqM cfg b o rnd self m n).2.pops (deSeqM cfg b o rnd self m n).1.x = locInit b rnd.pos ∧
    (∀ g ≤ n, ((deSeqM cfg b o rnd self m n).2.hists (deSeqM cfg b o rnd self m n).1.hist).samples g = locInit b rnd.pos) ∧
    (∀ g ≤ n, ∃ q, (deSeqM cfg b o rnd self m n).1.calls[g]? = some q ∧
      ((deSeqM cfg b o rnd self m n).2.hists (deSeqM cfg b o rnd self m n).1.hist).responses g = o.value q) := by
  obtain ⟨k, hk⟩ := hsame
  induction n with
  | zero =>
    have hinv := deSeqM_inv cfg b o rnd self m 0
    have h2 := (deInitM_spec b o rnd self m).2.1
    have hr : ((deSeqM cfg b o rnd self m 0).2.hists (deSeqM cfg b o rnd self m 0).1.hist).responses 0 = o.value (locInit b rnd.pos) := by
      have : (deView (deInitM b o rnd self m).1 (deInitM b o rnd self m).2).responses 0 = o.value (locInit b rnd.pos) := by
        rw [h2]; simp [deInit]
      exact this
    refine ⟨?_, ?_, ?_⟩
    · rw [← hinv.curX, hinv.first.1]
    · intro g hg
      obtain rfl : g = 0 := by omega
      exact hinv.first.1
    · intro g hg
      obtain rfl : g = 0 := by omega
      exact ⟨_, hinv.first.2, hr⟩
  | succ n ih =>
    obtain ⟨ih1, ih2, ih3⟩ := ih
    have hinv := deSeqM_inv cfg b o rnd self m n
    have hinv' := deSeqM_inv cfg b o rnd self m (n + 1)
    obtain ⟨h1, h2, h3, h4, h5, h6, h7, h8, h9, h10, h11, h12, h13, h14, h15, h16, h17, h18, h19, h20⟩ :=
      deStepM_spec cfg b o rnd n (deSeqM cfg b o rnd self m n).1 (deSeqM cfg b o rnd self m n).2 hinv.shape
    have e : deSeqM cfg b o rnd self m (n + 1) =
        deStepM cfg b o rnd n ((deSeqM cfg b o rnd self m n).1, (deSeqM cfg b o rnd self m n).2) := rfl
    rw [e] at hinv' ⊢
    generalize deStepM cfg b o rnd n ((deSeqM cfg b o rnd self m n).1, (deSeqM cfg b o rnd self m n).2) = s' at *
    have hob : (deSeqM cfg b o rnd self m n).1.obj = .buf k := by
      cases hc : (deSeqM cfg b o rnd self m n).1.obj with
      | buf k' => have := hinv.shape.ob' k' hc; rw [hk] at this; injection this with this; rw [this]
      | view r j => have := (hinv.shape.ob r j hc).2; rw [hk] at this; cases this
    have hou : s'.1.objU = .buf k := by
      cases hc : s'.1.objU with
      | buf k' => have := h15 k' hc; rw [hk] at this; injection this with this; rw [this]
      | view r j => have := (h16 r j hc).2; rw [hk] at this; cases this
    obtain ⟨g1, g2⟩ := h20 (hou.trans hob.symm)
    have hpx : s'.2.pops s'.1.x = locInit b rnd.pos := by rw [h2, g1, ih1]
    refine ⟨hpx, ?_, ?_⟩
    · intro g hg
      rcases Nat.lt_or_ge n g with hlt | hge
      · obtain rfl : g = n + 1 := by omega
        rw [hinv'.curX, hpx]
      · rw [← ih2 g hge, h5, h7]
        simp [histOptimum, show g ≠ n + 1 by omega]
    · intro g hg
      rcases Nat.lt_or_ge n g with hlt | hge
      · obtain rfl : g = n + 1 := by omega
        refine ⟨_, hinv'.curU (by omega), ?_⟩
        rw [hinv'.curY, h4, g2, h3, h6]
      · obtain ⟨q, hq, hv⟩ := ih3 g hge
        refine ⟨q, ?_, ?_⟩
        · rw [h12, List.getElem?_append_left (by rw [hinv.len]; omega)]; exact hq
        · rw [← hv, h5, h7]
          simp [histOptimum, show g ≠ n + 1 by omega]

/-- The arrays returned by an objective that makes a new one every time. -/
theorem deSeqM_bufs (kk : ℕ → ℕ) (hinj : Function.Injective kk) (hk : ∀ n, o.reply n = .array (kk n)) (n : ℕ) :
    (deSeqM cfg b o rnd self m n).1.retRefs = (List.range (n + 1)).map (fun i => .buf (kk i)) ∧
    (∀ i, 1 ≤ i → i ≤ n → ∃ q, (deSeqM cfg b o rnd self m n).1.calls[i]? = some q ∧
      (deSeqM cfg b o rnd self m n).2.bufs (kk i) = o.value q) := by
  induction n with
  | zero =>
    obtain ⟨h1, h2, h3, h4, h5, h6, h7, h8, h9, h10, h11, h12⟩ := deInitM_spec b o rnd self m
    refine ⟨?_, fun i h1 h2 => by omega⟩
    simp only [deSeqM]
    rw [h11]
    cases hc : (deInitM b o rnd self m).1.obj with
    | buf k' => have := h1.ob' k' hc; rw [hk] at this; injection this with this; simp [this]
    | view r j => have := (h1.ob r j hc).2; rw [hk] at this; cases this
  | succ n ih =>
    have hinv := deSeqM_inv cfg b o rnd self m n
    have hinv' := deSeqM_inv cfg b o rnd self m (n + 1)
    obtain ⟨h1, h2, h3, h4, h5, h6, h7, h8, h9, h10, h11, h12, h13, h14, h15, h16, h17, h18, h19, h20⟩ :=
      deStepM_spec cfg b o rnd n (deSeqM cfg b o rnd self m n).1 (deSeqM cfg b o rnd self m n).2 hinv.shape
    have e : deSeqM cfg b o rnd self m (n + 1) =
        deStepM cfg b o rnd n ((deSeqM cfg b o rnd self m n).1, (deSeqM cfg b o rnd self m n).2) := rfl
    rw [e] at hinv' ⊢
    generalize deStepM cfg b o rnd n ((deSeqM cfg b o rnd self m n).1, (deSeqM cfg b o rnd self m n).2) = s' at *
    have hob : (deSeqM cfg b o rnd self m n).1.obj = .buf (kk 0) := by
      cases hc : (deSeqM cfg b o rnd self m n).1.obj with
      | buf k' => have := hinv.shape.ob' k' hc; rw [hk] at this; injection this with this; rw [this]
      | view r j => have := (hinv.shape.ob r j hc).2; rw [hk] at this; cases this
    have hou : s'.1.objU = .buf (kk (n + 1)) := by
      cases hc : s'.1.objU with
      | buf k' => have := h15 k' hc; rw [hk] at this; injection this with this; rw [this]
      | view r j => have := (h16 r j hc).2; rw [hk] at this; cases this
    refine ⟨?_, ?_⟩
    · rw [h14, ih.1, hou, List.range_succ (n := n + 1), List.map_append]; rfl
    · intro i hi1 hi2
      rcases Nat.lt_or_ge n i with hlt | hge
      · obtain rfl : i = n + 1 := by omega
        refine ⟨_, hinv'.curU (by omega), ?_⟩
        rw [h18 _ hou, h3, h6]
      · obtain ⟨q, hq, hv⟩ := ih.2 i hi1 hge
        refine ⟨q, ?_, ?_⟩
        · rw [h12, List.getElem?_append_left (by rw [hinv.len]; omega)]; exact hq
        · rw [h17, hv]
          · rw [hou]; intro hc; injection hc with hc; have := hinj hc; omega
          · rw [hob]; intro hc; injection hc with hc; have := hinj hc; omega

end DEMore

/-! ## Runs do not depend on what was in memory before, for every objective -/

/-- The call of generation `iter` returns the array that the first call returned. -/
def Returned0 {P D : ℕ} (o : Objective K P D) (iter : ℕ) : Prop := ∃ k, o.reply 0 = .array k ∧ o.reply (iter + 1) = .array k

section PSOIndep
variable {p D : ℕ} (cfg : PSOCfg K) (b : Box K D) (o : Objective K (p + 1) D) (rnd : PSORand K (p + 1) D)

open Classical in
/-- The states of a run without reference to memory. -/
noncomputable def psoSeqA : ℕ → PSOState K (p + 1) D
  | 0 => psoInit cfg b o.value rnd
  | n + 1 =>
    let t := psoStep cfg b o.value rnd n (psoSeqA n)
    if Returned0 o n then { t with popBest := t.obj, popBestX := t.x } else t

theorem psoSeqM_relA (self : PSOAttrs K (p + 1) D) (m : Mem K (p + 1) D) (n : ℕ) :
    PSORel (psoSeqM cfg b o rnd self m n).1 (psoSeqM cfg b o rnd self m n).2 (psoSeqA cfg b o rnd n) := by
  induction n with
  | zero =>
    obtain ⟨h1, h2, h3, h4, h5, h6, h7, h8, h9, h10, h11, h12, h13, h14, h15, h16, h17, h18, h19⟩ :=
      psoInitM_spec cfg b o rnd self m
    simp only [psoSeqM, psoSeqA]
    refine ⟨?_, h2, ?_, ?_, ?_, ?_, ?_⟩
    · rw [h3, h4]; rfl
    · rw [h5]; rfl
    · rw [h6, h5]; rfl
    · rw [h7, h4]; rfl
    · rw [h8, h9]; rfl
    · rw [h14]; rfl
  | succ n ih =>
    have hinv := psoSeqM_inv cfg b o rnd self m n
    generalize hsn : psoSeqM cfg b o rnd self m n = s at ih hinv
    obtain ⟨a, m'⟩ := s
    simp only at ih hinv
    have e : psoSeqM cfg b o rnd self m (n + 1) = psoStepM cfg b o rnd n (a, m') := by rw [psoSeqM, hsn]
    rw [e]
    obtain ⟨h1, h2, h3, h4, h5, h6, h7, h8, h9, h10, h11, h12, h13, h14, h15, h16, h17, h18, h19, h20, h21⟩ :=
      psoStepM_spec cfg b o rnd n a m' hinv.shape
    generalize psoStepM cfg b o rnd n (a, m') = s' at *
    have hiff : s'.1.obj = a.popBest ↔ Returned0 o n := by
      constructor
      · intro he
        cases hb : a.popBest with
        | buf k => exact ⟨k, hinv.shape.pb' k hb, h17 k (he.trans hb)⟩
        | view r j =>
          have e1 := (hinv.shape.pb r j hb).1
          have e2 := (h18 r j (he.trans hb)).1
          have := hinv.shape.pbx_lt
          omega
      · rintro ⟨k, hk1, hk2⟩
        have e1 : a.popBest = .buf k := by
          cases hb : a.popBest with
          | buf k' => have := hinv.shape.pb' k' hb; rw [hk1] at this; injection this with this; rw [this]
          | view r j => have := (hinv.shape.pb r j hb).2; rw [hk1] at this; cases this
        have e2 : s'.1.obj = .buf k := by
          cases hb : s'.1.obj with
          | buf k' => have := h17 k' hb; rw [hk2] at this; injection this with this; rw [this]
          | view r j => have := (h18 r j hb).2; rw [hk2] at this; cases this
        rw [e1, e2]
    rw [ih.x, ih.pbx, ih.v, ih.hist] at h2 h4 h5 h9 h14 h20 h21
    simp only [psoSeqA]
    by_cases hr : Returned0 o n
    · rw [if_pos hr]
      have he := hiff.mpr hr
      refine ⟨h4, h2, h5, ?_, ?_, ?_, ?_⟩
      · rw [h6, ← he, h5]; rfl
      · rw [h7, h21 he]; rfl
      · rw [h8, h9]; rfl
      · rw [h14, ih.calls]; rfl
    · rw [if_neg hr]
      obtain ⟨g1, g2⟩ := h20 (fun he => hr (hiff.mp he))
      rw [ih.pb] at g1 g2
      refine ⟨h4, h2, h5, ?_, ?_, ?_, ?_⟩
      · rw [h6, g1]; rfl
      · rw [h7, g2]; rfl
      · rw [h8, h9]; rfl
      · rw [h14, ih.calls]; rfl

theorem psoLoopM_syncA (self self' : PSOAttrs K (p + 1) D) (m m' : Mem K (p + 1) D) (stop : Option K) (more iter : ℕ) :
    ∃ k, psoLoopM cfg b o rnd stop more iter (psoSeqM cfg b o rnd self m iter) =
        (psoSeqM cfg b o rnd self m (iter + k + 1), iter + k) ∧
      psoLoopM cfg b o rnd stop more iter (psoSeqM cfg b o rnd self' m' iter) =
        (psoSeqM cfg b o rnd self' m' (iter + k + 1), iter + k) := by
  induction more generalizing iter with
  | zero => exact ⟨0, rfl, rfl⟩
  | succ more ih =>
    have hr := (psoSeqM_relA cfg b o rnd self m (iter + 1)).hist
    have hr' := (psoSeqM_relA cfg b o rnd self' m' (iter + 1)).hist
    simp only [psoSeqM] at hr hr'
    simp only [psoLoopM]
    rw [hr, hr']
    split
    · exact ⟨0, rfl, rfl⟩
    · obtain ⟨k, h1, h2⟩ := ih (iter + 1)
      refine ⟨k + 1, ?_, ?_⟩
      · rw [show iter + (k + 1) = iter + 1 + k by omega]; exact h1
      · rw [show iter + (k + 1) = iter + 1 + k by omega]; exact h2

end PSOIndep

/-- What a run of `PSO` returns does not depend on the object's earlier attributes or the memory. -/
theorem psoRunM_indep {P D : ℕ} (cfg : PSOCfg K) (b : Box K D) (o : Objective K P D) (stop : Option K) (rnd : PSORand K P D)
    (self self' : PSOAttrs K P D) (m m' : Mem K P D) :
    (psoRunM cfg b o stop rnd self m).1.map (fun h => h.read (psoRunM cfg b o stop rnd self m).2.2) =
      (psoRunM cfg b o stop rnd self' m').1.map (fun h => h.read (psoRunM cfg b o stop rnd self' m').2.2) := by
  cases P with
  | zero => rfl
  | succ p =>
    simp only [psoRunM]
    split
    · rfl
    split
    · cases hg : cfg.numGen with
      | zero => rfl
      | succ g =>
        simp only []
        obtain ⟨k, h1, h2⟩ := psoLoopM_syncA cfg b o rnd self self' m m' stop g 0
        change psoLoopM cfg b o rnd stop g 0 (psoInitM cfg b o rnd self m) = _ at h1
        change psoLoopM cfg b o rnd stop g 0 (psoInitM cfg b o rnd self' m') = _ at h2
        rw [h1, h2]
        have hr := psoSeqM_relA cfg b o rnd self m (0 + k + 1)
        have hr' := psoSeqM_relA cfg b o rnd self' m' (0 + k + 1)
        simp only [Except.map, Handle.read, hr.hist, hr.calls, hr'.hist, hr'.calls]
    · rfl

section DEIndep
variable {p D : ℕ} (cfg : DECfg K) (b : Box K D) (o : Objective K (p + 1) D) (rnd : DERand K (p + 1) D)

open Classical in
/-- The states of a run without reference to memory. -/
noncomputable def deSeqA : ℕ → DEState K (p + 1) D
  | 0 => deInit b o.value rnd
  | n + 1 =>
    let t := deSeqA n
    if Returned0 o n then
      deUpdateGenOptimum n
        { t with obj := o.value (deTrial cfg b rnd n t)
                 samples := Function.update t.samples (n + 1) t.x
                 responses := Function.update t.responses (n + 1) (o.value (deTrial cfg b rnd n t))
                 calls := t.calls ++ [deTrial cfg b rnd n t] }
    else deStep cfg b o.value rnd n t

theorem deSeqM_viewA (self : DEAttrs K (p + 1) D) (m : Mem K (p + 1) D) (n : ℕ) :
    deView (deSeqM cfg b o rnd self m n).1 (deSeqM cfg b o rnd self m n).2 = deSeqA cfg b o rnd n := by
  induction n with
  | zero => exact (deInitM_spec b o rnd self m).2.1
  | succ n ih =>
    have hinv := deSeqM_inv cfg b o rnd self m n
    generalize hsn : deSeqM cfg b o rnd self m n = s at ih hinv
    obtain ⟨a, m'⟩ := s
    simp only at ih hinv
    have e : deSeqM cfg b o rnd self m (n + 1) = deStepM cfg b o rnd n (a, m') := by rw [deSeqM, hsn]
    rw [e]
    obtain ⟨h1, h2, h3, h4, h5, h6, h7, h8, h9, h10, h11, h12, h13, h14, h15, h16, h17, h18, h19, h20⟩ :=
      deStepM_spec cfg b o rnd n a m' hinv.shape
    generalize deStepM cfg b o rnd n (a, m') = s' at *
    have hiff : s'.1.objU = a.obj ↔ Returned0 o n := by
      constructor
      · intro he
        cases hb : a.obj with
        | buf k => exact ⟨k, hinv.shape.ob' k hb, h15 k (he.trans hb)⟩
        | view r j =>
          have e1 := (hinv.shape.ob r j hb).1
          have e2 := (h16 r j (he.trans hb)).1
          have := hinv.shape.xu
          omega
      · rintro ⟨k, hk1, hk2⟩
        have e1 : a.obj = .buf k := by
          cases hb : a.obj with
          | buf k' => have := hinv.shape.ob' k' hb; rw [hk1] at this; injection this with this; rw [this]
          | view r j => have := (hinv.shape.ob r j hb).2; rw [hk1] at this; cases this
        have e2 : s'.1.objU = .buf k := by
          cases hb : s'.1.objU with
          | buf k' => have := h15 k' hb; rw [hk2] at this; injection this with this; rw [this]
          | view r j => have := (h16 r j hb).2; rw [hk2] at this; cases this
        rw [e1, e2]
    simp only [deSeqA]
    rw [← ih]
    by_cases hr : Returned0 o n
    · rw [if_pos hr]
      obtain ⟨g1, g2⟩ := h20 (hiff.mpr hr)
      simp only [deView, h2, h4, h5, h7, h12, g1, g2]
      rfl
    · rw [if_neg hr]
      obtain ⟨g1, g2⟩ := h19 (fun he => hr (hiff.mp he))
      simp only [deView, h2, h4, h5, h7, h12, g1, g2]
      rfl

theorem deLoopM_syncA (self self' : DEAttrs K (p + 1) D) (m m' : Mem K (p + 1) D) (stop : Option K) (more iter : ℕ) :
    ∃ k, deLoopM cfg b o rnd stop more iter (deSeqM cfg b o rnd self m iter) =
        (deSeqM cfg b o rnd self m (iter + k + 1), iter + k) ∧
      deLoopM cfg b o rnd stop more iter (deSeqM cfg b o rnd self' m' iter) =
        (deSeqM cfg b o rnd self' m' (iter + k + 1), iter + k) := by
  induction more generalizing iter with
  | zero => exact ⟨0, rfl, rfl⟩
  | succ more ih =>
    have hr : ((deSeqM cfg b o rnd self m (iter + 1)).2.hists (deSeqM cfg b o rnd self m (iter + 1)).1.hist).genBest =
        (deSeqA cfg b o rnd (iter + 1)).genBest := by rw [← deSeqM_viewA cfg b o rnd self m (iter + 1)]; rfl
    have hr' : ((deSeqM cfg b o rnd self' m' (iter + 1)).2.hists (deSeqM cfg b o rnd self' m' (iter + 1)).1.hist).genBest =
        (deSeqA cfg b o rnd (iter + 1)).genBest := by rw [← deSeqM_viewA cfg b o rnd self' m' (iter + 1)]; rfl
    simp only [deSeqM] at hr hr'
    simp only [deLoopM]
    rw [hr, hr']
    split
    · exact ⟨0, rfl, rfl⟩
    · obtain ⟨k, h1, h2⟩ := ih (iter + 1)
      refine ⟨k + 1, ?_, ?_⟩
      · rw [show iter + (k + 1) = iter + 1 + k by omega]; exact h1
      · rw [show iter + (k + 1) = iter + 1 + k by omega]; exact h2

end DEIndep

/-- What a run of `DE` returns does not depend on the object's earlier attributes or the memory. -/
theorem deRunM_indep {P D : ℕ} (cfg : DECfg K) (b : Box K D) (o : Objective K P D) (stop : Option K) (rnd : DERand K P D)
    (self self' : DEAttrs K P D) (m m' : Mem K P D) :
    (deRunM cfg b o stop rnd self m).1.map (fun h => h.read (deRunM cfg b o stop rnd self m).2.2) =
      (deRunM cfg b o stop rnd self' m').1.map (fun h => h.read (deRunM cfg b o stop rnd self' m').2.2) := by
  cases P with
  | zero => rfl
  | succ p =>
    simp only [deRunM]
    split
    · rfl
    cases hg : cfg.numGen with
    | zero => rfl
    | succ g =>
      simp only []
      cases hck : deCheck cfg (p + 1) with
      | error e => rfl
      | ok _ =>
        obtain ⟨k, h1, h2⟩ := deLoopM_syncA cfg b o rnd self self' m m' stop g 0
        change deLoopM cfg b o rnd stop g 0 (deInitM b o rnd self m) = _ at h1
        change deLoopM cfg b o rnd stop g 0 (deInitM b o rnd self' m') = _ at h2
        rw [h1, h2]
        have hr := deSeqM_viewA cfg b o rnd self m (0 + k + 1)
        have hr' := deSeqM_viewA cfg b o rnd self' m' (0 + k + 1)
        have key : ∀ (a : DEAttrs K (p + 1) D) (m : Mem K (p + 1) D), deView a m = deSeqA cfg b o rnd (0 + k + 1) →
            Handle.read { hist := a.hist, numGen := g + 1, row := 0 + k + 1, retY := (m.hists a.hist).genBest (0 + k + 1)
                          calls := a.calls, argRefs := a.argRefs, retRefs := a.retRefs } m =
            { bestX := (deSeqA cfg b o rnd (0 + k + 1)).genBestXs (g + 1)
              bestY := (deSeqA cfg b o rnd (0 + k + 1)).genBest (g + 1)
              bestXHist := (deSeqA cfg b o rnd (0 + k + 1)).genBestXs
              bestYHist := (deSeqA cfg b o rnd (0 + k + 1)).genBest
              allSamples := (deSeqA cfg b o rnd (0 + k + 1)).samples
              allResponses := (deSeqA cfg b o rnd (0 + k + 1)).responses
              retY := (deSeqA cfg b o rnd (0 + k + 1)).genBest (0 + k + 1)
              retX := (deSeqA cfg b o rnd (0 + k + 1)).genBestXs (0 + k + 1)
              calls := (deSeqA cfg b o rnd (0 + k + 1)).calls } := by
          intro a m h
          rw [← h]; rfl
        simp only [Except.map]
        rw [key _ _ hr, key _ _ hr']

end Mfpml.EAHeap
