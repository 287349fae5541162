import Verif.Spec.BOReports
import Verif.Props.BayesOpt
import Mathlib.Data.Rat.Floor
import Mathlib.Tactic.Linarith
import Mathlib.Tactic.Push

/-!
# C156: what the Bayesian optimisers print
-/

namespace Mfpml.Props

open Mfpml.BO Mfpml.Spec

section
variable {T L H V : Type}

/-- A chain of steps, each with a label. -/
inductive Chain (step : T → H → T → Prop) : T → List H → T → Prop
  | nil {s} : Chain step s [] s
  | cons {s h t l u} : step s h t → Chain step t l u → Chain step s (h :: l) u


theorem loopC_lines {verbose : Bool} {cont : T → Bool} {body : T → List L × Py T} {report : ℕ → T → List L} (sel : L → Option V) {step : T → H → T → Prop} (f : ℕ → H → List V)
    (hok : ∀ s s', (body s).2 = .ok s' → ∃ h, step s h s' ∧ ∀ i, ((body s).1 ++ if verbose then report (i + 1) s' else []).filterMap sel = f (i + 1) h)
    (herr : ∀ s e, (body s).2 = .error e → (body s).1.filterMap sel = []) (k i : ℕ) (s : T) :
    ∃ s' hs, Chain step s hs s' ∧ ((loopC verbose cont body report k i s).2 = .ok s' ∨ ∃ e, (loopC verbose cont body report k i s).2 = .error e ∧ (body s').2 = .error e) ∧
      (loopC verbose cont body report k i s).1.filterMap sel = (hs.mapIdx fun j h => f (i + j + 1) h).flatten := by
  induction k generalizing i s with
  | zero => exact ⟨s, [], .nil, Or.inl rfl, rfl⟩
  | succ k ih =>
    unfold loopC
    by_cases hc : cont s = true
    · rw [if_pos hc]
      cases hb : (body s).2 with
      | error e => exact ⟨s, [], .nil, Or.inr ⟨e, rfl, hb⟩, herr s e hb⟩
      | ok t =>
        obtain ⟨h, h1, h2⟩ := hok s t hb
        obtain ⟨s', hs, c1, c2, c3⟩ := ih (i + 1) t
        refine ⟨s', h :: hs, .cons h1 c1, c2, ?_⟩
        show (((body s).1 ++ if verbose then report (i + 1) t else []) ++ (loopC verbose cont body report k (i + 1) t).1).filterMap sel = _
        rw [List.filterMap_append, h2 i, c3, List.mapIdx_cons, List.flatten_cons]
        congr 3
        funext j h
        rw [show i + 1 + j + 1 = i + (j + 1) + 1 by omega]
    · rw [if_neg hc]
      exact ⟨s, [], .nil, Or.inl rfl, rfl⟩

theorem flatten_mapIdx_singleton (f : ℕ → H → V) (l : List H) : (l.mapIdx fun i h => [f i h]).flatten = l.mapIdx f := by
  induction l generalizing f with
  | nil => rfl
  | cons a l ih => rw [List.mapIdx_cons, List.mapIdx_cons, List.flatten_cons, ih fun i => f (i + 1)]; rfl

theorem mapIdx_id (l : List H) : (l.mapIdx fun _ b => b) = l := by
  induction l with
  | nil => rfl
  | cons a l ih => rw [List.mapIdx_cons, ih]

theorem loopC_free {verbose : Bool} {cont : T → Bool} {body : T → List L × Py T} {report : ℕ → T → List L} (sel : L → Option V) (hv : verbose = false) (hb : ∀ s, (body s).1.filterMap sel = []) (k i : ℕ) (s : T) :
    (loopC verbose cont body report k i s).1.filterMap sel = [] := by
  subst hv
  induction k generalizing i s with
  | zero => rfl
  | succ k ih =>
    unfold loopC
    split
    · cases h : (body s).2 with
      | error e => exact hb s
      | ok t =>
        show (((body s).1 ++ []) ++ (loopC false cont body report k (i + 1) t).1).filterMap sel = _
        rw [List.append_nil, List.filterMap_append, hb, ih]; rfl
    · rfl

end

/-! ## Numbers with a fixed number of decimals -/

section
variable {K : Type} [Field K] [LinearOrder K] [IsStrictOrderedRing K] [FloorRing K]

theorem roundEven_near (q : K) : |q - roundEven q| ≤ 1 / 2 := by
  have h1 := Int.floor_le q
  have h2 := Int.lt_floor_add_one q
  unfold roundEven
  rw [abs_le]
  split_ifs <;> push_cast <;> constructor <;> linarith

theorem roundEven_mono {a b : K} (h : a ≤ b) : roundEven a ≤ roundEven b := by
  rcases h.eq_or_lt with rfl | h
  · exact le_rfl
  have ha := abs_le.mp (roundEven_near a)
  have hb := abs_le.mp (roundEven_near b)
  by_contra hc
  have h1 : roundEven b + 1 ≤ roundEven a := by omega
  have h2 : ((roundEven b : K)) + 1 ≤ roundEven a := by exact_mod_cast h1
  linarith

/-- **C156 (numbers).** A number printed with `d` decimals is within half a unit of the last decimal of the number itself, and smaller numbers are not printed as larger ones. -/
theorem C156_shown (d : ℕ) (v w : K) : ShowsWithin v (fixed d v) ∧ (v ≤ w → ∀ m n, fixed d v = .fixed d m → fixed d w = .fixed d n → m ≤ n) := by
  refine ⟨roundEven_near _, fun h m n hm hn => ?_⟩
  cases hm; cases hn
  exact roundEven_mono (mul_le_mul_of_nonneg_right h (by positivity))

/-- **C156 (numbers, constrained).** A best value or error is shown as `inf` exactly if it is infinite, and otherwise within half a unit of the last decimal. -/
theorem C156_shown_inf (d : ℕ) (b : WithTop K) : (fixedTop d b = .inf ↔ b = ⊤) ∧ ∀ v : K, b = v → ShowsWithin v (fixedTop d b) := by
  cases b with
  | top => exact ⟨⟨fun _ => rfl, fun _ => rfl⟩, fun v h => absurd h.symm WithTop.coe_ne_top⟩
  | coe w =>
    refine ⟨⟨nofun, fun h => absurd h WithTop.coe_ne_top⟩, fun v h => ?_⟩
    rw [WithTop.coe_inj] at h
    subst h
    exact (C156_shown d w w).1

end

section
variable {K : Type} [Field K] [LinearOrder K] [FloorRing K] {X S W : Type}

/-! ## Single fidelity -/

theorem sf_runC_result (p : SFProblem K X S W) (verbose : Bool) (stop : K) (k i : ℕ) (s : SFState K X S W) :
    (loopC verbose (fun s => decide (updateError s.best p.optimum ≥ stop)) (fun s => (([] : List (Line K X X Unit)), p.iterate s)) (sfReport p.optimum stop) k i s).2 = p.loop stop k s := by
  induction k generalizing i s with
  | zero => rfl
  | succ k ih =>
    unfold loopC SFProblem.loop
    by_cases hc : updateError s.best p.optimum ≥ stop
    · rw [if_pos hc, if_pos (decide_eq_true hc)]
      cases h : p.iterate s with
      | error e => rfl
      | ok t => exact ih (i + 1) t
    · rw [if_neg hc, if_neg (by simpa using hc)]

theorem sf_iterate_history {p : SFProblem K X S W} {s s' : SFState K X S W} (h : p.iterate s = .ok s') : s'.historyBest = s.historyBest ++ [s'.best] ∧ s'.historyBestX = s.historyBestX ++ [s'.bestX] := by
  unfold SFProblem.iterate at h
  obtain ⟨⟨x, r⟩, _, h⟩ := Py.bind_ok.mp h
  obtain ⟨y, _, h⟩ := Py.bind_ok.mp h
  obtain ⟨⟨su, r'⟩, _, h⟩ := Py.bind_ok.mp h
  obtain ⟨m, _, h⟩ := Py.bind_ok.mp h
  obtain ⟨i, _, h⟩ := Py.bind_ok.mp h
  obtain ⟨bx, _, h⟩ := Py.bind_ok.mp h
  cases h
  exact ⟨rfl, rfl⟩

/-- **C156 (single fidelity).** `verbose` does not influence what `run_optimizer` does.  The first printed line is the error measure of the object as it is.  Without `verbose` there are no reports.  With it there is one report for
each completed iteration of the call, numbered from 1, which shows the entry of the history made by that iteration, and its error if `stopping_error` is smaller than one; if an iteration raises, the reports of the completed
iterations have been printed.  With `verbose`, the constructor reports the initial best. -/
theorem C156_sf (p : SFProblem K X S W) (maxIter : ℕ) (stop : K) (s : SFState K X S W) :
    (∀ verbose, (p.runC verbose maxIter stop s).2 = p.loop stop maxIter s) ∧
    (∀ verbose, (p.runC verbose maxIter stop s).1.head? = some (.error (updateError s.best p.optimum : K))) ∧
    reports (p.runC false maxIter stop s).1 = [] ∧
    (∃ (s' : SFState K X S W) (new : List (K × X)), Iterations p.iterate new.length s s' ∧ s'.historyBest = s.historyBest ++ new.map Prod.fst ∧ s'.historyBestX = s.historyBestX ++ new.map Prod.snd ∧
      (p.loop stop maxIter s = .ok s' ∨ ∃ e, p.loop stop maxIter s = .error e ∧ p.iterate s' = .error e) ∧
      reports (p.runC true maxIter stop s).1 = new.mapIdx fun j b => (j + 1, fixed 6 b.1, b.2, none, if stop < 1 then some (fixed 6 (updateError b.1 p.optimum)) else none)) ∧
    (∀ w s₀, p.new w = .ok s₀ → (p.newC true w).2 = .ok s₀ ∧ (p.newC false w) = ([], .ok s₀) ∧ reports (p.newC true w).1 = [(0, fixed 6 s₀.best, s₀.bestX, none, none)]) := by
  refine ⟨fun v => sf_runC_result p v stop maxIter 0 s, fun v => rfl, ?_, ?_, ?_⟩
  · exact loopC_free _ rfl (fun _ => rfl) _ _ _
  · obtain ⟨s', hs, c1, c2, c3⟩ := loopC_lines (verbose := true) (cont := fun (s : SFState K X S W) => decide (updateError s.best p.optimum ≥ stop)) (body := fun s => (([] : List (Line K X X Unit)), p.iterate s))
      (report := sfReport p.optimum stop) (sel := reportOf) (step := fun s h s' => p.iterate s = .ok s' ∧ h = (s'.best, s'.bestX))
      (f := fun i b => [(i, fixed 6 b.1, b.2, none, if stop < 1 then some (fixed 6 (updateError b.1 p.optimum)) else none)]) (fun s s' h => ⟨_, ⟨h, rfl⟩, fun i => rfl⟩) (fun _ _ _ => rfl) maxIter 0 s
    rw [sf_runC_result] at c2
    refine ⟨s', hs, ?_, ?_, ?_, c2, ?_⟩
    · clear c2 c3
      induction c1 with
      | nil => exact .none
      | cons h _ ih => exact .more h.1 ih
    · clear c2 c3
      induction c1 with
      | nil => simp
      | cons h _ ih => rw [ih, (sf_iterate_history h.1).1, h.2]; simp
    · clear c2 c3
      induction c1 with
      | nil => simp
      | cons h _ ih => rw [ih, (sf_iterate_history h.1).2, h.2]; simp
    · rw [flatten_mapIdx_singleton] at c3
      simp only [Nat.zero_add] at c3
      exact c3
  · intro w s₀ h
    unfold SFProblem.newC
    rw [h]
    exact ⟨rfl, rfl, rfl⟩

/-! ## Multi-fidelity -/

theorem mf_bodyC_result (p : MFProblem K X S W) (cr : K) (s : MFState K X S W) : (p.bodyC cr s).2 = p.iterate cr s := by
  have h : (p.bodyC cr s).2 = p.acquire cr s >>= fun r => mfUpdatePara r.1 r.2.1 r.2.2.1 r.2.2.2 := by
    unfold MFProblem.bodyC
    cases p.acquire cr s with
    | error e => rfl
    | ok r => rfl
  rw [h]
  unfold MFProblem.acquire MFProblem.iterate
  simp only [bind_assoc]
  rfl

theorem mf_acquire_ok {p : MFProblem K X S W} {cr : K} {s t : MFState K X S W} {x : X} {y : List K} {fid : ℤ} (h : p.acquire cr s = .ok (t, x, y, fid)) :
    t.historyBest = s.historyBest ∧ t.historyBestX = s.historyBestX ∧ t.fidelityOrder = s.fidelityOrder ∧
    ((fid = 0 ∧ p.hf [x] = .ok y ∧ t.sampleH = s.sampleH ++ [x] ∧ t.responseH = s.responseH ++ y ∧ t.sampleL = s.sampleL ∧ t.responseL = s.responseL) ∨
     (fid ≠ 0 ∧ p.lf [x] = .ok y ∧ t.sampleH = s.sampleH ∧ t.responseH = s.responseH ∧ t.sampleL = s.sampleL ++ [x] ∧ t.responseL = s.responseL ++ y)) := by
  unfold MFProblem.acquire at h
  obtain ⟨⟨⟨x', fid'⟩, r⟩, _, h⟩ := Py.bind_ok.mp h
  obtain ⟨⟨u, y'⟩, hu, h⟩ := Py.bind_ok.mp h
  obtain ⟨⟨su, r'⟩, _, h⟩ := Py.bind_ok.mp h
  by_cases hf : fid' = 0
  · rw [if_pos hf] at hu
    obtain ⟨z, hz, hu⟩ := Py.bind_ok.mp hu
    cases hu; cases h
    exact ⟨rfl, rfl, rfl, Or.inl ⟨hf, hz, rfl, rfl, rfl, rfl⟩⟩
  · rw [if_neg hf] at hu
    obtain ⟨z, hz, hu⟩ := Py.bind_ok.mp hu
    cases hu; cases h
    exact ⟨rfl, rfl, rfl, Or.inr ⟨hf, hz, rfl, rfl, rfl, rfl⟩⟩

theorem mfUpdatePara_keeps {s s' : MFState K X S W} {x : X} {y : List K} {fid : ℤ} (h : mfUpdatePara s x y fid = .ok s') :
    s'.historyBest = s.historyBest ++ [s'.best] ∧ s'.historyBestX = s.historyBestX ++ [s'.bestX] ∧ s'.fidelityOrder = s.fidelityOrder ++ [fid] ∧
    s'.sampleH = s.sampleH ∧ s'.responseH = s.responseH ∧ s'.sampleL = s.sampleL ∧ s'.responseL = s.responseL := by
  unfold mfUpdatePara at h
  obtain ⟨⟨b, bx⟩, _, h⟩ := Py.bind_ok.mp h
  cases h
  exact ⟨rfl, rfl, rfl, rfl, rfl, rfl, rfl⟩

theorem mfUpdatePara_total {s : MFState K X S W} {x : X} {y : List K} {fid : ℤ} (hy : y ≠ []) : ∃ s', mfUpdatePara s x y fid = .ok s' := by
  unfold mfUpdatePara
  by_cases hf : fid = 0
  · rw [if_pos hf]
    cases y with
    | nil => exact absurd rfl hy
    | cons a l =>
      by_cases hl : a < s.best
      · exact ⟨_, by simp only [npRow, List.getElem?_cons_zero, bind, Except.bind, if_pos hl]; rfl⟩
      · exact ⟨_, by simp only [npRow, List.getElem?_cons_zero, bind, Except.bind, if_neg hl]; rfl⟩
  · rw [if_neg hf]
    exact ⟨_, rfl⟩

theorem mf_bodyC_ok {p : MFProblem K X S W} {cr : K} {s s' : MFState K X S W} (h : (p.bodyC cr s).2 = .ok s') :
    ∃ t x y fid, p.acquire cr s = .ok (t, x, y, fid) ∧ mfUpdatePara t x y fid = .ok s' ∧ (p.bodyC cr s).1 = [.evaluated x y fid] := by
  unfold MFProblem.bodyC at h ⊢
  cases ha : p.acquire cr s with
  | error e => rw [ha] at h; cases h
  | ok r =>
    obtain ⟨t, x, y, fid⟩ := r
    rw [ha] at h
    exact ⟨t, x, y, fid, rfl, h, rfl⟩

theorem mf_bodyC_error {p : MFProblem K X S W} (hh : OneRowEach p.hf) (hl : OneRowEach p.lf) {cr : K} {s : MFState K X S W} {e : PyErr} (h : (p.bodyC cr s).2 = .error e) : (p.bodyC cr s).1 = [] := by
  unfold MFProblem.bodyC at h ⊢
  cases ha : p.acquire cr s with
  | error e => rfl
  | ok r =>
    obtain ⟨t, x, y, fid⟩ := r
    rw [ha] at h
    have hy : y ≠ [] := by
      obtain ⟨-, -, -, ⟨-, hy, -⟩ | ⟨-, hy, -⟩⟩ := mf_acquire_ok ha
      · intro hn; have := hh _ _ hy; simp [hn] at this
      · intro hn; have := hl _ _ hy; simp [hn] at this
    obtain ⟨s', hs⟩ := mfUpdatePara_total (s := t) (x := x) (fid := fid) hy
    change mfUpdatePara t x y fid = _ at h
    rw [hs] at h
    cases h

theorem mf_runC_result (p : MFProblem K X S W) (verbose : Bool) (cr stop : K) (k i : ℕ) (s : MFState K X S W) :
    (loopC verbose (fun s => decide (updateError s.best p.optimum > stop)) (p.bodyC cr) (mfReport p.optimum stop) k i s).2 = p.loop cr stop k s := by
  induction k generalizing i s with
  | zero => rfl
  | succ k ih =>
    unfold loopC MFProblem.loop
    by_cases hc : updateError s.best p.optimum > stop
    · rw [if_pos hc, if_pos (decide_eq_true hc), ← mf_bodyC_result]
      cases h : (p.bodyC cr s).2 with
      | error e => rfl
      | ok t => exact ih (i + 1) t
    · rw [if_neg hc, if_neg (by simpa using hc)]

/-- **C156 (multi-fidelity).** The same for the multi-fidelity optimiser, whose reports show the best value in full (in the constructor: with four decimals) and the fidelity evaluated in the iteration.  With and without `verbose`,
each evaluation of a completed iteration is printed: point, response and fidelity, in the order in which they enter the samples. -/
theorem C156_mf (p : MFProblem K X S W) (hh : OneRowEach p.hf) (hl : OneRowEach p.lf) (maxIter : ℕ) (cr stop : K) (s : MFState K X S W) :
    (∀ verbose, (p.runC verbose maxIter cr stop s).2 = p.run maxIter cr stop s) ∧
    (∀ verbose, (p.runC verbose maxIter cr stop s).1.head? = some (.error (updateError s.best p.optimum : K))) ∧
    reports (p.runC false maxIter cr stop s).1 = [] ∧
    (∃ (s' : MFState K X S W) (new : List (K × X × ℤ)), Iterations (p.iterate cr) new.length s s' ∧ s'.historyBest = s.historyBest ++ new.map (·.1) ∧ s'.historyBestX = s.historyBestX ++ new.map (·.2.1) ∧
      s'.fidelityOrder = s.fidelityOrder ++ new.map (·.2.2) ∧ (p.run maxIter cr stop s = .ok s' ∨ ∃ e, p.run maxIter cr stop s = .error e ∧ p.iterate cr s' = .error e) ∧
      reports (p.runC true maxIter cr stop s).1 = new.mapIdx fun j b => (j + 1, .full b.1, b.2.1, some b.2.2, if stop < 1 then some (fixed 6 (updateError b.1 p.optimum)) else none)) ∧
    (∀ verbose, ∃ (s' : MFState K X S W) (evs : List (X × List K × ℤ)), Iterations (p.iterate cr) evs.length s s' ∧
      (p.run maxIter cr stop s = .ok s' ∨ ∃ e, p.run maxIter cr stop s = .error e ∧ p.iterate cr s' = .error e) ∧ evaluations (p.runC verbose maxIter cr stop s).1 = evs ∧
      s'.fidelityOrder = s.fidelityOrder ++ evs.map (·.2.2) ∧
      s'.sampleH = s.sampleH ++ (evs.filter fun v => v.2.2 = 0).map (·.1) ∧ s'.responseH = s.responseH ++ (evs.filter fun v => v.2.2 = 0).flatMap (·.2.1) ∧
      s'.sampleL = s.sampleL ++ (evs.filter fun v => v.2.2 ≠ 0).map (·.1) ∧ s'.responseL = s.responseL ++ (evs.filter fun v => v.2.2 ≠ 0).flatMap (·.2.1)) ∧
    (∀ w s₀, p.new w = .ok s₀ → (p.newC true w).2 = .ok s₀ ∧ (p.newC false w) = ([], .ok s₀) ∧ reports (p.newC true w).1 = [(0, fixed 4 s₀.best, s₀.bestX, none, none)]) := by
  have its : ∀ {H : Type} {step : MFState K X S W → H → MFState K X S W → Prop} {s s' hs}, (∀ s h s', step s h s' → p.iterate cr s = .ok s') → Chain step s hs s' → Iterations (p.iterate cr) hs.length s s' := by
    intro H step s s' hs hstep hc
    induction hc with
    | nil => exact .none
    | cons h _ ih => exact .more (hstep _ _ _ h) ih
  refine ⟨fun v => mf_runC_result p v cr stop maxIter 0 s, fun v => rfl, ?_, ?_, fun v => ?_, ?_⟩
  · refine loopC_free _ rfl (fun s => ?_) _ _ _
    unfold MFProblem.bodyC
    cases p.acquire cr s with
    | error e => rfl
    | ok r => rfl
  · obtain ⟨s', hs, c1, c2, c3⟩ := loopC_lines (verbose := true) (cont := fun (s : MFState K X S W) => decide (updateError s.best p.optimum > stop)) (body := p.bodyC cr)
      (report := mfReport p.optimum stop) (sel := reportOf)
      (step := fun (s : MFState K X S W) (h : K × X × ℤ) (s' : MFState K X S W) => p.iterate cr s = .ok s' ∧ s'.historyBest = s.historyBest ++ [h.1] ∧ s'.historyBestX = s.historyBestX ++ [h.2.1] ∧ s'.fidelityOrder = s.fidelityOrder ++ [h.2.2])
      (f := fun i (b : K × X × ℤ) => [(i, .full b.1, b.2.1, some b.2.2, if stop < 1 then some (fixed 6 (updateError b.1 p.optimum)) else none)]) (fun s s' h => by
        obtain ⟨t, x, y, fid, ha, hu, hl⟩ := mf_bodyC_ok h
        obtain ⟨a1, a2, a3, -⟩ := mf_acquire_ok ha
        obtain ⟨u1, u2, u3, -⟩ := mfUpdatePara_keeps hu
        refine ⟨(s'.best, s'.bestX, fid), ⟨by rw [← mf_bodyC_result, h], by rw [u1, a1], by rw [u2, a2], by rw [u3, a3]⟩, fun i => ?_⟩
        rw [hl]
        simp [mfReport, u3]
        rfl) (fun s e h => by rw [mf_bodyC_error hh hl h]; rfl) maxIter 0 s
    rw [mf_runC_result, mf_bodyC_result] at c2
    refine ⟨s', hs, its (fun _ _ _ h => h.1) c1, ?_, ?_, ?_, c2, ?_⟩
    · clear c2 c3
      induction c1 with
      | nil => simp
      | cons h _ ih => rw [ih, h.2.1]; simp
    · clear c2 c3
      induction c1 with
      | nil => simp
      | cons h _ ih => rw [ih, h.2.2.1]; simp
    · clear c2 c3
      induction c1 with
      | nil => simp
      | cons h _ ih => rw [ih, h.2.2.2]; simp
    · rw [flatten_mapIdx_singleton] at c3
      simp only [Nat.zero_add] at c3
      exact c3
  · obtain ⟨s', hs, c1, c2, c3⟩ := loopC_lines (verbose := v) (cont := fun (s : MFState K X S W) => decide (updateError s.best p.optimum > stop)) (body := p.bodyC cr)
      (report := mfReport p.optimum stop) (sel := evaluationOf)
      (step := fun (s : MFState K X S W) (h : X × List K × ℤ) (s' : MFState K X S W) => p.iterate cr s = .ok s' ∧ s'.fidelityOrder = s.fidelityOrder ++ [h.2.2] ∧
        s'.sampleH = s.sampleH ++ (if h.2.2 = 0 then [h.1] else []) ∧ s'.responseH = s.responseH ++ (if h.2.2 = 0 then h.2.1 else []) ∧
        s'.sampleL = s.sampleL ++ (if h.2.2 = 0 then [] else [h.1]) ∧ s'.responseL = s.responseL ++ (if h.2.2 = 0 then [] else h.2.1))
      (f := fun _ (b : X × List K × ℤ) => [b]) (fun s s' h => by
        obtain ⟨t, x, y, fid, ha, hu, hl⟩ := mf_bodyC_ok h
        obtain ⟨a1, a2, a3, a4⟩ := mf_acquire_ok ha
        obtain ⟨u1, u2, u3, u4, u5, u6, u7⟩ := mfUpdatePara_keeps hu
        refine ⟨(x, y, fid), ⟨by rw [← mf_bodyC_result, h], by rw [u3, a3], ?_⟩, fun i => ?_⟩
        · rcases a4 with ⟨hf, -, b1, b2, b3, b4⟩ | ⟨hf, -, b1, b2, b3, b4⟩ <;> simp [u4, u5, u6, u7, b1, b2, b3, b4, hf]
        · rw [hl]
          cases v <;> simp [mfReport] <;> rfl) (fun s e h => by rw [mf_bodyC_error hh hl h]; rfl) maxIter 0 s
    rw [mf_runC_result, mf_bodyC_result] at c2
    refine ⟨s', hs, its (fun _ _ _ h => h.1) c1, c2, ?_, ?_⟩
    · rw [flatten_mapIdx_singleton (fun _ b => b), mapIdx_id] at c3
      exact c3
    · clear c2 c3
      induction c1 with
      | nil => simp
      | @cons s h t l u hst _ ih =>
        obtain ⟨-, f1, f2, f3, f4, f5⟩ := hst
        obtain ⟨g1, g2, g3, g4, g5⟩ := ih
        refine ⟨by rw [g1, f1]; simp, ?_, ?_, ?_, ?_⟩
        · rw [g2, f2]; by_cases h0 : h.2.2 = 0 <;> simp [h0]
        · rw [g3, f3]; by_cases h0 : h.2.2 = 0 <;> simp [h0]
        · rw [g4, f4]; by_cases h0 : h.2.2 = 0 <;> simp [h0]
        · rw [g5, f5]; by_cases h0 : h.2.2 = 0 <;> simp [h0]
  · intro w s₀ h
    unfold MFProblem.newC
    rw [h]
    exact ⟨rfl, rfl, rfl⟩

/-! ## Constrained -/

theorem cons_bodyC_result {c : ℕ} (p : ConsProblem K X S W c) (s : ConsState K X S W c) : (p.bodyC s).2 = p.iterate s := by
  have h : (p.bodyC s).2 = p.acquire s >>= fun r => .ok (consUpdatePara p.numCons r.1) := by
    unfold ConsProblem.bodyC
    cases p.acquire s with
    | error e => rfl
    | ok r => rfl
  rw [h]
  unfold ConsProblem.acquire ConsProblem.iterate
  simp only [bind_assoc]
  rfl

theorem cons_bodyC_ok {c : ℕ} {p : ConsProblem K X S W c} {s s' : ConsState K X S W c} (h : (p.bodyC s).2 = .ok s') :
    ∃ x y g, (p.bodyC s).1 = .evaluatedCons x y g :: paraLines p.numCons s'.sample s'.objResponse s'.consResponse ∧ s'.sample = s.sample ++ [x] ∧ s'.objResponse = s.objResponse ++ y ∧ s'.consResponse = s.consResponse ++ g ∧
      (s'.best, s'.bestX) = consPara p.numCons s'.sample s'.objResponse s'.consResponse ∧ s'.historyBest = s.historyBest ++ [s'.best] ∧ s'.historyBestX = s.historyBestX ++ [s'.bestX] := by
  unfold ConsProblem.bodyC at h ⊢
  cases ha : p.acquire s with
  | error e => rw [ha] at h; cases h
  | ok r =>
    obtain ⟨t, x, y, g⟩ := r
    rw [ha] at h
    cases h
    unfold ConsProblem.acquire at ha
    obtain ⟨⟨x', r⟩, _, ha⟩ := Py.bind_ok.mp ha
    obtain ⟨y', _, ha⟩ := Py.bind_ok.mp ha
    obtain ⟨g', _, ha⟩ := Py.bind_ok.mp ha
    obtain ⟨⟨su, r'⟩, _, ha⟩ := Py.bind_ok.mp ha
    cases ha
    exact ⟨x, y, g, rfl, rfl, rfl, rfl, rfl, rfl, rfl⟩

theorem cons_bodyC_error {c : ℕ} {p : ConsProblem K X S W c} {s : ConsState K X S W c} {e : PyErr} (h : (p.bodyC s).2 = .error e) : (p.bodyC s).1 = [] := by
  unfold ConsProblem.bodyC at h ⊢
  cases ha : p.acquire s with
  | error e => rfl
  | ok r => rw [ha] at h; cases h

theorem paraLines_notes {c : ℕ} (n : ℕ) (sample : List X) (obj : List K) (cons : List (Fin c → K)) :
    (paraLines n sample obj cons).filterMap noteOf = (if (consPara n sample obj cons).1 = ⊤ then [()] else []) ∧ (paraLines n sample obj cons).filterMap reportOf = [] ∧
    (paraLines n sample obj cons).filterMap evaluationConsOf = [] := by
  have key : ((∃ r, consBest n sample obj cons = .ok r) ∧ (paraLines n sample obj cons).filterMap noteOf = [] ∨ (∃ e, consBest n sample obj cons = .error e) ∧ (paraLines n sample obj cons).filterMap noteOf = [()]) ∧
      (paraLines n sample obj cons).filterMap reportOf = [] ∧ (paraLines n sample obj cons).filterMap evaluationConsOf = [] := by
    unfold paraLines consBest
    dsimp only
    cases h1 : (feasibleIndex n cons).mapM (npRow obj) with
    | error e => exact ⟨Or.inr ⟨⟨e, rfl⟩, rfl⟩, rfl, rfl⟩
    | ok fs =>
      cases h2 : npMin fs with
      | error e =>
        simp only [bind, Except.bind, h2]
        exact ⟨Or.inr ⟨⟨e, rfl⟩, rfl⟩, rfl, rfl⟩
      | ok m =>
        cases h3 : (positionsOf m obj).mapM (npRow sample) with
        | error e =>
          simp only [bind, Except.bind, h2, h3]
          exact ⟨Or.inr ⟨⟨e, rfl⟩, rfl⟩, rfl, rfl⟩
        | ok xs =>
          simp only [bind, Except.bind, h2, h3]
          exact ⟨Or.inl ⟨⟨_, rfl⟩, rfl⟩, rfl, rfl⟩
  obtain ⟨h, k1, k2⟩ := key
  refine ⟨?_, k1, k2⟩
  rcases h with ⟨⟨r, hr⟩, h⟩ | ⟨⟨e, hr⟩, h⟩
  · have : (consPara n sample obj cons).1 ≠ ⊤ := by
      unfold consPara
      rw [hr]
      exact WithTop.coe_ne_top
    rw [h, if_neg this]
  · have : (consPara n sample obj cons).1 = ⊤ := by
      unfold consPara
      rw [hr]
    rw [h, if_pos this]

theorem cons_runC_result {c : ℕ} (p : ConsProblem K X S W c) (verbose : Bool) (stop : K) (k i : ℕ) (s : ConsState K X S W c) :
    (loopC verbose (fun s => decide (consError s.best p.optimum ≥ (stop : WithTop K))) p.bodyC (consReport p.optimum stop) k i s).2 = p.loop stop k s := by
  induction k generalizing i s with
  | zero => rfl
  | succ k ih =>
    unfold loopC ConsProblem.loop
    by_cases hc : consError s.best p.optimum ≥ (stop : WithTop K)
    · rw [if_pos hc, if_pos (decide_eq_true hc), ← cons_bodyC_result]
      cases h : (p.bodyC s).2 with
      | error e => rfl
      | ok t => exact ih (i + 1) t
    · rw [if_neg hc, if_neg (by simpa using hc)]

/-- **C156 (constrained).** The same for the constrained optimiser, where the best value may be shown as `inf`.  With and without `verbose`, each evaluation is printed, and the note that there is no feasible sample as often as an
iteration ends without a feasible sample (`best` infinite), and at the start if no initial sample is feasible. -/
theorem C156_cons {c : ℕ} (p : ConsProblem K X S W c) (maxIter : ℕ) (stop : K) (s : ConsState K X S W c) :
    (∀ verbose, (p.runC verbose maxIter stop s).2 = p.loop stop maxIter s) ∧
    (∀ verbose, (p.runC verbose maxIter stop s).1.head? = some (.error (consError s.best p.optimum))) ∧
    reports (p.runC false maxIter stop s).1 = [] ∧
    (∃ (s' : ConsState K X S W c) (new : List (WithTop K × Option (List X))), Iterations p.iterate new.length s s' ∧ s'.historyBest = s.historyBest ++ new.map Prod.fst ∧
      s'.historyBestX = s.historyBestX ++ new.map Prod.snd ∧ (p.loop stop maxIter s = .ok s' ∨ ∃ e, p.loop stop maxIter s = .error e ∧ p.iterate s' = .error e) ∧
      reports (p.runC true maxIter stop s).1 = new.mapIdx fun j b => (j + 1, fixedTop 6 b.1, b.2, none, if stop < 1 then some (fixedTop 6 (consError b.1 p.optimum)) else none)) ∧
    (∀ verbose, ∃ (s' : ConsState K X S W c) (new : List (WithTop K)), Iterations p.iterate new.length s s' ∧ s'.historyBest = s.historyBest ++ new ∧
      (p.loop stop maxIter s = .ok s' ∨ ∃ e, p.loop stop maxIter s = .error e ∧ p.iterate s' = .error e) ∧
      (infeasibleNotes (p.runC verbose maxIter stop s).1).length = (new.filter fun b => b = ⊤).length) ∧
    (∀ verbose, ∃ (s' : ConsState K X S W c) (evs : List (X × List K × List (Fin c → K))), Iterations p.iterate evs.length s s' ∧
      (p.loop stop maxIter s = .ok s' ∨ ∃ e, p.loop stop maxIter s = .error e ∧ p.iterate s' = .error e) ∧ evaluationsCons (p.runC verbose maxIter stop s).1 = evs ∧
      s'.sample = s.sample ++ evs.map (·.1) ∧ s'.objResponse = s.objResponse ++ evs.flatMap (·.2.1) ∧ s'.consResponse = s.consResponse ++ evs.flatMap (·.2.2)) ∧
    (∀ w s₀, p.new w = .ok s₀ → (∀ verbose, (p.newC verbose w).2 = .ok s₀) ∧ reports (p.newC false w).1 = [] ∧ reports (p.newC true w).1 = [(0, fixedTop 6 s₀.best, s₀.bestX, none, none)] ∧
      ∀ verbose, (infeasibleNotes (p.newC verbose w).1).length = if s₀.best = ⊤ then 1 else 0) := by
  have its : ∀ {H : Type} {step : ConsState K X S W c → H → ConsState K X S W c → Prop} {s s' hs}, (∀ s h s', step s h s' → p.iterate s = .ok s') → Chain step s hs s' → Iterations p.iterate hs.length s s' := by
    intro H step s s' hs hstep hc
    induction hc with
    | nil => exact .none
    | cons h _ ih => exact .more (hstep _ _ _ h) ih
  refine ⟨fun v => cons_runC_result p v stop maxIter 0 s, fun v => rfl, ?_, ?_, fun v => ?_, fun v => ?_, ?_⟩
  · refine loopC_free _ rfl (fun s => ?_) _ _ _
    unfold ConsProblem.bodyC
    cases p.acquire s with
    | error e => rfl
    | ok r => exact (paraLines_notes _ _ _ _).2.1
  · obtain ⟨s', hs, c1, c2, c3⟩ := loopC_lines (verbose := true) (cont := fun (s : ConsState K X S W c) => decide (consError s.best p.optimum ≥ (stop : WithTop K))) (body := p.bodyC)
      (report := consReport p.optimum stop) (sel := reportOf)
      (step := fun (s : ConsState K X S W c) (h : WithTop K × Option (List X)) (s' : ConsState K X S W c) => p.iterate s = .ok s' ∧ s'.historyBest = s.historyBest ++ [h.1] ∧ s'.historyBestX = s.historyBestX ++ [h.2])
      (f := fun i (b : WithTop K × Option (List X)) => [(i, fixedTop 6 b.1, b.2, none, if stop < 1 then some (fixedTop 6 (consError b.1 p.optimum)) else none)]) (fun s s' h => by
        obtain ⟨x, y, g, hl, -, -, -, -, h1, h2⟩ := cons_bodyC_ok h
        refine ⟨(s'.best, s'.bestX), ⟨by rw [← cons_bodyC_result, h], h1, h2⟩, fun i => ?_⟩
        rw [hl, List.cons_append, List.filterMap_cons_none rfl, List.filterMap_append, (paraLines_notes _ _ _ _).2.1]
        rfl) (fun s e h => by rw [cons_bodyC_error h]; rfl) maxIter 0 s
    rw [cons_runC_result, cons_bodyC_result] at c2
    refine ⟨s', hs, its (fun _ _ _ h => h.1) c1, ?_, ?_, c2, ?_⟩
    · clear c2 c3
      induction c1 with
      | nil => simp
      | cons h _ ih => rw [ih, h.2.1]; simp
    · clear c2 c3
      induction c1 with
      | nil => simp
      | cons h _ ih => rw [ih, h.2.2]; simp
    · rw [flatten_mapIdx_singleton] at c3
      simp only [Nat.zero_add] at c3
      exact c3
  · obtain ⟨s', hs, c1, c2, c3⟩ := loopC_lines (verbose := v) (cont := fun (s : ConsState K X S W c) => decide (consError s.best p.optimum ≥ (stop : WithTop K))) (body := p.bodyC)
      (report := consReport p.optimum stop) (sel := noteOf)
      (step := fun (s : ConsState K X S W c) (h : WithTop K) (s' : ConsState K X S W c) => p.iterate s = .ok s' ∧ s'.historyBest = s.historyBest ++ [h])
      (f := fun _ (b : WithTop K) => if b = ⊤ then [()] else []) (fun s s' h => by
        obtain ⟨x, y, g, hl, -, -, -, hb, h1, h2⟩ := cons_bodyC_ok h
        refine ⟨s'.best, ⟨by rw [← cons_bodyC_result, h], h1⟩, fun i => ?_⟩
        rw [hl, List.cons_append, List.filterMap_cons_none rfl, List.filterMap_append, (paraLines_notes _ _ _ _).1, ← hb]
        cases v
        · exact List.append_nil _
        · exact List.append_nil _) (fun s e h => by rw [cons_bodyC_error h]; rfl) maxIter 0 s
    rw [cons_runC_result, cons_bodyC_result] at c2
    refine ⟨s', hs, its (fun _ _ _ h => h.1) c1, ?_, c2, ?_⟩
    · clear c2 c3
      induction c1 with
      | nil => simp
      | cons h _ ih => rw [ih, h.2]; simp
    · have e : infeasibleNotes (p.runC v maxIter stop s).1 = (hs.mapIdx fun _ (b : WithTop K) => if b = ⊤ then [()] else []).flatten := c3
      rw [e]
      clear c1 c2 c3 e
      induction hs with
      | nil => rfl
      | cons a l ih =>
        rw [List.mapIdx_cons, List.flatten_cons, List.length_append, ih]
        by_cases ha : a = ⊤ <;> simp [ha, Nat.add_comm]
  · obtain ⟨s', hs, c1, c2, c3⟩ := loopC_lines (verbose := v) (cont := fun (s : ConsState K X S W c) => decide (consError s.best p.optimum ≥ (stop : WithTop K))) (body := p.bodyC)
      (report := consReport p.optimum stop) (sel := evaluationConsOf)
      (step := fun (s : ConsState K X S W c) (h : X × List K × List (Fin c → K)) (s' : ConsState K X S W c) => p.iterate s = .ok s' ∧ s'.sample = s.sample ++ [h.1] ∧ s'.objResponse = s.objResponse ++ h.2.1 ∧
        s'.consResponse = s.consResponse ++ h.2.2)
      (f := fun _ (b : X × List K × List (Fin c → K)) => [b]) (fun s s' h => by
        obtain ⟨x, y, g, hl, h1, h2, h3, -⟩ := cons_bodyC_ok h
        refine ⟨(x, y, g), ⟨by rw [← cons_bodyC_result, h], h1, h2, h3⟩, fun i => ?_⟩
        rw [hl, List.cons_append, List.filterMap_cons_some (f := evaluationConsOf) (b := (x, y, g)) rfl, List.filterMap_append, (paraLines_notes _ _ _ _).2.2]
        cases v <;> rfl) (fun s e h => by rw [cons_bodyC_error h]; rfl) maxIter 0 s
    rw [cons_runC_result, cons_bodyC_result] at c2
    refine ⟨s', hs, its (fun _ _ _ h => h.1) c1, c2, ?_, ?_⟩
    · rw [flatten_mapIdx_singleton (fun _ b => b), mapIdx_id] at c3
      exact c3
    · clear c2 c3
      induction c1 with
      | nil => simp
      | @cons s h t l u hst _ ih =>
        obtain ⟨-, f1, f2, f3⟩ := hst
        obtain ⟨g1, g2, g3⟩ := ih
        exact ⟨by rw [g1, f1]; simp, by rw [g2, f2]; simp, by rw [g3, f3]; simp⟩
  · intro w s₀ h
    have hb : s₀.best = (consPara p.numCons s₀.sample s₀.objResponse s₀.consResponse).1 := by
      unfold ConsProblem.new at h
      obtain ⟨_, _, h⟩ := Py.bind_ok.mp h
      obtain ⟨_, _, h⟩ := Py.bind_ok.mp h
      obtain ⟨_, _, h⟩ := Py.bind_ok.mp h
      obtain ⟨_, _, h⟩ := Py.bind_ok.mp h
      have h := Except.ok.inj h
      subst h
      rfl
    unfold ConsProblem.newC
    rw [h]
    refine ⟨fun v => rfl, ?_, ?_, fun v => ?_⟩
    · show (initLines p.numCons s₀ ++ []).filterMap reportOf = []
      unfold initLines
      cases consBest p.numCons s₀.sample s₀.objResponse s₀.consResponse <;> rfl
    · show (initLines p.numCons s₀ ++ consReport none 1 0 s₀).filterMap reportOf = _
      unfold initLines
      cases consBest p.numCons s₀.sample s₀.objResponse s₀.consResponse <;> rfl
    · show ((initLines p.numCons s₀ ++ if v then consReport none 1 0 s₀ else []).filterMap noteOf).length = _
      have h1 : ((if v then consReport none 1 0 s₀ else []).filterMap noteOf) = [] := by cases v <;> rfl
      rw [List.filterMap_append, h1, List.append_nil, hb]
      unfold initLines consPara
      cases consBest p.numCons s₀.sample s₀.objResponse s₀.consResponse with
      | error e => simp [noteOf]
      | ok r => simp

end

/-! ## The statements are not vacuous -/

/-- The run of `exSF_runs` prints three reports, at the points 1, 2 and 3 with the best values 4, 1 and 0, shown with six decimals, and the same errors. -/
example : (exSF.new 1).map (fun s => reports (exSF.runC true 5 (1 / 2) s).1) = .ok
    [(1, .fixed 6 4000000, 1, none, some (.fixed 6 4000000)), (2, .fixed 6 1000000, 2, none, some (.fixed 6 1000000)), (3, .fixed 6 0, 3, none, some (.fixed 6 0))] := by
  norm_num [SFProblem.runC, loopC, reports, reportOf, sfReport, fixed, roundEven, SFProblem.new, SFProblem.run, SFProblem.loop, SFProblem.iterate, exSF, npMin, npArgmin, argminScan, npRow, updateError, npAbs, bind, Except.bind, Except.map]
  rfl

/-- The run of `exMF_runs` prints four evaluations, two at each fidelity. -/
example : (exMF.new 1).map (fun s => evaluations (exMF.runC false 4 1 (1 / 2) s).1) = .ok [(1, [-1], 1), (2, [1], 0), (3, [-5], 1), (4, [1], 0)] := by
  norm_num [MFProblem.runC, MFProblem.bodyC, MFProblem.acquire, loopC, evaluations, evaluationOf, mfReport, fixed, roundEven, MFProblem.new, exMF, npMin, npArgmin, argminScan, npRow, updateError, npAbs, bind, Except.bind, Except.map, mfUpdatePara]
  rfl

/-- Ties are rounded to even: 0.5 is shown as 0 and 1.5 as 2 without decimals. -/
example : (fixed 0 (1 / 2 : ℚ) = .fixed 0 0) ∧ (fixed 0 (3 / 2 : ℚ) = .fixed 0 2) ∧ (fixed 4 (1 / 3 : ℚ) = .fixed 4 3333) := by
  refine ⟨?_, ?_, ?_⟩ <;> norm_num [fixed, roundEven, Int.even_iff]

end Mfpml.Props
