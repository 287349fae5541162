import Verif.Props.NonFinite

/-!
# Failed evaluations in Bayesian optimisation (C155)
-/

namespace Mfpml.Props

open Mfpml.NonFinite Mfpml.Spec Mfpml.BO

/-! ## `np.min` and `np.argmin` of proper numbers -/

theorem allFinite_map {l : List XF} (h : AllFinite l) : ∃ ys : List ℝ, l = ys.map .num := by
  induction l with
  | nil => exact ⟨[], rfl⟩
  | cons a l ih =>
    obtain ⟨ys, e⟩ := ih fun y hy => h y (List.mem_cons_of_mem _ hy)
    obtain ⟨v, hv⟩ := h a List.mem_cons_self
    exact ⟨v :: ys, by rw [e, hv]; rfl⟩

theorem min2_num (a b : ℝ) : XF.min2 (.num a) (.num b) = .num (min a b) := by
  by_cases h : b < a
  · simp [XF.min2, XF.lt, h, min_eq_right h.le]
  · simp [XF.min2, XF.lt, h, min_eq_left (not_lt.mp h)]

theorem foldl_min2_num (a : ℝ) (l : List ℝ) : (l.map XF.num).foldl XF.min2 (.num a) = .num (l.foldl min a) := by
  induction l generalizing a with
  | nil => rfl
  | cons b l ih => simp only [List.map_cons, List.foldl_cons]; rw [min2_num, ih]

theorem npMinX_num {ys : List ℝ} {m : XF} (h : npMinX (ys.map .num) = .ok m) : ∃ b, m = .num b ∧ npMin ys = .ok b := by
  cases ys with
  | nil => cases h
  | cons a l =>
    simp only [List.map_cons, npMinX, foldl_min2_num] at h
    cases h
    exact ⟨_, rfl, rfl⟩

theorem argminScanX_num (a : ℝ) (b i : ℕ) (l : List ℝ) : argminScanX (.num a) b i (l.map .num) = argminScan a b i l := by
  induction l generalizing a b i with
  | nil => rfl
  | cons c l ih =>
    simp only [List.map_cons, argminScanX, argminScan, XF.lt, decide_eq_true_eq]
    split_ifs <;> exact ih _ _ _

theorem npArgminX_num (ys : List ℝ) : npArgminX (ys.map .num) = npArgmin ys := by
  cases ys with
  | nil => rfl
  | cons a l => simp only [List.map_cons, npArgminX, npArgmin, argminScanX_num]

theorem not_allFinite_append {l m : List XF} (h : ¬AllFinite l) : ¬AllFinite (l ++ m) := fun h' => h fun y hy => h' y (List.mem_append_left _ hy)

theorem getElem?_ext {α : Type} {l : List α} {j : ℕ} {a : α} (m : List α) (h : l[j]? = some a) : (l ++ m)[j]? = some a := by
  rw [List.getElem?_append_left (List.getElem?_eq_some_iff.mp h).1, h]

variable {X S W : Type}

/-! ## Single fidelity -/

theorem sfIterate_ok {p : SFProblem XF X S W} {s s' : SFState XF X S W} (h : sfIterate p s = .ok s') :
    ∃ x y r su r' i, p.f [x] = .ok y ∧ p.train s.surrogate (s.sample ++ [x]) (s.response ++ y) r = .ok (su, r') ∧ s'.sample = s.sample ++ [x] ∧ s'.response = s.response ++ y ∧
      npMinX s'.response = .ok s'.best ∧ npArgminX s'.response = .ok i ∧ s'.sample[i]? = some s'.bestX ∧ s'.historyBest = s.historyBest ++ [s'.best] := by
  unfold sfIterate at h
  obtain ⟨⟨x, r⟩, _, h⟩ := Py.bind_ok.mp h
  obtain ⟨y, hy, h⟩ := Py.bind_ok.mp h
  obtain ⟨⟨su, r'⟩, ht, h⟩ := Py.bind_ok.mp h
  obtain ⟨m, hm, h⟩ := Py.bind_ok.mp h
  obtain ⟨i, hi, h⟩ := Py.bind_ok.mp h
  obtain ⟨bx, hbx, h⟩ := Py.bind_ok.mp h
  cases h
  exact ⟨x, y, r, su, r', i, hy, ht, rfl, rfl, hm, hi, npRow_ok.mp hbx, rfl⟩

theorem sfNew_ok {p : SFProblem XF X S W} {w : W} {s : SFState XF X S W} (h : sfNew p w = .ok s) :
    ∃ r su r' i, p.f s.sample = .ok s.response ∧ p.train p.fresh s.sample s.response r = .ok (su, r') ∧ npMinX s.response = .ok s.best ∧ npArgminX s.response = .ok i ∧ s.sample[i]? = some s.bestX ∧
      s.historyBest = [s.best] := by
  unfold sfNew at h
  obtain ⟨⟨x, r⟩, _, h⟩ := Py.bind_ok.mp h
  obtain ⟨y, hy, h⟩ := Py.bind_ok.mp h
  obtain ⟨⟨su, r'⟩, ht, h⟩ := Py.bind_ok.mp h
  obtain ⟨m, hm, h⟩ := Py.bind_ok.mp h
  obtain ⟨i, hi, h⟩ := Py.bind_ok.mp h
  obtain ⟨bx, hbx, h⟩ := Py.bind_ok.mp h
  cases h
  exact ⟨r, su, r', i, hy, ht, hm, hi, npRow_ok.mp hbx, rfl⟩

theorem best_of_finite {sample : List X} {response : List XF} {best : XF} {bestX : X} {i : ℕ} (hf : AllFinite response) (hm : npMinX response = .ok best) (hi : npArgminX response = .ok i)
    (hx : sample[i]? = some bestX) : ∃ ys : List ℝ, response = ys.map .num ∧ ∃ b, best = .num b ∧ IsLeast {y | y ∈ ys} b ∧ ∃ j : ℕ, sample[j]? = some bestX ∧ response[j]? = some (.num b) := by
  obtain ⟨ys, rfl⟩ := allFinite_map hf
  obtain ⟨b, rfl, hb⟩ := npMinX_num hm
  rw [npArgminX_num] at hi
  refine ⟨ys, rfl, b, rfl, npMin_isLeast hb, i, hx, ?_⟩
  rw [List.getElem?_map, npArgmin_at hb hi]; rfl

/-- **C155 (single fidelity, part).** For every surrogate that refuses responses that are no proper numbers, as Kriging does (`C155_kriging`), and every history of completed and failed iterations:
`best` and all values in the history are proper numbers, and `best` was observed at `best_x`; a completed iteration leaves only proper numbers among the responses, and `best` is the smallest of them.
But once a response is `nan` or infinite, no later iteration completes: every `run_optimizer` call that attempts one raises, `best`, `best_x` and the history stay as they are.  If an initial response is no proper number, the
constructor raises. -/
theorem C155_sf_partial (A : Arith) (p : SFProblem XF X S W) (hT : Refuses p.train) :
    (∀ w xs w' ys, p.init w = .ok (xs, w') → p.f xs = .ok ys → ¬AllFinite ys → ∃ e, sfNew p w = .error e) ∧
    (∀ w s₀ s, sfNew p w = .ok s₀ → SFLater p s₀ s →
      AllFinite s.historyBest ∧ (∃ b : ℝ, s.best = .num b ∧ ∃ j : ℕ, s.sample[j]? = some s.bestX ∧ s.response[j]? = some (.num b)) ∧
      (∀ s', sfIterate p s = .ok s' → ∃ ys : List ℝ, s'.response = ys.map .num ∧ ∃ b, s'.best = .num b ∧ IsLeast {y | y ∈ ys} b)) ∧
    (∀ s, ¬AllFinite s.response → ∀ s', SFLater p s s' →
      s'.best = s.best ∧ s'.bestX = s.bestX ∧ s'.historyBest = s.historyBest ∧ s.response <+: s'.response ∧ (∃ e, sfIterate p s' = .error e) ∧
      ∀ k stop, (updateErrorX A s'.best p.optimum).ge stop = true → ∃ e, sfLoop A p stop (k + 1) s' = .error e) := by
  have dead : ∀ s : SFState XF X S W, ¬AllFinite s.response → ∃ e, sfIterate p s = .error e := by
    intro s hs
    unfold sfIterate
    exact bind_raises' fun q => bind_raises' fun y => bind_raises (hT _ _ _ _ (not_allFinite_append hs))
  refine ⟨?_, ?_, ?_⟩
  · intro w xs w' ys hi hf hn
    unfold sfNew
    rw [hi]
    show ∃ e, (p.f xs >>= _) = Except.error e
    rw [hf]
    exact bind_raises (m := p.train p.fresh xs ys w') (hT _ _ _ _ hn)
  · intro w s₀ s h0 hl
    have step : ∀ s s', sfIterate p s = .ok s' → ∃ ys : List ℝ, s'.response = ys.map .num ∧ ∃ b, s'.best = .num b ∧ IsLeast {y | y ∈ ys} b ∧ ∃ j : ℕ, s'.sample[j]? = some s'.bestX ∧ s'.response[j]? = some (.num b) := by
      intro s s' h
      obtain ⟨x, y, r, su, r', i, hy, ht, h1, h2, hm, hi, hx, -⟩ := sfIterate_ok h
      refine best_of_finite ?_ hm hi hx
      by_contra hc
      rw [h2] at hc
      obtain ⟨e, he⟩ := hT s.surrogate (s.sample ++ [x]) _ r hc
      rw [he] at ht; cases ht
    refine ⟨?_, ?_, fun s' h => ?_⟩
    · induction hl with
      | now =>
        obtain ⟨r, su, r', i, hy, ht, hm, hi, hx, hh⟩ := sfNew_ok h0
        have hf : AllFinite s₀.response := by
          by_contra hc
          obtain ⟨e, he⟩ := hT p.fresh s₀.sample _ r hc
          rw [he] at ht; cases ht
        obtain ⟨ys, -, b, hb, -⟩ := best_of_finite hf hm hi hx
        intro y hy
        rw [hh, List.mem_singleton] at hy
        exact ⟨b, hy.trans hb⟩
      | step _ h ih =>
        obtain ⟨ys, -, b, hb, -⟩ := step _ _ h
        obtain ⟨x, y, r, su, r', i, hy, ht, h1, h2, hm, hi, hx, hh⟩ := sfIterate_ok h
        intro y hy
        rw [hh] at hy
        rcases List.mem_append.mp hy with hy | hy
        · exact ih y hy
        · rw [List.mem_singleton] at hy; exact ⟨b, hy.trans hb⟩
      | crash _ h ih => cases h <;> exact ih
    · induction hl with
      | now =>
        obtain ⟨r, su, r', i, hy, ht, hm, hi, hx, hh⟩ := sfNew_ok h0
        have hf : AllFinite s₀.response := by
          by_contra hc
          obtain ⟨e, he⟩ := hT p.fresh s₀.sample _ r hc
          rw [he] at ht; cases ht
        obtain ⟨ys, -, b, hb, -, j, j1, j2⟩ := best_of_finite hf hm hi hx
        exact ⟨b, hb, j, j1, j2⟩
      | step _ h ih =>
        obtain ⟨ys, -, b, hb, -, j, j1, j2⟩ := step _ _ h
        exact ⟨b, hb, j, j1, j2⟩
      | crash _ h ih =>
        cases h with
        | query => exact ih
        | objective => exact ih
        | training =>
          obtain ⟨b, hb, j, j1, j2⟩ := ih
          exact ⟨b, hb, j, getElem?_ext _ j1, getElem?_ext _ j2⟩
    · obtain ⟨ys, h1, b, hb, hl, -⟩ := step _ _ h
      exact ⟨ys, h1, b, hb, hl⟩
  · intro s hs s' hl
    have frozen : s'.best = s.best ∧ s'.bestX = s.bestX ∧ s'.historyBest = s.historyBest ∧ s.response <+: s'.response := by
      induction hl with
      | now => exact ⟨rfl, rfl, rfl, List.prefix_rfl⟩
      | @step t u _ h ih =>
        obtain ⟨-, -, -, m, hm⟩ := ih
        obtain ⟨e, he⟩ := dead t (by rw [← hm]; exact not_allFinite_append hs)
        rw [he] at h; cases h
      | crash _ h ih =>
        obtain ⟨e1, e2, e3, e4⟩ := ih
        cases h with
        | query => exact ⟨e1, e2, e3, e4⟩
        | objective => exact ⟨e1, e2, e3, e4⟩
        | training => exact ⟨e1, e2, e3, e4.trans (List.prefix_append _ _)⟩
    obtain ⟨e1, e2, e3, m, hm⟩ := frozen
    have hd := dead s' (by rw [← hm]; exact not_allFinite_append hs)
    refine ⟨e1, e2, e3, ⟨m, hm⟩, hd, fun k stop hstop => ?_⟩
    unfold sfLoop
    rw [if_pos hstop]
    exact bind_raises hd

/-! ## Multi-fidelity -/

theorem mfEvaluate_ok {p : MFProblem XF X S W} {s t : MFState XF X S W} {x : X} {fid : ℤ} {y : List XF} (h : mfEvaluate p s x fid = .ok (t, y)) :
    t.best = s.best ∧ t.bestX = s.bestX ∧ t.historyBest = s.historyBest ∧ t.surrogate = s.surrogate ∧
    ((fid = 0 ∧ p.hf [x] = .ok y ∧ t.sampleH = s.sampleH ++ [x] ∧ t.responseH = s.responseH ++ y ∧ t.responseL = s.responseL) ∨
     (fid ≠ 0 ∧ p.lf [x] = .ok y ∧ t.sampleH = s.sampleH ∧ t.responseH = s.responseH ∧ t.responseL = s.responseL ++ y)) := by
  unfold mfEvaluate at h
  split_ifs at h with hf
  · obtain ⟨z, hz, h⟩ := Py.bind_ok.mp h
    cases h
    exact ⟨rfl, rfl, rfl, rfl, Or.inl ⟨hf, hz, rfl, rfl, rfl⟩⟩
  · obtain ⟨z, hz, h⟩ := Py.bind_ok.mp h
    cases h
    exact ⟨rfl, rfl, rfl, rfl, Or.inr ⟨hf, hz, rfl, rfl, rfl⟩⟩

theorem mfIterate_ok {p : MFProblem XF X S W} {cr : XF} {s s' : MFState XF X S W} (h : mfIterate p cr s = .ok s') :
    ∃ x fid t y r su r', mfEvaluate p s x fid = .ok (t, y) ∧ p.train t.surrogate (t.sampleH, t.sampleL) (t.responseH, t.responseL) r = .ok (su, r') ∧ mfBest t x y fid = .ok (s'.best, s'.bestX) ∧
      s'.sampleH = t.sampleH ∧ s'.responseH = t.responseH ∧ s'.responseL = t.responseL ∧ s'.historyBest = t.historyBest ++ [s'.best] := by
  unfold mfIterate at h
  obtain ⟨⟨⟨x, fid⟩, r⟩, _, h⟩ := Py.bind_ok.mp h
  obtain ⟨⟨t, y⟩, ht, h⟩ := Py.bind_ok.mp h
  obtain ⟨⟨su, r'⟩, htr, h⟩ := Py.bind_ok.mp h
  obtain ⟨⟨b, bx⟩, hb, h⟩ := Py.bind_ok.mp h
  cases h
  exact ⟨x, fid, t, y, r, su, r', ht, htr, hb, rfl, rfl, rfl, rfl⟩

/-- **C155 (multi-fidelity, part).** The same for the multi-fidelity optimiser and every surrogate that refuses responses of either fidelity that are no proper numbers, as hierarchical and scaled Kriging do (`C155_hk`, `C155_sk`). -/
theorem C155_mf_partial (A : Arith) (p : MFProblem XF X S W) (hh : OneRowEach p.hf) (hcall : ∀ xs ys, p.call xs = .ok ys → ys.1.length = xs.1.length) (hT : RefusesMF p.train) :
    (∀ w xs w' ys, p.init w = .ok (xs, w') → p.call xs = .ok ys → ¬(AllFinite ys.1 ∧ AllFinite ys.2) → ∃ e, mfNew p w = .error e) ∧
    (∀ w s₀ cr s, mfNew p w = .ok s₀ → MFLater p cr s₀ s →
      AllFinite s.historyBest ∧ (∃ b : ℝ, s.best = .num b ∧ ∃ j : ℕ, s.sampleH[j]? = some s.bestX ∧ s.responseH[j]? = some (.num b)) ∧
      (∀ s', mfIterate p cr s = .ok s' → AllFinite s'.responseH ∧ AllFinite s'.responseL)) ∧
    (∀ s, ¬(AllFinite s.responseH ∧ AllFinite s.responseL) → ∀ cr s', MFLater p cr s s' →
      s'.best = s.best ∧ s'.bestX = s.bestX ∧ s'.historyBest = s.historyBest ∧ (∃ e, mfIterate p cr s' = .error e) ∧
      ∀ k stop, stop.lt (updateErrorX A s'.best p.optimum) = true → ∃ e, mfLoop A p cr stop (k + 1) s' = .error e) := by
  have keep : ∀ {s t : MFState XF X S W} {x fid y}, mfEvaluate p s x fid = .ok (t, y) → ¬(AllFinite s.responseH ∧ AllFinite s.responseL) → ¬(AllFinite t.responseH ∧ AllFinite t.responseL) := by
    intro s t x fid y h hs hc
    obtain ⟨-, -, -, -, ⟨-, -, -, e1, e2⟩ | ⟨-, -, -, e1, e2⟩⟩ := mfEvaluate_ok h
    · rw [e1, e2] at hc
      exact hs ⟨fun z hz => hc.1 z (List.mem_append_left _ hz), hc.2⟩
    · rw [e1, e2] at hc
      exact hs ⟨hc.1, fun z hz => hc.2 z (List.mem_append_left _ hz)⟩
  have dead : ∀ cr (s : MFState XF X S W), ¬(AllFinite s.responseH ∧ AllFinite s.responseL) → ∃ e, mfIterate p cr s = .error e := by
    intro cr s hs
    unfold mfIterate
    refine bind_raises' fun q => ?_
    cases he : mfEvaluate p s q.1.1 q.1.2 with
    | error e => exact ⟨e, by simp only [he]; rfl⟩
    | ok ty =>
      obtain ⟨e, ht⟩ := hT ty.1.surrogate (ty.1.sampleH, ty.1.sampleL) (ty.1.responseH, ty.1.responseL) q.2 (keep he hs)
      refine ⟨e, ?_⟩
      simp only [he]
      show (p.train ty.1.surrogate (ty.1.sampleH, ty.1.sampleL) (ty.1.responseH, ty.1.responseL) q.2 >>= _) = _
      rw [ht]; rfl
  have fin : ∀ cr s s', mfIterate p cr s = .ok s' → AllFinite s'.responseH ∧ AllFinite s'.responseL := by
    intro cr s s' h
    obtain ⟨x, fid, t, y, r, su, r', ht, htr, -, -, e1, e2, -⟩ := mfIterate_ok h
    rw [e1, e2]
    by_contra hc
    obtain ⟨e, he⟩ := hT t.surrogate (t.sampleH, t.sampleL) (t.responseH, t.responseL) r hc
    rw [he] at htr; cases htr
  refine ⟨?_, ?_, ?_⟩
  · intro w xs w' ys hi hf hn
    unfold mfNew
    rw [hi]
    show ∃ e, (p.call xs >>= _) = Except.error e
    rw [hf]
    exact bind_raises' (m := p.fresh) fun su => bind_raises (m := p.train su xs ys w') (hT _ _ _ _ hn)
  · intro w s₀ cr s h0 hl
    have main : AllFinite s.historyBest ∧ s.responseH.length = s.sampleH.length ∧ ∃ b : ℝ, s.best = .num b ∧ ∃ j : ℕ, s.sampleH[j]? = some s.bestX ∧ s.responseH[j]? = some (.num b) := by
      induction hl with
      | now =>
        unfold mfNew at h0
        obtain ⟨⟨x, r⟩, _, h⟩ := Py.bind_ok.mp h0
        obtain ⟨y, hy, h⟩ := Py.bind_ok.mp h
        obtain ⟨su0, _, h⟩ := Py.bind_ok.mp h
        obtain ⟨⟨su, r'⟩, ht, h⟩ := Py.bind_ok.mp h
        obtain ⟨m, hm, h⟩ := Py.bind_ok.mp h
        obtain ⟨i, hi, h⟩ := Py.bind_ok.mp h
        obtain ⟨bx, hbx, h⟩ := Py.bind_ok.mp h
        have hf : AllFinite y.1 ∧ AllFinite y.2 := by
          by_contra hc
          obtain ⟨e, he⟩ := hT su0 x y r hc
          rw [he] at ht; cases ht
        obtain ⟨ys, -, b, hb, -, j, j1, j2⟩ := best_of_finite hf.1 hm hi (npRow_ok.mp hbx)
        cases h
        refine ⟨fun z hz => ?_, hcall _ _ hy, b, hb, j, j1, j2⟩
        rw [List.mem_singleton] at hz
        exact ⟨b, hz.trans hb⟩
      | @step s s' _ h ih =>
        obtain ⟨ih1, al, b, hb, j, j1, j2⟩ := ih
        obtain ⟨fH, fL⟩ := fin _ _ _ h
        obtain ⟨x, fid, t, y, r, su, r', ht, htr, hbest, e1, e2, e3, e4⟩ := mfIterate_ok h
        obtain ⟨t1, t2, t3, -, hcase⟩ := mfEvaluate_ok ht
        have hist : ∀ v, s'.best = .num v → AllFinite s'.historyBest := by
          intro v hv z hz
          rw [e4, t3] at hz
          rcases List.mem_append.mp hz with hz | hz
          · exact ih1 z hz
          · rw [List.mem_singleton] at hz; exact ⟨v, hz.trans hv⟩
        rcases hcase with ⟨hf, hy, c1, c2, -⟩ | ⟨hf, hy, c1, c2, -⟩
        · unfold mfBest at hbest
          rw [if_pos hf] at hbest
          obtain ⟨y0, hy0, hbest⟩ := Py.bind_ok.mp hbest
          have al' : s'.responseH.length = s'.sampleH.length := by rw [e1, e2, c1, c2]; simp [al, hh _ _ hy]
          split_ifs at hbest with hlt
          · cases hbest
            have hy0' := npRow_ok.mp hy0
            obtain ⟨v, hv⟩ : XFinite s'.best := by
              refine fH _ ?_
              rw [e2, c2]
              exact List.mem_append_right _ (List.mem_of_getElem? hy0')
            refine ⟨hist v hv, al', v, hv, s.sampleH.length, by rw [e1, c1]; simp, ?_⟩
            rw [e2, c2, ← al, List.getElem?_append_right (le_refl _), ← hv]
            simpa using hy0'
          · have q := Except.ok.inj hbest
            have q1 : s'.best = .num b := (congrArg Prod.fst q).symm.trans (t1.trans hb)
            have q2 : s'.bestX = s.bestX := (congrArg Prod.snd q).symm.trans t2
            exact ⟨hist b q1, al', b, q1, j, by rw [e1, c1, q2]; exact getElem?_ext _ j1, by rw [e2, c2]; exact getElem?_ext _ j2⟩
        · unfold mfBest at hbest
          rw [if_neg hf] at hbest
          have q := Except.ok.inj hbest
          have q1 : s'.best = .num b := (congrArg Prod.fst q).symm.trans (t1.trans hb)
          have q2 : s'.bestX = s.bestX := (congrArg Prod.snd q).symm.trans t2
          exact ⟨hist b q1, by rw [e1, e2, c1, c2]; exact al, b, q1, j, by rw [e1, c1, q2]; exact j1, by rw [e2, c2]; exact j2⟩
      | crash _ h ih =>
        obtain ⟨ih1, al, b, hb, j, j1, j2⟩ := ih
        cases h with
        | query => exact ⟨ih1, al, b, hb, j, j1, j2⟩
        | evaluation => exact ⟨ih1, al, b, hb, j, j1, j2⟩
        | training hq ht htr =>
          obtain ⟨t1, t2, t3, -, hcase⟩ := mfEvaluate_ok ht
          rcases hcase with ⟨hf, hy, c1, c2, -⟩ | ⟨hf, hy, c1, c2, -⟩
          · refine ⟨by simp only [t3]; exact ih1, by simp only [c1, c2]; simp [al, hh _ _ hy], b, by simp only [t1]; exact hb, j, ?_, ?_⟩
            · simp only [c1, t2]; exact getElem?_ext _ j1
            · simp only [c2]; exact getElem?_ext _ j2
          · exact ⟨by simp only [t3]; exact ih1, by simp only [c1, c2]; exact al, b, by simp only [t1]; exact hb, j, by simp only [c1, t2]; exact j1, by simp only [c2]; exact j2⟩
    exact ⟨main.1, main.2.2, fin cr s⟩
  · intro s hs cr s' hl
    have frozen : s'.best = s.best ∧ s'.bestX = s.bestX ∧ s'.historyBest = s.historyBest ∧ ¬(AllFinite s'.responseH ∧ AllFinite s'.responseL) := by
      induction hl with
      | now => exact ⟨rfl, rfl, rfl, hs⟩
      | @step t u _ h ih =>
        obtain ⟨e, he⟩ := dead cr t ih.2.2.2
        rw [he] at h; cases h
      | crash _ h ih =>
        obtain ⟨e1, e2, e3, e4⟩ := ih
        cases h with
        | query => exact ⟨e1, e2, e3, e4⟩
        | evaluation => exact ⟨e1, e2, e3, e4⟩
        | training hq ht htr =>
          obtain ⟨t1, t2, t3, -⟩ := mfEvaluate_ok ht
          have e5 := keep ht e4
          exact ⟨t1.trans e1, t2.trans e2, t3.trans e3, e5⟩
    obtain ⟨e1, e2, e3, e4⟩ := frozen
    have hd := dead cr s' e4
    refine ⟨e1, e2, e3, hd, fun k stop hstop => ?_⟩
    unfold mfLoop
    rw [if_pos hstop]
    exact bind_raises hd

/-! ## Constrained -/

theorem npMinX_mem {l : List XF} {m : XF} (h : npMinX l = .ok m) : m ∈ l := by
  cases l with
  | nil => cases h
  | cons a l =>
    have key : ∀ (l : List XF) (a : XF), l.foldl XF.min2 a ∈ a :: l := by
      intro l
      induction l with
      | nil => intro a; simp
      | cons b l ih =>
        intro a
        have hm : XF.min2 a b = a ∨ XF.min2 a b = b := by
          cases a <;> cases b <;> simp only [XF.min2, true_or, or_true] <;> (split_ifs <;> simp)
        rw [List.foldl_cons]
        rcases List.mem_cons.mp (ih (XF.min2 a b)) with h | h
        · rw [h]
          rcases hm with h | h <;> rw [h] <;> simp
        · exact List.mem_cons_of_mem _ (List.mem_cons_of_mem _ h)
    cases h
    exact key l a

theorem mapM_npRow_mem {α : Type} {l : List α} : ∀ {is : List ℕ} {xs : List α}, is.mapM (npRow l) = .ok xs → ∀ x ∈ xs, x ∈ l := by
  intro is
  induction is with
  | nil => intro xs h; cases h; simp
  | cons i is ih =>
    intro xs h x hx
    rw [List.mapM_cons] at h
    obtain ⟨a, ha, h⟩ := Py.bind_ok.mp h
    obtain ⟨as, has, h⟩ := Py.bind_ok.mp h
    cases h
    rcases List.mem_cons.mp hx with rfl | hx
    · exact List.mem_of_getElem? (npRow_ok.mp ha)
    · exact ih has x hx

theorem consParaX_cases {c n : ℕ} {sample : List X} {obj : List XF} {cons : List (Fin c → XF)} (hf : AllFinite obj) :
    consParaX n sample obj cons = (.inf false, none) ∨ ∃ b : ℝ, (consParaX n sample obj cons).1 = .num b ∧ XF.num b ∈ obj := by
  unfold consParaX
  cases h : consBestX n sample obj cons with
  | error e => exact Or.inl rfl
  | ok r =>
    right
    unfold consBestX at h
    obtain ⟨fs, hfs, h⟩ := Py.bind_ok.mp h
    obtain ⟨m, hm, h⟩ := Py.bind_ok.mp h
    obtain ⟨xs, hxs, h⟩ := Py.bind_ok.mp h
    cases h
    have hmem := mapM_npRow_mem hfs m (npMinX_mem hm)
    obtain ⟨b, rfl⟩ := hf m hmem
    exact ⟨b, rfl, hmem⟩

theorem consIterate_ok {c : ℕ} {p : ConsProblemX X S W c} {s s' : ConsStateX X S W c} (h : consIterate p s = .ok s') :
    ∃ r su r', p.train s.surrogate s'.sample s'.objResponse s'.consResponse r = .ok (su, r') ∧ (s'.best, s'.bestX) = consParaX p.numCons s'.sample s'.objResponse s'.consResponse ∧
      s'.historyBest = s.historyBest ++ [s'.best] := by
  unfold consIterate at h
  obtain ⟨⟨x, r⟩, _, h⟩ := Py.bind_ok.mp h
  obtain ⟨y, hy, h⟩ := Py.bind_ok.mp h
  obtain ⟨g, hg, h⟩ := Py.bind_ok.mp h
  dsimp only at h
  obtain ⟨⟨su, r'⟩, ht, h⟩ := Py.bind_ok.mp h
  cases h
  exact ⟨r, su, r', ht, rfl, rfl⟩

/-- **C155 (constrained, part).** The same for the constrained optimiser and every surrogates that refuse objective or constraint values that are no proper numbers, as the Kriging models do (`C155_columns`): `best` is always a
proper number or, as long as no feasible design was seen, infinity with `best_x` `None`. -/
theorem C155_cons_partial {c : ℕ} (A : Arith) (p : ConsProblemX X S W c) (hT : RefusesCons p.train) :
    (∀ w xs w' ys gs, p.init w = .ok (xs, w') → p.f xs = .ok ys → p.fCons xs = .ok gs → ¬(AllFinite ys ∧ ∀ g ∈ gs, ∀ j, XFinite (g j)) → ∃ e, consNew p w = .error e) ∧
    (∀ w s₀ s, consNew p w = .ok s₀ → ConsLater p s₀ s →
      (∀ y ∈ s.historyBest, XFinite y ∨ y = .inf false) ∧ ((s.best = .inf false ∧ s.bestX = none) ∨ ∃ b : ℝ, s.best = .num b ∧ XF.num b ∈ s.objResponse) ∧
      (∀ s', consIterate p s = .ok s' → AllFinite s'.objResponse ∧ ∀ g ∈ s'.consResponse, ∀ j, XFinite (g j))) ∧
    (∀ s, ¬(AllFinite s.objResponse ∧ ∀ g ∈ s.consResponse, ∀ j, XFinite (g j)) → ∀ s', ConsLater p s s' →
      s'.best = s.best ∧ s'.bestX = s.bestX ∧ s'.historyBest = s.historyBest ∧ (∃ e, consIterate p s' = .error e) ∧
      ∀ k stop, (updateErrorX A s'.best p.optimum).ge stop = true → ∃ e, consLoop A p stop (k + 1) s' = .error e) := by
  have grow : ∀ {ys y : List XF} {gs gs' : List (Fin c → XF)}, ¬(AllFinite ys ∧ ∀ g ∈ gs, ∀ j, XFinite (g j)) → ¬(AllFinite (ys ++ y) ∧ ∀ g ∈ gs ++ gs', ∀ j, XFinite (g j)) :=
    fun h hc => h ⟨fun z hz => hc.1 z (List.mem_append_left _ hz), fun z hz => hc.2 z (List.mem_append_left _ hz)⟩
  have dead : ∀ s : ConsStateX X S W c, ¬(AllFinite s.objResponse ∧ ∀ g ∈ s.consResponse, ∀ j, XFinite (g j)) → ∃ e, consIterate p s = .error e := by
    intro s hs
    unfold consIterate
    exact bind_raises' fun q => bind_raises' fun y => bind_raises' fun g => bind_raises (hT _ _ _ _ _ (grow hs))
  have fin : ∀ s s' : ConsStateX X S W c, consIterate p s = .ok s' → AllFinite s'.objResponse ∧ ∀ g ∈ s'.consResponse, ∀ j, XFinite (g j) := by
    intro s s' h
    obtain ⟨r, su, r', ht, -, -⟩ := consIterate_ok h
    by_contra hc
    obtain ⟨e, he⟩ := hT s.surrogate s'.sample _ _ r hc
    rw [he] at ht; cases ht
  refine ⟨?_, ?_, ?_⟩
  · intro w xs w' ys gs hi hf hg hn
    unfold consNew
    rw [hi]
    show ∃ e, (p.f xs >>= _) = Except.error e
    rw [hf]
    show ∃ e, (p.fCons xs >>= _) = Except.error e
    rw [hg]
    exact bind_raises (m := p.train p.fresh xs ys gs w') (hT _ _ _ _ _ hn)
  · intro w s₀ s h0 hl
    have main : (∀ y ∈ s.historyBest, XFinite y ∨ y = .inf false) ∧ ((s.best = .inf false ∧ s.bestX = none) ∨ ∃ b : ℝ, s.best = .num b ∧ XF.num b ∈ s.objResponse) := by
      induction hl with
      | now =>
        unfold consNew at h0
        obtain ⟨⟨x, r⟩, _, h⟩ := Py.bind_ok.mp h0
        obtain ⟨y, hy, h⟩ := Py.bind_ok.mp h
        obtain ⟨g, hg, h⟩ := Py.bind_ok.mp h
        obtain ⟨⟨su, r'⟩, ht, h⟩ := Py.bind_ok.mp h
        have hf : AllFinite y ∧ ∀ g' ∈ g, ∀ j, XFinite (g' j) := by
          by_contra hc
          obtain ⟨e, he⟩ := hT p.fresh x _ _ r hc
          rw [he] at ht; cases ht
        cases h
        rcases consParaX_cases (n := p.numCons) (sample := x) (cons := g) hf.1 with q | ⟨b, q, hb⟩
        · exact ⟨fun z hz => Or.inr (by rw [List.mem_singleton] at hz; rw [hz, q]), Or.inl ⟨by simp only [q], by simp only [q]⟩⟩
        · exact ⟨fun z hz => Or.inl ⟨b, by rw [List.mem_singleton] at hz; rw [hz, q]⟩, Or.inr ⟨b, q, hb⟩⟩
      | @step s s' _ h ih =>
        obtain ⟨fH, -⟩ := fin _ _ h
        obtain ⟨r, su, r', -, hp, hh⟩ := consIterate_ok h
        have hb : (s'.best = .inf false ∧ s'.bestX = none) ∨ ∃ b : ℝ, s'.best = .num b ∧ XF.num b ∈ s'.objResponse := by
          rcases consParaX_cases (n := p.numCons) (sample := s'.sample) (cons := s'.consResponse) fH with q | ⟨b, q, hb⟩
          · rw [← hp] at q; exact Or.inl ⟨congrArg Prod.fst q, congrArg Prod.snd q⟩
          · rw [← hp] at q; exact Or.inr ⟨b, q, hb⟩
        refine ⟨fun z hz => ?_, hb⟩
        rw [hh] at hz
        rcases List.mem_append.mp hz with hz | hz
        · exact ih.1 z hz
        · rw [List.mem_singleton] at hz
          rcases hb with hb | ⟨b, hb, -⟩
          · exact Or.inr (hz.trans hb.1)
          · exact Or.inl ⟨b, hz.trans hb⟩
      | crash _ h ih =>
        cases h with
        | query => exact ih
        | objective => exact ih
        | constraints => exact ih
        | training => exact ⟨ih.1, ih.2.imp id fun ⟨b, hb, hm⟩ => ⟨b, hb, List.mem_append_left _ hm⟩⟩
    exact ⟨main.1, main.2, fin s⟩
  · intro s hs s' hl
    have frozen : s'.best = s.best ∧ s'.bestX = s.bestX ∧ s'.historyBest = s.historyBest ∧ ¬(AllFinite s'.objResponse ∧ ∀ g ∈ s'.consResponse, ∀ j, XFinite (g j)) := by
      induction hl with
      | now => exact ⟨rfl, rfl, rfl, hs⟩
      | @step t u _ h ih =>
        obtain ⟨e, he⟩ := dead t ih.2.2.2
        rw [he] at h; cases h
      | crash _ h ih =>
        obtain ⟨e1, e2, e3, e4⟩ := ih
        cases h with
        | query => exact ⟨e1, e2, e3, e4⟩
        | objective => exact ⟨e1, e2, e3, e4⟩
        | constraints => exact ⟨e1, e2, e3, e4⟩
        | training => exact ⟨e1, e2, e3, grow e4⟩
    obtain ⟨e1, e2, e3, e4⟩ := frozen
    have hd := dead s' e4
    refine ⟨e1, e2, e3, hd, fun k stop hstop => ?_⟩
    unfold consLoop
    rw [if_pos hstop]
    exact bind_raises hd

/-! ## A failed evaluation ends the optimisation -/

/-- Exact arithmetic. -/
def exArithX : Arith := ⟨.num⟩

/-- Library functions for which the training below succeeds: the correlation matrices are taken for the identity, and the search evaluates the likelihood once. -/
def exLibX : Lib Unit ℕ where
  cholesky _ := .ok fun i j => .num (if i = j then 1 else 0)
  solve _ b := .ok b
  minimize obj w := do
    let v ← obj ()
    .ok (((), v), w + 1)

theorem exLibX_reports : ReportsValues exLibX := by
  intro obj w r w' h
  obtain ⟨v, hv, h⟩ := Py.bind_ok.mp h
  cases h
  exact ⟨(), hv⟩

/-- Kriging without noise. -/
def exKrigX : KObj ℕ Unit Unit where
  noise := some 0
  numRestarts := 0
  cols := 1
  kern _ _ _ := fun _ _ => .num 0
  basis _ _ := fun _ _ => .num 1
  sigmaOf _ := .num 0
  finish _ _ _ := .ok ()

theorem exKrigX_trains (w : ℕ) : exKrigX.train exArithX exLibX [0, 2] [.num 0, .num 2] w = .ok ((), w + 1) := by
  have hm : exArithX.mean [.num 0, .num 2] = .num 1 := by
    simp [Arith.mean, Arith.sum, Arith.add, Arith.div, exArithX]
  have hs : exArithX.std [.num 0, .num 2] = .num 1 := by
    simp only [Arith.std, hm]
    norm_num [Arith.sum, Arith.add, Arith.sub, Arith.neg, Arith.mul, Arith.div, Arith.sqrt, exArithX]
  have hy : normalizeOutput exArithX [.num 0, .num 2] = fun i _ => if i = 0 then .num (-1) else .num 1 := by
    funext i j
    simp only [normalizeOutput, hm, hs]
    fin_cases i <;> norm_num [Arith.sub, Arith.neg, Arith.add, Arith.div, exArithX]
  have hn : nll exArithX exLibX (exKrigX.noise.map .num) (.num 0) (exKrigX.kern [0, 2] 2 ()) (exKrigX.basis [0, 2] 2) (fun i _ => if i = 0 then .num (-1) else .num 1) = .ok (.num 0) := by
    have hb : dot exArithX (tr (exKrigX.basis [0, 2] 2)) (fun (i : Fin 2) (_ : Fin 1) => if i = 0 then .num (-1) else .num 1) = fun _ _ => .num 0 := by
      funext i j
      simp [dot, tr, exKrigX, Arith.sum, Arith.mul, Arith.add, exArithX, List.ofFn_succ]
    have hg : matSub exArithX (fun (i : Fin 2) (_ : Fin 1) => if i = 0 then .num (-1) else .num 1) (dot exArithX (exKrigX.basis [0, 2] 2) fun _ _ => .num 0)
        = fun i _ => if i = 0 then .num (-1) else .num 1 := by
      funext i j
      have hd : dot exArithX (exKrigX.basis [0, 2] 2) (fun _ (_ : Fin 1) => .num 0) i j = .num 0 := by
        simp only [dot, exKrigX, List.ofFn_succ, List.ofFn_zero]
        simp [Arith.sum, Arith.mul, Arith.add, exArithX]
      simp only [matSub, hd]
      fin_cases i <;> simp [Arith.sub, Arith.neg, Arith.add, exArithX]
    have hd : dot exArithX (tr fun (i : Fin 2) (_ : Fin 1) => if i = 0 then XF.num (-1) else .num 1) (fun (i : Fin 2) (_ : Fin 1) => if i = 0 then XF.num (-1) else .num 1) 0 0 = .num 2 := by
      norm_num [dot, tr, Arith.sum, Arith.mul, Arith.add, exArithX, List.ofFn_succ]
    have e : nll exArithX exLibX (exKrigX.noise.map .num) (.num 0) (exKrigX.kern [0, 2] 2 ()) (exKrigX.basis [0, 2] 2) (fun i _ => if i = 0 then .num (-1) else .num 1)
        = .ok (Arith.neg (exArithX.sub (exArithX.mul (exArithX.mul (.num (-(1 / 2))) (.num (2 : ℕ))) (if isZero (exKrigX.noise.map .num) then exArithX.log
            (exArithX.div (dot exArithX (tr (matSub exArithX (fun i _ => if i = 0 then .num (-1) else .num 1) (dot exArithX (exKrigX.basis [0, 2] 2)
              (dot exArithX (tr (exKrigX.basis [0, 2] 2)) (fun (i : Fin 2) (_ : Fin 1) => if i = 0 then .num (-1) else .num 1)))))
              (matSub exArithX (fun i _ => if i = 0 then .num (-1) else .num 1) (dot exArithX (exKrigX.basis [0, 2] 2)
                (dot exArithX (tr (exKrigX.basis [0, 2] 2)) (fun (i : Fin 2) (_ : Fin 1) => if i = 0 then .num (-1) else .num 1)))) 0 0) (.num (2 : ℕ)))
          else exArithX.div (dot exArithX (tr (matSub exArithX (fun i _ => if i = 0 then .num (-1) else .num 1) (dot exArithX (exKrigX.basis [0, 2] 2)
              (dot exArithX (tr (exKrigX.basis [0, 2] 2)) (fun (i : Fin 2) (_ : Fin 1) => if i = 0 then .num (-1) else .num 1)))))
              (matSub exArithX (fun i _ => if i = 0 then .num (-1) else .num 1) (dot exArithX (exKrigX.basis [0, 2] 2)
                (dot exArithX (tr (exKrigX.basis [0, 2] 2)) (fun (i : Fin 2) (_ : Fin 1) => if i = 0 then .num (-1) else .num 1)))) 0 0) (.num (2 : ℕ))))
          (exArithX.sum (List.ofFn fun i : Fin 2 => exArithX.log (.num (if i = i then 1 else 0)))))) := rfl
    rw [e, hb, hg, hd]
    norm_num [isZero, exKrigX, Arith.div, Arith.log, Arith.mul, Arith.sub, Arith.add, Arith.neg, Arith.sum, exArithX, List.ofFn_succ]
  have hsig : exKrigX.sigma exArithX (.num 1) () = .num 0 := by
    simp [KObj.sigma, exKrigX, Arith.div, exArithX]
  have hobj : (fun t => nll exArithX exLibX (exKrigX.noise.map .num) (exKrigX.sigma exArithX (.num 1) t) (exKrigX.kern [0, 2] 2 t) (exKrigX.basis [0, 2] 2) (fun i _ => if i = 0 then .num (-1) else .num 1))
      = fun _ => .ok (.num 0) := by
    funext t
    rw [hsig, hn]
  unfold KObj.train
  rw [if_pos (by rfl), hs, hy]
  show (search exLibX (fun t => nll exArithX exLibX (exKrigX.noise.map .num) (exKrigX.sigma exArithX (.num 1) t) (exKrigX.kern [0, 2] 2 t) (exKrigX.basis [0, 2] 2)
    (fun i _ => if i = 0 then .num (-1) else .num 1)) 0 w >>= _) = _
  rw [hobj]
  rfl

/-- An objective that fails at the design `1` and is the identity everywhere else, optimised with the Kriging model above; the acquisition suggests `1` first. -/
noncomputable def exFailing : SFProblem XF ℕ Unit ℕ where
  f xs := .ok (xs.map fun x : ℕ => if x = 1 then XF.nan else XF.num (x : ℝ))
  optimum := none
  init w := .ok ([0, 2], w)
  fresh := ()
  train _ xs ys w := exKrigX.train exArithX exLibX xs ys w
  query _ w := .ok (w, w)

theorem exFailing_refuses : Refuses exFailing.train := fun _ xs ys w h => C155_kriging exArithX exLibX_reports exKrigX xs ys w h

/-- **C155 (counterexample).** An objective that returns proper numbers everywhere but at one design, where it returns `nan`: the optimiser is constructed, its first query is that design and the iteration raises; from then on, no
iteration completes, whatever the state of the random generator, and every `run_optimizer` call with at least one iteration raises. -/
theorem C155_counterexample :
    (∀ xs, 1 ∉ xs → ∃ ys, exFailing.f xs = .ok ys ∧ AllFinite ys) ∧ ∃ s₀ s₁, sfNew exFailing 0 = .ok s₀ ∧ SFCrash exFailing s₀ s₁ ∧ s₁.response = [.num 0, .num 2, .nan] ∧ s₁.best = .num 0 ∧
      ∀ s, SFLater exFailing s₁ s → (∃ e, sfIterate exFailing s = .error e) ∧ ∀ k stop, stop ≤ 1 → ∃ e, sfLoop exArithX exFailing (.num stop) (k + 1) s = .error e := by
  refine ⟨fun xs h => ⟨_, rfl, fun y hy => ?_⟩, ?_⟩
  · obtain ⟨x, hx, rfl⟩ := List.mem_map.mp hy
    exact ⟨x, if_neg fun e : x = 1 => h (by rw [← e]; exact hx)⟩
  · have hbad : ¬AllFinite [XF.num 0, XF.num 2, XF.nan] := fun h => by
      obtain ⟨v, hv⟩ := h .nan (by simp)
      cases hv
    have h0 : sfNew exFailing 0 = .ok { initSample := [0, 2], initResponse := [.num 0, .num 2], sample := [0, 2], response := [.num 0, .num 2], surrogate := (), best := .num 0, bestX := 0, historyBest := [.num 0], historyBestX := [0], rng := 1, calls := [[0, 2]] } := by
      have hf : exFailing.f [0, 2] = .ok [.num 0, .num 2] := by simp [exFailing]
      have ht : exFailing.train () [0, 2] [.num 0, .num 2] 0 = .ok ((), 1) := exKrigX_trains 0
      have hmn : npMinX [XF.num 0, XF.num 2] = .ok (.num 0) := by simp [npMinX, min2_num]
      have ham : npArgminX [XF.num 0, XF.num 2] = .ok 0 := by simp [npArgminX, argminScanX, XF.lt]
      have hi : exFailing.init 0 = .ok ([0, 2], 0) := rfl
      unfold sfNew
      exact Py.bind_ok.mpr ⟨_, hi, Py.bind_ok.mpr ⟨_, hf, Py.bind_ok.mpr ⟨_, ht, Py.bind_ok.mpr ⟨_, hmn, Py.bind_ok.mpr ⟨_, ham, Py.bind_ok.mpr ⟨0, rfl, rfl⟩⟩⟩⟩⟩⟩
    obtain ⟨e, he⟩ := exFailing_refuses () [0, 2, 1] [.num 0, .num 2, .nan] 1 hbad
    refine ⟨_, _, h0, SFCrash.training (x := 1) (r := 1) (y := [.nan]) (e := e) (su := ()) (w := 1) rfl (by simp [exFailing]) he, rfl, rfl, fun s hs => ?_⟩
    obtain ⟨-, -, -, -, hd, hr⟩ := (C155_sf_partial exArithX exFailing exFailing_refuses).2.2 _ hbad s hs
    refine ⟨hd, fun k stop hk => hr k _ ?_⟩
    simp [updateErrorX, exFailing, XF.ge, XF.lt, hk]

/-- The hierarchical and scaled Kriging models and the models of the constrained optimiser meet the hypotheses of `C155_mf_partial` and `C155_cons_partial`. -/
example : RefusesMF (fun (_ : Unit × Unit) xs ys w => trainHK exArithX exLibX exKrigX exKrigX (fun _ xs => .ok (xs.map fun _ => .num 1)) xs ys w) ∧
    RefusesMF (fun (_ : Unit × Unit) xs ys w => trainSK exArithX exLibX 1 exKrigX exKrigX (fun _ xs => .ok (xs.map fun _ => .num 1)) xs ys w) ∧
    RefusesCons (c := 1) (fun (_ : Unit × List Unit) xs ys gs w => trainConsX exArithX exLibX exKrigX (fun _ => exKrigX) xs ys gs w) :=
  ⟨fun _ _ _ _ h => C155_hk exArithX exLibX_reports _ _ _ _ _ _ h, fun _ _ _ _ h => C155_sk exArithX exLibX_reports _ _ _ _ _ _ _ h, fun _ _ _ _ _ h => C155_columns exArithX exLibX_reports _ _ _ _ _ _ h⟩

open Classical in
/-- A multi-fidelity problem whose surrogate refuses improper numbers, and whose high-fidelity objective fails at the design `1`. -/
noncomputable def exFailingMF : MFProblem XF ℕ Unit ℕ where
  hf xs := .ok (xs.map fun x : ℕ => if x = 1 then XF.nan else XF.num (x : ℝ))
  lf xs := .ok (xs.map fun x : ℕ => XF.num (x : ℝ))
  call xs := .ok (xs.1.map fun x : ℕ => XF.num (x : ℝ), xs.2.map fun x : ℕ => XF.num (x : ℝ))
  optimum := none
  init w := .ok (([0, 2], [0, 2]), w)
  fresh := .ok ()
  train _ _ ys w := if AllFinite ys.1 ∧ AllFinite ys.2 then .ok ((), w + 1) else .error .unboundLocal
  query _ _ _ w := .ok ((w, 0), w)

/-- The hypotheses of `C155_mf_partial` are met by an optimiser that is constructed and whose first iteration fails with a `nan`. -/
example : OneRowEach exFailingMF.hf ∧ RefusesMF exFailingMF.train ∧ ∃ s₀ s₁, mfNew exFailingMF 0 = .ok s₀ ∧ MFCrash exFailingMF (.num 1) s₀ s₁ ∧ ¬(AllFinite s₁.responseH ∧ AllFinite s₁.responseL) := by
  have hfin : AllFinite [XF.num 0, XF.num 2] := by
    intro y hy
    simp only [List.mem_cons, List.not_mem_nil, or_false] at hy
    rcases hy with rfl | rfl <;> exact ⟨_, rfl⟩
  have hbad : ¬AllFinite [XF.num 0, XF.num 2, XF.nan] := fun h => by
    obtain ⟨v, hv⟩ := h .nan (by simp)
    cases hv
  refine ⟨fun xs ys h => by cases h; simp, fun s xs ys w h => ⟨_, if_neg h⟩, ?_⟩
  have hc : exFailingMF.call ([0, 2], [0, 2]) = .ok ([.num 0, .num 2], [.num 0, .num 2]) := by simp [exFailingMF]
  have ht : exFailingMF.train () ([0, 2], [0, 2]) ([.num 0, .num 2], [.num 0, .num 2]) 0 = .ok ((), 1) := if_pos ⟨hfin, hfin⟩
  have hmn : npMinX [XF.num 0, XF.num 2] = .ok (.num 0) := by simp [npMinX, min2_num]
  have ham : npArgminX [XF.num 0, XF.num 2] = .ok 0 := by simp [npArgminX, argminScanX, XF.lt]
  have h0 : ∃ s₀, mfNew exFailingMF 0 = .ok s₀ ∧ s₀.rng = 1 ∧ s₀.responseH = [.num 0, .num 2] := by
    unfold mfNew
    exact ⟨_, Py.bind_ok.mpr ⟨_, rfl, Py.bind_ok.mpr ⟨_, hc, Py.bind_ok.mpr ⟨_, rfl, Py.bind_ok.mpr ⟨_, ht, Py.bind_ok.mpr ⟨_, hmn, Py.bind_ok.mpr ⟨_, ham, Py.bind_ok.mpr ⟨0, rfl, rfl⟩⟩⟩⟩⟩⟩⟩, rfl, rfl⟩
  obtain ⟨s₀, h0, hr, hH⟩ := h0
  have hbad' : ¬(AllFinite (s₀.responseH ++ [XF.nan]) ∧ AllFinite s₀.responseL) := fun h => hbad (by have h1 := h.1; rw [hH] at h1; exact h1)
  refine ⟨s₀, _, h0, MFCrash.training (x := 1) (fid := 0) (r := 1) (su := ()) (w := 1) (by simp [exFailingMF, hr]) (t := { s₀ with sampleH := s₀.sampleH ++ [1], responseH := s₀.responseH ++ [.nan], calls := s₀.calls ++ [(true, [1])] })
    (y := [.nan]) (by simp [mfEvaluate, exFailingMF]; rfl) (if_neg hbad'), hbad'⟩

end Mfpml.Props
