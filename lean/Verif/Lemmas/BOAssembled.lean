import Verif.Spec.BOAssembled
import Verif.Lemmas.BayesOpt
import Verif.Props.GP
import Verif.Props.SFSamplers
import Verif.Props.MFSamplers
import Verif.Props.MFKriging
import Verif.Lemmas.Acquisitions

/-!
# Lemmas about the assembled Bayesian optimisers
-/

namespace Mfpml.BO

open Mfpml Mfpml.Acq Mfpml.GP Mfpml.Spec
open Mfpml.EA (Box)

section general

variable {K : Type} [Field K] [LinearOrder K] [IsStrictOrderedRing K] {X S W : Type}

/-! ## Steps with the surrogate in view -/

theorem sf_new_steps {p : SFProblem K X S W} {w : W} {s : SFState K X S W} (h : p.new w = .ok s) :
    ∃ w1 i, p.init w = .ok (s.sample, w1) ∧ p.f s.sample = .ok s.response ∧ p.train p.fresh s.sample s.response w1 = .ok (s.surrogate, s.rng) ∧ npMin s.response = .ok s.best ∧
      npArgmin s.response = .ok i ∧ s.sample[i]? = some s.bestX ∧ s.calls = [s.sample] ∧ s.historyBestX = [s.bestX] := by
  unfold SFProblem.new at h
  obtain ⟨⟨x, r⟩, h1, h⟩ := Py.bind_ok.mp h
  obtain ⟨y, h2, h⟩ := Py.bind_ok.mp h
  obtain ⟨⟨su, r'⟩, h3, h⟩ := Py.bind_ok.mp h
  obtain ⟨m, hm, h⟩ := Py.bind_ok.mp h
  obtain ⟨i, hi, h⟩ := Py.bind_ok.mp h
  obtain ⟨bx, hbx, h⟩ := Py.bind_ok.mp h
  cases h
  exact ⟨r, i, h1, h2, h3, hm, hi, npRow_ok.mp hbx, rfl, rfl⟩

theorem sf_iterate_steps {p : SFProblem K X S W} {s s' : SFState K X S W} (h : p.iterate s = .ok s') :
    ∃ x w1 y i, p.query s.surrogate s.rng = .ok (x, w1) ∧ p.f [x] = .ok y ∧ p.train s.surrogate (s.sample ++ [x]) (s.response ++ y) w1 = .ok (s'.surrogate, s'.rng) ∧
      s'.sample = s.sample ++ [x] ∧ s'.response = s.response ++ y ∧ s'.calls = s.calls ++ [[x]] ∧ npMin s'.response = .ok s'.best ∧ npArgmin s'.response = .ok i ∧
      s'.sample[i]? = some s'.bestX ∧ s'.historyBestX = s.historyBestX ++ [s'.bestX] := by
  unfold SFProblem.iterate at h
  obtain ⟨⟨x, r⟩, h1, h⟩ := Py.bind_ok.mp h
  obtain ⟨y, hy, h⟩ := Py.bind_ok.mp h
  obtain ⟨⟨su, r'⟩, h3, h⟩ := Py.bind_ok.mp h
  obtain ⟨m, hm, h⟩ := Py.bind_ok.mp h
  obtain ⟨i, hi, h⟩ := Py.bind_ok.mp h
  obtain ⟨bx, hbx, h⟩ := Py.bind_ok.mp h
  cases h
  exact ⟨x, r, y, i, h1, hy, h3, rfl, rfl, rfl, hm, hi, npRow_ok.mp hbx, rfl⟩

/-- Facts that hold after construction and are kept by an iteration hold in every reachable state. -/
theorem sf_reachable_inv {p : SFProblem K X S W} (P : SFState K X S W → Prop) (hnew : ∀ w s, p.new w = .ok s → P s) (hstep : ∀ s s', P s → p.iterate s = .ok s' → P s')
    {s : SFState K X S W} (h : SFReachable p s) : P s := by
  induction h with
  | new rng h => exact hnew _ _ h
  | run k stop _ h ih => exact sf_loop_inv P hstep stop k _ _ ih (sf_run_ok h).1

end general

/-! ## Kriging -/

variable {d : ℕ}

/-- The settings of the optimisers' Kriging models. -/
structure UsualGP (b : Box ℝ d) (gp : GPObj d 1) : Prop where
  box : gp.box = b
  regr : gp.regr = ordinary d
  opt : gp.optimizer = none
  noise : gp.noise = some 0
  low : gp.kernel.boundLow = -2
  high : gp.kernel.boundHigh = 3

theorem usual_fresh (b : Box ℝ d) : UsualGP b (freshGP b) := ⟨rfl, rfl, rfl, rfl, rfl, rfl⟩

theorem usual_train {n : ℕ} {b : Box ℝ d} {gp gp' : GPObj d 1} {w : World d} {X : Samples n d} {y : Fin n → ℝ} {t : GPFit n d 1} (h0 : UsualGP b gp)
    (h : gp.train w X y = .ok (gp', t)) : UsualGP b gp' := by
  obtain ⟨_, _, _, hbox, hregr, hno, _⟩ := trained_of_train h
  obtain ⟨_, _, theta, noise, _, e1, _, e2⟩ := train_ok_iff.mp h
  have hn := hno 0 h0.noise
  rw [e2] at hn
  refine ⟨hbox.trans h0.box, hregr.trans h0.regr, ?_, ?_, ?_, ?_⟩
  · rw [e1]; exact h0.opt
  · rw [e1]; exact congrArg some hn
  · rw [e1]; exact h0.low
  · rw [e1]; exact h0.high

theorem train_startsNoise {n q : ℕ} {gp : GPObj d q} {v : ℝ} (hn : gp.noise = some v) (w : World d) (l : List (Fin (d + 1) → ℝ)) (X : Samples n d) (y : Fin n → ℝ) :
    gp.train w X y = gp.train { w with startsNoise := l } X y := by
  simp only [GPObj.train, GPObj.fitHyper, hn]

theorem usual_train_succeeds {n : ℕ} {b : Box ℝ d} (hb : ∀ j, b.low j < b.high j) {gp : GPObj d 1} (h0 : UsualGP b gp) {w : World d} (hmini : GoodMinimizer w.mini)
    (hst : w.starts ≠ []) (X : Samples n d) (y : Fin n → ℝ) (i j : Fin n) (hy : y i ≠ y j) : ∃ gp' t, gp.train w X y = .ok (gp', t) := by
  rw [train_startsNoise h0.noise w [fun _ => 0]]
  refine Props.C31_train_succeeds_default gp _ X y h0.regr ?_ ?_ hmini ?_ hst (by simp) i j hy
  · rw [h0.box]; exact hb
  · rw [h0.low, h0.high]; norm_num
  · intro run hr; rw [h0.opt] at hr; cases hr

/-- The model was fitted to the samples `xs` and responses `ys`. -/
def Fitted (b : Box ℝ d) (xs : List (Fin d → ℝ)) (ys : List ℝ) (k : Kriging d) : Prop :=
  ∃ (h : ys.length = xs.length) (gp : GPObj d 1) (w : World d) (t : GPFit xs.length d 1), UsualGP b gp ∧ gp.train w (rows xs) (column ys h) = .ok (k.obj, t) ∧ k.fit = some ⟨_, t⟩

theorem Fitted.usual {b : Box ℝ d} {xs : List (Fin d → ℝ)} {ys : List ℝ} {k : Kriging d} (h : Fitted b xs ys k) : UsualGP b k.obj := by
  obtain ⟨_, gp, w, t, h0, h1, _⟩ := h
  exact usual_train h0 h1

theorem kriging_train_ok {o : Outside d} {b : Box ℝ d} {k k' : Kriging d} (h0 : UsualGP b k.obj) {xs : List (Fin d → ℝ)} {ys : List ℝ} {w w' : o.env.S}
    (h : k.train o xs ys w = .ok (k', w')) : Fitted b xs ys k' := by
  unfold Kriging.train at h
  split_ifs at h with hl
  obtain ⟨⟨gp, t⟩, h1, h⟩ := Py.bind_ok.mp h
  cases h
  exact ⟨hl, k.obj, _, t, h0, h1, rfl⟩

theorem kriging_train_differ {o : Outside d} {k k' : Kriging d} {xs : List (Fin d → ℝ)} {ys : List ℝ} {w w' : o.env.S} (h : k.train o xs ys w = .ok (k', w')) :
    ∃ y ∈ ys, ∃ y' ∈ ys, y ≠ y' := by
  unfold Kriging.train at h
  split_ifs at h with hl
  obtain ⟨⟨gp, t⟩, h1, h⟩ := Py.bind_ok.mp h
  by_contra hc
  push Not at hc
  obtain ⟨e, he⟩ := Props.C31_constant_fails k.obj (o.world k.obj.kernel w).1 (rows xs) (column ys hl) fun i j => hc _ (List.getElem_mem _) _ (List.getElem_mem _)
  rw [he] at h1
  cases h1

theorem kriging_train_succeeds {o : Outside d} (ho : Lawful o) {b : Box ℝ d} (hb : ∀ j, b.low j < b.high j) {k : Kriging d} (h0 : UsualGP b k.obj) {xs : List (Fin d → ℝ)} {ys : List ℝ}
    (hl : ys.length = xs.length) (hd : ∃ y ∈ ys, ∃ y' ∈ ys, y ≠ y') (w : o.env.S) : ∃ r, k.train o xs ys w = .ok r := by
  obtain ⟨y, hy, y', hy', hne⟩ := hd
  obtain ⟨i, hi, rfl⟩ := List.mem_iff_getElem.mp hy
  obtain ⟨j, hj, rfl⟩ := List.mem_iff_getElem.mp hy'
  have hst : (o.world k.obj.kernel w).1.starts ≠ [] := by
    intro he
    have := ho.uniform_len 11 d (fun _ => k.obj.kernel.boundLow) (fun _ => k.obj.kernel.boundHigh) w
    simp only [Outside.world] at he
    rw [he] at this
    simp at this
  obtain ⟨gp, t, h⟩ := usual_train_succeeds hb h0 (w := (o.world k.obj.kernel w).1) ho.mini hst (rows xs) (column ys hl) ⟨i, by omega⟩ ⟨j, by omega⟩ hne
  refine ⟨({ obj := gp, fit := some ⟨_, t⟩ }, (o.world k.obj.kernel w).2), ?_⟩
  unfold Kriging.train
  rw [dif_pos hl]
  exact Py.bind_ok.mpr ⟨_, h, rfl⟩

theorem column_ofFn {n : ℕ} {ys : List ℝ} (h : ys.length = n) : List.ofFn (column ys h) = ys := by
  subst h
  exact List.ofFn_getElem

/-- What a fitted model shows to the acquisition. -/
theorem Fitted.view {b : Box ℝ d} {xs : List (Fin d → ℝ)} {ys : List ℝ} {k : Kriging d} (h : Fitted b xs ys k) :
    ∃ s, k.view = .ok s ∧ s.bounds = b ∧ s.sampleY = ys ∧ (∀ m X, ∃ μ σ, s.predict m X = .ok (μ, σ)) ∧
      ∃ σ, s.predict xs.length (rows xs) = .ok (fun i => ys.getD i 0, σ) ∧ ∀ i, σ i = 0 := by
  have hu := h.usual
  obtain ⟨hl, gp, w, t, h0, h1, h2⟩ := h
  obtain ⟨hT, hX, hy, _⟩ := trained_of_train h1
  refine ⟨_, by rw [Kriging.view, h2], hu.box, ?_, ?_, ?_⟩
  · simp only [SFSurr.ofGP]
    rw [hy, column_ofFn]
  · intro m X
    obtain ⟨μ, σ, hm, _⟩ := (Props.C35_std gp w _ _ k.obj t h1).1 m X
    exact ⟨μ, σ, hm⟩
  · obtain ⟨μ, σ, hm, hz⟩ := (Props.C35_std gp w _ _ k.obj t h1).2 h0.noise
    refine ⟨σ, ?_, hz⟩
    have hmean := Props.C34_interpolation gp w (rows xs) (column ys hl) h0.noise k.obj t h1
    have e : μ = column ys hl := by
      unfold predictStd at hm
      obtain ⟨f, hf, hm⟩ := Py.bind_ok.mp hm
      obtain ⟨_, _, hm⟩ := Py.bind_ok.mp hm
      obtain ⟨_, _, hm⟩ := Py.bind_ok.mp hm
      rw [hmean] at hf
      cases hf; cases hm; rfl
    simp only [SFSurr.ofGP]
    rw [hm, e]
    congr 2
    funext i
    simp [column, List.getD_eq_getElem?_getD, hl]

/-! ## Single fidelity -/

theorem sf_query_ok {W : Type} {de : DiffEvo W d} (hde : GoodSearch de) {eval : (m : ℕ) → SFSurr d → Samples m d → Py (Fin m → ℝ)} {opt : Option (PopOpt W d)}
    (hopt : ∀ run, opt = some run → PropagatesErrors run) {s : SFSurr d} {w w' : W} {x : Fin d → ℝ} (h : sfQuery eval opt de s w = .ok (x, w')) : InBounds s.bounds x := by
  cases opt with
  | none =>
    simp only [sfQuery] at h
    obtain ⟨⟨r, w1⟩, h1, h⟩ := Py.bind_ok.mp h
    cases h
    exact (hde _ _ _ _ _ _ h1).1
  | some run =>
    simp only [sfQuery] at h
    rw [hopt run rfl _ _ _ _ fun _ _ => rfl] at h
    cases h

theorem library_total {eval : (m : ℕ) → SFSurr d → Samples m d → Py (Fin m → ℝ)} (h : LibraryAcq eval) {s : SFSurr d} (hs : s.sampleY ≠ [])
    (hp : ∀ m X, ∃ μ σ, s.predict m X = .ok (μ, σ)) (m : ℕ) (X : Samples m d) : ∃ v, eval m s X = .ok v := by
  obtain ⟨μ, σ, hp⟩ := hp m X
  obtain ⟨f, hf⟩ := npMin_succeeds hs
  rcases h with ⟨κ, rfl⟩ | rfl | rfl
  · exact ⟨_, Py.bind_ok.mpr ⟨_, hp, rfl⟩⟩
  · exact ⟨_, Py.bind_ok.mpr ⟨_, hf, Py.bind_ok.mpr ⟨_, hp, rfl⟩⟩⟩
  · exact ⟨_, Py.bind_ok.mpr ⟨_, hf, Py.bind_ok.mpr ⟨_, hp, rfl⟩⟩⟩

theorem lhs_inBounds {o : Outside d} (ho : o.env.Lawful) {b : Box ℝ d} (hb : ∀ j, b.low j ≤ b.high j) (n : ℕ) (seed : Option ℕ) (w : o.env.S) :
    ∀ x ∈ (Sampling.lhsSamples o.env b n seed w).1, InBounds b x := by
  intro x hx
  have := ((Props.C15_samples_in_bounds o.env ho b hb n w).1 seed).2 x hx
  exact fun j => this j

/-! ## Constrained -/

section general2

variable {K : Type} [Field K] [LinearOrder K] [IsStrictOrderedRing K] {X S W : Type} {c : ℕ}

theorem cons_new_steps {p : ConsProblem K X S W c} {w : W} {s : ConsState K X S W c} (h : p.new w = .ok s) :
    ∃ w1, p.init w = .ok (s.sample, w1) ∧ p.f s.sample = .ok s.objResponse ∧ p.fCons s.sample = .ok s.consResponse ∧
      p.train p.fresh s.sample s.objResponse s.consResponse w1 = .ok (s.surrogate, s.rng) ∧ (s.best, s.bestX) = consPara p.numCons s.sample s.objResponse s.consResponse ∧
      s.calls = [s.sample] ∧ s.historyBestX = [s.bestX] := by
  unfold ConsProblem.new at h
  obtain ⟨⟨x, r⟩, h1, h⟩ := Py.bind_ok.mp h
  obtain ⟨y, h2, h⟩ := Py.bind_ok.mp h
  obtain ⟨g, h3, h⟩ := Py.bind_ok.mp h
  obtain ⟨⟨su, r'⟩, h4, h⟩ := Py.bind_ok.mp h
  cases h
  exact ⟨r, h1, h2, h3, h4, rfl, rfl, rfl⟩

theorem cons_iterate_steps {p : ConsProblem K X S W c} {s s' : ConsState K X S W c} (h : p.iterate s = .ok s') :
    ∃ x w1 y g, p.query s.surrogate s.rng = .ok (x, w1) ∧ p.f [x] = .ok y ∧ p.fCons [x] = .ok g ∧
      p.train s.surrogate (s.sample ++ [x]) (s.objResponse ++ y) (s.consResponse ++ g) w1 = .ok (s'.surrogate, s'.rng) ∧
      s'.sample = s.sample ++ [x] ∧ s'.objResponse = s.objResponse ++ y ∧ s'.consResponse = s.consResponse ++ g ∧ s'.calls = s.calls ++ [[x]] ∧
      (s'.best, s'.bestX) = consPara p.numCons s'.sample s'.objResponse s'.consResponse ∧ s'.historyBestX = s.historyBestX ++ [s'.bestX] := by
  unfold ConsProblem.iterate at h
  obtain ⟨⟨x, r⟩, h1, h⟩ := Py.bind_ok.mp h
  obtain ⟨y, h2, h⟩ := Py.bind_ok.mp h
  obtain ⟨g, h3, h⟩ := Py.bind_ok.mp h
  obtain ⟨⟨su, r'⟩, h4, h⟩ := Py.bind_ok.mp h
  cases h
  exact ⟨x, r, y, g, h1, h2, h3, h4, rfl, rfl, rfl, rfl, rfl, rfl⟩

theorem cons_reachable_inv {p : ConsProblem K X S W c} (P : ConsState K X S W c → Prop) (hnew : ∀ w s, p.new w = .ok s → P s) (hstep : ∀ s s', P s → p.iterate s = .ok s' → P s')
    {s : ConsState K X S W c} (h : ConsReachable p s) : P s := by
  induction h with
  | new rng h => exact hnew _ _ h
  | run k stop _ h ih => exact cons_loop_inv P hstep stop k _ _ ih (cons_run_ok h).1

theorem mapM_npRow_mem {α : Type} {l : List α} : ∀ (idx : List ℕ) (xs : List α), idx.mapM (npRow l) = .ok xs → ∀ x ∈ xs, x ∈ l := by
  intro idx
  induction idx with
  | nil => intro xs h; cases h; simp
  | cons i idx ih =>
    intro xs h
    rw [List.mapM_cons] at h
    obtain ⟨a, ha, h⟩ := Py.bind_ok.mp h
    obtain ⟨as, has, h⟩ := Py.bind_ok.mp h
    cases h
    intro x hx
    rcases List.mem_cons.mp hx with rfl | hx
    · exact List.mem_of_getElem? (npRow_ok.mp ha)
    · exact ih _ has _ hx

theorem consPara_mem {numCons : ℕ} {sample : List X} {obj : List K} {cons : List (Fin c → K)} {y : WithTop K} {bx : Option (List X)} (h : (y, bx) = consPara numCons sample obj cons) :
    ∀ xs ∈ bx, ∀ x ∈ xs, x ∈ sample := by
  unfold consPara at h
  split at h
  · rename_i y0 xs0 hb
    cases h
    intro xs hxs
    cases hxs
    unfold consBest at hb
    obtain ⟨feas, _, hb⟩ := Py.bind_ok.mp hb
    obtain ⟨m, _, hb⟩ := Py.bind_ok.mp hb
    obtain ⟨ys, hys, hb⟩ := Py.bind_ok.mp hb
    cases hb
    exact mapM_npRow_mem _ _ hys
  · cases h
    intro xs hxs
    cases hxs

end general2

theorem cons_query_ok {W : Type} {de : DiffEvo W d} (hde : GoodSearch de) {opt : Option (PopOpt W d)} (hopt : ∀ run, opt = some run → PropagatesErrors run) {s : SFSurr d}
    {cs : List (SFSurr d)} {w w' : W} {x : Fin d → ℝ} (h : consQuery opt de s cs w = .ok (x, w')) : InBounds s.bounds x := by
  cases opt with
  | none =>
    simp only [consQuery] at h
    obtain ⟨⟨r, w1⟩, h1, h⟩ := Py.bind_ok.mp h
    cases h
    exact (hde _ _ _ _ _ _ h1).1
  | some run =>
    simp only [consQuery] at h
    rw [hopt run rfl _ _ _ _ fun _ _ => rfl] at h
    cases h

/-- The constraint surrogates are fitted to the columns from number `ii` on. -/
def FittedCons {c : ℕ} (b : Box ℝ d) (xs : List (Fin d → ℝ)) (cons : List (Fin c → ℝ)) (ii : ℕ) (ks : List (Kriging d)) : Prop :=
  ∀ j k, ks[j]? = some k → ∃ h : ii + j < c, Fitted b xs (cons.map fun g => g ⟨ii + j, h⟩) k

theorem FittedCons.usual {c : ℕ} {b : Box ℝ d} {xs : List (Fin d → ℝ)} {cons : List (Fin c → ℝ)} {ii : ℕ} {ks : List (Kriging d)} (h : FittedCons b xs cons ii ks) :
    ∀ k ∈ ks, UsualGP b k.obj := by
  intro k hk
  obtain ⟨j, hj⟩ := List.mem_iff_getElem?.mp hk
  obtain ⟨_, hf⟩ := h j k hj
  exact hf.usual

theorem trainCons_ok {c : ℕ} {o : Outside d} {b : Box ℝ d} {xs : List (Fin d → ℝ)} {cons : List (Fin c → ℝ)} : ∀ (ks : List (Kriging d)) (ii : ℕ) (w : o.env.S) (ks' : List (Kriging d))
    (w' : o.env.S), (∀ k ∈ ks, UsualGP b k.obj) → trainCons o xs cons ii ks w = .ok (ks', w') →
    ks'.length = ks.length ∧ FittedCons b xs cons ii ks' ∧ ∀ j (h : ii + j < c), j < ks.length → ∃ g ∈ cons, ∃ g' ∈ cons, g ⟨ii + j, h⟩ ≠ g' ⟨ii + j, h⟩ := by
  intro ks
  induction ks with
  | nil =>
    intro ii w ks' w' _ h
    cases h
    exact ⟨rfl, fun j k hk => by simp at hk, fun j _ hj => by simp at hj⟩
  | cons k ks ih =>
    intro ii w ks' w' hu h
    unfold trainCons at h
    obtain ⟨y, hy, h⟩ := Py.bind_ok.mp h
    obtain ⟨⟨k1, w1⟩, hk1, h⟩ := Py.bind_ok.mp h
    obtain ⟨⟨ks1, w2⟩, hks1, h⟩ := Py.bind_ok.mp h
    cases h
    obtain ⟨e1, e2, e3⟩ := ih (ii + 1) w1 ks1 _ (fun k hk => hu k (by simp [hk])) hks1
    unfold consColumn at hy
    split_ifs at hy with hc
    cases hy
    refine ⟨by simp [e1], ?_, ?_⟩
    · intro j k' hk'
      cases j with
      | zero =>
        simp at hk'
        subst hk'
        exact ⟨hc, kriging_train_ok (hu k (by simp)) hk1⟩
      | succ j =>
        simp at hk'
        obtain ⟨h1, h2⟩ := e2 j k' hk'
        have e : ii + 1 + j = ii + (j + 1) := by omega
        refine ⟨by omega, ?_⟩
        simpa only [e] using h2
    · intro j hj hlt
      cases j with
      | zero =>
        obtain ⟨y, hy, y', hy', hne⟩ := kriging_train_differ hk1
        obtain ⟨g, hg, rfl⟩ := List.mem_map.mp hy
        obtain ⟨g', hg', rfl⟩ := List.mem_map.mp hy'
        exact ⟨g, hg, g', hg', hne⟩
      | succ j =>
        have e : ii + 1 + j = ii + (j + 1) := by omega
        have := e3 j (by omega) (by simpa using hlt)
        simpa only [e] using this

theorem trainCons_succeeds {c : ℕ} {o : Outside d} (ho : Lawful o) {b : Box ℝ d} (hb : ∀ j, b.low j < b.high j) {xs : List (Fin d → ℝ)} {cons : List (Fin c → ℝ)}
    (hl : cons.length = xs.length) (hd : ∀ j : Fin c, ∃ g ∈ cons, ∃ g' ∈ cons, g j ≠ g' j) : ∀ (ks : List (Kriging d)) (ii : ℕ) (w : o.env.S), (∀ k ∈ ks, UsualGP b k.obj) →
    ii + ks.length ≤ c → ∃ r, trainCons o xs cons ii ks w = .ok r := by
  intro ks
  induction ks with
  | nil => intro ii w _ _; exact ⟨_, rfl⟩
  | cons k ks ih =>
    intro ii w hu hlen
    simp only [List.length_cons] at hlen
    have hc : ii < c := by omega
    obtain ⟨g, hg, g', hg', hne⟩ := hd ⟨ii, hc⟩
    obtain ⟨⟨k1, w1⟩, hk1⟩ := kriging_train_succeeds ho hb (hu k (by simp)) (xs := xs) (ys := cons.map fun g => g ⟨ii, hc⟩) (by simp [hl])
      ⟨_, List.mem_map_of_mem hg, _, List.mem_map_of_mem hg', hne⟩ w
    obtain ⟨⟨ks1, w2⟩, hks1⟩ := ih (ii + 1) w1 (fun k hk => hu k (by simp [hk])) (by omega)
    refine ⟨(k1 :: ks1, w2), ?_⟩
    unfold trainCons
    exact Py.bind_ok.mpr ⟨_, dif_pos hc, Py.bind_ok.mpr ⟨_, hk1, Py.bind_ok.mpr ⟨_, hks1, rfl⟩⟩⟩

theorem mapM_view {c : ℕ} {b : Box ℝ d} {xs : List (Fin d → ℝ)} {cons : List (Fin c → ℝ)} : ∀ (ks : List (Kriging d)) (ii : ℕ), FittedCons b xs cons ii ks →
    ∃ vs, ks.mapM Kriging.view = .ok vs ∧ ∀ v ∈ vs, ∀ m X, ∃ μ σ, v.predict m X = .ok (μ, σ) := by
  intro ks
  induction ks with
  | nil => intro ii _; exact ⟨[], rfl, by simp⟩
  | cons k ks ih =>
    intro ii h
    obtain ⟨_, h0⟩ := h 0 k rfl
    obtain ⟨v, hv, _, _, hp, _⟩ := h0.view
    obtain ⟨vs, hvs, hps⟩ := ih (ii + 1) fun j k' hk' => by
      obtain ⟨h1, h2⟩ := h (j + 1) k' (by simpa using hk')
      have e : ii + (j + 1) = ii + 1 + j := by omega
      refine ⟨by omega, ?_⟩
      simpa only [e] using h2
    refine ⟨v :: vs, ?_, ?_⟩
    · rw [List.mapM_cons]
      exact Py.bind_ok.mpr ⟨_, hv, Py.bind_ok.mpr ⟨_, hvs, rfl⟩⟩
    · intro v' hv'
      rcases List.mem_cons.mp hv' with rfl | hv'
      · exact hp
      · exact hps v' hv'

theorem pofColumns_total {vs : List (SFSurr d)} (h : ∀ v ∈ vs, ∀ m X, ∃ μ σ, v.predict m X = .ok (μ, σ)) (x : Samples 1 d) : ∃ ps, pofColumns x vs = .ok ps := by
  induction vs with
  | nil => exact ⟨[], rfl⟩
  | cons v vs ih =>
    obtain ⟨μ, σ, hp⟩ := h v (by simp) 1 x
    obtain ⟨ps, hps⟩ := ih fun v hv => h v (by simp [hv])
    refine ⟨(μ, σ) :: ps, ?_⟩
    unfold pofColumns
    exact Py.bind_ok.mpr ⟨_, hp, by rw [if_pos rfl]; exact Py.bind_ok.mpr ⟨_, hps, rfl⟩⟩

theorem ceiEval_total {s : SFSurr d} (hs : s.sampleY ≠ []) (hp : ∀ m X, ∃ μ σ, s.predict m X = .ok (μ, σ)) {vs : List (SFSurr d)}
    (h : ∀ v ∈ vs, ∀ m X, ∃ μ σ, v.predict m X = .ok (μ, σ)) (x : Samples 1 d) : ∃ v, ceiEval s vs x = .ok v := by
  obtain ⟨μ, σ, hp⟩ := hp 1 x
  obtain ⟨f, hf⟩ := npMin_succeeds hs
  obtain ⟨ps, hps⟩ := pofColumns_total h x
  have h1 : ceiEi s x = .ok fun j => eiFormula f (μ j) (σ j) := Py.bind_ok.mpr ⟨_, hf, Py.bind_ok.mpr ⟨_, hp, rfl⟩⟩
  have h2 : ceiPof vs x = .ok fun j => (ps.map fun p => normCdf (0 - p.1 j / (p.2 j + tiny9))).prod := Py.bind_ok.mpr ⟨_, hps, rfl⟩
  exact ⟨_, Py.bind_ok.mpr ⟨_, h1, Py.bind_ok.mpr ⟨_, h2, rfl⟩⟩⟩

/-! ## Multi-fidelity -/

section general3

variable {K : Type} [Field K] [LinearOrder K] [IsStrictOrderedRing K] {X S W : Type}

theorem mf_new_steps {p : MFProblem K X S W} {w : W} {s : MFState K X S W} (h : p.new w = .ok s) :
    ∃ w1 su i, p.init w = .ok ((s.sampleH, s.sampleL), w1) ∧ p.call (s.sampleH, s.sampleL) = .ok (s.responseH, s.responseL) ∧ p.fresh = .ok su ∧
      p.train su (s.sampleH, s.sampleL) (s.responseH, s.responseL) w1 = .ok (s.surrogate, s.rng) ∧ npMin s.responseH = .ok s.best ∧ npArgmin s.responseH = .ok i ∧
      s.sampleH[i]? = some s.bestX ∧ s.calls = [] ∧ s.historyBestX = [s.bestX] := by
  unfold MFProblem.new at h
  obtain ⟨⟨x, r⟩, h1, h⟩ := Py.bind_ok.mp h
  obtain ⟨y, h2, h⟩ := Py.bind_ok.mp h
  obtain ⟨su0, h3, h⟩ := Py.bind_ok.mp h
  obtain ⟨⟨su, r'⟩, h4, h⟩ := Py.bind_ok.mp h
  obtain ⟨m, hm, h⟩ := Py.bind_ok.mp h
  obtain ⟨i, hi, h⟩ := Py.bind_ok.mp h
  obtain ⟨bx, hbx, h⟩ := Py.bind_ok.mp h
  cases h
  exact ⟨r, su0, i, h1, h2, h3, h4, hm, hi, npRow_ok.mp hbx, rfl, rfl⟩

theorem mf_iterate_steps {p : MFProblem K X S W} {cr : K} {s s' : MFState K X S W} (h : p.iterate cr s = .ok s') :
    ∃ x fid w1 y, p.query s.surrogate cr s.best s.rng = .ok ((x, fid), w1) ∧
      p.train s.surrogate (s'.sampleH, s'.sampleL) (s'.responseH, s'.responseL) w1 = .ok (s'.surrogate, s'.rng) ∧
      ((fid = 0 ∧ p.hf [x] = .ok y ∧ s'.sampleH = s.sampleH ++ [x] ∧ s'.sampleL = s.sampleL ∧ s'.responseH = s.responseH ++ y ∧ s'.responseL = s.responseL ∧
          s'.calls = s.calls ++ [(true, [x])]) ∨
        (fid ≠ 0 ∧ p.lf [x] = .ok y ∧ s'.sampleH = s.sampleH ∧ s'.sampleL = s.sampleL ++ [x] ∧ s'.responseH = s.responseH ∧ s'.responseL = s.responseL ++ y ∧
          s'.calls = s.calls ++ [(false, [x])])) ∧
      (s'.bestX = x ∨ s'.bestX = s.bestX) ∧ s'.historyBestX = s.historyBestX ++ [s'.bestX] := by
  unfold MFProblem.iterate at h
  obtain ⟨⟨⟨x, fid⟩, r⟩, h1, h⟩ := Py.bind_ok.mp h
  obtain ⟨⟨s1, y⟩, h2, h⟩ := Py.bind_ok.mp h
  obtain ⟨⟨su, r'⟩, h3, h⟩ := Py.bind_ok.mp h
  unfold mfUpdatePara at h
  obtain ⟨⟨b, bx⟩, h4, h⟩ := Py.bind_ok.mp h
  simp only at h1 h2 h3 h4 h
  by_cases hf : fid = 0
  · rw [if_pos hf] at h2 h4
    obtain ⟨y', hy', h2⟩ := Py.bind_ok.mp h2
    cases h2
    obtain ⟨y0, hy0, h4⟩ := Py.bind_ok.mp h4
    refine ⟨x, fid, r, y, h1, ?_, Or.inl ⟨hf, hy', ?_⟩, ?_⟩
    · cases h; exact h3
    · cases h; exact ⟨rfl, rfl, rfl, rfl, rfl⟩
    · split_ifs at h4 with hlt <;> cases h4 <;> cases h
      · exact ⟨Or.inl rfl, rfl⟩
      · exact ⟨Or.inr rfl, rfl⟩
  · rw [if_neg hf] at h2 h4
    obtain ⟨y', hy', h2⟩ := Py.bind_ok.mp h2
    cases h2
    cases h4
    cases h
    exact ⟨x, fid, r, y, h1, h3, Or.inr ⟨hf, hy', rfl, rfl, rfl, rfl, rfl⟩, Or.inr rfl, rfl⟩

theorem mf_reachable_inv {p : MFProblem K X S W} (P : MFState K X S W → Prop) (hnew : ∀ w s, p.new w = .ok s → P s) (hstep : ∀ cr s s', P s → p.iterate cr s = .ok s' → P s')
    {s : MFState K X S W} (h : MFReachable p s) : P s := by
  induction h with
  | new rng h => exact hnew _ _ h
  | run k cr stop _ h ih => exact mf_loop_inv P (hstep cr) stop k _ _ ih h

end general3

/-- The settings of a multi-fidelity surrogate that training keeps. -/
def UsualMF (b : Box ℝ d) : MFModel d → Prop
  | .hk g _ => g.box = b ∧ g.noise = some 0 ∧ UsualGP b g.lf
  | .sk g _ => g.box = b ∧ g.rho = 1 ∧ g.rhoOptimize = false ∧ UsualGP b g.lf ∧ UsualGP b g.disc
  | .ck _ _ => True

/-- Which of the three classes. -/
def MFModel.isCK : MFModel d → Bool
  | .ck _ _ => true
  | _ => false

theorem freshMF_ok {b : Box ℝ d} {name : String} {m : MFModel d} (h : freshMF b name = .ok m) : UsualMF b m ∧ (m.isCK = true ↔ name = "CoKriging") := by
  unfold freshMF at h
  split_ifs at h with h1 h2 h3
  · cases h; exact ⟨⟨rfl, rfl, usual_fresh b⟩, by rw [h1]; simp [MFModel.isCK]⟩
  · cases h; exact ⟨⟨rfl, rfl, rfl, usual_fresh b, usual_fresh b⟩, by rw [h2]; simp [MFModel.isCK]⟩
  · cases h; exact ⟨trivial, by rw [h3]; simp [MFModel.isCK]⟩

theorem mfModel_train_ok {o : Outside d} {b : Box ℝ d} {m m' : MFModel d} (h0 : UsualMF b m) {xs : List (Fin d → ℝ) × List (Fin d → ℝ)} {ys : List ℝ × List ℝ} {w w' : o.env.S}
    (h : m.train o xs ys w = .ok (m', w')) :
    UsualMF b m' ∧ m'.isCK = m.isCK ∧ ∃ v, m'.view = .ok v ∧ (m'.isCK = true → v.bound = .error .attributeError) ∧
      (m'.isCK = false → v.bound = .ok b ∧ v.predict xs.1.length (rows xs.1) = .ok fun i => ys.1.getD i 0) := by
  unfold MFModel.train at h
  split_ifs at h with hl
  have hcol : (fun i : Fin xs.1.length => ys.1.getD i 0) = column ys.1 hl.1 := by
    funext i
    simp [column, List.getD_eq_getElem?_getD, hl.1]
  cases m with
  | hk g _ =>
    obtain ⟨⟨g', t⟩, h1, h⟩ := Py.bind_ok.mp h
    cases h
    obtain ⟨hT, _, _, hbox, hlf, hno, _⟩ := hkTrained_of_train h1
    have hn : t.noise = 0 := hno 0 h0.2.1
    refine ⟨⟨hbox.trans h0.1, by rw [hT.noise, hn], usual_train h0.2.2 hlf⟩, rfl, _, rfl, by simp [MFModel.isCK], fun _ => ⟨?_, ?_⟩⟩
    · show Except.ok g'.box = Except.ok b
      rw [hbox, h0.1]
    · rw [hcol]
      exact Props.C41_hk_interpolates g _ _ _ _ _ h0.2.1 g' t h1
  | sk g _ =>
    obtain ⟨⟨g', t⟩, h1, h⟩ := Py.bind_ok.mp h
    cases h
    obtain ⟨lfAtXh, disc, a1, a2, a3, a4, _⟩ := skTrain_ok h1
    rw [h0.2.2.1, if_neg (by simp)] at a3
    have e1 : g'.rho = 1 := by
      have : g.rho = g'.rho := congrArg Prod.fst (Except.ok.inj a3)
      rw [← this]; exact h0.2.1
    have e2 : g.disc = disc := congrArg Prod.snd (Except.ok.inj a3)
    have e3 : g'.box = g.box ∧ g'.rhoOptimize = g.rhoOptimize := by
      unfold SKObj.train at h1
      obtain ⟨_, _, h1⟩ := Py.bind_ok.mp h1
      obtain ⟨_, _, h1⟩ := Py.bind_ok.mp h1
      obtain ⟨_, _, h1⟩ := Py.bind_ok.mp h1
      obtain ⟨_, _, h1⟩ := Py.bind_ok.mp h1
      cases h1
      exact ⟨rfl, rfl⟩
    refine ⟨⟨e3.1.trans h0.1, e1, e3.2.trans h0.2.2.1, usual_train h0.2.2.2.1 a1, usual_train (e2 ▸ h0.2.2.2.2) a4⟩, rfl, _, rfl, by simp [MFModel.isCK], fun _ => ⟨?_, ?_⟩⟩
    · show Except.ok g'.box = Except.ok b
      rw [e3.1, h0.1]
    · rw [hcol]
      exact (Props.C43_sk_reproduces_partial g _ _ _ _ _ h0.2.2.2.2.noise g' t h1).2 e1
  | ck g _ =>
    obtain ⟨⟨g', t⟩, h1, h⟩ := Py.bind_ok.mp h
    cases h
    exact ⟨trivial, rfl, _, rfl, fun _ => rfl, by simp [MFModel.isCK]⟩

theorem mf_query_ok {W : Type} {de : DiffEvo W d} (hde : GoodSearch de) {q : MFQuery W d} (hq : LibraryMFQuery de q) {s : MFSurr d} {cr fmin : ℝ} {w w' : W} {x : Fin d → ℝ} {fid : ℤ}
    (h : q s cr fmin w = .ok ((x, fid), w')) : ∃ b, s.bound = .ok b ∧ InBounds b x ∧ (fid = 0 ∨ fid = 1) := by
  have key : ∀ (evalAt : ℤ → (Fin d → ℝ) → Py ℝ) (opt : Option (PopOpt W d)) (w : W), mfChoose evalAt opt de s.bound w = .ok ((x, fid), w') →
      ∃ b, s.bound = .ok b ∧ InBounds b x ∧ (fid = 0 ∨ fid = 1) := by
    intro evalAt opt w h
    cases opt with
    | some run => cases h
    | none =>
      obtain ⟨b, hf, wm, lf, hb, h1, h2, hc⟩ := mfChoose_ok h
      refine ⟨b, hb, ?_⟩
      rcases hc with ⟨_, rfl, rfl⟩ | ⟨_, rfl, rfl⟩
      · exact ⟨(hde _ _ _ _ _ _ h1).1, Or.inl rfl⟩
      · exact ⟨(hde _ _ _ _ _ _ h2).1, Or.inr rfl⟩
  obtain ⟨opt, rfl | rfl | ⟨κ, rfl⟩ | rfl⟩ := hq
  · exact key _ _ _ h
  · exact key _ _ _ h
  · exact key _ _ _ h
  · unfold epiQuery at h
    obtain ⟨_, _, h⟩ := Py.bind_ok.mp h
    obtain ⟨_, _, h⟩ := Py.bind_ok.mp h
    exact key _ _ _ h

theorem mfInit_ok {o : Outside d} {b : Box ℝ d} {seed : ℕ} {w w' : o.env.S × List ℕ} {xs : List (Fin d → ℝ) × List (Fin d → ℝ)} (h : mfInit o b seed w = .ok (xs, w')) :
    Sampling.getSamples o.env (Sampling.mkShared false b 2 false none) w.2 (some seed) (o.env.seed seed w.1) = .ok ([xs.1, xs.2], w'.2, w'.1) := by
  unfold mfInit at h
  obtain ⟨⟨data, left, w1⟩, h1, h⟩ := Py.bind_ok.mp h
  split at h
  · rename_i a c e
    simp only at e
    subst e
    cases h
    exact h1
  · cases h

end Mfpml.BO
